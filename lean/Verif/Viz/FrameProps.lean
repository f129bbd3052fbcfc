import Verif.Viz.Frame
import Verif.Viz.OutlineProps
import Verif.Phys.LightProps
import Verif.Sim.LogProps

/-!
# C137: the frames of an animation show the players as they are
-/

namespace Verif
namespace Viz

open Maps

/-! ## Specification -/

/-- The point that a body at `(x, y)` with heading `psi` has at `p` in its own frame. -/
noncomputable def inWorld (x y psi : ℝ) (p : ℝ × ℝ) : ℝ × ℝ :=
  (x + (p.1 * Real.cos psi - p.2 * Real.sin psi), y + (p.1 * Real.sin psi + p.2 * Real.cos psi))

/-- How many polygons a model has besides its body. -/
noncomputable def Look.boxes : Look → Nat
  | .vehicle g => (Outline.wheels g).length
  | .pedestrian => 0
  | .spacecraft .. => 2
  | .rocket .. => 4
  | .spaceship .. => 2
  | .obstacle _ => 0
  | .diffDrive .. => 2

/-- The artists that belong to a model. -/
def Fits (k : Look) (r : Artists × List Lamp) : Prop :=
  r.1.parts.length = k.boxes ∧ ∀ g, k = .vehicle g → r.2.length = 4

/-! ## Drawing anew or again -/

theorem setBoxes_eq (bs os : List (List (ℝ × ℝ))) :
    setBoxes bs os = if bs.length ≤ os.length then .ok (os.take bs.length) else .error .index := by
  induction bs generalizing os with
  | nil => simp [setBoxes]
  | cons b bs ih =>
    cases os with
    | nil => simp [setBoxes]
    | cons o os =>
      simp only [setBoxes, ih, List.length_cons]
      by_cases h : bs.length ≤ os.length
      · simp [h]
      · simp [h]

theorem setLamps_eq (ls ns : List Lamp) :
    setLamps ls ns = if ns.length ≤ ls.length then .ok (ns ++ ls.drop ns.length) else .error .index := by
  induction ns generalizing ls with
  | nil => simp [setLamps]
  | cons n ns ih =>
    cases ls with
    | nil => simp [setLamps]
    | cons l ls =>
      simp only [setLamps, ih, List.length_cons]
      by_cases h : ns.length ≤ ls.length
      · simp [h]
      · simp [h]

theorem placeWheels_length (c s : ℝ) (rect : List (ℝ × ℝ)) (n i : Nat) (ps : List (ℝ × ℝ)) :
    (Outline.placeWheels c s rect n i ps).length = ps.length := by
  induction ps generalizing i with
  | nil => rfl
  | cons p ps ih => simp [Outline.placeWheels, ih]

theorem wheels_count (g : Outline.Geometry ℝ) : (Outline.wheels g).length = 2 ∨ (Outline.wheels g).length = 4 := by
  unfold Outline.wheels
  split <;> simp

/-- The functions of a geometry raise together. -/
theorem geometry_error {g : Outline.Geometry ℝ} {e : Err} (h : Outline.wheelShape g = .error e) :
    Outline.outline g = .error e := by
  unfold Outline.outline
  rw [h]
  rfl

theorem outline_of {g : Outline.Geometry ℝ} {hw r : ℝ} (h : Outline.wheelShape g = .ok (hw, r)) :
    ∃ f b, Outline.outline g = .ok [(-g.lr - b, -g.wHalf - hw), (-g.lr - b, g.wHalf + hw), (g.lf + f, g.wHalf + hw),
        (g.lf + f, -g.wHalf - hw), (-g.lr - b, -g.wHalf - hw)] ∧
      Outline.lights g = .ok [(-g.lr - b, g.wHalf - hw), (-g.lr - b, -g.wHalf + hw), (g.lf + f, g.wHalf - hw),
        (g.lf + f, -g.wHalf + hw)] ∧
      f = (if Outline.fourWheels g.kind then g.lf / 2 else r) ∧ b = r * 2 := by
  refine ⟨_, _, ?_, ?_, rfl, rfl⟩
  · unfold Outline.outline Outline.bumpers
    rw [h]
    rfl
  · unfold Outline.lights Outline.bumpers
    rw [h]
    rfl

theorem rotated_of {g : Outline.Geometry ℝ} {hw r : ℝ} (h : Outline.wheelShape g = .ok (hw, r)) (c s : ℝ) :
    Outline.rotatedWheels g c s =
      .ok (Outline.placeWheels c s (Outline.wheelRect hw r) (Outline.wheels g).length 0 (Outline.wheels g)) := by
  unfold Outline.rotatedWheels
  dsimp only
  rw [if_pos (wheels_count g), h]
  rfl

theorem applyT2_pose (x y psi : ℝ) (p : ℝ × ℝ) : applyT2 (poseOf x y psi) p = inWorld x y psi p := by
  unfold applyT2 poseOf rigid inWorld
  simp only [Prod.mk.injEq]
  constructor <;> ring

theorem drawBody_eq (o : List (ℝ × ℝ)) (hne : o ≠ []) (x y psi : ℝ) :
    drawBody o x y psi = .ok (o.map (inWorld x y psi), (x, y)) := by
  rw [(C102_drawn o hne x y psi).1]
  congr 2
  unfold Coll.footprintRing
  apply List.map_congr_left
  intro p _
  unfold affine poseOf rigid inWorld
  simp only [Prod.mk.injEq]
  constructor <;> ring

/-- The picture of a vehicle, first or again. -/
theorem plotVehicle_eq {g : Outline.Geometry ℝ} {hw r : ℝ} (h : Outline.wheelShape g = .ok (hw, r)) (x y psi delta : ℝ)
    (c : Lights.Colors) (old : Option (Artists × List Lamp)) (hold : ∀ o, old = some o → Fits (.vehicle g) o) :
    ∃ ring bl br fl fr, Outline.outline g = .ok ring ∧ Outline.lights g = .ok [bl, br, fl, fr] ∧
      plotVehicle g x y psi delta (some c) old = .ok (⟨ring.map (inWorld x y psi), some (x, y),
        (Outline.placeWheels (Real.cos delta) (Real.sin delta) (Outline.wheelRect hw r) (Outline.wheels g).length 0
          (Outline.wheels g)).map (List.map (inWorld x y psi))⟩,
        [⟨inWorld x y psi bl, c.backLeft⟩, ⟨inWorld x y psi br, c.backRight⟩, ⟨inWorld x y psi fl, c.frontLeft⟩,
          ⟨inWorld x y psi fr, c.frontRight⟩]) := by
  obtain ⟨f, b, h1, h2, -, -⟩ := outline_of h
  refine ⟨_, _, _, _, _, h1, h2, ?_⟩
  have hl : lampsAt (poseOf x y psi) g (some c) =
      .ok [⟨inWorld x y psi (-g.lr - b, g.wHalf - hw), c.backLeft⟩,
        ⟨inWorld x y psi (-g.lr - b, -g.wHalf + hw), c.backRight⟩,
        ⟨inWorld x y psi (g.lf + f, g.wHalf - hw), c.frontLeft⟩,
        ⟨inWorld x y psi (g.lf + f, -g.wHalf + hw), c.frontRight⟩] := by
    unfold lampsAt
    rw [h2]
    simp [applyT2_pose, colourOf]
  have hmap : applyT2 (poseOf x y psi) = inWorld x y psi := funext (applyT2_pose x y psi)
  have hd := drawBody_eq [(-g.lr - b, -g.wHalf - hw), (-g.lr - b, g.wHalf + hw), (g.lf + f, g.wHalf + hw),
    (g.lf + f, -g.wHalf - hw), (-g.lr - b, -g.wHalf - hw)] (by simp) x y psi
  unfold plotVehicle
  rw [h1]
  simp only [bind, Except.bind, pure, Except.pure, hd, hl, rotated_of h, hmap]
  cases old with
  | none =>
    simp only [setBoxes_eq, setLamps_eq, List.length_replicate, List.length_map, placeWheels_length, le_refl, if_true]
    rw [List.take_of_length_le (by simp [placeWheels_length])]
    simp
  | some o =>
    obtain ⟨k1, k2⟩ := hold o rfl
    have k2 := k2 g rfl
    simp only [Look.boxes] at k1
    simp only [setBoxes_eq, setLamps_eq, List.length_map, placeWheels_length, k1, k2, le_refl, if_true]
    rw [List.take_of_length_le (by simp [placeWheels_length])]
    simp [k2]

theorem plotVehicle_none (g : Outline.Geometry ℝ) (x y psi delta : ℝ) (old : Option (Artists × List Lamp)) :
    ∃ e, plotVehicle g x y psi delta none old = .error e := by
  cases h : plotVehicle g x y psi delta none old with
  | error e => exact ⟨e, rfl⟩
  | ok r =>
    exfalso
    unfold plotVehicle lampsAt at h
    simp only [bind, Except.bind] at h
    cases h1 : Outline.outline g with
    | error e => rw [h1] at h; cases h
    | ok ring =>
      rw [h1] at h
      cases h2 : drawBody ring x y psi with
      | error e => simp only [h2] at h; cases h
      | ok d =>
        simp only [h2] at h
        cases old with
        | none => cases h
        | some o =>
          simp only at h
          split at h
          · cases h
          · split at h
            · cases h
            · cases h

theorem plotNamed_again (o : List (ℝ × ℝ)) (x y psi : ℝ) (n : Nat) (outs : Except Err (List (List (ℝ × ℝ)))) (a : Artists)
    (h : a.parts.length = n) : plotNamed o x y psi n outs (some a) = plotNamed o x y psi n outs none := by
  unfold plotNamed
  simp only [setBoxes_eq, h, List.length_replicate]

theorem plotNamed_fits {o : List (ℝ × ℝ)} {x y psi : ℝ} {n : Nat} {outs : Except Err (List (List (ℝ × ℝ)))} {a : Artists}
    (h : plotNamed o x y psi n outs none = .ok a) : a.parts.length = n := by
  unfold plotNamed at h
  simp only [bind, Except.bind, setBoxes_eq, List.length_replicate] at h
  split at h
  · cases h
  · split at h
    · cases h
    · split_ifs at h with hl
      · injection h with h
        rw [← h, List.length_take]
        omega

theorem map_ok {α β : Type} {e : Except Err α} {f : α → β} {r : β} (h : e.map f = .ok r) : ∃ a, e = .ok a ∧ f a = r := by
  cases e with
  | error e => cases h
  | ok a => exact ⟨a, rfl, by injection h⟩

/-- Drawing again gives the same as drawing anew. -/
theorem plotPlayer_again (k : Look) (m : Moment) (c : Option Lights.Colors) (old : Artists × List Lamp)
    (hf : Fits k old) (r : Artists × List Lamp) :
    plotPlayer k m c (some old) = .ok r ↔ plotPlayer k m c none = .ok r := by
  obtain ⟨hb, hl⟩ := hf
  have hn := fun o x y psi n outs (h : old.1.parts.length = n) => plotNamed_again o x y psi n outs old.1 h
  cases k <;> cases m <;>
    simp only [plotPlayer, Option.map, plotPedestrian, plotSpacecraft, plotRocket, plotSpaceship, plotDiffDrive]
  case pedestrian.pedestrian => rw [hn _ _ _ _ 0 _ hb]
  case spacecraft.spacecraft => rw [hn _ _ _ _ 2 _ hb]
  case rocket.rocket => rw [hn _ _ _ _ 4 _ hb]
  case spaceship.spaceship => rw [hn _ _ _ _ 2 _ hb]
  case diffDrive.diffDrive => rw [hn _ _ _ _ 2 _ hb]
  rename_i g x y psi delta
  cases c with
  | none =>
    obtain ⟨e, h1⟩ := plotVehicle_none g x y psi delta (some old)
    obtain ⟨e', h2⟩ := plotVehicle_none g x y psi delta none
    rw [h1, h2]
    exact ⟨(fun h => by cases h), (fun h => by cases h)⟩
  | some c =>
    cases hs : Outline.wheelShape g with
    | error e =>
      unfold plotVehicle
      rw [geometry_error hs]
      exact ⟨(fun h => by cases h), (fun h => by cases h)⟩
    | ok d =>
      obtain ⟨hw, rad⟩ := d
      obtain ⟨r1, a1, a2, a3, a4, h1, h2, h3⟩ := plotVehicle_eq hs x y psi delta c (some old) (fun o ho => by
        injection ho with ho
        exact ho ▸ ⟨hb, hl⟩)
      obtain ⟨r1', b1, b2, b3, b4, k1, k2, k3⟩ := plotVehicle_eq hs x y psi delta c none (fun o ho => by cases ho)
      rw [h1] at k1
      rw [h2] at k2
      injection k1 with k1
      injection k2 with k2
      injection k2 with e1 k2
      injection k2 with e2 k2
      injection k2 with e3 k2
      injection k2 with e4 k2
      subst k1 e1 e2 e3 e4
      rw [h3, k3]

theorem plotPlayer_fits {k : Look} {m : Moment} {c : Option Lights.Colors} {r : Artists × List Lamp}
    (h : plotPlayer k m c none = .ok r) : Fits k r := by
  cases k <;> cases m <;> simp only [plotPlayer, Option.map] at h <;> try cases h
  · rename_i g x y psi delta
    cases c with
    | none =>
      obtain ⟨e, h1⟩ := plotVehicle_none g x y psi delta none
      rw [h1] at h
      cases h
    | some c =>
      cases hs : Outline.wheelShape g with
      | error e =>
        unfold plotVehicle at h
        rw [geometry_error hs] at h
        cases h
      | ok d =>
        obtain ⟨hw, rad⟩ := d
        obtain ⟨r1, a1, a2, a3, a4, h1, h2, h3⟩ := plotVehicle_eq hs x y psi delta c none (fun o ho => by cases ho)
        rw [h3] at h
        injection h with h
        rw [← h]
        refine ⟨?_, fun g _ => rfl⟩
        simp [Look.boxes, placeWheels_length]
  all_goals first
    | (obtain ⟨a, h1, rfl⟩ := map_ok h
       exact ⟨plotNamed_fits h1, fun g hg => by cases hg⟩)
    | exact ⟨rfl, fun g hg => by cases hg⟩

/-! ## Frames -/

section Frames

theorem run_append {K : Type} [Field K] [LinearOrder K] [IsStrictOrderedRing K] [FloorRing K]
    (h1 h2 : List (Lights.Cmd × K × K)) (tb : Lights.Table) :
    Lights.run tb (h1 ++ h2) = Lights.run (Lights.run tb h1) h2 := by
  induction h1 generalizing tb with
  | nil => rfl
  | cons d h1 ih =>
    obtain ⟨c, a, t⟩ := d
    simp only [List.cons_append, Lights.run]
    split <;> exact ih _

theorem lightsOf_run {h : List (Lights.Cmd × ℝ × ℝ)} {f : Frame} {t : ℝ} {c : Option Lights.Colors} {tb : Lights.Table}
    (hl : lightsOf (Lights.run Lights.fresh h) f t = .ok (c, tb)) :
    ∃ h', tb = Lights.run Lights.fresh (h ++ h') ∧ ∀ cmd acc, f.lights = some (cmd, acc) → (cmd, acc, t) ∈ h' := by
  unfold lightsOf at hl
  split at hl
  · rename_i hn
    injection hl with hl
    injection hl with _ hl
    exact ⟨[], by rw [List.append_nil]; exact hl.symm, fun cmd acc he => by rw [hn] at he; cases he⟩
  · rename_i cmd acc hs
    split at hl
    · cases hl
    · rename_i o tb' hd
      injection hl with hl
      injection hl with _ hl
      refine ⟨[(cmd, acc, t)], ?_, fun cmd' acc' he => ?_⟩
      · rw [run_append]
        simp only [Lights.run, hd]
        exact hl.symm
      · rw [hs] at he
        injection he with he
        injection he with e1 e2
        simp [e1, e2]

variable {N : Type} [DecidableEq N]

/-- Specification: `r` is a picture of player `p`, drawn anew, as it is in the log entry `es` at time `t`, after the lights
in `h` have been displayed. -/
def IsPicture (looks : Dict N Look) (es : Dict N Frame) (t : ℝ) (h : List (Lights.Cmd × ℝ × ℝ)) (p : N)
    (r : Artists × List Lamp) : Prop :=
  ∃ k f hist c tb, Dict.get? looks p = some k ∧ Dict.get? es p = some f ∧ h <+: hist ∧
    lightsOf (Lights.run Lights.fresh hist) f t = .ok (c, tb) ∧ plotPlayer k f.moment c none = .ok r

/-- All players on the canvas have the artists of their models. -/
def Owned (looks : Dict N Look) (d : Dict N (Artists × List Lamp)) : Prop :=
  ∀ q ∈ d, ∃ k, Dict.get? looks q.1 = some k ∧ Fits k q.2

theorem keys_set_mem {α : Type} {d : Dict N α} {p : N} {v : α} (h : p ∈ Dict.keys d) :
    Dict.keys (Dict.set d p v) = Dict.keys d := by
  rw [Dict.keys_set, if_pos h]

theorem initPlayers_spec {looks : Dict N Look} (es : Dict N Frame) (hwf : Dict.Wf es) (s s' : Canvas N)
    (hs : initPlayers looks es s = .ok s') (ho : Owned looks s.shown) (hnew : ∀ q ∈ es, q.1 ∉ Dict.keys s.shown)
    (h : List (Lights.Cmd × ℝ × ℝ)) (ht : s.table = Lights.run Lights.fresh h) :
    Owned looks s'.shown ∧ Dict.keys s'.shown = Dict.keys s.shown ++ Dict.keys es ∧
      ∃ h', s'.table = Lights.run Lights.fresh (h ++ h') := by
  induction es generalizing s h with
  | nil =>
    injection hs with hs
    subst hs
    exact ⟨ho, by simp [Dict.keys], [], by rw [List.append_nil]; exact ht⟩
  | cons pf es ih =>
    obtain ⟨p, f⟩ := pf
    obtain ⟨hp, hwf⟩ := List.nodup_cons.mp hwf
    simp only [initPlayers] at hs
    split at hs
    · cases hs
    · rename_i c tb hl
      rw [ht] at hl
      obtain ⟨h1, e1, -⟩ := lightsOf_run hl
      split at hs
      · cases hs
      · rename_i k hk
        split at hs
        · cases hs
        · rename_i r hr
          have hpn : p ∉ Dict.keys s.shown := hnew _ List.mem_cons_self
          have hkeys : Dict.keys (Dict.set s.shown p r) = Dict.keys s.shown ++ [p] := by
            rw [Dict.keys_set, if_neg hpn]
          obtain ⟨a1, a2, h', a3⟩ := ih hwf _ hs
            (fun q hq => by
              rcases Dict.mem_set hq with rfl | hq
              · exact ⟨k, hk, plotPlayer_fits hr⟩
              · exact ho q hq)
            (fun q hq => by
              rw [hkeys, List.mem_append, List.mem_singleton]
              rintro (hh | hh)
              · exact hnew q (List.mem_cons_of_mem _ hq) hh
              · exact hp (List.mem_map.mpr ⟨q, hq, hh⟩)) (h ++ h1) e1
          refine ⟨a1, ?_, h1 ++ h', by rw [a3, List.append_assoc]⟩
          rw [a2, hkeys]
          simp [Dict.keys]

theorem updatePlayers_spec {looks : Dict N Look} {t : ℝ} {es : Dict N Frame} (todo : Dict N (Artists × List Lamp))
    (hwf : Dict.Wf todo) (s s' : Canvas N) (hs : updatePlayers looks t es todo s = .ok s') (hw : Dict.Wf s.shown)
    (ho : Owned looks todo) (ho2 : Owned looks s.shown) (hmem : ∀ q ∈ todo, q.1 ∈ Dict.keys s.shown)
    (h : List (Lights.Cmd × ℝ × ℝ)) (ht : s.table = Lights.run Lights.fresh h) :
    Owned looks s'.shown ∧ Dict.keys s'.shown = Dict.keys s.shown ∧
      (∀ p, p ∉ Dict.keys todo → Dict.get? s'.shown p = Dict.get? s.shown p) ∧
      (∀ p ∈ Dict.keys todo, ∃ r, Dict.get? s'.shown p = some r ∧ IsPicture looks es t h p r) ∧
      ∃ h', s'.table = Lights.run Lights.fresh (h ++ h') ∧
        ∀ p ∈ Dict.keys todo, ∀ f cmd acc, Dict.get? es p = some f → f.lights = some (cmd, acc) → (cmd, acc, t) ∈ h' := by
  induction todo generalizing s h with
  | nil =>
    injection hs with hs
    subst hs
    exact ⟨ho2, rfl, fun p _ => rfl, (fun p hp => by cases hp), [], by rw [List.append_nil]; exact ht,
      (fun p hp => by cases hp)⟩
  | cons pf todo ih =>
    obtain ⟨p, old⟩ := pf
    obtain ⟨hp, hwf⟩ := List.nodup_cons.mp hwf
    simp only [updatePlayers] at hs
    split at hs
    · cases hs
    · rename_i f hf
      split at hs
      · cases hs
      · rename_i c tb hl
        rw [ht] at hl
        obtain ⟨h1, e1, e2⟩ := lightsOf_run hl
        split at hs
        · cases hs
        · rename_i k hk
          split at hs
          · cases hs
          · rename_i r hr
            obtain ⟨k', hk', hfit⟩ := ho _ List.mem_cons_self
            rw [hk] at hk'
            injection hk' with hk'
            subst hk'
            have hr := (plotPlayer_again k f.moment c old hfit r).mp hr
            have hpin := hmem _ List.mem_cons_self
            obtain ⟨a1, a2, a3, a4, h', a5, a6⟩ := ih hwf _ hs (Dict.wf_set hw p r)
              (fun q hq => ho q (List.mem_cons_of_mem _ hq))
              (fun q hq => by
                rcases Dict.mem_set hq with rfl | hq
                · exact ⟨k, hk, plotPlayer_fits hr⟩
                · exact ho2 q hq)
              (fun q hq => by
                rw [keys_set_mem hpin]
                exact hmem q (List.mem_cons_of_mem _ hq)) (h ++ h1) e1
            refine ⟨a1, by rw [a2, keys_set_mem hpin], ?_, ?_, h1 ++ h', by rw [a5, List.append_assoc], ?_⟩
            · intro q hq
              have hne : q ≠ p := fun e => hq (by rw [e]; exact List.mem_cons_self)
              rw [a3 q fun e => hq (List.mem_cons_of_mem _ e), Dict.get?_set_ne _ (Ne.symm hne)]
            · intro q hq
              rcases List.mem_cons.mp hq with rfl | hq
              · exact ⟨r, by rw [a3 q hp, Dict.get?_set_self], k, f, h, c, tb, hk, hf, List.prefix_rfl, hl, hr⟩
              · obtain ⟨r', b1, k2, f2, hist, c2, tb2, b2, b3, b4, b5⟩ := a4 q hq
                exact ⟨r', b1, k2, f2, hist, c2, tb2, b2, b3, (List.prefix_append h h1).trans b4, b5⟩
            · intro q hq g cmd acc hg hc
              rcases List.mem_cons.mp hq with rfl | hq
              · rw [hf] at hg
                injection hg with hg
                subst hg
                exact List.mem_append_left _ (e2 cmd acc hc)
              · exact List.mem_append_right _ (a6 q hq g cmd acc hg hc)

theorem updateAll_spec {looks : Dict N Look} {log : ℝ → Except Err (Dict N Frame)} (ts : List ℝ) (s s' : Canvas N)
    (hs : updateAll looks log ts s = .ok s') (hw : Dict.Wf s.shown) (ho : Owned looks s.shown)
    (h : List (Lights.Cmd × ℝ × ℝ)) (ht : s.table = Lights.run Lights.fresh h) :
    Owned looks s'.shown ∧ Dict.keys s'.shown = Dict.keys s.shown ∧
      ∃ h', s'.table = Lights.run Lights.fresh (h ++ h') ∧
        ∀ t ∈ ts, ∀ es, log t = .ok es → ∀ p ∈ Dict.keys s.shown, ∀ f cmd acc, Dict.get? es p = some f →
          f.lights = some (cmd, acc) → (cmd, acc, t) ∈ h' := by
  induction ts generalizing s h with
  | nil =>
    injection hs with hs
    subst hs
    exact ⟨ho, rfl, [], by rw [List.append_nil]; exact ht, fun t ht => by cases ht⟩
  | cons t ts ih =>
    simp only [updateAll] at hs
    split at hs
    · cases hs
    · rename_i es hes
      split at hs
      · cases hs
      · rename_i s1 h1
        obtain ⟨a1, a2, -, -, h', a5, a6⟩ := updatePlayers_spec s.shown hw s s1 h1 hw ho ho
          (fun q hq => List.mem_map.mpr ⟨q, hq, rfl⟩) h ht
        obtain ⟨b1, b2, h'', b3, b4⟩ := ih s1 hs (by unfold Dict.Wf; rw [a2]; exact hw) a1 (h ++ h') a5
        refine ⟨b1, by rw [b2, a2], h' ++ h'', by rw [b3, List.append_assoc], ?_⟩
        intro t' ht' es' hes' p hp f cmd acc hf hl
        rcases List.mem_cons.mp ht' with rfl | ht'
        · rw [hes] at hes'
          injection hes' with hes'
          subst hes'
          exact List.mem_append_left _ (a6 p hp f cmd acc hf hl)
        · exact List.mem_append_right _ (b4 t' ht' es' hes' p (by rw [a2]; exact hp) f cmd acc hf hl)

theorem updateAll_append {looks : Dict N Look} {log : ℝ → Except Err (Dict N Frame)} (ts us : List ℝ) (s : Canvas N) :
    updateAll looks log (ts ++ us) s =
      match updateAll looks log ts s with
      | .error e => .error e
      | .ok s' => updateAll looks log us s' := by
  induction ts generalizing s with
  | nil => rfl
  | cons t ts ih =>
    simp only [List.cons_append, updateAll]
    split
    · rfl
    · split
      · rfl
      · exact ih _

/-- **C137.** Every frame of an animation, whatever frames were shown before it, shows exactly the players of the first
frame, and each of them as it would be drawn anew from its state in the log at the time of the frame: nothing of the earlier
frames stays, except for the table of the colours of the lights, in which the lights of all earlier frames have left their
traces. -/
theorem C137_frame (looks : Dict N Look) (log : ℝ → Except Err (Dict N Frame)) (h0 : List (Lights.Cmd × ℝ × ℝ))
    (begin_ : ℝ) (first es : Dict N Frame) (ts : List ℝ) (t : ℝ) (s : Canvas N) (hfirst : log begin_ = .ok first)
    (hwf : Dict.Wf first) (hes : log t = .ok es)
    (h : animate looks log (Lights.run Lights.fresh h0) begin_ (ts ++ [t]) = .ok s) :
    Dict.keys s.shown = Dict.keys first ∧
    ∃ hist, h0 <+: hist ∧
      (∀ t' ∈ ts, ∀ es', log t' = .ok es' → ∀ p ∈ Dict.keys first, ∀ f cmd acc, Dict.get? es' p = some f →
        f.lights = some (cmd, acc) → (cmd, acc, t') ∈ hist) ∧
      ∀ p ∈ Dict.keys first, ∃ r, Dict.get? s.shown p = some r ∧ IsPicture looks es t hist p r := by
  unfold animate at h
  rw [hfirst] at h
  simp only at h
  split at h
  · cases h
  · rename_i s0 hs0
    obtain ⟨a1, a2, h1, a3⟩ := initPlayers_spec first hwf _ s0 hs0 (fun q hq => by cases hq)
      (fun q _ hq => by cases hq) h0 rfl
    have a2 : Dict.keys s0.shown = Dict.keys first := by simpa [Dict.keys] using a2
    have hw0 : Dict.Wf s0.shown := by unfold Dict.Wf; rw [a2]; exact hwf
    rw [updateAll_append] at h
    split at h
    · cases h
    · rename_i s1 hs1
      obtain ⟨b1, b2, h2, b3, b4⟩ := updateAll_spec ts s0 s1 hs1 hw0 a1 _ a3
      have hw1 : Dict.Wf s1.shown := by unfold Dict.Wf; rw [b2]; exact hw0
      simp only [updateAll, hes] at h
      split at h
      · cases h
      · rename_i s2 hs2
        injection h with h
        subst h
        obtain ⟨-, c2, -, c4, -⟩ := updatePlayers_spec s1.shown hw1 s1 s2 hs2 hw1 b1 b1
          (fun q hq => List.mem_map.mpr ⟨q, hq, rfl⟩) _ b3
        refine ⟨by rw [c2, b2, a2], h0 ++ h1 ++ h2, ?_, ?_, ?_⟩
        · exact (List.prefix_append h0 h1).trans (List.prefix_append _ _)
        · intro t' ht' es' hes' p hp f cmd acc hf hl
          exact List.mem_append_right _ (b4 t' ht' es' hes' p (by rw [a2]; exact hp) f cmd acc hf hl)
        · intro p hp
          exact c4 p (by rw [b2, a2]; exact hp)

end Frames

/-! ## What a picture shows -/

/-- The outline of a model in its own frame. -/
noncomputable def Look.ring : Look → Except Err (List (ℝ × ℝ))
  | .vehicle g => Outline.outline g
  | .pedestrian => .ok pedestrianRing
  | .spacecraft o _ _ => .ok o
  | .rocket o _ _ => .ok o
  | .spaceship o _ _ => .ok o
  | .obstacle o => .ok o
  | .diffDrive o _ _ => .ok o

/-- Obstacles have no name. -/
def Look.named : Look → Bool
  | .obstacle _ => false
  | _ => true

/-- Position and heading. -/
def Moment.pose : Moment → (ℝ × ℝ) × ℝ
  | .vehicle x y psi _ => ((x, y), psi)
  | .pedestrian x y psi => ((x, y), psi)
  | .spacecraft x y psi => ((x, y), psi)
  | .rocket s _ => ((s.x, s.y), s.psi)
  | .spaceship s _ => ((s.x, s.y), s.psi)
  | .obstacle x y psi => ((x, y), psi)
  | .diffDrive x y psi => ((x, y), psi)

theorem plotNamed_eq {o : List (ℝ × ℝ)} {x y psi : ℝ} {n : Nat} {outs : Except Err (List (List (ℝ × ℝ)))} {a : Artists}
    (h : plotNamed o x y psi n outs none = .ok a) :
    a.body = o.map (inWorld x y psi) ∧ a.name = some (x, y) ∧ ∃ os, outs = .ok os ∧ a.parts = os.take n := by
  unfold plotNamed at h
  simp only [bind, Except.bind, setBoxes_eq, List.length_replicate] at h
  by_cases ho : o = []
  · subst ho
    simp [drawBody, transformXY, bind, Except.bind] at h
  · rw [drawBody_eq o ho] at h
    cases outs with
    | error e => cases h
    | ok os =>
      simp only at h
      split_ifs at h with hl
      injection h with h
      rw [← h]
      exact ⟨rfl, rfl, os, rfl, rfl⟩

/-- **C137.** The body of every picture is the outline of the model, moved to the position and turned by the heading, and
the name of every player but the obstacles is at its position. -/
theorem C137_body (k : Look) (m : Moment) (c : Option Lights.Colors) (r : Artists × List Lamp)
    (h : plotPlayer k m c none = .ok r) :
    (∃ ring, k.ring = .ok ring ∧ r.1.body = ring.map (inWorld m.pose.1.1 m.pose.1.2 m.pose.2)) ∧
    r.1.name = (if k.named then some m.pose.1 else none) := by
  cases k <;> cases m <;> simp only [plotPlayer, Option.map, reduceCtorEq] at h
  · rename_i g x y psi delta
    cases c with
    | none =>
      obtain ⟨e, h1⟩ := plotVehicle_none g x y psi delta none
      rw [h1] at h
      cases h
    | some c =>
      cases hs : Outline.wheelShape g with
      | error e =>
        unfold plotVehicle at h
        rw [geometry_error hs] at h
        cases h
      | ok d =>
        obtain ⟨hw, rad⟩ := d
        obtain ⟨r1, a1, a2, a3, a4, h1, h2, h3⟩ := plotVehicle_eq hs x y psi delta c none (fun o ho => by cases ho)
        rw [h3] at h
        injection h with h
        rw [← h]
        exact ⟨⟨r1, h1, rfl⟩, rfl⟩
  all_goals first
    | (obtain ⟨a, h1, rfl⟩ := map_ok h
       obtain ⟨e1, e2, -⟩ := plotNamed_eq h1
       exact ⟨⟨_, rfl, e1⟩, by simp [e2, Moment.pose, Look.named]⟩)
    | (injection h with h
       rw [← h]
       refine ⟨⟨_, rfl, ?_⟩, rfl⟩
       simp only [drawObstacle, Moment.pose]
       refine List.map_congr_left fun p _ => ?_
       simp only [affine, poseOf, rigid, inWorld]
       refine Prod.ext ?_ ?_ <;> simp <;> ring)


theorem tyre_of {g : Outline.Geometry ℝ} {hw r : ℝ} (h : Outline.wheelShape g = .ok (hw, r)) :
    Outline.Tyre g.kind hw r := by
  unfold Outline.wheelShape at h
  unfold Outline.Tyre
  split at h
  all_goals first
    | (rename_i e
       injection h with h
       injection h with e1 e2
       simp [e, ← e1, ← e2])
    | cases h

theorem inWorld_place (x y psi delta : ℝ) (q v : ℝ × ℝ) :
    inWorld x y psi (Outline.place (Real.cos delta) (Real.sin delta) q v) =
      inWorld (inWorld x y psi q).1 (inWorld x y psi q).2 (psi + delta) v := by
  unfold inWorld Outline.place
  rw [Real.cos_add, Real.sin_add]
  simp only [Prod.mk.injEq]
  constructor <;> ring

theorem inWorld_place_one (x y psi : ℝ) (q v : ℝ × ℝ) :
    inWorld x y psi (Outline.place 1 0 q v) = inWorld (inWorld x y psi q).1 (inWorld x y psi q).2 psi v := by
  have h := inWorld_place x y psi 0 q v
  rwa [Real.cos_zero, Real.sin_zero, add_zero] at h

theorem wheels_placed {g : Outline.Geometry ℝ} (hlf : 0 < g.lf) (hlr : 0 < g.lr) (x y psi delta : ℝ) (rect : List (ℝ × ℝ)) :
    (Outline.placeWheels (Real.cos delta) (Real.sin delta) rect (Outline.wheels g).length 0 (Outline.wheels g)).map
        (List.map (inWorld x y psi)) =
      (Outline.wheels g).map fun q => rect.map
        (inWorld (inWorld x y psi q).1 (inWorld x y psi q).2 (psi + if 0 < q.1 then delta else 0)) := by
  have hn : ¬ g.lr < 0 := by linarith
  unfold Outline.wheels
  split <;> simp [Outline.placeWheels, hlf, hn, Function.comp_def, inWorld_place, inWorld_place_one]

/-- **C137.** The picture of a vehicle in a frame, whatever was displayed before: its wheels are at their places on the
vehicle and have its heading, the front ones turned further by the steering angle; its four lights are beyond the axles, at the
corners after which they are named, in the colours of the phase of the commanded lights at the time of the frame: orange
exactly on the sides that flash, otherwise yellow or white in front and red or bright red at the back, bright when it
brakes. -/
theorem C137_vehicle {N : Type} [DecidableEq N] (looks : Dict N Look) (es : Dict N Frame) (t : ℝ)
    (h : List (Lights.Cmd × ℝ × ℝ)) (p : N) (r : Artists × List Lamp) (hr : IsPicture looks es t h p r)
    (g : Outline.Geometry ℝ) (hg : Dict.get? looks p = some (.vehicle g)) (x y psi delta : ℝ) (l : Option (Lights.Cmd × ℝ))
    (hf : Dict.get? es p = some ⟨.vehicle x y psi delta, l⟩) (hlf : 0 < g.lf) (hlr : 0 < g.lr) :
    ∃ hw rad cmd acc, Outline.Tyre g.kind hw rad ∧ l = some (cmd, acc) ∧
      r.1.parts = (Outline.wheels g).map (fun q => (Outline.wheelRect hw rad).map
        (inWorld (inWorld x y psi q).1 (inWorld x y psi q).2 (psi + if 0 < q.1 then delta else 0))) ∧
      ∃ (back front : ℝ) (o : Lights.Colors) (ph : Lights.Cmd), back < -g.lr ∧ g.lf < front ∧
        r.2 = [⟨inWorld x y psi (back, g.wHalf - hw), o.backLeft⟩, ⟨inWorld x y psi (back, -(g.wHalf - hw)), o.backRight⟩,
          ⟨inWorld x y psi (front, g.wHalf - hw), o.frontLeft⟩, ⟨inWorld x y psi (front, -(g.wHalf - hw)), o.frontRight⟩] ∧
        Lights.shown cmd t = .ok ph ∧
        (Lights.Flashes true ph → o.frontLeft = .orange ∧ o.backLeft = .orange) ∧
        (Lights.Flashes false ph → o.frontRight = .orange ∧ o.backRight = .orange) ∧
        (¬ Lights.Flashes true ph → o.frontLeft = (if ph = .headlights then .yellow else .white) ∧
          (o.backLeft = .red ∨ o.backLeft = .redMore) ∧ (acc < 0 → o.backLeft = .redMore)) ∧
        (¬ Lights.Flashes false ph → o.frontRight = (if ph = .headlights then .yellow else .white) ∧
          (o.backRight = .red ∨ o.backRight = .redMore) ∧ (acc < 0 → o.backRight = .redMore)) := by
  obtain ⟨k, f, hist, c, tb, h1, h2, -, h4, h5⟩ := hr
  rw [hg] at h1
  injection h1 with h1
  rw [hf] at h2
  injection h2 with h2
  subst h1 h2
  simp only [plotPlayer] at h5
  unfold lightsOf at h4
  cases l with
  | none =>
    injection h4 with h4
    injection h4 with h4
    subst h4
    obtain ⟨e, h1⟩ := plotVehicle_none g x y psi delta none
    rw [h1] at h5
    cases h5
  | some ca =>
    obtain ⟨cmd, acc⟩ := ca
    simp only at h4
    split at h4
    · cases h4
    · rename_i o tb' hd
      injection h4 with h4
      injection h4 with h4
      subst h4
      cases hs : Outline.wheelShape g with
      | error e =>
        unfold plotVehicle at h5
        rw [geometry_error hs] at h5
        cases h5
      | ok d =>
        obtain ⟨hw, rad⟩ := d
        have ht := tyre_of hs
        obtain ⟨r1, a1, a2, a3, a4, -, k2, k3⟩ := plotVehicle_eq hs x y psi delta o none (fun o ho => by cases ho)
        obtain ⟨fr, ba, -, k4, e1, e2⟩ := outline_of hs
        rw [k4] at k2
        injection k2 with k2
        injection k2 with d1 k2
        injection k2 with d2 k2
        injection k2 with d3 k2
        injection k2 with d4 k2
        subst d1 d2 d3 d4
        rw [k3] at h5
        injection h5 with h5
        obtain ⟨ph, c1, -, c2⟩ := Lights.C58_colours hist cmd acc t o tb' hd
        obtain ⟨-, -, -, hrad⟩ := Outline.tyre_pos ht
        have hneg : ∀ a : ℝ, (a, -g.wHalf + hw) = (a, -(g.wHalf - hw)) := fun a => by rw [neg_sub]; congr 1; ring
        refine ⟨hw, rad, cmd, acc, ht, rfl, ?_, -g.lr - ba, g.lf + fr, o, ph, ?_, ?_, ?_, c1, c2⟩
        · rw [← h5]
          exact wheels_placed hlf hlr x y psi delta _
        · rw [e2]; linarith
        · rw [e1]; split <;> linarith
        · rw [← h5, hneg, hneg]

/-- The flame of an engine with force `f`, in the frame of the engine. -/
noncomputable def flame (g : EngineGeo) (f : ℝ) : List (ℝ × ℝ) :=
  [(g.lt, -g.wt), (f / g.fMax / 2 + g.lt, 0), (g.lt, g.wt), (g.lt, -g.wt)]

/-- Points of a part that is mounted at `(a, b)` with angle `th` on a body at `(x, y)` with heading `psi`. -/
noncomputable def mounted (x y psi a b th : ℝ) (o : List (ℝ × ℝ)) : List (ℝ × ℝ) :=
  o.map fun v => inWorld x y psi (inWorld a b th v)

theorem transformXY_pose (x y psi : ℝ) {o : List (ℝ × ℝ)} (h : o ≠ []) :
    transformXY (poseOf x y psi) o = .ok (o.map (inWorld x y psi)) := by
  unfold transformXY
  rw [if_neg h]
  congr 1
  exact List.map_congr_left fun p _ => applyT2_pose x y psi p

theorem drawAt_pose (x y psi a b th : ℝ) {o : List (ℝ × ℝ)} (h : o ≠ []) :
    drawAt (poseOf x y psi) (poseOf a b th) o = .ok (mounted x y psi a b th o) := by
  unfold drawAt
  rw [transformXY_pose a b th h]
  simp only [bind, Except.bind]
  rw [transformXY_pose x y psi (by simpa using h), List.map_map]
  rfl

theorem craftThrusters_eq (x y psi lr w : ℝ) :
    craftThrusters (poseOf x y psi) lr w =
      .ok [mounted x y psi (-lr) (-w) 0 (Outline.wheelRect (15 / 100) (1 / 2)),
        mounted x y psi (-lr) w 0 (Outline.wheelRect (15 / 100) (1 / 2))] := by
  unfold craftThrusters
  simp only [List.mapM_cons, List.mapM_nil, bind, Except.bind, pure, Except.pure]
  rw [drawAt_pose _ _ _ _ _ _ (by simp), drawAt_pose _ _ _ _ _ _ (by simp)]
  simp only [Outline.wheelRect, neg_div]

/-- The nozzle of an engine, in the frame of the engine. -/
noncomputable def nozzle (g : EngineGeo) : List (ℝ × ℝ) :=
  [(0, -g.wt), (0, g.wt), (g.lt, g.wt), (g.lt, -g.wt), (0, -g.wt)]

theorem rocketNozzles_eq (g : EngineGeo) (s : RocketState ℝ) :
    rocketNozzles g s =
      .ok [mounted s.x s.y s.psi g.arm (-g.w / 10) (s.phi + Real.pi / 2) (nozzle g),
        mounted s.x s.y s.psi g.arm (g.w / 10) (-s.phi - Real.pi / 2) (nozzle g)] := by
  unfold rocketNozzles rocketMounts
  simp only [List.mapM_cons, List.mapM_nil, bind, Except.bind, pure, Except.pure]
  rw [drawAt_pose _ _ _ _ _ _ (by simp [thrusterOutline]), drawAt_pose _ _ _ _ _ _ (by simp [thrusterOutline])]
  rfl

theorem shipNozzles_eq (g : EngineGeo) (s : SpaceshipState ℝ) :
    shipNozzles g s = .ok [mounted s.x s.y s.psi (-g.arm) 0 (s.delta + Real.pi) (nozzle g)] := by
  unfold shipNozzles shipMounts
  simp only [List.mapM_cons, List.mapM_nil, bind, Except.bind, pure, Except.pure]
  rw [drawAt_pose _ _ _ _ _ _ (by simp [thrusterOutline])]
  rfl

theorem flameOutline_eq (g : EngineGeo) (f : ℝ) (h : g.fMax ≠ 0) : flameOutline g f = .ok (flame g f) := by
  unfold flameOutline
  rw [if_neg h]
  rfl

theorem rocketFlames_eq (g : EngineGeo) (h : g.fMax ≠ 0) (mv : ℝ) (s : RocketState ℝ) (u : RocketCommands ℝ)
    (hm : mv < s.m) :
    rocketFlames g mv s u =
      .ok [mounted s.x s.y s.psi g.arm (-g.w / 10) (s.phi + Real.pi / 2) (flame g u.F_left),
        mounted s.x s.y s.psi g.arm (g.w / 10) (-s.phi - Real.pi / 2) (flame g u.F_right)] := by
  unfold rocketFlames rocketMounts
  rw [if_pos hm, flameOutline_eq g _ h, flameOutline_eq g _ h]
  simp only [List.zip_cons_cons, List.zip_nil_right, List.mapM_cons, List.mapM_nil, bind, Except.bind, pure, Except.pure]
  rw [drawAt_pose _ _ _ _ _ _ (by simp [flame]), drawAt_pose _ _ _ _ _ _ (by simp [flame])]

theorem shipFlames_eq (g : EngineGeo) (h : g.fMax ≠ 0) (mv : ℝ) (s : SpaceshipState ℝ) (u : SpaceshipCommands ℝ)
    (hm : mv < s.m) :
    shipFlames g mv s u = .ok [mounted s.x s.y s.psi (-g.arm) 0 (s.delta + Real.pi) (flame g u.thrust)] := by
  unfold shipFlames shipMounts
  rw [if_pos hm, flameOutline_eq g _ h]
  simp only [List.mapM_cons, List.mapM_nil, bind, Except.bind, pure, Except.pure]
  rw [drawAt_pose _ _ _ _ _ _ (by simp [flame])]

theorem fMax_of_flames {g : EngineGeo} {f : ℝ} {o : List (ℝ × ℝ)} (h : flameOutline g f = .ok o) : g.fMax ≠ 0 := by
  intro e
  unfold flameOutline at h
  rw [if_pos e] at h
  cases h

/-- **C137.** The other polygons of the pictures of the other models: spacecraft have two thrusters, differential drives two
wheels, rockets two nozzles and spaceships one, each at its place on the body and turned with it; the nozzles turn with the
gimbal. While there is fuel left, every nozzle has a flame that begins at its end and grows with the commanded force of this
engine; after this the flames are a point at the origin. -/
theorem C137_parts (m : Moment) (c : Option Lights.Colors) (r : Artists × List Lamp) :
    (plotPlayer .pedestrian m c none = .ok r → r.1.parts = []) ∧
    (∀ o, plotPlayer (.obstacle o) m c none = .ok r → r.1.parts = []) ∧
    (∀ o lr w x y psi, m = .spacecraft x y psi → plotPlayer (.spacecraft o lr w) m c none = .ok r →
      r.1.parts = [mounted x y psi (-lr) (-w) 0 (Outline.wheelRect (15 / 100) (1 / 2)),
        mounted x y psi (-lr) w 0 (Outline.wheelRect (15 / 100) (1 / 2))]) ∧
    (∀ o b rad x y psi, m = .diffDrive x y psi → plotPlayer (.diffDrive o b rad) m c none = .ok r →
      r.1.parts = [mounted x y psi 0 (-b / 2) 0 (Outline.wheelRect (rad / 3) rad),
        mounted x y psi 0 (b / 2) 0 (Outline.wheelRect (rad / 3) rad)]) ∧
    (∀ o g mv s u, m = .rocket s u → plotPlayer (.rocket o g mv) m c none = .ok r →
      ∃ fl fr, r.1.parts = [mounted s.x s.y s.psi g.arm (-g.w / 10) (s.phi + Real.pi / 2) (nozzle g),
          mounted s.x s.y s.psi g.arm (g.w / 10) (-s.phi - Real.pi / 2) (nozzle g), fl, fr] ∧
        (mv < s.m → fl = mounted s.x s.y s.psi g.arm (-g.w / 10) (s.phi + Real.pi / 2) (flame g u.F_left) ∧
          fr = mounted s.x s.y s.psi g.arm (g.w / 10) (-s.phi - Real.pi / 2) (flame g u.F_right)) ∧
        (s.m ≤ mv → fl = [(0, 0)] ∧ fr = [(0, 0)])) ∧
    (∀ o g mv s u, m = .spaceship s u → plotPlayer (.spaceship o g mv) m c none = .ok r →
      ∃ fl, r.1.parts = [mounted s.x s.y s.psi (-g.arm) 0 (s.delta + Real.pi) (nozzle g), fl] ∧
        (mv < s.m → fl = mounted s.x s.y s.psi (-g.arm) 0 (s.delta + Real.pi) (flame g u.thrust)) ∧
        (s.m ≤ mv → fl = [(0, 0)])) := by
  refine ⟨?_, ?_, ?_, ?_, ?_, ?_⟩
  · intro h
    cases m <;> simp only [plotPlayer, Option.map, reduceCtorEq] at h
    obtain ⟨a, h1, rfl⟩ := map_ok h
    obtain ⟨-, -, os, -, e⟩ := plotNamed_eq h1
    simpa using e
  · intro o h
    cases m <;> simp only [plotPlayer, Option.map, reduceCtorEq] at h
    injection h with h
    rw [← h]
  · rintro o lr w x y psi rfl h
    simp only [plotPlayer, Option.map] at h
    obtain ⟨a, h1, rfl⟩ := map_ok h
    obtain ⟨-, -, os, e1, e⟩ := plotNamed_eq h1
    rw [craftThrusters_eq] at e1
    injection e1 with e1
    rw [e, ← e1]
    rfl
  · rintro o b rad x y psi rfl h
    simp only [plotPlayer, Option.map] at h
    obtain ⟨a, h1, rfl⟩ := map_ok h
    obtain ⟨-, -, os, e1, e⟩ := plotNamed_eq h1
    injection e1 with e1
    rw [e, ← e1]
    have hp : ∀ q v : ℝ × ℝ, applyT2 (poseOf x y psi) (Outline.place 1 0 q v) =
        inWorld x y psi (inWorld q.1 q.2 0 v) := fun q v => by
      rw [applyT2_pose]
      congr 1
      unfold Outline.place inWorld
      simp only [Real.cos_zero, Real.sin_zero, Prod.mk.injEq]
      constructor <;> ring
    simp [Outline.diffDriveWheels, Outline.placeWheels, mounted, hp, Function.comp_def]
  · rintro o g mv s u rfl h
    simp only [plotPlayer, Option.map] at h
    obtain ⟨a, h1, rfl⟩ := map_ok h
    obtain ⟨-, -, os, e1, e⟩ := plotNamed_eq h1
    rw [rocketNozzles_eq] at e1
    simp only [bind, Except.bind] at e1
    by_cases hm : mv < s.m
    · by_cases hf : g.fMax = 0
      · simp [rocketFlames, hm, flameOutline, hf, bind, Except.bind] at e1
      · rw [rocketFlames_eq g hf mv s u hm] at e1
        injection e1 with e1
        exact ⟨_, _, by rw [e, ← e1]; rfl, fun _ => ⟨rfl, rfl⟩, fun h => absurd hm (not_lt.mpr h)⟩
    · unfold rocketFlames at e1
      rw [if_neg hm] at e1
      injection e1 with e1
      exact ⟨_, _, by rw [e, ← e1]; rfl, fun h => absurd h hm, fun _ => ⟨rfl, rfl⟩⟩
  · rintro o g mv s u rfl h
    simp only [plotPlayer, Option.map] at h
    obtain ⟨a, h1, rfl⟩ := map_ok h
    obtain ⟨-, -, os, e1, e⟩ := plotNamed_eq h1
    rw [shipNozzles_eq] at e1
    simp only [bind, Except.bind] at e1
    by_cases hm : mv < s.m
    · by_cases hf : g.fMax = 0
      · simp [shipFlames, hm, flameOutline, hf, bind, Except.bind] at e1
      · rw [shipFlames_eq g hf mv s u hm] at e1
        injection e1 with e1
        exact ⟨_, by rw [e, ← e1]; rfl, fun _ => rfl, fun h => absurd hm (not_lt.mpr h)⟩
    · unfold shipFlames at e1
      rw [if_neg hm] at e1
      injection e1 with e1
      exact ⟨_, by rw [e, ← e1]; rfl, fun h => absurd h hm, fun _ => rfl⟩

/-! ## Animations without errors -/

/-- The lights of a log entry are known. -/
def LightsOk : Option (Lights.Cmd × ℝ) → Prop
  | none => True
  | some (c, _) => Lights.Known c

/-- A log entry that fits a model. -/
def Drawable (k : Look) (f : Frame) : Prop :=
  LightsOk f.lights ∧ match k, f.moment with
    | .vehicle g, .vehicle .. => Outline.IsVehicle g.kind ∧ f.lights ≠ none
    | .pedestrian, .pedestrian .. => True
    | .spacecraft o _ _, .spacecraft .. => o ≠ []
    | .rocket o g _, .rocket .. => o ≠ [] ∧ g.fMax ≠ 0
    | .spaceship o g _, .spaceship .. => o ≠ [] ∧ g.fMax ≠ 0
    | .obstacle _, .obstacle .. => True
    | .diffDrive o _ _, .diffDrive .. => o ≠ []
    | _, _ => False

theorem lightsOf_ok {f : Frame} (h : LightsOk f.lights) (tb : Lights.Table) (t : ℝ) :
    ∃ c tb', lightsOf tb f t = .ok (c, tb') ∧ (c = none ↔ f.lights = none) := by
  unfold lightsOf
  cases hl : f.lights with
  | none => exact ⟨none, tb, rfl, by simp⟩
  | some ca =>
    obtain ⟨c, a⟩ := ca
    rw [hl] at h
    obtain ⟨p, hp, -⟩ := (Lights.C58_phase c t).1 h
    simp only [Lights.display_eq, hp]
    split_ifs
    · exact ⟨_, _, rfl, by simp⟩
    · exact ⟨_, _, rfl, by simp⟩

theorem plotNamed_ok {o : List (ℝ × ℝ)} (ho : o ≠ []) (x y psi : ℝ) {n : Nat} {os : List (List (ℝ × ℝ))}
    (hn : n ≤ os.length) : ∃ a, plotNamed o x y psi n (.ok os) none = .ok a := by
  unfold plotNamed
  rw [drawBody_eq o ho]
  simp only [bind, Except.bind, setBoxes_eq, List.length_replicate, if_pos hn]
  exact ⟨_, rfl⟩

theorem drawable_ok {k : Look} {f : Frame} (h : Drawable k f) {c : Option Lights.Colors}
    (hc : c = none ↔ f.lights = none) : ∃ r, plotPlayer k f.moment c none = .ok r := by
  obtain ⟨m, l⟩ := f
  obtain ⟨-, h⟩ := h
  have hmap : ∀ {e : Except Err Artists}, (∃ a, e = .ok a) → ∃ r, e.map (fun a => (a, ([] : List Lamp))) = .ok r := by
    rintro _ ⟨a, rfl⟩
    exact ⟨_, rfl⟩
  cases k <;> cases m <;> simp only at h <;> simp only [plotPlayer, Option.map]
  · rename_i g x y psi delta
    cases c with
    | none => exact absurd (hc.mp rfl) h.2
    | some c =>
      obtain ⟨hw, rad, ht⟩ := Outline.tyre_exists (K := ℝ) g.kind h.1
      obtain ⟨_, _, _, _, _, -, -, h3⟩ :=
        plotVehicle_eq (Outline.tyre_shape ht) x y psi delta c none (fun o ho => by cases ho)
      exact ⟨_, h3⟩
  · exact hmap (plotNamed_ok (by simp [pedestrianRing, scaleRing, Coll.circleRing]) _ _ _ (Nat.zero_le _))
  · unfold plotSpacecraft
    rw [craftThrusters_eq]
    exact hmap (plotNamed_ok h _ _ _ (by simp))
  · rename_i o g mv s u
    unfold plotRocket
    rw [rocketNozzles_eq]
    by_cases hm : mv < s.m
    · rw [rocketFlames_eq g h.2 mv s u hm]
      exact hmap (plotNamed_ok h.1 _ _ _ (by simp))
    · unfold rocketFlames
      rw [if_neg hm]
      exact hmap (plotNamed_ok h.1 _ _ _ (by simp))
  · rename_i o g mv s u
    unfold plotSpaceship
    rw [shipNozzles_eq]
    by_cases hm : mv < s.m
    · rw [shipFlames_eq g h.2 mv s u hm]
      exact hmap (plotNamed_ok h.1 _ _ _ (by simp))
    · unfold shipFlames
      rw [if_neg hm]
      exact hmap (plotNamed_ok h.1 _ _ _ (by simp))
  · exact ⟨_, rfl⟩
  · exact hmap (plotNamed_ok h _ _ _ (by simp [Outline.diffDriveWheels, Outline.placeWheels]))

section Runs

variable {N : Type} [DecidableEq N]

theorem initPlayers_ok {looks : Dict N Look} (es : Dict N Frame)
    (h : ∀ q ∈ es, ∃ k, Dict.get? looks q.1 = some k ∧ Drawable k q.2) (s : Canvas N) :
    ∃ s', initPlayers looks es s = .ok s' := by
  induction es generalizing s with
  | nil => exact ⟨s, rfl⟩
  | cons pf es ih =>
    obtain ⟨p, f⟩ := pf
    obtain ⟨k, hk, hd⟩ := h _ List.mem_cons_self
    obtain ⟨c, tb, h1, h2⟩ := lightsOf_ok hd.1 s.table 0
    obtain ⟨r, hr⟩ := drawable_ok hd h2
    simp only [initPlayers, h1]
    rw [show Dict.get? looks p = some k from hk]
    simp only [hr]
    exact ih (fun q hq => h q (List.mem_cons_of_mem _ hq)) _

theorem updatePlayers_ok {looks : Dict N Look} {t : ℝ} {es : Dict N Frame} (todo : Dict N (Artists × List Lamp))
    (h : ∀ q ∈ todo, ∃ k f, Dict.get? looks q.1 = some k ∧ Fits k q.2 ∧ Dict.get? es q.1 = some f ∧ Drawable k f)
    (s : Canvas N) : ∃ s', updatePlayers looks t es todo s = .ok s' := by
  induction todo generalizing s with
  | nil => exact ⟨s, rfl⟩
  | cons pf todo ih =>
    obtain ⟨p, old⟩ := pf
    obtain ⟨k, f, hk, hfit, hf, hd⟩ := h _ List.mem_cons_self
    obtain ⟨c, tb, h1, h2⟩ := lightsOf_ok hd.1 s.table t
    obtain ⟨r, hr⟩ := drawable_ok hd h2
    have hr := (plotPlayer_again k f.moment c old hfit r).mpr hr
    simp only [updatePlayers]
    rw [show Dict.get? es p = some f from hf, show Dict.get? looks p = some k from hk]
    simp only [h1, hr]
    exact ih (fun q hq => h q (List.mem_cons_of_mem _ hq)) _

/-- **C137.** An animation raises no error, for all frames and all states: it is enough that the log has an entry for the
players of the first frame at all times, that the entries are of the kinds of the models, that the lights of the commands
are known, and that no outline is empty and no maximal force zero. -/
theorem C137_complete (looks : Dict N Look) (log : ℝ → Except Err (Dict N Frame)) (h0 : List (Lights.Cmd × ℝ × ℝ))
    (begin_ : ℝ) (first : Dict N Frame) (ts : List ℝ) (hfirst : log begin_ = .ok first) (hwf : Dict.Wf first)
    (h1 : ∀ q ∈ first, ∃ k, Dict.get? looks q.1 = some k ∧ Drawable k q.2)
    (h2 : ∀ t ∈ ts, ∃ es, log t = .ok es ∧ ∀ p ∈ Dict.keys first, ∃ k f, Dict.get? looks p = some k ∧
      Dict.get? es p = some f ∧ Drawable k f) :
    ∃ s, animate looks log (Lights.run Lights.fresh h0) begin_ ts = .ok s := by
  unfold animate
  rw [hfirst]
  obtain ⟨s0, hs0⟩ := initPlayers_ok first h1 ⟨Lights.run Lights.fresh h0, []⟩
  simp only [hs0]
  obtain ⟨a1, a2, hist, a3⟩ := initPlayers_spec first hwf _ s0 hs0 (fun q hq => by cases hq)
    (fun q _ hq => by cases hq) h0 rfl
  replace a2 : Dict.keys s0.shown = Dict.keys first := by simpa [Dict.keys] using a2
  clear hs0 h1
  generalize h0 ++ hist = h at a3
  induction ts generalizing s0 h with
  | nil => exact ⟨s0, rfl⟩
  | cons t ts ih =>
    have hw0 : Dict.Wf s0.shown := by unfold Dict.Wf; rw [a2]; exact hwf
    obtain ⟨es, hes, hall⟩ := h2 t List.mem_cons_self
    obtain ⟨s1, hs1⟩ := updatePlayers_ok (looks := looks) (t := t) (es := es) s0.shown (fun q hq => by
      obtain ⟨k, f, b1, b2, b3⟩ := hall q.1 (by rw [← a2]; exact List.mem_map.mpr ⟨q, hq, rfl⟩)
      obtain ⟨k', c1, c2⟩ := a1 q hq
      rw [b1] at c1
      injection c1 with c1
      subst c1
      exact ⟨k, f, b1, c2, b2, b3⟩) s0
    simp only [updateAll, hes, hs1]
    obtain ⟨d1, d2, -, -, h', d5, -⟩ := updatePlayers_spec s0.shown hw0 s0 s1 hs1 hw0 a1 a1
      (fun q hq => List.mem_map.mpr ⟨q, hq, rfl⟩) h a3
    exact ih (fun t ht => h2 t (List.mem_cons_of_mem _ ht)) s1 d1 (by rw [d2, a2]) _ d5

/-- **C137, braking lights: disagreement with the claim.** If any player has braked in an earlier frame, the back lights of
every vehicle that shows the same phase of lights are bright in all later frames, although it does not brake. -/
theorem C137_false_brake (looks : Dict N Look) (log : ℝ → Except Err (Dict N Frame)) (h0 : List (Lights.Cmd × ℝ × ℝ))
    (begin_ : ℝ) (first es es1 : Dict N Frame) (ts : List ℝ) (t t1 : ℝ) (s : Canvas N) (hfirst : log begin_ = .ok first)
    (hwf : Dict.Wf first) (hes : log t = .ok es)
    (h : animate looks log (Lights.run Lights.fresh h0) begin_ (ts ++ [t]) = .ok s)
    (p q : N) (hp : p ∈ Dict.keys first) (hq : q ∈ Dict.keys first) (f f1 : Frame) (cmd cmd1 ph : Lights.Cmd) (acc acc1 : ℝ)
    (ht1 : t1 ∈ ts) (hes1 : log t1 = .ok es1) (hf1 : Dict.get? es1 p = some f1) (hl1 : f1.lights = some (cmd1, acc1))
    (hacc1 : acc1 < 0) (hph1 : Lights.shown cmd1 t1 = .ok ph) (hf : Dict.get? es q = some f)
    (hl : f.lights = some (cmd, acc)) (hacc : 0 ≤ acc) (hph : Lights.shown cmd t = .ok ph) (g : Outline.Geometry ℝ)
    (hg : Dict.get? looks q = some (.vehicle g)) :
    ∃ r bl br fl fr, Dict.get? s.shown q = some r ∧ r.2 = [bl, br, fl, fr] ∧
      (¬ Lights.Flashes true ph → bl.colour = .redMore) ∧ (¬ Lights.Flashes false ph → br.colour = .redMore) := by
  obtain ⟨-, hist, -, hd, hpic⟩ := C137_frame looks log h0 begin_ first es ts t s hfirst hwf hes h
  have hmem := hd t1 ht1 es1 hes1 p hp f1 cmd1 acc1 hf1 hl1
  obtain ⟨r, hr, k, f', hist', c, tb, k1, k2, k3, k4, k5⟩ := hpic q hq
  have hmem' : (cmd1, acc1, t1) ∈ hist' := k3.subset hmem
  obtain ⟨l1, l2, hsplit⟩ := List.append_of_mem hmem'
  rw [hg] at k1
  injection k1 with k1
  rw [hf] at k2
  injection k2 with k2
  subst k1 k2
  unfold lightsOf at k4
  rw [hl] at k4
  simp only at k4
  split at k4
  · cases k4
  · rename_i o tb' hd'
    injection k4 with k4
    injection k4 with k4
    subst k4
    cases hm : f.moment <;> rw [hm] at k5 <;> simp only [plotPlayer, reduceCtorEq] at k5
    rename_i x y psi delta
    cases hs : Outline.wheelShape g with
    | error e =>
      unfold plotVehicle at k5
      rw [geometry_error hs] at k5
      cases k5
    | ok d =>
      obtain ⟨hw, rad⟩ := d
      obtain ⟨r1, a1, a2, a3, a4, -, -, e3⟩ := plotVehicle_eq hs x y psi delta o none (fun o ho => by cases ho)
      rw [e3] at k5
      injection k5 with k5
      refine ⟨r, _, _, _, _, hr, by rw [← k5], ?_⟩
      obtain ⟨ph', c1, -, -, -, c4, c5⟩ := Lights.C58_colours hist' cmd acc t o tb' hd'
      rw [hph] at c1
      injection c1 with c1
      subst c1
      obtain ⟨ph', b1, b2⟩ := (Lights.C58_always hist' cmd acc t).2 hacc o tb' hd'
      rw [hph] at b1
      injection b1 with b1
      subst b1
      have hred : o.backLeft = .red ∨ o.backRight = .red → False := by
        intro hred
        have ho : o = Lights.fresh ph := by
          rcases b2 with b2 | b2
          · exact b2
          · exfalso
            rw [b2] at hred
            unfold Lights.brighten at hred
            rcases hred with hred | hred <;> (simp only at hred; split at hred <;> first | cases hred | contradiction)
        refine Lights.C58_false_interference l1 l2 cmd1 cmd acc1 acc t1 t ph hacc1 hacc hph1 hph (by rw [← ho]; exact hred) ?_
        rw [← hsplit, hd']
        unfold Lights.Expected
        rw [hph]
        refine ⟨o, rfl, by rw [ho], by rw [ho], ?_, ?_⟩
        · rw [if_neg fun hh => absurd hh.1 (not_lt.mpr hacc), ho]
        · rw [if_neg fun hh => absurd hh.1 (not_lt.mpr hacc), ho]
      exact ⟨fun hn => ((c4 hn).2.1).resolve_left fun e => hred (Or.inl e),
        fun hn => ((c5 hn).2.1).resolve_left fun e => hred (Or.inr e)⟩

/-- The log of a simulation as it is read by the animation. -/
noncomputable def readLog {Wd : Sim.World N ℝ} [AddCommGroup Wd.X] [Module ℝ Wd.X] (d : Dict N (Sim.PlayerLog Wd))
    (see : Sim.LogEntry Wd → Frame) (t : ℝ) : Except Err (Dict N Frame) :=
  (Sim.SimLog.atInterp d t).map (List.map fun q => (q.1, see q.2))

theorem readLog_keys {Wd : Sim.World N ℝ} [AddCommGroup Wd.X] [Module ℝ Wd.X] {d : Dict N (Sim.PlayerLog Wd)}
    (hv : ∀ q ∈ d, q.2.Valid) {see : Sim.LogEntry Wd → Frame} {t : ℝ} {es : Dict N Frame} (h : readLog d see t = .ok es) :
    Dict.keys es = Dict.keys d ∧ ∀ p l, (p, l) ∈ d → ∃ e, (p, see e) ∈ es ∧ Sim.IsEntry l t e := by
  obtain ⟨r, h1, h2⟩ := map_ok h
  have h3 := (Sim.C29_at_interp d t r hv).mp h1
  rw [← h2]
  clear h1 h2 h hv
  induction h3 with
  | nil => exact ⟨rfl, fun p l hp => by cases hp⟩
  | cons hab hrest ih =>
    rename_i a b d r
    obtain ⟨p, l⟩ := a
    obtain ⟨q, e⟩ := b
    obtain ⟨rfl, hab⟩ := hab
    refine ⟨by simpa [Dict.keys] using ih.1, ?_⟩
    intro p' l' hp
    rcases List.mem_cons.mp hp with hp | hp
    · injection hp with e1 e2
      subst e1 e2
      exact ⟨e, List.mem_cons_self, hab⟩
    · obtain ⟨e', a1, a2⟩ := ih.2 p' l' hp
      exact ⟨e', List.mem_cons_of_mem _ a1, a2⟩

/-- **C137, players that have left: disagreement with the claim.** A player whose log ends, because it left the simulation,
is still shown in all later frames, as it was last. -/
theorem C137_false_gone {Wd : Sim.World N ℝ} [AddCommGroup Wd.X] [Module ℝ Wd.X] (looks : Dict N Look)
    (d : Dict N (Sim.PlayerLog Wd)) (hv : ∀ q ∈ d, q.2.Valid) (hd : Dict.Wf d) (see : Sim.LogEntry Wd → Frame)
    (h0 : List (Lights.Cmd × ℝ × ℝ)) (begin_ : ℝ) (ts : List ℝ) (t : ℝ) (s : Canvas N)
    (h : animate looks (readLog d see) (Lights.run Lights.fresh h0) begin_ (ts ++ [t]) = .ok s)
    (p : N) (l : Sim.PlayerLog Wd) (hp : (p, l) ∈ d) (t1 : ℝ) (v : Wd.X) (pre : List (ℝ × Wd.X))
    (hl : l.states.samples = pre ++ [(t1, v)]) (ht : t1 ≤ t) :
    ∃ r k e c, Dict.get? s.shown p = some r ∧ Dict.get? looks p = some k ∧ e.state = v ∧
      plotPlayer k (see e).moment c none = .ok r := by
  have hfirst : ∃ first, readLog d see begin_ = .ok first := by
    unfold animate at h
    split at h
    · cases h
    · exact ⟨_, by assumption⟩
  obtain ⟨first, hfirst⟩ := hfirst
  have hes : ∃ es, readLog d see t = .ok es := by
    unfold animate at h
    rw [hfirst] at h
    simp only at h
    split at h
    · cases h
    · rw [updateAll_append] at h
      split at h
      · cases h
      · simp only [updateAll] at h
        split at h
        · cases h
        · exact ⟨_, by assumption⟩
  obtain ⟨es, hes⟩ := hes
  obtain ⟨f1, -⟩ := readLog_keys hv hfirst
  obtain ⟨g1, g2⟩ := readLog_keys hv hes
  have hwf : Dict.Wf first := by unfold Dict.Wf; rw [f1]; exact hd
  have hwe : Dict.Wf es := by unfold Dict.Wf; rw [g1]; exact hd
  obtain ⟨-, hist, -, -, hpic⟩ := C137_frame looks _ h0 begin_ first es ts t s hfirst hwf hes h
  obtain ⟨r, hr, k, f, hist', c, tb, k1, k2, -, -, k5⟩ :=
    hpic p (by rw [f1]; exact List.mem_map.mpr ⟨(p, l), hp, rfl⟩)
  obtain ⟨e, e1, e2⟩ := g2 p l hp
  rw [Dict.get?_of_mem hwe e1] at k2
  injection k2 with k2
  subst k2
  refine ⟨r, k, e, c, hr, k1, ?_, k5⟩
  have hst := (atInterp_ok_iff l.states (hv _ hp).1 t e.state).mpr e2.1
  rw [C04_after l.states (hv _ hp).1 t1 v pre hl t ht] at hst
  injection hst with hst
  exact hst.symm

end Runs

/-! ## Examples -/

/-- Two cars and a pedestrian; the first car brakes until time 1. -/
noncomputable def exLooks : Dict Nat Look :=
  [(1, .vehicle ⟨.car, 4 / 5, 6 / 5, 6 / 5⟩), (2, .vehicle ⟨.car, 4 / 5, 6 / 5, 6 / 5⟩), (3, .pedestrian)]

noncomputable def exEntry (t : ℝ) : Dict Nat Frame :=
  [(1, ⟨.vehicle t 0 0 (1 / 10), some (.noLights, if t ≤ 1 then -1 else 0)⟩),
   (2, ⟨.vehicle t 5 (t / 10) 0, some (.turnLeft, 1)⟩), (3, ⟨.pedestrian 3 t 1, none⟩)]

theorem exEntry_drawable (t : ℝ) (p : Nat) (hp : p ∈ Dict.keys (exEntry 0)) :
    ∃ k f, Dict.get? exLooks p = some k ∧ Dict.get? (exEntry t) p = some f ∧ Drawable k f := by
  simp only [exEntry, Dict.keys, List.map_cons, List.map_nil, List.mem_cons, List.not_mem_nil, or_false] at hp
  rcases hp with rfl | rfl | rfl <;>
    refine ⟨_, _, rfl, rfl, ?_⟩ <;> simp [Drawable, LightsOk, Lights.Known, Outline.IsVehicle]

theorem ex_animation (ts : List ℝ) :
    ∃ s, animate exLooks (fun t => .ok (exEntry t)) (Lights.run (K := ℝ) Lights.fresh []) 0 ts = .ok s := by
  refine C137_complete _ _ _ _ (exEntry 0) _ rfl (by simp [Dict.Wf, Dict.keys, exEntry]) ?_ ?_
  · intro q hq
    obtain ⟨k, f, h1, h2, h3⟩ := exEntry_drawable 0 q.1 (List.mem_map.mpr ⟨q, hq, rfl⟩)
    rw [Dict.get?_of_mem (by simp [Dict.Wf, Dict.keys, exEntry]) hq] at h2
    injection h2 with h2
    exact ⟨k, h1, h2 ▸ h3⟩
  · exact fun t _ => ⟨exEntry t, rfl, exEntry_drawable t⟩

/-- The frames of the example show the three players as they are. -/
example (ts : List ℝ) (t : ℝ) :
    ∃ s, animate exLooks (fun t => .ok (exEntry t)) (Lights.run (K := ℝ) Lights.fresh []) 0 (ts ++ [t]) = .ok s ∧
      Dict.keys s.shown = [1, 2, 3] ∧
      ∃ r, Dict.get? s.shown 2 = some r ∧ r.1.name = some (t, 5) ∧
        r.1.parts[0]? = some ((Outline.wheelRect (1 / 10) (3 / 10)).map
          (inWorld (inWorld t 5 (t / 10) (6 / 5, 4 / 5)).1 (inWorld t 5 (t / 10) (6 / 5, 4 / 5)).2 (t / 10))) := by
  obtain ⟨s, hs⟩ := ex_animation (ts ++ [t])
  obtain ⟨h1, hist, -, -, h2⟩ := C137_frame _ _ _ _ (exEntry 0) (exEntry t) ts t s rfl
    (by simp [Dict.Wf, Dict.keys, exEntry]) rfl hs
  obtain ⟨r, hr, hpic⟩ := h2 2 (by simp [Dict.keys, exEntry])
  refine ⟨s, hs, h1, r, hr, ?_, ?_⟩
  · obtain ⟨k, f, _, c, _, k1, k2, -, -, k5⟩ := hpic
    have e1 : k = .vehicle ⟨.car, 4 / 5, 6 / 5, 6 / 5⟩ := by
      have : Dict.get? exLooks 2 = some (.vehicle ⟨.car, 4 / 5, 6 / 5, 6 / 5⟩) := rfl
      rw [this] at k1
      injection k1 with k1
      exact k1.symm
    have e2 : f = ⟨.vehicle t 5 (t / 10) 0, some (.turnLeft, 1)⟩ := by
      have : Dict.get? (exEntry t) 2 = some ⟨.vehicle t 5 (t / 10) 0, some (.turnLeft, 1)⟩ := rfl
      rw [this] at k2
      injection k2 with k2
      exact k2.symm
    subst e1 e2
    simpa [Look.named, Moment.pose] using (C137_body _ _ _ _ k5).2
  · obtain ⟨hw, rad, cmd, acc, ht, -, hparts, -⟩ := C137_vehicle exLooks (exEntry t) t hist 2 r hpic
      ⟨.car, 4 / 5, 6 / 5, 6 / 5⟩ rfl t 5 (t / 10) 0 (some (.turnLeft, 1)) rfl (by norm_num) (by norm_num)
    have hcar : hw = 1 / 10 ∧ rad = 3 / 10 := by
      rcases ht with ⟨_, h⟩ | ⟨h, _⟩ | ⟨h, _⟩
      · exact h
      · cases h
      · rcases h with h | h <;> cases h
    rw [hparts, hcar.1, hcar.2]
    simp [Outline.wheels, Outline.fourWheels]

/-- The back lights of the first car, which brakes until time 1, stay bright at time 2. -/
example : ∃ s r, animate exLooks (fun t => .ok (exEntry t)) (Lights.run (K := ℝ) Lights.fresh []) 0 ([1] ++ [2]) = .ok s ∧
    Dict.get? s.shown 1 = some r ∧ (r.2.head?).map Lamp.colour = some .redMore := by
  obtain ⟨s, hs⟩ := ex_animation ([1] ++ [2])
  have hsh : ∀ t : ℝ, Lights.shown .noLights t = .ok .noLights := by
    intro t
    obtain ⟨p, h1, h2⟩ := (Lights.C58_phase .noLights t).1 trivial
    rcases h2 with h2 | ⟨h2, -⟩
    · rw [h1, h2]
    · rcases h2 with h2 | h2 | h2 <;> cases h2
  obtain ⟨r, bl, br, fl, fr, h1, h2, h3, -⟩ := C137_false_brake exLooks (fun t => .ok (exEntry t)) [] 0 (exEntry 0)
    (exEntry 2) (exEntry 1) [1] 2 1 s rfl (by simp [Dict.Wf, Dict.keys, exEntry]) rfl hs 1 1 (by simp [Dict.keys, exEntry])
    (by simp [Dict.keys, exEntry]) ⟨.vehicle 2 0 0 (1 / 10), some (.noLights, 0)⟩
    ⟨.vehicle 1 0 0 (1 / 10), some (.noLights, -1)⟩ .noLights .noLights .noLights 0 (-1) (by simp) rfl
    (by simp [exEntry, Dict.get?]) rfl (by norm_num) (hsh 1) (by simp [exEntry, Dict.get?]) rfl le_rfl (hsh 2)
    ⟨.car, 4 / 5, 6 / 5, 6 / 5⟩ rfl
  exact ⟨s, r, hs, h1, by rw [h2]; simp [h3 (by simp [Lights.Flashes])]⟩

/-- A spacecraft at `(1, 2)`. -/
example : ∃ r, plotPlayer (.spacecraft [(0, 0), (1, 0), (0, 1)] 1 (1 / 2)) (.spacecraft 1 2 0) none none = .ok r ∧
    r.1.body = [(1, 2), (2, 2), (1, 3)] := by
  obtain ⟨r, hr⟩ := drawable_ok (k := .spacecraft [(0, 0), (1, 0), (0, 1)] 1 (1 / 2)) (f := ⟨.spacecraft 1 2 0, none⟩)
    (by simp [Drawable, LightsOk]) (c := none) (by simp)
  obtain ⟨⟨ring, h1, h2⟩, -⟩ := C137_body _ _ _ _ hr
  injection h1 with h1
  refine ⟨r, hr, ?_⟩
  rw [h2, ← h1]
  norm_num [inWorld, Moment.pose]

/-- A rocket with fuel has flames. -/
example (o : List (ℝ × ℝ)) (ho : o ≠ []) (s : RocketState ℝ) (u : RocketCommands ℝ) (hm : 1 < s.m) :
    ∃ r, plotPlayer (.rocket o ⟨1, 1 / 5, 2, 1 / 2, 1⟩ 1) (.rocket s u) none none = .ok r ∧ r.1.parts.length = 4 ∧
      r.1.parts[2]? = some (mounted s.x s.y s.psi 1 (-(1 / 2) / 10) (s.phi + Real.pi / 2)
        (flame ⟨1, 1 / 5, 2, 1 / 2, 1⟩ u.F_left)) := by
  obtain ⟨r, hr⟩ := drawable_ok (k := .rocket o ⟨1, 1 / 5, 2, 1 / 2, 1⟩ 1) (f := ⟨.rocket s u, none⟩)
    (by simp [Drawable, LightsOk, ho]) (c := none) (by simp)
  obtain ⟨fl, fr, h1, h2, -⟩ := (C137_parts (.rocket s u) none r).2.2.2.2.1 o _ _ s u rfl hr
  exact ⟨r, hr, by simp [h1], by simp [h1, (h2 hm).1]⟩

/-- A world with positions on a line. -/
abbrev lineWorld : Sim.World Nat ℝ where
  W := Unit
  M := ℝ
  X := ℝ
  P := ℝ
  C := Nat
  I := Nat
  E := Nat
  O := ℝ
  D := ℝ
  G := ℝ
  getState m := m
  footprint m := m
  isDyn _ := false
  onInit w _ := .ok w
  sense w _ o := .ok (w, o)
  getCommands w _ _ := .ok (w, 0, 0)
  getExtra w _ := .ok (w, none)
  update w _ m _ _ := .ok (w, m)
  fulfilled w _ _ _ _ := .ok (w, false)
  envQuery _ _ := []
  env := 99
  resolveEnv w _ m _ _ := ((w, m), .ok none)
  touch _ _ := false
  resolve w _ m₁ _ m₂ _ := ((w, m₁, m₂), .ok none)

/-- A pedestrian whose log ends at time 1. -/
noncomputable def lineLog : Dict Nat (Sim.PlayerLog lineWorld) :=
  [(7, ⟨⟨[0, 1], [0, 4]⟩, ⟨[0], [0]⟩, ⟨[], []⟩, ⟨[0], [0]⟩⟩)]

theorem lineLog_valid : ∀ q ∈ lineLog, q.2.Valid := by
  intro q hq
  rw [lineLog, List.mem_singleton] at hq
  subst hq
  simp [Sim.PlayerLog.Valid, Seq.Valid]

/-- It is shown at its last position ever after. -/
example (t : ℝ) (ht : 1 ≤ t) :
    ∃ s r, animate [(7, .pedestrian)] (readLog lineLog fun e => ⟨.pedestrian e.state 0 0, none⟩)
        (Lights.run (K := ℝ) Lights.fresh []) 0 ([] ++ [t]) = .ok s ∧ Dict.get? s.shown 7 = some r ∧ r.1.name = some (4, 0) := by
  have hread : ∀ u : ℝ, 0 ≤ u → ∃ x, readLog lineLog (fun e => ⟨.pedestrian e.state 0 0, none⟩) u =
      .ok [(7, ⟨.pedestrian x 0 0, none⟩)] := by
    intro u hu
    have hv := lineLog_valid _ (List.mem_singleton.mpr rfl)
    cases he : Sim.PlayerLog.atInterp (Wd := lineWorld) ⟨⟨[0, 1], [0, 4]⟩, ⟨[0], [0]⟩, ⟨[], []⟩, ⟨[0], [0]⟩⟩ u with
    | error e =>
      rcases (Sim.C29_player_error_iff _ hv u).mp ⟨e, he⟩ with h | h | h
      · cases h
      · exact absurd (h 0 (by simp)) (not_lt.mpr hu)
      · exact absurd (h 0 (by simp)) (not_lt.mpr hu)
    | ok e =>
      refine ⟨e.state, ?_⟩
      unfold readLog lineLog
      simp only [Sim.SimLog.atInterp, he, bind, Except.bind, pure, Except.pure]
      rfl
  obtain ⟨x0, h0⟩ := hread 0 le_rfl
  obtain ⟨s, hs⟩ := C137_complete [(7, .pedestrian)] _ [] 0 _ ([] ++ [t]) h0 (by simp [Dict.Wf, Dict.keys])
    (by
      intro q hq
      rw [List.mem_singleton] at hq
      subst hq
      exact ⟨_, rfl, by simp [Drawable, LightsOk]⟩)
    (by
      intro u hu
      simp only [List.nil_append, List.mem_singleton] at hu
      subst hu
      obtain ⟨x, hx⟩ := hread u (by linarith)
      refine ⟨_, hx, ?_⟩
      intro p hp
      simp only [Dict.keys, List.map_cons, List.map_nil, List.mem_singleton] at hp
      subst hp
      exact ⟨_, _, rfl, rfl, by simp [Drawable, LightsOk]⟩)
  obtain ⟨r, k, e, c, h1, h2, h3, h4⟩ := C137_false_gone [(7, .pedestrian)] lineLog lineLog_valid
    (by simp [Dict.Wf, Dict.keys, lineLog]) _ [] 0 [] t s hs 7 _ (List.mem_singleton.mpr rfl) 1 4 [(0, 0)] rfl ht
  refine ⟨s, r, hs, h1, ?_⟩
  have hk : k = .pedestrian := by
    have : Dict.get? ([(7, Look.pedestrian)] : Dict Nat Look) 7 = some .pedestrian := rfl
    rw [this] at h2
    injection h2 with h2
    exact h2.symm
  subst hk
  have := (C137_body _ _ _ _ h4).2
  rw [this, h3]
  rfl

end Viz
end Verif
