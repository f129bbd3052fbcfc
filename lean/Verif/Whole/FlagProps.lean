import Verif.Whole.Toy
import Verif.Sim.Invariant

/-!
# C97: the collision flags of the models and the collision reports agree
-/

namespace Verif
namespace Whole

open Sim Coll

set_option linter.unusedSectionVars false

variable {N K : Type} [DecidableEq N] [Field K] [LinearOrder K] {F : Iface N K} {sc : Bool}
  {R : Parts N K F.M F.S}

/-- Specification: some report names the player. -/
def Named {Wd : World N K} (rs : List (Report Wd)) (n : N) : Prop := ∃ r ∈ rs, n ∈ r.players

theorem impactLocations_error {m : F.M} {s : F.S} {e : Err} (h : impactLocations F m s = .error e) :
    e = .collision := by
  unfold impactLocations at h
  dsimp only at h
  split at h
  · injection h with h; exact h.symm
  · cases h

theorem keys_two {α : Type} (a b : N) (hab : a ≠ b) (x y : α) :
    Dict.keys (Dict.set (Dict.set [] a x) b y) = [a, b] := by
  simp [Dict.set, Dict.keys, hab]

/-- What `resolve_collision` does to the two models. -/
theorem resolve_cases {dt : K} (hL : Lawful F R dt) (t : K) (a b : N) (hab : a ≠ b) (ma mb : F.M) :
    (((Coll.resolve F sc t a ma b mb).1 = (ma, mb) ∧ ((Coll.resolve F sc t a ma b mb).2 = .ok none ∨
        ∃ e, (Coll.resolve F sc t a ma b mb).2 = .error e)) ∨
      (F.hasCollided (Coll.resolve F sc t a ma b mb).1.1 = true ∧
        F.hasCollided (Coll.resolve F sc t a ma b mb).1.2 = true ∧
        ((Coll.resolve F sc t a ma b mb).2 = .error .collision ∨
          ∃ d, (Coll.resolve F sc t a ma b mb).2 = .ok (some d) ∧ Dict.keys d.players = [a, b] ∧
            d.atTime = t))) ∧
    R.isDyn (Coll.resolve F sc t a ma b mb).1.1 = R.isDyn ma ∧
    R.isDyn (Coll.resolve F sc t a ma b mb).1.2 = R.isDyn mb := by
  unfold Coll.resolve
  dsimp only
  cases F.impactGeometry (F.footprint ma) (F.footprint mb) with
  | error e => exact ⟨Or.inl ⟨rfl, Or.inr ⟨e, rfl⟩⟩, rfl, rfl⟩
  | ok np =>
    obtain ⟨n, p⟩ := np
    dsimp only
    split
    · exact ⟨Or.inl ⟨rfl, Or.inl rfl⟩, rfl, rfl⟩
    · cases h1 : impactLocations F (F.mark ma) (F.footprint mb) with
      | error e =>
        have := impactLocations_error h1
        subst this
        exact ⟨Or.inr ⟨hL.marked _, hL.marked _, Or.inl rfl⟩, hL.dynMark _, hL.dynMark _⟩
      | ok la =>
        dsimp only
        cases h2 : impactLocations F (F.mark mb) (F.footprint ma) with
        | error e =>
          have := impactLocations_error h2
          subst this
          exact ⟨Or.inr ⟨hL.marked _, hL.marked _, Or.inl rfl⟩, hL.dynMark _, hL.dynMark _⟩
        | ok lb =>
          dsimp only
          refine ⟨Or.inr ⟨?_, ?_, Or.inr ⟨_, rfl, keys_two a b hab _ _, rfl⟩⟩, ?_, ?_⟩
          · rw [hL.setVelocity]; exact hL.marked _
          · rw [hL.setVelocity]; exact hL.marked _
          · rw [hL.dynVelocity]; exact hL.dynMark _
          · rw [hL.dynVelocity]; exact hL.dynMark _

/-- What `resolve_collision_with_environment` does to the model. -/
theorem resolveEnv_cases {dt : K} (hL : Lawful F R dt) (t : K) (a : N) (m : F.M) (s : F.S) (g : Geom K) :
    (((Coll.resolveEnv F t a m s g).1 = m ∧ ((Coll.resolveEnv F t a m s g).2 = .ok none ∨
        ∃ e, (Coll.resolveEnv F t a m s g).2 = .error e)) ∨
      (F.hasCollided (Coll.resolveEnv F t a m s g).1 = true ∧
        ((∃ e, (Coll.resolveEnv F t a m s g).2 = .error e) ∨
          ∃ d, (Coll.resolveEnv F t a m s g).2 = .ok (some d) ∧
            (a ≠ F.envPlayer → Dict.keys d.players = [a, F.envPlayer]) ∧ d.atTime = t))) ∧
    R.isDyn (Coll.resolveEnv F t a m s g).1 = R.isDyn m := by
  unfold Coll.resolveEnv
  dsimp only
  cases F.impactGeometry (F.footprint m) s with
  | error e => exact ⟨Or.inl ⟨rfl, Or.inr ⟨e, rfl⟩⟩, rfl⟩
  | ok np =>
    obtain ⟨n, p⟩ := np
    dsimp only
    split
    · exact ⟨Or.inl ⟨rfl, Or.inl rfl⟩, rfl⟩
    · cases h1 : impactLocations F (F.mark m) s with
      | error e => exact ⟨Or.inr ⟨hL.marked _, Or.inl ⟨e, rfl⟩⟩, hL.dynMark _⟩
      | ok la =>
        dsimp only
        cases h2 : F.toPolygon s with
        | error e =>
          refine ⟨Or.inr ⟨?_, Or.inl ⟨e, rfl⟩⟩, ?_⟩
          · rw [hL.setVelocity]; exact hL.marked _
          · rw [hL.dynVelocity]; exact hL.dynMark _
        | ok poly =>
          dsimp only
          refine ⟨Or.inr ⟨?_, Or.inr ⟨_, rfl, fun h => keys_two a F.envPlayer h _ _, rfl⟩⟩, ?_⟩
          · rw [hL.setVelocity]; exact hL.marked _
          · rw [hL.dynVelocity]; exact hL.dynMark _

theorem reportOf_cases {Wd : World N K} {ps qs : List N} {t : K} {o : Except Err (Option Wd.D)}
    {rep : Option (Report Wd)} (h : reportOf ps qs t o = .ok rep) :
    (o = .ok none ∧ rep = none) ∨ (∃ d, o = .ok (some d) ∧ rep = some ⟨ps, t, some d⟩) ∨
      (o = .error .collision ∧ rep = some ⟨qs, t, none⟩) := by
  unfold reportOf at h
  split at h
  · injection h with h; exact Or.inl ⟨rfl, h.symm⟩
  · rename_i d
    injection h with h; exact Or.inr (Or.inl ⟨d, rfl, h.symm⟩)
  · injection h with h; exact Or.inr (Or.inr ⟨rfl, h.symm⟩)
  · cases h

/-- The invariant of C97. -/
def Agree (F : Iface N K) (sc : Bool) (R : Parts N K F.M F.S) (d : Dict N F.M)
    (rs : List (Report (world F sc R))) : Prop :=
  (∀ n m, Dict.get? d n = some m → R.isDyn m = false → F.hasCollided m = true → Named rs n) ∧
  (∀ r ∈ rs, ∀ c, r.data = some c → ∀ n ∈ r.players, n ≠ F.envPlayer →
    ∃ m, Dict.get? d n = some m ∧ F.hasCollided m = true)

theorem Named.append {Wd : World N K} {rs : List (Report Wd)} {n : N} (l : List (Report Wd))
    (h : Named rs n) : Named (rs ++ l) n := by
  obtain ⟨r, hr, hn⟩ := h
  exact ⟨r, by simp [hr], hn⟩

theorem agree_closed (cfg : Cfg (world F sc R)) (hL : Lawful F R cfg.dt) :
    Closed cfg (fun s : St (world F sc R) => s.players.Nodup ∧ Agree F sc R s.models s.reports) := by
  refine closed_models cfg (Agree F sc R) ?_ ?_ ?_
  · intro w n m c w' m' d rs hm hu hQ
    have hu' : ∃ v', R.update w.2 n m c cfg.dt = .ok (v', m') := by
      change (match R.update w.2 n m c cfg.dt with
        | .error e => .error e
        | .ok (v, m') => .ok ((w.1, v), m')) = Except.ok (w', m') at hu
      cases h : R.update w.2 n m c cfg.dt with
      | error e => rw [h] at hu; cases hu
      | ok q =>
        obtain ⟨v, m2⟩ := q
        rw [h] at hu
        injection hu with hu
        injection hu with _ e2
        exact ⟨v, by rw [e2]⟩
    obtain ⟨v', hu'⟩ := hu'
    have e1 := hL.update _ _ _ _ _ _ hu'
    have e2 := hL.dynUpdate _ _ _ _ _ _ hu'
    constructor
    · intro k mk hk hd hc
      rw [Dict.get?_set] at hk
      split at hk
      · rename_i e
        subst e
        injection hk with hk
        subst hk
        exact hQ.1 _ m hm (by rw [← e2]; exact hd) (by rw [← e1]; exact hc)
      · exact hQ.1 k mk hk hd hc
    · intro r hr c' hc' k hk hne
      obtain ⟨mk, h1, h2⟩ := hQ.2 r hr c' hc' k hk hne
      rw [Dict.get?_set]
      split
      · rename_i e
        subst e
        rw [hm] at h1
        injection h1 with h1
        subst h1
        exact ⟨m', rfl, by rw [e1]; exact h2⟩
      · exact ⟨mk, h1, h2⟩
  · intro w p m o t d rs rep hm _ hr hQ
    obtain ⟨hc, hdyn⟩ := resolveEnv_cases (R := R) hL t p m o.1 o.2
    change Agree F sc R (Dict.set d p (Coll.resolveEnv F t p m o.1 o.2).1)
      (rs ++ if R.isDyn (Coll.resolveEnv F t p m o.1 o.2).1 then [] else rep.toList)
    change reportOf [p, F.envPlayer] [p] t (Coll.resolveEnv F t p m o.1 o.2).2 = .ok rep at hr
    have hrep := reportOf_cases hr
    have hflag : F.hasCollided m = true → F.hasCollided (Coll.resolveEnv F t p m o.1 o.2).1 = true := by
      intro h
      rcases hc with ⟨e, -⟩ | ⟨e, -⟩
      · rw [e]; exact h
      · exact e
    constructor
    · intro k mk hk hd hcol
      rw [Dict.get?_set] at hk
      split at hk
      · rename_i e
        subst e
        injection hk with hk
        subst hk
        rw [hd, if_neg (by simp)]
        rcases hc with ⟨e, -⟩ | ⟨-, e⟩
        · rw [e] at hcol hd
          exact (hQ.1 _ m hm hd hcol).append _
        · rcases hrep with ⟨h1, -⟩ | ⟨d', -, h1⟩ | ⟨-, h1⟩
          · rcases e with ⟨e, he⟩ | ⟨d', he, -⟩ <;> rw [h1] at he <;> cases he
          · exact ⟨_, by rw [h1]; simp; exact Or.inr rfl, by simp⟩
          · exact ⟨_, by rw [h1]; simp; exact Or.inr rfl, by simp⟩
      · exact (hQ.1 k mk hk hd hcol).append _
    · intro r hr' c' hc' k hk hne
      rw [List.mem_append] at hr'
      rcases hr' with hr' | hr'
      · obtain ⟨mk, h1, h2⟩ := hQ.2 r hr' c' hc' k hk hne
        rw [Dict.get?_set]
        split
        · rename_i e
          subst e
          rw [hm] at h1
          injection h1 with h1
          subst h1
          exact ⟨_, rfl, hflag h2⟩
        · exact ⟨mk, h1, h2⟩
      · split at hr'
        · simp at hr'
        · rcases hrep with ⟨-, h1⟩ | ⟨d', h2, h1⟩ | ⟨-, h1⟩
          · rw [h1] at hr'; simp at hr'
          · rw [h1] at hr'
            simp only [Option.toList_some, List.mem_singleton] at hr'
            subst hr'
            simp only [List.mem_cons, List.not_mem_nil, or_false] at hk
            have hk : k = p := hk.resolve_right hne
            subst hk
            rw [Dict.get?_set_self]
            refine ⟨_, rfl, ?_⟩
            rcases hc with ⟨-, e | ⟨e, he⟩⟩ | ⟨e, -⟩
            · rw [h2] at e; cases e
            · rw [h2] at he; cases he
            · exact e
          · rw [h1] at hr'
            simp only [Option.toList_some, List.mem_singleton] at hr'
            subst hr'
            cases hc'
  · intro w a b ma mb t d rs rep hab ha hb hr hQ
    obtain ⟨hc, hda, hdb⟩ := resolve_cases (sc := sc) (R := R) hL t a b hab ma mb
    change Agree F sc R (Dict.set (Dict.set d a (Coll.resolve F sc t a ma b mb).1.1) b
      (Coll.resolve F sc t a ma b mb).1.2) (rs ++ rep.toList)
    change reportOf [a, b] [a, b] t (Coll.resolve F sc t a ma b mb).2 = .ok rep at hr
    have hrep := reportOf_cases hr
    have hfa : F.hasCollided ma = true → F.hasCollided (Coll.resolve F sc t a ma b mb).1.1 = true := by
      intro h
      rcases hc with ⟨e, -⟩ | ⟨e, -⟩
      · rw [e]; exact h
      · exact e
    have hfb : F.hasCollided mb = true → F.hasCollided (Coll.resolve F sc t a ma b mb).1.2 = true := by
      intro h
      rcases hc with ⟨e, -⟩ | ⟨-, e, -⟩
      · rw [e]; exact h
      · exact e
    have get : ∀ k, Dict.get? (Dict.set (Dict.set d a (Coll.resolve F sc t a ma b mb).1.1) b
        (Coll.resolve F sc t a ma b mb).1.2) k =
        if k = b then some (Coll.resolve F sc t a ma b mb).1.2
        else if k = a then some (Coll.resolve F sc t a ma b mb).1.1 else Dict.get? d k := by
      intro k
      rw [Dict.get?_set, Dict.get?_set]
      simp only [eq_comm]
    have new : (Coll.resolve F sc t a ma b mb).1 ≠ (ma, mb) → ∀ k, (k = a ∨ k = b) → Named (rs ++ rep.toList) k := by
      intro hne k hk
      have hcol : (Coll.resolve F sc t a ma b mb).2 = .error .collision ∨
          ∃ d, (Coll.resolve F sc t a ma b mb).2 = .ok (some d) := by
        rcases hc with ⟨e, -⟩ | ⟨-, -, e | ⟨d', e, -⟩⟩
        · exact absurd e hne
        · exact Or.inl e
        · exact Or.inr ⟨d', e⟩
      rcases hrep with ⟨h1, -⟩ | ⟨d', -, h1⟩ | ⟨-, h1⟩
      · rcases hcol with he | ⟨d', he⟩ <;> rw [h1] at he <;> cases he
      · exact ⟨_, by rw [h1]; simp; exact Or.inr rfl, by simpa using hk⟩
      · exact ⟨_, by rw [h1]; simp; exact Or.inr rfl, by simpa using hk⟩
    constructor
    · intro k mk hk hd hcol
      by_cases hsame : (Coll.resolve F sc t a ma b mb).1 = (ma, mb)
      · rw [get] at hk
        rw [hsame] at hk
        split at hk
        · rename_i e
          subst e
          injection hk with hk
          subst hk
          exact (hQ.1 _ _ hb hd hcol).append _
        · split at hk
          · rename_i e
            subst e
            injection hk with hk
            subst hk
            exact (hQ.1 _ _ ha hd hcol).append _
          · exact (hQ.1 k mk hk hd hcol).append _
      · by_cases hk2 : k = a ∨ k = b
        · exact new hsame k hk2
        · rw [get, if_neg (fun e => hk2 (Or.inr e)), if_neg (fun e => hk2 (Or.inl e))] at hk
          exact (hQ.1 k mk hk hd hcol).append _
    · intro r hr' c' hc' k hk hne
      rw [List.mem_append] at hr'
      rw [get]
      rcases hr' with hr' | hr'
      · obtain ⟨mk, h1, h2⟩ := hQ.2 r hr' c' hc' k hk hne
        split
        · rename_i e
          subst e
          rw [hb] at h1
          injection h1 with h1
          subst h1
          exact ⟨_, rfl, hfb h2⟩
        · split
          · rename_i e
            subst e
            rw [ha] at h1
            injection h1 with h1
            subst h1
            exact ⟨_, rfl, hfa h2⟩
          · exact ⟨mk, h1, h2⟩
      · rcases hrep with ⟨-, h1⟩ | ⟨d', h2, h1⟩ | ⟨-, h1⟩
        · rw [h1] at hr'; simp at hr'
        · rw [h1] at hr'
          simp only [Option.toList_some, List.mem_singleton] at hr'
          subst hr'
          simp only [List.mem_cons, List.not_mem_nil, or_false] at hk
          have hboth : F.hasCollided (Coll.resolve F sc t a ma b mb).1.1 = true ∧
              F.hasCollided (Coll.resolve F sc t a ma b mb).1.2 = true := by
            rcases hc with ⟨-, e | ⟨e, he⟩⟩ | ⟨e1, e2, -⟩
            · rw [h2] at e; cases e
            · rw [h2] at he; cases he
            · exact ⟨e1, e2⟩
          split
          · exact ⟨_, rfl, hboth.2⟩
          · rename_i hkb
            rw [if_pos (hk.resolve_right hkb)]
            exact ⟨_, rfl, hboth.1⟩
        · rw [h1] at hr'
          simp only [Option.toList_some, List.mem_singleton] at hr'
          subst hr'
          cases hc'

/-- **C97.** In every execution that starts without collisions: a player whose model is flagged as
collided is named in a report, unless it is a moving obstacle; and every player named in a report with
details is flagged. -/
theorem C97_flags_partial {cfg : Cfg (world F sc R)} (hL : Lawful F R cfg.dt) {σ : Nat → St (world F sc R)}
    {j : Nat} (h0 : Ready (σ 0)) (hx : Exec cfg σ j)
    (hclean : ∀ n m, Dict.get? (σ 0).models n = some m → F.hasCollided m = false) :
    (∀ n m, Dict.get? (σ j).models n = some m → R.isDyn m = false → F.hasCollided m = true →
      Named (σ j).reports n) ∧
    (∀ r ∈ (σ j).reports, ∀ c, r.data = some c → ∀ n ∈ r.players, n ≠ F.envPlayer →
      ∃ m, Dict.get? (σ j).models n = some m ∧ F.hasCollided m = true) := by
  refine ((agree_closed cfg hL).exec ⟨h0.fresh.players, ?_, ?_⟩ hx j le_rfl).2
  · intro n m hm _ hc
    rw [hclean n m hm] at hc
    cases hc
  · intro r hr
    rw [h0.fresh.reports] at hr
    simp at hr

/-- In the concrete run all three cars are flagged, and named. -/
example : Named (Toy.σ 6).reports 2 :=
  (C97_flags_partial (Toy.lawful _) Toy.ready Toy.exec Toy.clean).1 2
    ((115 / 4 : ℚ), (((-3 / 2 : ℚ), (0 : ℚ)), (0 : ℚ)), true) (by decide +kernel) rfl rfl

/-! ## The report of an exception -/

/-- The world of `Toy`, with shapes for which no impact geometry can be found (the exception of
sim/collision_utils.py:50, 70). -/
abbrev badF : Iface Nat ℚ := { toyF with impactGeometry := fun _ _ => .error .collision }

abbrev badCfg : Cfg (world badF true Toy.parts) :=
  { dt := 1 / 2, dtCommands := 1, maxSimTime := 6, afterCollision := 4, missions := [] }

/-- Two cars at rest that overlap. -/
def badStart : St (world badF true Toy.parts) where
  models := [(0, ((0 : ℚ), (((0 : ℚ), (0 : ℚ)), (0 : ℚ)), false)),
    (1, ((1 / 2 : ℚ), (((0 : ℚ), (0 : ℚ)), (0 : ℚ)), false))]
  players := [0, 1]
  w := (fun _ => (0 : Nat), ())
  time := 0
  terminated := false
  reports := []
  firstColl := none
  lastObs := ⟨[], 0⟩
  lastCmdTs := none
  lastCmds := []
  logger := []
  trace := []

theorem badFresh : Fresh badStart where
  time := rfl
  terminated := rfl
  reports := rfl
  firstColl := rfl
  lastCmdTs := rfl
  wfModels := by unfold Dict.Wf; decide
  players := by decide
  keys := by intro n; rfl
  trace := rfl

def badσ : Nat → St (world badF true Toy.parts)
  | 0 => Sim.Toy.orElse badStart (initLoop badStart badStart.players)
  | j + 1 => Sim.Toy.orElse (badσ j) (step badCfg (badσ j))

/-- **C97**, without the restriction to reports with details, is false: when the collision code raises its
exception, the simulator records a report without details that names both players, and flags neither. -/
theorem C97_false : Ready (badσ 0) ∧ Exec badCfg badσ 1 ∧
    (∀ n m, Dict.get? (badσ 0).models n = some m → badF.hasCollided m = false) ∧
    Named (badσ 1).reports 0 ∧
    ∃ m, Dict.get? (badσ 1).models 0 = some m ∧ badF.hasCollided m = false := by
  refine ⟨?_, ?_, ?_, ?_, ?_⟩
  · have h : initLoop badStart badStart.players = .ok (badσ 0) :=
      Sim.Toy.eq_ok badStart (by decide +kernel)
    exact ((safe_initLoop_fresh badStart badFresh).ok h).1
  · intro i hi
    obtain rfl : i = 0 := by omega
    exact ⟨by decide +kernel, Sim.Toy.eq_ok (badσ 0) (by decide +kernel)⟩
  · have h : (badσ 0).models = badStart.models := by decide +kernel
    rw [h]
    intro n m hm
    simp only [badStart, Dict.get?] at hm
    split_ifs at hm <;> (injection hm with hm; subst hm; rfl)
  · have h : (badσ 1).reports.map (fun r => r.players) = [[0, 1]] := by decide +kernel
    cases hr : (badσ 1).reports with
    | nil => rw [hr] at h; cases h
    | cons r rs =>
      rw [hr] at h
      injection h with h _
      have h : r.players = [0, 1] := h
      exact ⟨r, by simp, by rw [h]; simp⟩
  · exact ⟨((0 : ℚ), (((1 / 2 : ℚ), (0 : ℚ)), (0 : ℚ)), false), by decide +kernel, rfl⟩

/-! ## When the collision code does not raise -/

/-- The collision code finds what it needs: the impact geometry of shapes never raises `CollisionException` and
exists only for shapes that meet, the locations of a flagged model are found for every shape that meets its
footprint (C101), and obstacles are polygons or lines. -/
structure Located (F : Iface N K) : Prop where
  geometry : ∀ x y, F.impactGeometry x y ≠ .error .collision
  meet : ∀ x y np, F.impactGeometry x y = .ok np → F.intersects x y = true ∧ F.intersects y x = true
  found : ∀ m x, F.intersects (F.footprint m) x = true → ∃ locs, impactLocations F (F.mark m) x = .ok locs
  polygon : ∀ x, F.toPolygon x ≠ .error .collision

theorem resolve_located (hF : Located F) (t : K) (a b : N) (ma mb : F.M) :
    (Coll.resolve F sc t a ma b mb).2 ≠ .error .collision := by
  unfold Coll.resolve
  dsimp only
  cases h : F.impactGeometry (F.footprint ma) (F.footprint mb) with
  | error e =>
    intro h'
    have e' : e = .collision := by injection h'
    exact hF.geometry _ _ (e' ▸ h)
  | ok np =>
    obtain ⟨n, p⟩ := np
    obtain ⟨i1, i2⟩ := hF.meet _ _ _ h
    obtain ⟨la, ha⟩ := hF.found ma _ i1
    obtain ⟨lb, hb⟩ := hF.found mb _ i2
    dsimp only
    split
    · intro h'; cases h'
    · rw [ha, hb]
      intro h'; cases h'

theorem resolveEnv_located (hF : Located F) (t : K) (a : N) (m : F.M) (x : F.S) (g : Geom K) :
    (Coll.resolveEnv F t a m x g).2 ≠ .error .collision := by
  unfold Coll.resolveEnv
  dsimp only
  cases h : F.impactGeometry (F.footprint m) x with
  | error e =>
    intro h'
    have e' : e = .collision := by injection h'
    exact hF.geometry _ _ (e' ▸ h)
  | ok np =>
    obtain ⟨n, p⟩ := np
    obtain ⟨i1, -⟩ := hF.meet _ _ _ h
    obtain ⟨la, ha⟩ := hF.found m _ i1
    dsimp only
    split
    · intro h'; cases h'
    · rw [ha]
      dsimp only
      cases hp : F.toPolygon x with
      | error e =>
        intro h'
        have e' : e = .collision := by injection h'
        exact hF.polygon _ (e' ▸ hp)
      | ok poly => intro h'; cases h'

/-- **C97.** In every execution that starts without collisions and in which the collision code never raises its
exception, all reports have details, and a player that is not a moving obstacle is flagged as collided if and
only if a report names it. -/
theorem C97_complete_partial {cfg : Cfg (world F sc R)} (hL : Lawful F R cfg.dt) (hF : Located F)
    {σ : Nat → St (world F sc R)} {j : Nat} (h0 : Ready (σ 0)) (hx : Exec cfg σ j)
    (hclean : ∀ n m, Dict.get? (σ 0).models n = some m → F.hasCollided m = false) :
    (∀ r ∈ (σ j).reports, ∃ c, r.data = some c) ∧
    (∀ n m, Dict.get? (σ j).models n = some m → R.isDyn m = false → n ≠ F.envPlayer →
      (F.hasCollided m = true ↔ Named (σ j).reports n)) := by
  have hdata : ∀ r ∈ (σ j).reports, ∃ c, r.data = some c := by
    have hcl : Closed cfg (fun s : St (world F sc R) => s.players.Nodup ∧ ∀ r ∈ s.reports, ∃ c, r.data = some c) := by
      refine closed_models cfg (fun (_ : Dict N F.M) (rs : List (Report (world F sc R))) =>
        ∀ r ∈ rs, ∃ c, r.data = some c) ?_ ?_ ?_
      · intro w n m c w' m' d rs _ _ h
        exact h
      · intro w p m o t d rs rep _ _ hr h r hmem
        change reportOf [p, F.envPlayer] [p] t (Coll.resolveEnv F t p m o.1 o.2).2 = .ok rep at hr
        rcases List.mem_append.mp hmem with hmem | hmem
        · exact h r hmem
        · split at hmem
          · simp at hmem
          · rcases reportOf_cases hr with ⟨-, e⟩ | ⟨d', -, e⟩ | ⟨e, -⟩
            · rw [e] at hmem; simp at hmem
            · rw [e] at hmem
              simp only [Option.toList_some, List.mem_singleton] at hmem
              exact ⟨d', by rw [hmem]⟩
            · exact absurd e (resolveEnv_located hF _ _ _ _ _)
      · intro w a b ma mb t d rs rep _ _ _ hr h r hmem
        change reportOf [a, b] [a, b] t (Coll.resolve F sc t a ma b mb).2 = .ok rep at hr
        rcases List.mem_append.mp hmem with hmem | hmem
        · exact h r hmem
        · rcases reportOf_cases hr with ⟨-, e⟩ | ⟨d', -, e⟩ | ⟨e, -⟩
          · rw [e] at hmem; simp at hmem
          · rw [e] at hmem
            simp only [Option.toList_some, List.mem_singleton] at hmem
            exact ⟨d', by rw [hmem]⟩
          · exact absurd e (resolve_located hF _ _ _ _ _)
    refine (hcl.exec ⟨h0.fresh.players, ?_⟩ hx j le_rfl).2
    intro r hr
    rw [h0.fresh.reports] at hr
    simp at hr
  obtain ⟨h1, h2⟩ := C97_flags_partial hL h0 hx hclean
  refine ⟨hdata, fun n m hm hd hn => ⟨h1 n m hm hd, ?_⟩⟩
  rintro ⟨r, hr, hnr⟩
  obtain ⟨c, hc⟩ := hdata r hr
  obtain ⟨m', hm', hf⟩ := h2 r hr c hc n hnr hn
  rw [hm] at hm'
  injection hm' with hm'
  rw [hm']
  exact hf

/-- The world of `Toy`, with an impact geometry for shapes that meet only. -/
abbrev goodF : Iface Nat ℚ := { toyF with
  impactGeometry := fun a b => if a - b ≤ 1 ∧ b - a ≤ 1 then .ok ((1, 0), ((a + b) / 2, 0)) else .error .assertion }

theorem goodLocated : Located goodF where
  geometry x y h := by
    change (if x - y ≤ 1 ∧ y - x ≤ 1 then Except.ok (((1 : ℚ), (0 : ℚ)), ((x + y) / 2, (0 : ℚ))) else .error Err.assertion) =
      .error Err.collision at h
    split at h <;> cases h
  meet x y np h := by
    change (if x - y ≤ 1 ∧ y - x ≤ 1 then Except.ok (((1 : ℚ), (0 : ℚ)), ((x + y) / 2, (0 : ℚ))) else .error Err.assertion) =
      .ok np at h
    split at h
    · rename_i hi
      exact ⟨decide_eq_true hi, decide_eq_true hi.symm⟩
    · cases h
  found m x h := by
    have h : m.1 - x ≤ 1 ∧ x - m.1 ≤ 1 := of_decide_eq_true h
    refine ⟨((goodF.mesh (goodF.mark m)).filter (fun l => goodF.intersects x l.2)), ?_⟩
    have h' : goodF.intersects x m.1 = true := decide_eq_true h.symm
    have hne : (goodF.mesh (goodF.mark m)).filter (fun l => goodF.intersects x l.2) ≠ [] :=
      List.ne_nil_of_mem (List.mem_filter.mpr ⟨List.mem_cons_self, h'⟩)
    unfold impactLocations
    dsimp only
    rw [if_neg (by rw [List.isEmpty_iff]; exact hne)]
  polygon x h := by cases h

abbrev goodCfg : Cfg (world goodF true Toy.parts) :=
  { dt := 1 / 2, dtCommands := 1, maxSimTime := 6, afterCollision := 4, missions := [] }

/-- Two cars at rest that overlap, and one further away. -/
def goodStart : St (world goodF true Toy.parts) where
  models := [(0, ((0 : ℚ), (((0 : ℚ), (0 : ℚ)), (0 : ℚ)), false)),
    (1, ((1 / 2 : ℚ), (((0 : ℚ), (0 : ℚ)), (0 : ℚ)), false)), (2, ((9 : ℚ), (((0 : ℚ), (0 : ℚ)), (0 : ℚ)), false))]
  players := [0, 1, 2]
  w := (fun _ => (0 : Nat), ())
  time := 0
  terminated := false
  reports := []
  firstColl := none
  lastObs := ⟨[], 0⟩
  lastCmdTs := none
  lastCmds := []
  logger := []
  trace := []

theorem goodFresh : Fresh goodStart where
  time := rfl
  terminated := rfl
  reports := rfl
  firstColl := rfl
  lastCmdTs := rfl
  wfModels := by unfold Dict.Wf; decide
  players := by decide
  keys := by intro n; rfl
  trace := rfl

def goodσ : Nat → St (world goodF true Toy.parts)
  | 0 => Sim.Toy.orElse goodStart (initLoop goodStart goodStart.players)
  | j + 1 => Sim.Toy.orElse (goodσ j) (step goodCfg (goodσ j))

theorem goodLawful (dt : ℚ) : Lawful goodF Toy.parts dt where
  marked _ := rfl
  setVelocity _ _ _ := rfl
  update v n m c v' m' h := by
    injection h with h
    injection h with _ h
    subst h
    rfl
  dynMark _ := rfl
  dynVelocity _ _ _ := rfl
  dynUpdate _ _ _ _ _ _ _ := rfl

/-- Cars 0 and 1 are flagged, so both are named; car 2 is not flagged, so it is not named. -/
example : Named (goodσ 1).reports 0 ∧ Named (goodσ 1).reports 1 ∧ ¬ Named (goodσ 1).reports 2 := by
  have hr : Ready (goodσ 0) := by
    have h : initLoop goodStart goodStart.players = .ok (goodσ 0) := Sim.Toy.eq_ok goodStart (by decide +kernel)
    exact ((safe_initLoop_fresh goodStart goodFresh).ok h).1
  have hx : Exec goodCfg goodσ 1 := by
    intro i hi
    obtain rfl : i = 0 := by omega
    exact ⟨by decide +kernel, Sim.Toy.eq_ok (goodσ 0) (by decide +kernel)⟩
  have hc : ∀ n m, Dict.get? (goodσ 0).models n = some m → goodF.hasCollided m = false := by
    have h : (goodσ 0).models = goodStart.models := by decide +kernel
    rw [h]
    intro n m hm
    simp only [goodStart, Dict.get?] at hm
    split_ifs at hm <;> (injection hm with hm; subst hm; rfl)
  have h := (C97_complete_partial (goodLawful _) goodLocated hr hx hc).2
  have flagged : ∀ (k : Nat) (b : Bool), (Dict.get? (goodσ 1).models k).map (fun m => m.2.2) = some b →
      ∃ m, Dict.get? (goodσ 1).models k = some m ∧ goodF.hasCollided m = b := by
    intro k b hk
    obtain ⟨m, h1, h2⟩ := Option.map_eq_some_iff.mp hk
    exact ⟨m, h1, h2⟩
  obtain ⟨m0, h0, f0⟩ := flagged 0 true (by decide +kernel)
  obtain ⟨m1, h1, f1⟩ := flagged 1 true (by decide +kernel)
  obtain ⟨m2, h2, f2⟩ := flagged 2 false (by decide +kernel)
  refine ⟨(h 0 m0 h0 rfl (by decide)).mp f0, (h 1 m1 h1 rfl (by decide)).mp f1, fun hn => ?_⟩
  have := (h 2 m2 h2 rfl (by decide)).mpr hn
  rw [f2] at this
  cases this

end Whole
end Verif
