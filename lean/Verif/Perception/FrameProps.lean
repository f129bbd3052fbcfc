import Verif.Maps.FrameProps
import Verif.Perception.Filters
import Verif.Perception.Sensor
import Verif.Seq.MapLemmas
import Verif.Whole.FrameProps

/-!
# C154: sensors and observation filters do not depend on the frame of the world

These are the laws that `MovedParts` (C151) asks of sensors.
-/

set_option linter.unusedSectionVars false

namespace Verif
namespace Perception

open Sim (Obs mapD get?_mapD)
open Maps (Mat3 IsRigid applyT2 rigid Transform)

/-! ## The sensor -/

/-- Specification: the same sensor seen from a moved frame. -/
structure MovedSensor (g : Mat3 ℝ) (s s' : Sensor) : Prop where
  pose : (Transform.mk s'.p.1 s'.p.2 s'.theta).asSE2 = g.mul (Transform.mk s.p.1 s.p.2 s.theta).asSE2
  range : s'.range = s.range
  fov : s'.fov = s.fov
  res : s'.res = s.res

/-- Specification: ray tracing gives the same hits in the same order, moved along. -/
def RaysMove (g : Mat3 ℝ) (raytrace raytrace' : ℝ × ℝ → ℝ × ℝ → List ((ℝ × ℝ) × (ℝ × ℝ))) : Prop :=
  ∀ a b, raytrace' (applyT2 g a) (applyT2 g b) = (raytrace a b).map (Prod.map (applyT2 g) (applyT2 g))

variable {g : Mat3 ℝ} {s s' : Sensor}

theorem MovedSensor.at (h : MovedSensor g s s') : s'.p = applyT2 g s.p := Maps.pos_of_asSE2 h.pose

theorem MovedSensor.omni (h : MovedSensor g s s') : s'.isOmni = s.isOmni := by
  unfold Sensor.isOmni; rw [h.fov, h.res]

theorem MovedSensor.end (hg : IsRigid g) (h : MovedSensor g s s') (a : ℝ) :
    s'.rayEnd (s'.theta + a) = applyT2 g (s.rayEnd (s.theta + a)) := by
  obtain ⟨c, sn, x, y, hcs, rfl⟩ := hg
  have h0 := h.pose
  simp only [Transform.asSE2, rigid, Mat3.mul, Mat3.mk.injEq] at h0
  obtain ⟨e1, -, e2, e3, -, e4, -⟩ := h0
  simp only [Sensor.rayEnd, h.range, Real.cos_add, Real.sin_add, e1, e2, e3, e4, applyT2, rigid, Prod.mk.injEq]
  constructor <;> ring

theorem MovedSensor.sq (hg : IsRigid g) (h : MovedSensor g s s') (q : ℝ × ℝ) : s'.sqDist (applyT2 g q) = s.sqDist q := by
  unfold Sensor.sqDist
  rw [h.at]
  obtain ⟨c, sn, x, y, hcs, rfl⟩ := hg
  simp only [applyT2, rigid]
  linear_combination ((q.1 - s.p.1) ^ 2 + (q.2 - s.p.2) ^ 2) * hcs

theorem MovedSensor.fold (hg : IsRigid g) (h : MovedSensor g s s') (hits : List ((ℝ × ℝ) × (ℝ × ℝ))) :
    ∀ acc : (ℝ × ℝ) × ℝ, (hits.map (Prod.map (applyT2 g) (applyT2 g))).foldl s'.closer (applyT2 g acc.1, acc.2) =
      (applyT2 g (hits.foldl s.closer acc).1, (hits.foldl s.closer acc).2) := by
  induction hits with
  | nil => intro acc; rfl
  | cons q l ih =>
    intro acc
    have hc : s'.closer (applyT2 g acc.1, acc.2) (Prod.map (applyT2 g) (applyT2 g) q) =
        (applyT2 g (s.closer acc q).1, (s.closer acc q).2) := by
      unfold Sensor.closer
      simp only [Prod.map_fst, Prod.map_snd, h.sq hg]
      by_cases h1 : s.sqDist q.1 < acc.2
      · simp only [h1, if_true]; split <;> rfl
      · simp only [h1, if_false]; split <;> rfl
    rw [List.map_cons, List.foldl_cons, List.foldl_cons, hc, ih]

theorem MovedSensor.angles (h : MovedSensor g s s') :
    (∃ l : List ℝ, s.rayAngles = .ok (l.map (fun a => s.theta + a)) ∧ s'.rayAngles = .ok (l.map (fun a => s'.theta + a))) ∨
    ∃ e, s.rayAngles = .error e ∧ s'.rayAngles = .error e := by
  unfold Sensor.rayAngles
  rw [h.fov, h.res]
  cases linspace (-s.fov / 2) (s.fov / 2) (truncR (s.fov / s.res) + 1) with
  | error e => exact Or.inr ⟨e, rfl, rfl⟩
  | ok l => exact Or.inl ⟨l, rfl, rfl⟩

/-- **C154.** The visible area of a moved sensor among moved obstacles is the moved visible area, or the same exception; and so
for the disc of a sensor without occlusion. -/
theorem C154_sensor (hg : IsRigid g) (h : MovedSensor g s s') (raytrace raytrace' : ℝ × ℝ → ℝ × ℝ → List ((ℝ × ℝ) × (ℝ × ℝ)))
    (hr : RaysMove g raytrace raytrace') :
    s'.visRange raytrace' = (s.visRange raytrace).map (List.map (applyT2 g)) ∧
    s'.fullRange = s.fullRange.map (Prod.map (applyT2 g) id) := by
  constructor
  · have hv : ∀ a, s'.rayVertex raytrace' (s'.theta + a) = applyT2 g (s.rayVertex raytrace (s.theta + a)) := by
      intro a
      unfold Sensor.rayVertex
      have hr' := hr s.p (s.rayEnd (s.theta + a))
      simp only [h.end hg, h.at, h.range]
      rw [hr', List.isEmpty_map]
      have hf := h.fold hg (raytrace s.p (s.rayEnd (s.theta + a))) (s.rayEnd (s.theta + a), s.range ^ 2)
      simp only at hf
      rw [hf]
      split <;> rfl
    unfold Sensor.visRange
    rcases h.angles with ⟨l, e1, e2⟩ | ⟨e, e1, e2⟩
    · rw [e1, e2]
      have hl : (if s'.isOmni then [] else [s'.p]) ++ (l.map (fun a => s'.theta + a)).map (s'.rayVertex raytrace') =
          ((if s.isOmni then [] else [s.p]) ++ (l.map (fun a => s.theta + a)).map (s.rayVertex raytrace)).map (applyT2 g) := by
        rw [h.omni, h.at, List.map_append]
        congr 1
        · split <;> rfl
        · simp only [List.map_map]
          refine List.map_congr_left fun a _ => hv a
      simp only [hl]
      cases (if s.isOmni then [] else [s.p]) ++ (l.map (fun a => s.theta + a)).map (s.rayVertex raytrace) with
      | nil => rfl
      | cons v rest => simp only [List.map_cons, Except.map, List.map_append, List.map_nil, List.cons_append]
    · rw [e1, e2]; rfl
  · unfold Sensor.fullRange
    rw [h.omni, h.at, h.range]
    split <;> rfl

/-- **C154.** The sensor turned and moved with the frame is such a moved sensor. -/
theorem C154_moved (t : Transform) (s : Sensor) :
    MovedSensor t.asSE2 s { s with p := applyT2 t.asSE2 s.p, theta := s.theta + t.theta } := by
  refine ⟨?_, rfl, rfl, rfl⟩
  simp only [Transform.asSE2, rigid, Mat3.mul, applyT2, Real.cos_add, Real.sin_add]
  ext <;> simp <;> ring

/-- A sensor behind which nothing stands and one obstacle that every ray hits, in a frame turned by any angle. -/
example (t : Transform) (s : Sensor) (wall : ℝ × ℝ) :
    (({ s with p := applyT2 t.asSE2 s.p, theta := s.theta + t.theta } : Sensor).visRange
        fun _ _ => [(applyT2 t.asSE2 wall, applyT2 t.asSE2 wall)]) =
      (s.visRange fun _ _ => [(wall, wall)]).map (List.map (applyT2 t.asSE2)) :=
  (C154_sensor ⟨_, _, _, _, Real.cos_sq_add_sin_sq _, rfl⟩ (C154_moved t s) _ _ fun _ _ => rfl).1

/-! ## Filters -/

section
variable {N K X P X' P' Sc Sc' : Type} [DecidableEq N] [Field K] [LinearOrder K]

/-- Specification: a filter in another frame: it gives the converted answer for converted observations and scenarios, where
`fS` converts what it remembers. -/
structure FilterHom (fx : X → X') (fp : P → P') (fsc : Sc → Sc') (f : Filter N K X P Sc) (f' : Filter N K X' P' Sc')
    (fS : f.S → f'.S) : Prop where
  init : f'.init = fS f.init
  sense : ∀ s sc o pov, f'.sense (fS s) (fsc sc) (o.conv fx fp) pov = (f.sense s sc o pov).map (Prod.map fS (Obs.conv fx fp))

/-- **C154.** The filter that changes nothing, in any frame. -/
theorem C154_id (fx : X → X') (fp : P → P') (fsc : Sc → Sc') :
    FilterHom fx fp fsc (idFilter N K X P Sc) (idFilter N K X' P' Sc') id where
  init := rfl
  sense _ _ _ _ := rfl

/-- **C154.** A delayed filter in another frame. -/
theorem C154_delayed (fx : X → X') (fp : P → P') (fsc : Sc → Sc') {f : Filter N K X P Sc} {f' : Filter N K X' P' Sc'}
    {fS : f.S → f'.S} (h : FilterHom fx fp fsc f f' fS) (latency : K) : FilterHom fx fp fsc (delayed f latency)
      (delayed f' latency) (Prod.map fS (List.map (Prod.map id (Obs.conv fx fp)))) where
  init := by simp only [delayed, h.init, Prod.map_apply, List.map_nil]
  sense s sc o pov := by
    obtain ⟨s0, buf⟩ := s
    show (match f'.sense (fS s0) (fsc sc) (o.conv fx fp) pov with
      | .error e => .error e
      | .ok (s1, obs) => match delayStep latency (buf.map (Prod.map id (Obs.conv fx fp))) obs with
        | .error e => .error e | .ok (b, r) => .ok ((s1, b), r)) =
      Except.map (Prod.map (Prod.map fS (List.map (Prod.map id (Obs.conv fx fp)))) (Obs.conv fx fp)) (match f.sense s0 sc o pov with
      | .error e => .error e
      | .ok (s1, obs) => match delayStep latency buf obs with | .error e => .error e | .ok (b, r) => .ok ((s1, b), r))
    rw [h.sense]
    cases f.sense s0 sc o pov with
    | error e => rfl
    | ok r =>
      obtain ⟨s1, obs⟩ := r
      simp only [Except.map, Prod.map]
      have hd : delayStep latency (buf.map (Prod.map id (Obs.conv fx fp))) (obs.conv fx fp) =
          (delayStep latency buf obs).map (Prod.map (List.map (Prod.map id (Obs.conv fx fp))) (Obs.conv fx fp)) := by
        unfold delayStep
        have e1 : buf.map (Prod.map id (Obs.conv fx fp)) ++ [((obs.conv fx fp).time + latency,
            { obs.conv fx fp with time := (obs.conv fx fp).time + latency })] =
            (buf ++ [(obs.time + latency, { obs with time := obs.time + latency })]).map (Prod.map id (Obs.conv fx fp)) := by
          rw [List.map_append]; rfl
        simp only [e1, List.map_map, pyGet_map]
        have e2 : (Prod.fst ∘ Prod.map id (Obs.conv fx fp) : K × Obs N K X P → K) = Prod.fst := rfl
        rw [e2, show (obs.conv fx fp).time = obs.time from rfl]
        cases pyGet (buf ++ [(obs.time + latency, { obs with time := obs.time + latency })])
          ((bisectLeft ((buf ++ [(obs.time + latency, { obs with time := obs.time + latency })]).map Prod.fst) obs.time : Nat) : Int)
          <;> rfl
      rw [hd]
      cases delayStep latency buf obs <;> rfl

theorem keys_mapD {α β : Type} (f : α → β) (d : Dict N α) : Dict.keys (mapD f d) = Dict.keys d := by
  unfold Dict.keys mapD; rw [List.map_map]; rfl

theorem erase_mapD {α β : Type} (f : α → β) (d : Dict N α) (n : N) : Dict.erase (mapD f d) n = mapD f (Dict.erase d n) := by
  induction d with
  | nil => rfl
  | cons q r ih =>
    obtain ⟨k, v⟩ := q
    simp only [mapD, List.map_cons, Dict.erase] at ih ⊢
    by_cases hk : k = n
    · simp only [hk, if_true]
    · simp only [hk, if_false, List.map_cons, ih]

theorem key_mapD {α β : Type} (f : α → β) (d : Dict N α) (n : N) : getKey (mapD f d) n = (getKey d n).map f := by
  unfold getKey
  rw [get?_mapD]
  cases Dict.get? d n <;> rfl

/-- **C154.** A filter that hides a far player, in another frame. -/
theorem C154_ghosted (hg : IsRigid g) (fx : X → X') (fp : P → P') (fsc : Sc → Sc') {f : Filter N K X P Sc}
    {f' : Filter N K X' P' Sc'} {fS : f.S → f'.S} (h : FilterHom fx fp fsc f f' fS) (pos : X → ℝ × ℝ) (pos' : X' → ℝ × ℝ)
    (hpos : ∀ x, pos' (fx x) = applyT2 g (pos x)) (ghost : N) (far : ℝ) :
    FilterHom fx fp fsc (ghosted f pos ghost far) (ghosted f' pos' ghost far) fS where
  init := h.init
  sense := fun (s : f.S) sc o pov => by
    show (match f'.sense (fS s) (fsc sc) (o.conv fx fp) pov with
      | .error e => .error e
      | .ok (s1, obs) => match ghostStep pos' ghost far obs pov with | .error e => .error e | .ok r => .ok (s1, r)) =
      Except.map (Prod.map fS (Obs.conv fx fp)) (match f.sense s sc o pov with
      | .error e => .error e
      | .ok (s1, obs) => match ghostStep pos ghost far obs pov with | .error e => .error e | .ok r => .ok (s1, r))
    rw [h.sense]
    cases f.sense s sc o pov with
    | error e => rfl
    | ok r =>
      obtain ⟨s1, obs⟩ := r
      simp only [Except.map, Prod.map]
      have hd : ghostStep pos' ghost far (obs.conv fx fp) pov = (ghostStep pos ghost far obs pov).map (Obs.conv fx fp) := by
        unfold ghostStep
        have hk : Dict.keys (obs.conv fx fp).players = Dict.keys obs.players := keys_mapD _ _
        simp only [hk]
        by_cases hc : pov = ghost ∨ ghost ∉ Dict.keys obs.players
        · simp only [hc, if_true]; rfl
        · simp only [hc, if_false]
          have e1 : getKey (obs.conv fx fp).players pov = (getKey obs.players pov).map (Prod.map fx fp) := key_mapD _ _ _
          have e2 : getKey (obs.conv fx fp).players ghost = (getKey obs.players ghost).map (Prod.map fx fp) := key_mapD _ _ _
          rw [e1, e2]
          cases getKey obs.players pov <;> cases getKey obs.players ghost <;> simp only [Except.map]
          rename_i a b
          have hn := Maps.norm_frame hg (pos a.1) (pos b.1)
          unfold Maps.norm2 at hn
          simp only [Prod.map, hpos, hn]
          split
          · simp only [Obs.conv, erase_mapD]
          · rfl
      rw [hd]
      cases ghostStep pos ghost far obs pov <;> rfl

/-- Specification: the geometry of the field of view in another frame. -/
structure FovHom (fx : X → X') (fp : P → P') (G : Fov X P) (G' : Fov X' P') where
  fPo : G.Po → G'.Po
  fOb : G.Ob → G'.Ob
  fA : G.A → G'.A
  pose : ∀ x, G'.pose (fx x) = fPo (G.pose x)
  polygons : ∀ p, G'.polygons (fp p) = (G.polygons p).map fOb
  area : ∀ q os, G'.area (fPo q) (os.map fOb) = (G.area q os).map fA
  meets : ∀ a p, G'.meets (fA a) (fp p) = G.meets a p
  repairArea : ∀ a, G'.repairArea (fA a) = fA (G.repairArea a)
  repairOcc : ∀ p, G'.repairOcc (fp p) = fp (G.repairOcc p)

theorem heads_map {α β : Type} (f : α → β) : ∀ ls : List (List α),
    heads (ls.map (List.map f)) = ((heads ls).1.map f, (heads ls).2.map (List.map f))
  | [] => rfl
  | [] :: ls => by simp only [List.map_cons, List.map_nil, heads]; exact heads_map f ls
  | (a :: l) :: ls => by simp only [List.map_cons, heads, heads_map f ls]

theorem interleave_map {α β : Type} (f : α → β) (ls : List (List α)) :
    interleave (ls.map (List.map f)) = (interleave ls).map f := by
  have hn : ∀ n (ls : List (List α)), interleaveN n (ls.map (List.map f)) = (interleaveN n ls).map f := by
    intro n
    induction n with
    | zero => intro ls; rfl
    | succ n ih =>
      intro ls
      simp only [interleaveN, heads_map, ih, List.isEmpty_map]
      split
      · rfl
      · rw [List.map_append]
  unfold interleave
  rw [hn, List.map_map]
  have : (List.length ∘ List.map f : List α → Nat) = List.length := by funext l; simp
  rw [this]

theorem set_mapD {α β : Type} (f : α → β) (d : Dict N α) (n : N) (v : α) :
    Dict.set (mapD f d) n (f v) = mapD f (Dict.set d n v) := by
  induction d with
  | nil => rfl
  | cons q r ih =>
    obtain ⟨k, w⟩ := q
    simp only [mapD, List.map_cons, Dict.set] at ih ⊢
    by_cases hk : k = n
    · simp only [hk, if_true, List.map_cons]
    · simp only [hk, if_false, List.map_cons, ih]

theorem look_frame {fx : X → X'} {fp : P → P'} {G : Fov X P} {G' : Fov X' P'} (h : FovHom fx fp G G') (a : G.A) (o : X × P) :
    lookAt G' (h.fA a) (Prod.map fx fp o) = (lookAt G a o).map (Prod.map h.fA (Option.map (Prod.map fx fp))) := by
  unfold lookAt
  simp only [Prod.map_fst, Prod.map_snd, h.meets, h.repairArea, h.repairOcc]
  cases G.meets a o.2 with
  | ok seen => cases seen <;> rfl
  | error e =>
    simp only
    cases G.meets (G.repairArea a) (G.repairOcc o.2) with
    | ok seen => cases seen <;> rfl
    | error e => rfl

theorem loop_frame {fx : X → X'} {fp : P → P'} {G : Fov X P} {G' : Fov X' P'} (h : FovHom fx fp G G') (pov : N)
    (l : Dict N (X × P)) : ∀ (a : G.A) (acc : Dict N (X × P)),
    lookLoop G' pov (h.fA a) (mapD (Prod.map fx fp) l) (mapD (Prod.map fx fp) acc) =
      (lookLoop G pov a l acc).map (mapD (Prod.map fx fp)) := by
  induction l with
  | nil => intro a acc; rfl
  | cons q r ih =>
    intro a acc
    obtain ⟨n, o⟩ := q
    show lookLoop G' pov (h.fA a) ((n, Prod.map fx fp o) :: mapD (Prod.map fx fp) r) _ = _
    simp only [lookLoop]
    by_cases hn : n = pov
    · simp only [hn, if_true, ih]
    · simp only [hn, if_false, look_frame h]
      cases lookAt G a o with
      | error e => rfl
      | ok r2 =>
        obtain ⟨a2, w⟩ := r2
        cases w with
        | none => simp only [Except.map, Prod.map, Option.map_none]; exact ih a2 acc
        | some o2 =>
          simp only [Except.map, Prod.map_apply, Option.map_some]
          rw [set_mapD]
          exact ih a2 _

/-- **C154.** The filter that keeps what is in the field of view, in another frame. -/
theorem C154_fov (fx : X → X') (fp : P → P') {G : Fov X P} {G' : Fov X' P'} (h : FovHom fx fp G G') :
    FilterHom fx fp (List.map fp) (fov N K G) (fov N K G') (List.map h.fOb) where
  init := rfl
  sense := fun (cache : List G.Ob) sc o pov => by
    simp only [fov]
    have e1 : getKey (o.conv fx fp).players pov = (getKey o.players pov).map (Prod.map fx fp) := key_mapD _ _ _
    rw [e1]
    cases getKey o.players pov with
    | error e => rfl
    | ok me =>
      simp only [Except.map, List.isEmpty_map]
      have hst : (if cache.isEmpty then interleave ((sc.map fp).map G'.polygons) else cache.map h.fOb) =
          (if cache.isEmpty then interleave (sc.map G.polygons) else cache).map h.fOb := by
        cases cache.isEmpty
        · rfl
        · simp only [if_true]
          rw [← interleave_map, List.map_map, List.map_map]
          congr 1
          exact List.map_congr_left fun p _ => h.polygons p
      have hdy : interleave ((List.filter (fun q => decide (q.1 ≠ pov)) (o.conv fx fp).players).map (fun q => G'.polygons q.2.2)) =
          (interleave ((o.players.filter (fun q => decide (q.1 ≠ pov))).map (fun q => G.polygons q.2.2))).map h.fOb := by
        rw [← interleave_map]
        congr 1
        simp only [Obs.conv, mapD, List.filter_map, List.map_map]
        refine List.map_congr_left fun q _ => ?_
        exact h.polygons q.2.2
      rw [hst, hdy]
      generalize (if cache.isEmpty then interleave (sc.map G.polygons) else cache) = st
      generalize interleave ((o.players.filter (fun q => decide (q.1 ≠ pov))).map (fun q => G.polygons q.2.2)) = dy
      rw [← List.map_append]
      have e3 : G'.pose (Prod.map fx fp me).1 = h.fPo (G.pose me.1) := h.pose me.1
      rw [e3, h.area]
      cases G.area (G.pose me.1) (st ++ dy) with
      | error e => rfl
      | ok a =>
        simp only [Except.map]
        have hl := loop_frame h pov o.players a [(pov, me)]
        have e4 : mapD (Prod.map fx fp) [(pov, me)] = [(pov, Prod.map fx fp me)] := rfl
        rw [e4] at hl
        rw [show (o.conv fx fp).players = mapD (Prod.map fx fp) o.players from rfl, hl]
        cases lookLoop G pov a o.players [(pov, me)] <;> rfl

/-- **C154.** A filter object in another frame is asked any number of times: the same answers, converted, or the same
exception at the same call. -/
theorem C154_calls {fx : X → X'} {fp : P → P'} {fsc : Sc → Sc'} {f : Filter N K X P Sc} {f' : Filter N K X' P' Sc'}
    {fS : f.S → f'.S} (h : FilterHom fx fp fsc f f' fS) (calls : List (Sc × Obs N K X P × N)) :
    senseAll f' f'.init (calls.map fun c => (fsc c.1, c.2.1.conv fx fp, c.2.2)) =
      (senseAll f f.init calls).map (Prod.map fS (List.map (Obs.conv fx fp))) := by
  rw [h.init]
  generalize f.init = s
  induction calls generalizing s with
  | nil => rfl
  | cons c rest ih =>
    obtain ⟨sc, o, pov⟩ := c
    simp only [List.map_cons, senseAll, h.sense]
    cases f.sense s sc o pov with
    | error e => rfl
    | ok r =>
      obtain ⟨s1, r1⟩ := r
      simp only [Except.map, Prod.map, ih s1]
      cases senseAll f s1 rest <;> rfl

/-! ## The field of view of the sensors -/

/-- `FovObsFilter` with a `VisRangeSensor`, sim_perception.py:38-91 and sensor.py:49-86: the pose of the sensor is set from the
state before each use. What is left as a parameter: the pose of a state, the polygons of a shape, ray tracing among polygons,
shapely's test and its repair of invalid polygons. -/
noncomputable def visFov {Ob : Type} (s : Sensor) (poseOf : X → Mat3 ℝ) (polygons : P → List Ob)
    (rays : List Ob → ℝ × ℝ → ℝ × ℝ → List ((ℝ × ℝ) × (ℝ × ℝ))) (meets : List (ℝ × ℝ) → P → Except Err Bool)
    (repairArea : List (ℝ × ℝ) → List (ℝ × ℝ)) (repairOcc : P → P) : Fov X P where
  Po := Transform
  Ob := Ob
  A := List (ℝ × ℝ)
  pose x := Transform.fromSE2 (poseOf x)
  polygons := polygons
  area q os := ({ s with p := (q.x, q.y), theta := q.theta } : Sensor).visRange (rays os)
  meets := meets
  repairArea := repairArea
  repairOcc := repairOcc

/-- Specification: the parameters of `visFov` in a moved frame. -/
structure MovedView {Ob Ob' : Type} (g : Mat3 ℝ) (fx : X → X') (fp : P → P') (fo : Ob → Ob')
    (poseOf : X → Mat3 ℝ) (poseOf' : X' → Mat3 ℝ) (polygons : P → List Ob) (polygons' : P' → List Ob')
    (rays : List Ob → ℝ × ℝ → ℝ × ℝ → List ((ℝ × ℝ) × (ℝ × ℝ)))
    (rays' : List Ob' → ℝ × ℝ → ℝ × ℝ → List ((ℝ × ℝ) × (ℝ × ℝ)))
    (meets : List (ℝ × ℝ) → P → Except Err Bool) (meets' : List (ℝ × ℝ) → P' → Except Err Bool)
    (repairArea repairArea' : List (ℝ × ℝ) → List (ℝ × ℝ)) (repairOcc : P → P) (repairOcc' : P' → P') : Prop where
  pose : ∀ x, poseOf' (fx x) = g.mul (poseOf x)
  rigid : ∀ x, IsRigid (poseOf x)
  polygons : ∀ p, polygons' (fp p) = (polygons p).map fo
  rays : ∀ os, RaysMove g (rays os) (rays' (os.map fo))
  meets : ∀ a p, meets' (a.map (applyT2 g)) (fp p) = meets a p
  area : ∀ a, repairArea' (a.map (applyT2 g)) = (repairArea a).map (applyT2 g)
  occ : ∀ p, repairOcc' (fp p) = fp (repairOcc p)

/-- **C154.** What a player sees with its range sensor, for any number of calls: the same players in every frame, at the moved
states, or the same exception. -/
theorem C154_view {Ob Ob' : Type} (hg : IsRigid g) (s : Sensor) (fx : X → X') (fp : P → P') (fo : Ob → Ob')
    {poseOf : X → Mat3 ℝ} {poseOf' : X' → Mat3 ℝ} {polygons : P → List Ob} {polygons' : P' → List Ob'}
    {rays : List Ob → ℝ × ℝ → ℝ × ℝ → List ((ℝ × ℝ) × (ℝ × ℝ))}
    {rays' : List Ob' → ℝ × ℝ → ℝ × ℝ → List ((ℝ × ℝ) × (ℝ × ℝ))}
    {meets : List (ℝ × ℝ) → P → Except Err Bool} {meets' : List (ℝ × ℝ) → P' → Except Err Bool}
    {repairArea repairArea' : List (ℝ × ℝ) → List (ℝ × ℝ)} {repairOcc : P → P} {repairOcc' : P' → P'}
    (h : MovedView g fx fp fo poseOf poseOf' polygons polygons' rays rays' meets meets' repairArea repairArea' repairOcc repairOcc')
    (calls : List (List P × Obs N K X P × N)) :
    (senseAll (fov N K (visFov s poseOf' polygons' rays' meets' repairArea' repairOcc')) []
      (calls.map fun c => (c.1.map fp, c.2.1.conv fx fp, c.2.2))).map Prod.snd =
    (senseAll (fov N K (visFov s poseOf polygons rays meets repairArea repairOcc)) [] calls).map
      (fun r => r.2.map (Obs.conv fx fp)) := by
  have hh : FovHom fx fp (visFov s poseOf polygons rays meets repairArea repairOcc)
      (visFov s poseOf' polygons' rays' meets' repairArea' repairOcc') :=
    { fPo := fun q => Transform.fromSE2 (g.mul q.asSE2)
      fOb := fo
      fA := List.map (applyT2 g)
      pose := by
        intro x
        show Transform.fromSE2 (poseOf' (fx x)) = Transform.fromSE2 (g.mul (Transform.fromSE2 (poseOf x)).asSE2)
        rw [h.pose, (Maps.C56_convert (poseOf x) (h.rigid x) Transform.identity).1]
      polygons := h.polygons
      area := by
        intro q os
        have hm : MovedSensor g { s with p := (q.x, q.y), theta := q.theta }
            { s with p := ((Transform.fromSE2 (g.mul q.asSE2)).x, (Transform.fromSE2 (g.mul q.asSE2)).y),
                     theta := (Transform.fromSE2 (g.mul q.asSE2)).theta } :=
          ⟨(Maps.C56_convert (g.mul q.asSE2) (hg.mul (Maps.asSE2_rigid q)) Transform.identity).1, rfl, rfl, rfl⟩
        exact (C154_sensor hg hm (rays os) (rays' (os.map fo)) (h.rays os)).1
      meets := h.meets
      repairArea := h.area
      repairOcc := h.occ }
  have hc := C154_calls (N := N) (K := K) (C154_fov fx fp hh) calls
  rw [show (fov N K (visFov s poseOf' polygons' rays' meets' repairArea' repairOcc')).init = [] from rfl] at hc
  rw [hc]
  show Except.map Prod.snd (Except.map _ (senseAll _ _ calls)) = _
  rw [show (fov N K (visFov s poseOf polygons rays meets repairArea repairOcc)).init = [] from rfl]
  cases senseAll (fov N K (visFov s poseOf polygons rays meets repairArea repairOcc)) [] calls <;> rfl

end

theorem apply_inj {g : Mat3 ℝ} (hg : IsRigid g) : Function.Injective (applyT2 g) := by
  obtain ⟨c, sn, x, y, hcs, rfl⟩ := hg
  rintro ⟨a, b⟩ ⟨a', b'⟩ h
  simp only [applyT2, rigid, Prod.mk.injEq] at h
  obtain ⟨h1, h2⟩ := h
  refine Prod.ext ?_ ?_
  · show a = a'
    linear_combination c * h1 + sn * h2 + (a' - a) * hcs
  · show b = b'
    linear_combination c * h2 - sn * h1 + (b' - b) * hcs

/-- A world of points seen in any other frame: each obstacle is hit by each ray, and a point is seen if it is a vertex of the
visible area. -/
example (t : Transform) (s : Sensor) (calls : List (List (ℝ × ℝ) × Obs Nat ℚ Transform (ℝ × ℝ) × Nat)) :
    let see := fov Nat ℚ (visFov s Transform.asSE2 (fun p : ℝ × ℝ => [p]) (fun os _ _ => os.map fun o => (o, o))
      (fun (a : List (ℝ × ℝ)) (p : ℝ × ℝ) => .ok (open Classical in decide (p ∈ a))) id id)
    let fx := fun q : Transform => Transform.fromSE2 (t.asSE2.mul q.asSE2)
    (senseAll see [] (calls.map fun c => (c.1.map (applyT2 t.asSE2), c.2.1.conv fx (applyT2 t.asSE2), c.2.2))).map Prod.snd =
      (senseAll see [] calls).map (fun r => r.2.map (Obs.conv fx (applyT2 t.asSE2))) := by
  have hg : IsRigid t.asSE2 := Maps.asSE2_rigid t
  intro see fx
  have hv : MovedView t.asSE2 fx (applyT2 t.asSE2) (applyT2 t.asSE2) Transform.asSE2 Transform.asSE2
      (fun p : ℝ × ℝ => [p]) (fun p : ℝ × ℝ => [p]) (fun os _ _ => os.map fun o => (o, o)) (fun os _ _ => os.map fun o => (o, o))
      (fun (a : List (ℝ × ℝ)) (p : ℝ × ℝ) => .ok (open Classical in decide (p ∈ a)))
      (fun (a : List (ℝ × ℝ)) (p : ℝ × ℝ) => .ok (open Classical in decide (p ∈ a))) id id id id := by
    refine ⟨fun q => (Maps.C56_convert _ (hg.mul (Maps.asSE2_rigid q)) Transform.identity).1, Maps.asSE2_rigid, fun p => rfl,
      ?_, ?_, fun _ => rfl, fun _ => rfl⟩
    · intro os a b
      simp only [List.map_map]
      rfl
    · intro a p
      have := List.mem_map_of_injective (apply_inj hg) (l := a) (a := p)
      simp only [this]
  exact C154_view hg s fx _ _ hv calls

end Perception
end Verif
