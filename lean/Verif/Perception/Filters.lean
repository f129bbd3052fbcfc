import Verif.Sim.Model
import Mathlib.Analysis.Real.Sqrt

/-!
# Observation filters (src/dg_commons/sim/sim_perception.py)

A filter object is a state with a `sense` method. Scenarios enter only through their static
obstacles. Geometry (poses, polygons, visible area, intersection tests) is abstract: parameters of
`Fov`. Observations are those of the simulator (`Obs`).
-/

namespace Verif
namespace Perception

open Verif.Sim (Obs)

variable {N K X P : Type} [DecidableEq N] [Field K] [LinearOrder K]

/-- An observation filter: its attributes and `sense`, sim_perception.py:20-30. `Sc` is the type of
scenarios. -/
structure Filter (N K X P Sc : Type) where
  S : Type
  init : S
  sense : S → Sc → Obs N K X P → N → Except Err (S × Obs N K X P)

/-- `d[k]` -/
def getKey {α : Type} (d : Dict N α) (n : N) : Except Err α :=
  match Dict.get? d n with
  | some a => .ok a
  | none => .error .key

/-- `IdObsFilter`, sim_perception.py:33-37. -/
def idFilter (N K X P Sc : Type) : Filter N K X P Sc where
  S := Unit
  init := ()
  sense s _ o _ := .ok (s, o)

/-! ## Delay -/

/-- The history of `DelayedObsFilter`, sim_perception.py:108. -/
abbrev History (N K X P : Type) := List (K × Obs N K X P)

/-- Body of `DelayedObsFilter.sense` after the inner filter was called,
sim_perception.py:112-116. -/
def delayStep (latency : K) (h : History N K X P) (obs : Obs N K X P) :
    Except Err (History N K X P × Obs N K X P) :=
  let shifted := obs.time + latency
  let h' := h ++ [(shifted, { obs with time := shifted })]
  let idx := bisectLeft (h'.map Prod.fst) obs.time
  match pyGet h' (idx : Int) with
  | .ok p => .ok (h', p.2)
  | .error e => .error e

/-- `DelayedObsFilter`, sim_perception.py:98-119. -/
def delayed {Sc : Type} (f : Filter N K X P Sc) (latency : K) : Filter N K X P Sc where
  S := f.S × History N K X P
  init := (f.init, [])
  sense s sc o pov :=
    match f.sense s.1 sc o pov with
    | .error e => .error e
    | .ok (s1, obs) =>
      match delayStep latency s.2 obs with
      | .error e => .error e
      | .ok (h, r) => .ok ((s1, h), r)

/-! ## Ghost -/

/-- Body of `GhostObsFilter.sense` after the inner filter was called, sim_perception.py:142-153.
`pos` is `extract_2d_position_from_state`; `np.linalg.norm` is the exact Euclidean norm. -/
noncomputable def ghostStep (pos : X → ℝ × ℝ) (ghost : N) (furtherThan : ℝ) (obs : Obs N K X P)
    (pov : N) : Except Err (Obs N K X P) :=
  if pov = ghost ∨ ghost ∉ Dict.keys obs.players then .ok obs
  else
    match getKey obs.players pov, getKey obs.players ghost with
    | .ok a, .ok b =>
      let d := Real.sqrt (((pos a.1).1 - (pos b.1).1) ^ 2 + ((pos a.1).2 - (pos b.1).2) ^ 2)
      if furtherThan < d then .ok { obs with players := Dict.erase obs.players ghost } else .ok obs
    | .error e, _ => .error e
    | _, .error e => .error e

/-- `GhostObsFilter`, sim_perception.py:122-153. -/
noncomputable def ghosted {Sc : Type} (f : Filter N K X P Sc) (pos : X → ℝ × ℝ) (ghost : N)
    (furtherThan : ℝ) : Filter N K X P Sc where
  S := f.S
  init := f.init
  sense s sc o pov :=
    match f.sense s sc o pov with
    | .error e => .error e
    | .ok (s1, obs) =>
      match ghostStep pos ghost furtherThan obs pov with
      | .error e => .error e
      | .ok r => .ok (s1, r)

/-! ## Field of view -/

/-- The first elements of the non-empty lists, and the rests of these lists. -/
def heads {α : Type} : List (List α) → List α × List (List α)
  | [] => ([], [])
  | [] :: ls => heads ls
  | (a :: l) :: ls => let r := heads ls; (a :: r.1, l :: r.2)

/-- Rounds of `cytoolz.interleave`. -/
def interleaveN {α : Type} : Nat → List (List α) → List α
  | 0, _ => []
  | n + 1, ls =>
    let r := heads ls
    if r.1.isEmpty then [] else r.1 ++ interleaveN n r.2

/-- `list(cytoolz.interleave(ls))`: one element of each list in turn, exhausted lists are dropped. -/
def interleave {α : Type} (ls : List (List α)) : List α :=
  interleaveN ((ls.map List.length).foldr max 0 + 1) ls

/-- The geometry used by the filter: pose type `Po`, obstacle polygons `Ob`, visible area `A`. -/
structure Fov (X P : Type) where
  Po : Type
  Ob : Type
  A : Type
  /-- `SE2Transform.from_SE2(extract_pose_from_state(state))` -/
  pose : X → Po
  /-- `shapely2crPolygons(occupancy)` -/
  polygons : P → List Ob
  /-- `sensor.fov_as_polygon(obstacles)` with the pose of the sensor, may raise -/
  area : Po → List Ob → Except Err A
  /-- `fov_poly.intersects(occupancy)`, may raise -/
  meets : A → P → Except Err Bool
  /-- `make_valid` if not `is_valid` -/
  repairArea : A → A
  repairOcc : P → P

/-- Body of the loop, sim_perception.py:73-90: the possibly repaired area and the entry to keep, if
any. If the second intersection test raises, the exception leaves the `try` statement (after
the `finally` clause, whose effect is then lost). -/
def lookAt (G : Fov X P) (area : G.A) (o : X × P) : Except Err (G.A × Option (X × P)) :=
  match G.meets area o.2 with
  | .ok seen => .ok (area, if seen then some o else none)
  | .error _ =>
    let area' := G.repairArea area
    let o' := (o.1, G.repairOcc o.2)
    match G.meets area' o'.2 with
    | .ok seen => .ok (area', if seen then some o' else none)
    | .error e => .error e

/-- The loop, sim_perception.py:73-90. -/
def lookLoop (G : Fov X P) (pov : N) : G.A → Dict N (X × P) → Dict N (X × P) →
    Except Err (Dict N (X × P))
  | _, [], acc => .ok acc
  | area, (p, o) :: rest, acc =>
    if p = pov then lookLoop G pov area rest acc
    else
      match lookAt G area o with
      | .error e => .error e
      | .ok (area', none) => lookLoop G pov area' rest acc
      | .ok (area', some o') => lookLoop G pov area' rest (Dict.set acc p o')

/-- `FovObsFilter`, sim_perception.py:40-95. A scenario is the list of the shapes of its static
obstacles. The state is the cache `_static_obstacles`; the pose of the sensor is overwritten on every
call and the debug counter is never read. -/
def fov (N K : Type) [DecidableEq N] (G : Fov X P) : Filter N K X P (List P) where
  S := List G.Ob
  init := []
  sense cache sc o pov :=
    match getKey o.players pov with
    | .error e => .error e
    | .ok me =>
      let static := if cache.isEmpty then interleave (sc.map G.polygons) else cache
      let dynamic := interleave
        ((o.players.filter (fun q => decide (q.1 ≠ pov))).map (fun q => G.polygons q.2.2))
      match G.area (G.pose me.1) (static ++ dynamic) with
      | .error e => .error e
      | .ok area =>
        match lookLoop G pov area o.players [(pov, me)] with
        | .error e => .error e
        | .ok ps => .ok (static, { o with players := ps })

/-! ## Several calls -/

/-- Consecutive calls of a filter object: the results. -/
def senseAll {Sc : Type} (f : Filter N K X P Sc) : f.S → List (Sc × Obs N K X P × N) →
    Except Err (f.S × List (Obs N K X P))
  | s, [] => .ok (s, [])
  | s, (sc, o, pov) :: rest =>
    match f.sense s sc o pov with
    | .error e => .error e
    | .ok (s1, r) =>
      match senseAll f s1 rest with
      | .error e => .error e
      | .ok (s2, rs) => .ok (s2, r :: rs)

end Perception
end Verif
