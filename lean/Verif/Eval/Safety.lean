import Verif.Eval.Efficiency
import Verif.Sim.LogModel
import Verif.Maps.Geo
import Mathlib.Data.EReal.Basic
import Mathlib.Analysis.SpecialFunctions.Trigonometric.Basic

/-!
# Safety metrics (eval/safety.py)

`np.inf` is `none` in `Option K` (minima), and `⊤`, `⊥` in `EReal`.
-/

namespace Verif
namespace Eval

open Sim

/-- `has_collision`, safety.py:20-27: `players` are the keys of each report's `players`; `ego` is the
player name "Ego". -/
def hasCollision {N : Type} [DecidableEq N] (ego : N) (reports : List (List N)) : Bool :=
  decide (ego ∈ reports.foldl (fun s r => s ++ r) [])

section
variable {N K : Type} [DecidableEq N] [Field K] [LinearOrder K]

/-- `d[k]`. -/
def getKey {α : Type} (d : Dict N α) (k : N) : Except Err α :=
  match Dict.get? d k with
  | some a => .ok a
  | none => .error .key

/-- `a < b` for floats where `none` is `np.inf`. -/
def infLt : Option K → Option K → Bool
  | some a, some b => decide (a < b)
  | some _, none => true
  | none, _ => false

/-- `_remove_finished_players`, safety.py:238-253; `done g x` is `is_fulfilled`. -/
def removeFinished {X G : Type} (done : G → X → Except Err Bool) (missions : Dict N G) :
    Dict N X → Except Err (Dict N X)
  | [] => .ok []
  | (n, x) :: rest => do
    let g ← getKey missions n
    let b ← done g x
    let r ← removeFinished done missions rest
    return if b then r else (n, x) :: r

/-- The loop of `get_min_dist_at_t`, safety.py:117-126; `dist` is `_get_dist`. -/
def distLoop {X M : Type} (dist : X → X → M → M → K) (models : Dict N M) (ego : N) (xe : X) (me : M) :
    Dict N X → Option K × Option N → Except Err (Option K × Option N)
  | [], acc => .ok acc
  | (n, x) :: rest, acc =>
    if n = ego then distLoop dist models ego xe me rest acc
    else match getKey models n with
      | .error e => .error e
      | .ok m =>
        distLoop dist models ego xe me rest
          (if infLt (some (dist xe x me m)) acc.1 then (some (dist xe x me m), some n) else acc)

/-- `get_min_dist_at_t`, safety.py:93-127, for the states of `logs.at_interp(t)`. -/
def minDistAt {X M G : Type} (dist : X → X → M → M → K) (done : G → X → Except Err Bool)
    (models : Dict N M) (missions : Dict N G) (ego : N) (states : Dict N X) :
    Except Err (Option K × Option N) := do
  let act ← removeFinished done missions states
  match Dict.get? act ego with
  | none => .ok (none, none)
  | some xe =>
    let me ← getKey models ego
    distLoop dist models ego xe me act (none, none)

/-- The loop of `get_min_dist`, safety.py:45-54; `at_t` is `get_min_dist_at_t` as a function of time. -/
def minLoop (at_t : K → Except Err (Option K × Option N)) (lo hi : Option K) :
    List K → Option K × Option N × Option K → Except Err (Option K × Option N × Option K)
  | [], acc => .ok acc
  | t :: ts, acc =>
    if tooEarly lo t then minLoop at_t lo hi ts acc
    else if tooLate hi t then .ok acc
    else match at_t t with
      | .error e => .error e
      | .ok (d, n) => minLoop at_t lo hi ts (if infLt d acc.1 then (d, n, some t) else acc)

/-- The states in `logs.at_interp(t)`. -/
def statesAt {Wd : World N K} [AddCommGroup Wd.X] [Module K Wd.X] (logs : Dict N (PlayerLog Wd)) (t : K) :
    Except Err (Dict N Wd.X) := do
  let es ← SimLog.atInterp logs t
  return es.map (fun e => (e.1, e.2.state))

/-- `get_min_dist`, safety.py:30-55. -/
def getMinDist {Wd : World N K} [AddCommGroup Wd.X] [Module K Wd.X] {M G : Type}
    (dist : Wd.X → Wd.X → M → M → K) (done : G → Wd.X → Except Err Bool) (logs : Dict N (PlayerLog Wd))
    (models : Dict N M) (missions : Dict N G) (ego : N) (lo hi : Option K) :
    Except Err (Option K × Option N × Option K) := do
  let l ← getKey logs ego
  minLoop (fun t => do
      let st ← statesAt logs t
      minDistAt dist done models missions ego st) lo hi l.states.ts (none, none, none)

end

/-! ## Time to collision -/

section
variable {K : Type} [Field K] [LinearOrder K] {P : Type}

/-- The loop of `_get_ttc_of_poly_and_state`, safety.py:229-235, with at most `fuel` turns; `meets q` is
`poly1.intersects(q)`, `shift` moves the second polygon by `delta_pos`. The outer `none` means that the
loop is still running, the inner one infinity. The floating-point accumulation of the time is exact here. -/
def ttcLoop (meets : P → Bool) (shift : P → P) : Nat → P → K → Option (Option K)
  | 0, _, _ => none
  | fuel + 1, q, time =>
    if meets q then some (some time)
    else if 3 < time then some none
    else ttcLoop meets shift fuel (shift q) (time + 1 / 10)

end

/-- What the time to collision reads of a state. -/
structure Kin where
  x : ℝ
  y : ℝ
  psi : ℝ
  vx : ℝ

/-- `_get_ttc_of_poly_and_state`, safety.py:214-235, with at most `fuel` turns of the loop: time and the
two distances, `none` for infinity. -/
noncomputable def getTtc {P : Type} (intersects : P → P → Bool) (translate : ℝ → ℝ → P → P)
    (p1 p2 : P) (s1 s2 : Kin) (fuel : Nat) : Option (Option (ℝ × ℝ × ℝ)) :=
  let dx := (s2.vx * Real.cos s2.psi - s1.vx * Real.cos s1.psi) * (1 / 10)
  let dy := (s2.vx * Real.sin s2.psi - s1.vx * Real.sin s1.psi) * (1 / 10)
  match ttcLoop (intersects p1) (translate dx dy) fuel p2 (0 : ℝ) with
  | none => none
  | some none => some none
  | some (some t) => some (some (t, s1.vx * t, s2.vx * t))

/-- Rate of change of the distance of the two positions, `rel_vel_along_dist`, safety.py:163-168 (the
distance of the centers must not be zero). -/
noncomputable def closing (e a : Kin) : ℝ :=
  ((a.vx * Real.cos a.psi - e.vx * Real.cos e.psi) * ((a.x - e.x) / Maps.norm2 (a.x - e.x) (a.y - e.y)) +
   (a.vx * Real.sin a.psi - e.vx * Real.sin e.psi) * ((a.y - e.y) / Maps.norm2 (a.x - e.x) (a.y - e.y)))

open Classical in
/-- The test of safety.py:169: the agents leave each other or are far from each other. With coinciding
centers all comparisons are with not-a-number and so false; a zero rate gives an infinite quotient. -/
noncomputable def skipAgent (e a : Kin) : Bool :=
  let d := Maps.norm2 (a.x - e.x) (a.y - e.y)
  if d = 0 then false
  else decide (0 < closing e a ∨ closing e a = 0 ∨ 5 < |d / closing e a|)

open Classical in
/-- `drac`, safety.py:177: deceleration needed to stop within the distance to collision (`none`:
infinite, for which the quotient is zero). -/
noncomputable def drac (vx : ℝ) (dtc : Option ℝ) : EReal :=
  match dtc with
  | none => 0
  | some d => if 0 < d then ((vx ^ 2 / (2 * d) : ℝ) : EReal) else ⊤

/-- Results of `get_ttc_drac_at_t`. -/
structure TtcDrac (N : Type) where
  ttc : EReal := ⊤
  ttcAgent : Option N := none
  drac : EReal := ⊥
  dracAgent : Option N := none

open Classical in
/-- The body of the loop for one agent that is not skipped, safety.py:172-180. -/
noncomputable def TtcDrac.update {N : Type} (r : TtcDrac N) (n : N) (t d : EReal) : TtcDrac N :=
  let r := if t < r.ttc then { r with ttc := t, ttcAgent := some n } else r
  if r.drac < d then { r with drac := d, dracAgent := some n } else r

section
variable {N : Type} [DecidableEq N]

/-- The loop of `get_ttc_drac_at_t`, safety.py:157-180; `ttc` is `_get_ttc` of the ego and an agent. -/
noncomputable def ttcDracLoop {X M : Type} (kin : X → Kin) (ttc : X → X → M → M → Option (ℝ × ℝ × ℝ))
    (models : Dict N M) (ego : N) (xe : X) (me : M) : Dict N X → TtcDrac N → Except Err (TtcDrac N)
  | [], r => .ok r
  | (n, x) :: rest, r =>
    if n = ego then ttcDracLoop kin ttc models ego xe me rest r
    else match getKey models n with
      | .error e => .error e
      | .ok m =>
        if skipAgent (kin xe) (kin x) then ttcDracLoop kin ttc models ego xe me rest r
        else
          let c := ttc xe x me m
          ttcDracLoop kin ttc models ego xe me rest
            (r.update n ((c.map (fun c => (c.1 : EReal))).getD ⊤) (drac (kin xe).vx (c.map (·.2.1))))

/-- `get_ttc_drac_at_t`, safety.py:130-183, for the states of `logs.at_interp(t)`. -/
noncomputable def ttcDracAt {X M G : Type} (kin : X → Kin) (ttc : X → X → M → M → Option (ℝ × ℝ × ℝ))
    (done : G → X → Except Err Bool) (models : Dict N M) (missions : Dict N G) (ego : N)
    (states : Dict N X) : Except Err (TtcDrac N) := do
  let act ← removeFinished done missions states
  match Dict.get? act ego with
  | none => .ok {}
  | some xe =>
    let me ← getKey models ego
    ttcDracLoop kin ttc models ego xe me act {}

open Classical in
/-- The loop of `get_min_ttc_max_drac`, safety.py:77-89. -/
noncomputable def ttcDracTimes (at_t : ℝ → Except Err (TtcDrac N)) (lo hi : Option ℝ) :
    List ℝ → (EReal × Option N × Option ℝ) × (EReal × Option N × Option ℝ) →
      Except Err ((EReal × Option N × Option ℝ) × (EReal × Option N × Option ℝ))
  | [], acc => .ok acc
  | t :: ts, acc =>
    if tooEarly lo t then ttcDracTimes at_t lo hi ts acc
    else if tooLate hi t then .ok acc
    else match at_t t with
      | .error e => .error e
      | .ok r => ttcDracTimes at_t lo hi ts
          ((if r.ttc < acc.1.1 then (r.ttc, r.ttcAgent, some t) else acc.1),
           (if acc.2.1 < r.drac then (r.drac, r.dracAgent, some t) else acc.2))

/-- `get_min_ttc_max_drac`, safety.py:58-90. -/
noncomputable def getMinTtcMaxDrac {Wd : World N ℝ} [AddCommGroup Wd.X] [Module ℝ Wd.X] {M G : Type}
    (kin : Wd.X → Kin) (ttc : Wd.X → Wd.X → M → M → Option (ℝ × ℝ × ℝ)) (done : G → Wd.X → Except Err Bool)
    (logs : Dict N (PlayerLog Wd)) (models : Dict N M) (missions : Dict N G) (ego : N) (lo hi : Option ℝ) :
    Except Err ((EReal × Option N × Option ℝ) × (EReal × Option N × Option ℝ)) := do
  let l ← getKey logs ego
  ttcDracTimes (fun t => do
      let st ← statesAt logs t
      ttcDracAt kin ttc done models missions ego st) lo hi l.states.ts ((⊤, none, none), (⊥, none, none))

end

end Eval
end Verif
