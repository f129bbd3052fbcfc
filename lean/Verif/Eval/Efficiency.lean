import Verif.Seq.Model
import Verif.Maps.Lanes

/-!
# Efficiency and comfort metrics (eval/efficiency.py, eval/comfort.py:8-22)
-/

namespace Verif
namespace Eval

open Maps

/-- `distance_traveled`, efficiency.py:16-20; `pos` reads the attributes `x` and `y` of a state. -/
noncomputable def distanceTraveled {α : Type} (pos : α → ℝ × ℝ) (s : Seq ℝ α) : Except Err ℝ :=
  match iterateWithDt s.ts s.vs with
  | .error e => .error e
  | .ok items => .ok (items.foldl (fun d it =>
      d + norm2 ((pos it.v1).1 - (pos it.v0).1) ((pos it.v1).2 - (pos it.v0).2)) 0)

section
variable {K : Type} [Field K] [LinearOrder K] {α : Type}

/-- The loop of `time_goal_lane_reached`, efficiency.py:35-39, from index `idx` on; `reached` is
`desired_lane_reached`. -/
def goalLoop (reached : α → Except Err Bool) (ts : List K) : Nat → List α → Except Err (Option K)
  | _, [] => .ok none
  | idx, v :: vs => match reached v with
    | .error e => .error e
    | .ok true => match pyGet ts (idx : Int) with
      | .error e => .error e
      | .ok t => .ok (some t)
    | .ok false => goalLoop reached ts (idx + 1) vs

/-- `time_goal_lane_reached`, efficiency.py:27-40. -/
def timeGoalLaneReached (reached : α → Except Err Bool) (s : Seq K α) : Except Err (Option K) :=
  goalLoop reached s.ts 0 s.vs

/-- `t_range[0] is not None and t < t_range[0]`, comfort.py:15, safety.py:46 and 78. -/
def tooEarly (lo : Option K) (t : K) : Bool :=
  match lo with
  | some a => decide (t < a)
  | none => false

/-- `t_range[1] is not None and t > t_range[1]`, comfort.py:17, safety.py:48 and 80. -/
def tooLate (hi : Option K) (t : K) : Bool :=
  match hi with
  | some b => decide (b < t)
  | none => false

/-- The loop of `get_max_jerk`, comfort.py:14-22; `acc` reads the acceleration of a command. -/
def jerkLoop (acc : α → K) (lo hi : Option K) : K → List (IterateDT K α) → K
  | m, [] => m
  | m, it :: rest =>
    if tooEarly lo it.t1 then jerkLoop acc lo hi m rest
    else if tooLate hi it.t1 then m
    else
      let jerk := (acc it.v1 - acc it.v0) / (it.t1 - it.t0)
      jerkLoop acc lo hi (if m < |jerk| then |jerk| else m) rest

/-- `get_max_jerk`, comfort.py:8-22. -/
def getMaxJerk (acc : α → K) (lo hi : Option K) (s : Seq K α) : Except Err K :=
  match iterateWithDt s.ts s.vs with
  | .error e => .error e
  | .ok items => .ok (jerkLoop acc lo hi 0 items)
end

/-! ## Lane search -/

section
variable {K : Type} [Field K] [LinearOrder K]

/-- The parts of a `DgLanePose` read by `desired_lane_reached`. -/
structure SearchPose (K : Type) where
  flags : LaneFlags K
  along : K
  relHeading : K

/-- What the search needs of the lane network at a fixed ego pose: the lane pose of the ego
(`lane_pose_from_SE2Transform`), the length of a lane, its first successor and predecessor
(`get_successor_dglane`, `get_predecessor_dglane`, efficiency.py:87-127). -/
structure Net (K L : Type) where
  pose : L → Except Err (SearchPose K)
  length : L → K
  succ : L → Except Err (Option L)
  pred : L → Except Err (Option L)

/-- Result of one turn of the loop: it is left with a pose, or continues. -/
inductive Turn (K L : Type) where
  | exit (p : SearchPose K)
  | cont (l : L) (p : SearchPose K)

/-- Moving on to the neighbouring lane, efficiency.py:61-66 and 67-72: with no neighbour the loop is left
(and the pose is the old one). -/
def move {L : Type} (net : Net K L) (next : Except Err (Option L)) (p : SearchPose K) :
    Except Err (Turn K L) :=
  match next with
  | .error e => .error e
  | .ok none => .ok (.exit p)
  | .ok (some l) => match net.pose l with
    | .error e => .error e
    | .ok p' => .ok (.cont l p')

/-- One turn of the loop of `desired_lane_reached`, efficiency.py:57-72. -/
def turn {L : Type} (net : Net K L) (l : L) (p : SearchPose K) : Except Err (Turn K L) :=
  if p.flags.alongInside then .ok (.exit p)
  else if |p.along| < 1 ∨ |p.along - net.length l| < 1 then .ok (.exit p)
  else
    match (if p.flags.alongAfter then move net (net.succ l) p else .ok (.cont l p)) with
    | .error e => .error e
    | .ok (.exit p) => .ok (.exit p)
    | .ok (.cont l p) => if p.flags.alongBefore then move net (net.pred l) p else .ok (.cont l p)

/-- At most `fuel` turns of the loop; `none`: the loop is still running. -/
def search {L : Type} (net : Net K L) : Nat → L → SearchPose K → Option (Except Err (SearchPose K))
  | 0, _, _ => none
  | fuel + 1, l, p => match turn net l p with
    | .error e => some (.error e)
    | .ok (.exit p) => some (.ok p)
    | .ok (.cont l p) => search net fuel l p

/-- `desired_lane_reached`, efficiency.py:43-84, with at most `fuel` turns of the loop; `fulfilled` is the
result of `goal_lane.is_fulfilled(state)`. -/
def desiredLaneReached {L : Type} (net : Net K L) (goal : L) (fulfilled : Except Err Bool)
    (posTol headingTol : K) (fuel : Nat) : Option (Except Err Bool) :=
  match net.pose goal with
  | .error e => some (.error e)
  | .ok p => match search net fuel goal p with
    | none => none
    | some (.error e) => some (.error e)
    | some (.ok p) => match fulfilled with
      | .error e => some (.error e)
      | .ok true => some (.ok true)
      | .ok false => some (.ok (p.flags.lateralInside && decide (p.flags.distCenter < posTol) &&
          decide (|p.relHeading| < headingTol)))
end

end Eval
end Verif
