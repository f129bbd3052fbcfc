import Verif.Maps.Lanes
import Verif.Num
import Mathlib.Analysis.SpecialFunctions.Trigonometric.Arctan

/-!
# Pure pursuit (src/dg_commons/controllers/pure_pursuit.py)

The bounded scalar minimiser of scipy is a parameter `minim f lo hi`. Real arithmetic. The path is the
list of control points of the lane; the assertions on the types of the arguments hold by typing.
-/

namespace Verif
namespace Pursuit

open Maps

/-- `PurePursuitParam`, pure_pursuit.py:16-29; `max_extra_distance` is read nowhere. -/
structure Param where
  lookMin : ℝ
  lookMax : ℝ
  kLook : ℝ
  minDistance : ℝ
  length : ℝ
  lr : ℝ

/-- `PurePursuitParam.from_vehicle_geo`, pure_pursuit.py:31-33, with the defaults of lines 18-25. -/
noncomputable def Param.fromGeo (wheelbase lr : ℝ) : Param := ⟨3, 30, 8 / 10, 2, wheelbase, lr⟩

/-- Attributes of a `PurePursuit` object, pure_pursuit.py:48-51. -/
structure State where
  path : Option (List CtrPoint)
  pose : Option (Mat3 ℝ)
  alongPath : Option ℝ
  speed : ℝ

/-- `__init__`, pure_pursuit.py:43-52. -/
def State.init : State := ⟨none, none, none, 0⟩

/-- `update_path`, pure_pursuit.py:55-57. -/
def State.updatePath (s : State) (path : List CtrPoint) : State := { s with path := some path }

/-- `update_pose`, pure_pursuit.py:59-63. -/
def State.updatePose (s : State) (pose : Mat3 ℝ) (along : ℝ) : State :=
  { s with pose := some pose, alongPath := some along }

/-- `update_speed`, pure_pursuit.py:65-66. -/
def State.updateSpeed (s : State) (v : ℝ) : State := { s with speed := v }

/-- `_get_lookahead`, pure_pursuit.py:107-112. -/
noncomputable def lookahead (p : Param) (speed : ℝ) : ℝ := npClip (p.kLook * speed) p.lookMin p.lookMax

/-- The center point at a distance along the path, pure_pursuit.py:80-81 and 89. -/
noncomputable def pointAt (path : List CtrPoint) (along : ℝ) : Except Err (Mat3 ℝ) :=
  match betaFromAlong (laneLengths path) path.length along with
  | .error e => .error e
  | .ok beta => centerPoint path beta

/-- `goal_point_error`, pure_pursuit.py:75-83. -/
noncomputable def goalPointError (path : List CtrPoint) (pose : Mat3 ℝ) (look along : ℝ) : Except Err ℝ :=
  match pointAt path along with
  | .error e => .error e
  | .ok cp => .ok |normBetween pose cp - look|

/-- `find_goal_point`, pure_pursuit.py:68-90. `minim` is `scipy.optimize.minimize_scalar` with method
"Bounded": it is given the function and the two bounds; exceptions of the function pass through. -/
noncomputable def findGoalPoint (minim : (ℝ → Except Err ℝ) → ℝ → ℝ → Except Err ℝ) (p : Param)
    (path : List CtrPoint) (pose : Mat3 ℝ) (along speed : ℝ) : Except Err (ℝ × Mat3 ℝ) :=
  let look := lookahead p speed
  let lo := along + p.minDistance
  match minim (goalPointError path pose look) lo (lo + look) with
  | .error e => .error e
  | .ok x => match pointAt path x with
    | .error e => .error e
    | .ok g => .ok (x, g)

/-- The constant of pure_pursuit.py:103. -/
noncomputable def eps : ℝ := 1 / 10 ^ 9

open Classical in
/-- Lines 98-99 and 101-105 of `get_desired_steering`: the wheel angle for a pose and a goal. The two
divisions raise `ZeroDivisionError` when their divisor is zero. -/
noncomputable def steeringTo (p : Param) (pose goal : Mat3 ℝ) (speed : ℝ) : Except Err ℝ :=
  let theta := atan2 pose.a10 pose.a00
  let rear := applyT2 pose (-p.lr, 0)
  let alpha := atan2 (goal.a12 - rear.2) (goal.a02 - rear.1) - theta
  let den := 2 * Real.sin alpha + eps
  if den = 0 then .error .zeroDiv
  else
    let radius := lookahead p speed / den
    if radius = 0 then .error .zeroDiv
    else .ok (Real.arctan (p.length / radius))

/-- `get_desired_steering`, pure_pursuit.py:92-105. A missing `along_path` (which `update_pose` rules
out) would raise `TypeError` at line 85. -/
noncomputable def State.desiredSteering (minim : (ℝ → Except Err ℝ) → ℝ → ℝ → Except Err ℝ) (p : Param)
    (s : State) : Except Err ℝ :=
  match s.pose, s.path with
  | some pose, some path =>
    match s.alongPath with
    | none => .error .type
    | some along => match findGoalPoint minim p path pose along s.speed with
      | .error e => .error e
      | .ok (_, goal) => steeringTo p pose goal s.speed
  | _, _ => .error .runtime

/-- The updates a user can make. -/
inductive Op where
  | path (cps : List CtrPoint)
  | pose (q : Mat3 ℝ) (along : ℝ)
  | speed (v : ℝ)

/-- One update. -/
def State.step (s : State) : Op → State
  | .path c => s.updatePath c
  | .pose q a => s.updatePose q a
  | .speed v => s.updateSpeed v

/-- A history of updates of a fresh object. -/
def State.run (ops : List Op) : State := ops.foldl State.step State.init

end Pursuit
end Verif
