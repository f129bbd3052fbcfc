import Verif.Plan.TrajModel
import Verif.Maps.Geo

/-!
# Trajectories and rigid motions (src/dg_commons/planning/trajectory.py:17-36)

`SE2_from_xytheta` and `xytheta_from_SE2` of PyGeometry are `Transform.asSE2` and `Transform.fromSE2` (see
Maps/Geo.lean).
-/

namespace Verif
namespace Moved

open Maps

/-- The class of a sequence object: `Trajectory`, trajectory.py:17, or only its base `DgSampledSequence`. -/
inductive Cls
  | trajectory
  | sequence
  deriving DecidableEq

/-- A sequence of vehicle states as an object. -/
structure Obj where
  cls : Cls
  seq : Traj ℝ

/-- `extract_pose_from_state` of a vehicle state, sim/models/utils.py:27-37: it has `psi` but no `theta`. -/
noncomputable def poseOf (x : VehicleState ℝ) : Transform := ⟨x.x, x.y, x.psi⟩

/-- `_applySE2`, trajectory.py:29-33. -/
noncomputable def moveState (T : Transform) (x : VehicleState ℝ) : VehicleState ℝ :=
  let q := T.asSE2.mul (poseOf x).asSE2
  let r := Transform.fromSE2 q
  { x with x := r.x, y := r.y, psi := r.theta }

/-- `Trajectory.apply_SE2transform`, trajectory.py:28-36. The inherited `transform_values` returns a
`DgSampledSequence` (sequence.py:153), which has no such method. -/
noncomputable def applySE2 (o : Obj) (T : Transform) : Except Err Obj :=
  match o.cls with
  | .sequence => .error .attribute
  | .trajectory =>
    match o.seq.transformValues (fun x => some (moveState T x)) with
    | .error e => .error e
    | .ok s => .ok ⟨.sequence, s⟩

/-- `Trajectory.as_path`, trajectory.py:24-26. -/
noncomputable def asPath (o : Obj) : Except Err (List Transform) :=
  match o.cls with
  | .sequence => .error .attribute
  | .trajectory => .ok (o.seq.vs.map poseOf)

end Moved
end Verif
