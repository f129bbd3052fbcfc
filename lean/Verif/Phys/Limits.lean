import Verif.Phys.States
import Mathlib.Algebra.Order.Field.Basic

/-!
# Limits on accelerations, rates, forces, and the discrete bicycle model

src/dg_commons/sim/models/model_utils.py, vehicle_utils.py, pedestrian_utils.py,
src/dg_commons/dynamics/bicycle_dynamic.py. Exact arithmetic; log messages are not modelled.
-/

namespace Verif
namespace Phys

variable {K : Type} [Field K] [LinearOrder K]

/-- `ModelParameters`, model_structures.py:74-84. -/
structure ModelParams (K : Type) where
  vxMin : K
  vxMax : K
  accMin : K
  accMax : K

/-- The assertions of `__post_init__`, model_structures.py:81-83. -/
structure ModelParams.Valid (p : ModelParams K) : Prop where
  vx : p.vxMin < p.vxMax
  acc : p.accMin < p.accMax

/-- `apply_speed_constraint`, model_utils.py:10-17; `apply_rot_speed_constraint` (39-46) and
`apply_ang_constraint` (93-101) are the same function on other limits. -/
def speedConstraint (lo hi speed acc : K) : K :=
  if (speed ≤ lo ∧ acc < 0) ∨ (hi ≤ speed ∧ 0 < acc) then 0 else acc

/-- `apply_acceleration_limits`, model_utils.py:20-28. -/
def accelerationLimits (lo hi acc : K) : K :=
  if acc < lo then lo else if hi < acc then hi else acc

/-- `apply_full_acceleration_limits`, model_utils.py:31-35. -/
def fullAccelerationLimits (p : ModelParams K) (speed acc : K) : K :=
  speedConstraint p.vxMin p.vxMax speed (accelerationLimits p.accMin p.accMax acc)

/-- `apply_force_limits`, model_utils.py:63-73. -/
def forceLimits (lo hi force : K) : K :=
  if lo < force ∧ force < hi then force else max lo (min force hi)

/-- `apply_ang_vel_limits`, model_utils.py:76-90. -/
def angVelLimits (lo hi w : K) : K :=
  if w ≤ lo then lo else if hi ≤ w then hi else w

/-- `apply_full_ang_vel_limits`, model_utils.py:104-108; `lo`, `hi` limit the angle, `dlo`, `dhi` the
rate. -/
def fullAngVelLimits (lo hi dlo dhi ang dang : K) : K :=
  speedConstraint lo hi ang (angVelLimits dlo dhi dang)

/-- `steering_constraint`, vehicle_utils.py:34-53. -/
def steeringConstraint (deltaMax ddeltaMax angle rate : K) : K :=
  if (angle ≤ -deltaMax ∧ rate < 0) ∨ (deltaMax ≤ angle ∧ 0 < rate) then 0
  else if rate < -ddeltaMax then -ddeltaMax
  else if ddeltaMax < rate then ddeltaMax
  else rate

/-- `rotation_constraint`, pedestrian_utils.py:23-32. -/
def rotationConstraint (dthetaMax rate : K) : K :=
  if rate ≤ -dthetaMax then -dthetaMax else if dthetaMax ≤ rate then dthetaMax else rate

/-- `np.clip`. -/
def clip (x lo hi : K) : K := min (max x lo) hi

/-- `VehicleParameters`, vehicle_utils.py:10-31. -/
structure VehicleParams (K : Type) extends ModelParams K where
  deltaMax : K
  ddeltaMax : K

/-- The assertions of vehicle_utils.py:28-31. -/
structure VehicleParams.Valid (p : VehicleParams K) : Prop where
  base : p.toModelParams.Valid
  delta : 0 < p.deltaMax
  ddelta : 0 < p.ddeltaMax

/-- Trigonometric functions used by the bicycle model. -/
structure Trig (K : Type) where
  sin : K → K
  cos : K → K
  tan : K → K

/-- `BicycleDynamics.dynamics`, bicycle_dynamic.py:84-95; `acc`, `ddelta` are the commands, `lr` and
`wheelbase` the geometry. -/
def bicycleRate (T : Trig K) (wheelbase lr : K) (x : VehicleState K) (acc ddelta : K) :
    VehicleState K :=
  let dtheta := x.vx * T.tan x.delta / wheelbase
  let dy := dtheta * lr
  ⟨x.vx * T.cos x.psi - dy * T.sin x.psi, x.vx * T.sin x.psi + dy * T.cos x.psi, dtheta, acc, ddelta⟩

/-- `BicycleDynamics.successor`, bicycle_dynamic.py:36-52. `x0 +=` builds a new state. -/
def bicycleStep (T : Trig K) (wheelbase lr : K) (p : VehicleParams K) (x0 : VehicleState K)
    (u : K × K) (dt : K) : VehicleState K :=
  let acc := clip u.1 p.accMin p.accMax
  let ddelta := clip u.2 (-p.ddeltaMax) p.ddeltaMax
  let x := x0.add ((bicycleRate T wheelbase lr x0 acc ddelta).mul dt)
  { x with vx := clip x.vx p.vxMin p.vxMax, delta := clip x.delta (-p.deltaMax) p.deltaMax }

/-- `VehicleModel.dynamics`, vehicle.py:197-209: the continuous model enforces the limits in the
rate. -/
def vehicleRate (T : Trig K) (wheelbase lr : K) (p : VehicleParams K) (x : VehicleState K)
    (u : K × K) : VehicleState K :=
  bicycleRate T wheelbase lr x (fullAccelerationLimits p.toModelParams x.vx u.1)
    (steeringConstraint p.deltaMax p.ddeltaMax x.delta u.2)

end Phys
end Verif
