import Verif.Phys.Limits
import Mathlib.Analysis.SpecialFunctions.Trigonometric.Arctan
import Mathlib.Analysis.SpecialFunctions.Sqrt

/-!
# The dynamic models: velocities, rates, tyres

src/dg_commons/sim/models/{vehicle,vehicle_dynamic,pedestrian,diff_drive,spacecraft,spaceship,rocket,
obstacles_dyn,tires,utils}.py. Angles are real numbers with the real sine and cosine; floating point
rounding, log messages and the solver `solve_ivp` are not modelled. Vectors of numpy are pairs.

Division by zero of Python floats is the error `zeroDiv`. Inside `solve_ivp` the state is made of numpy
floats, where the same division gives infinities or not-a-number instead; the theorems are about inputs
where no such division happens, or say so.
-/

namespace Verif
namespace Phys

noncomputable section

/-- `SO2_from_angle(a) @ v` (PyGeometry): multiplication with the rotation matrix. -/
def rotBy (a : ℝ) (v : ℝ × ℝ) : ℝ × ℝ :=
  (Real.cos a * v.1 - Real.sin a * v.2, Real.sin a * v.1 + Real.cos a * v.2)

/-- The body of every `get_velocity`: the local velocity, or its rotation by the heading, e.g.
spacecraft.py:233-239. -/
def outFrame (psi : ℝ) (inModelFrame : Bool) (v : ℝ × ℝ) : ℝ × ℝ :=
  if inModelFrame then v else rotBy psi v

/-- The start of every `set_velocity`: bring the given velocity to the local frame, e.g.
spacecraft.py:243-245. -/
def inFrame (psi : ℝ) (inModelFrame : Bool) (v : ℝ × ℝ) : ℝ × ℝ :=
  if inModelFrame then v else rotBy (-psi) v

/-! ## get_velocity and set_velocity -/

/-- `VehicleModel.get_velocity`, vehicle.py:240-250; `wb` is the wheelbase. -/
def _root_.Verif.VehicleState.getVelocity (wb lr : ℝ) (s : VehicleState ℝ) (inModelFrame : Bool) :
    (ℝ × ℝ) × ℝ :=
  let dtheta := s.vx * Real.tan s.delta / wb
  (outFrame s.psi inModelFrame (s.vx, dtheta * lr), dtheta)

/-- `VehicleModel.set_velocity`, vehicle.py:252-260: only the longitudinal speed is stored. -/
def _root_.Verif.VehicleState.setVelocity (s : VehicleState ℝ) (vel : ℝ × ℝ) (_omega : ℝ) (inModelFrame : Bool) :
    VehicleState ℝ :=
  { s with vx := (inFrame s.psi inModelFrame vel).1 }

/-- `VehicleModelDyn.get_velocity`, vehicle_dynamic.py:202-209. -/
def _root_.Verif.VehicleStateDyn.getVelocity (s : VehicleStateDyn ℝ) (inModelFrame : Bool) : (ℝ × ℝ) × ℝ :=
  (outFrame s.psi inModelFrame (s.vx, s.vy), s.dpsi)

/-- `VehicleModelDyn.set_velocity`, vehicle_dynamic.py:211-218: the rotation goes to a new attribute
`dtheta` that nothing reads, so it is dropped here. -/
def _root_.Verif.VehicleStateDyn.setVelocity (s : VehicleStateDyn ℝ) (vel : ℝ × ℝ) (_omega : ℝ)
    (inModelFrame : Bool) : VehicleStateDyn ℝ :=
  { s with vx := (inFrame s.psi inModelFrame vel).1, vy := (inFrame s.psi inModelFrame vel).2 }

/-- `PedestrianModel.get_velocity`, pedestrian.py:235-244. -/
def _root_.Verif.PedestrianState.getVelocity (s : PedestrianState ℝ) (inModelFrame : Bool) : (ℝ × ℝ) × ℝ :=
  (outFrame s.psi inModelFrame (s.vx, s.vy), s.dpsi)

/-- `PedestrianModel.set_velocity`, pedestrian.py:246-252: the last statement writes the rotation into
`vx`. -/
def _root_.Verif.PedestrianState.setVelocity (s : PedestrianState ℝ) (vel : ℝ × ℝ) (omega : ℝ)
    (inModelFrame : Bool) : PedestrianState ℝ :=
  { s with vx := omega, vy := (inFrame s.psi inModelFrame vel).2 }

/-- `DiffDriveModel.get_velocity`, diff_drive.py:199-201. -/
def _root_.Verif.DiffDriveState.getVelocity (_s : DiffDriveState ℝ) (_inModelFrame : Bool) : (ℝ × ℝ) × ℝ :=
  ((0, 0), 0)

/-- `DiffDriveModel.set_velocity`, diff_drive.py:203-207: only a warning. -/
def _root_.Verif.DiffDriveState.setVelocity (s : DiffDriveState ℝ) (_vel : ℝ × ℝ) (_omega : ℝ)
    (_inModelFrame : Bool) : DiffDriveState ℝ := s

/-- `SpacecraftModel.get_velocity`, spacecraft.py:230-239. -/
def _root_.Verif.SpacecraftState.getVelocity (s : SpacecraftState ℝ) (inModelFrame : Bool) : (ℝ × ℝ) × ℝ :=
  (outFrame s.psi inModelFrame (s.vx, s.vy), s.dpsi)

/-- `SpacecraftModel.set_velocity`, spacecraft.py:242-248. -/
def _root_.Verif.SpacecraftState.setVelocity (s : SpacecraftState ℝ) (vel : ℝ × ℝ) (omega : ℝ)
    (inModelFrame : Bool) : SpacecraftState ℝ :=
  { s with vx := (inFrame s.psi inModelFrame vel).1, vy := (inFrame s.psi inModelFrame vel).2,
           dpsi := omega }

/-- `SpaceshipModel.get_velocity`, spaceship.py:267-277. -/
def _root_.Verif.SpaceshipState.getVelocity (s : SpaceshipState ℝ) (inModelFrame : Bool) : (ℝ × ℝ) × ℝ :=
  (outFrame s.psi inModelFrame (s.vx, s.vy), s.dpsi)

/-- `SpaceshipModel.set_velocity`, spaceship.py:279-285. -/
def _root_.Verif.SpaceshipState.setVelocity (s : SpaceshipState ℝ) (vel : ℝ × ℝ) (omega : ℝ)
    (inModelFrame : Bool) : SpaceshipState ℝ :=
  { s with vx := (inFrame s.psi inModelFrame vel).1, vy := (inFrame s.psi inModelFrame vel).2,
           dpsi := omega }

/-- `RocketModel.get_velocity`, rocket.py:274-284. -/
def _root_.Verif.RocketState.getVelocity (s : RocketState ℝ) (inModelFrame : Bool) : (ℝ × ℝ) × ℝ :=
  (outFrame s.psi inModelFrame (s.vx, s.vy), s.dpsi)

/-- `RocketModel.set_velocity`, rocket.py:286-292. -/
def _root_.Verif.RocketState.setVelocity (s : RocketState ℝ) (vel : ℝ × ℝ) (omega : ℝ)
    (inModelFrame : Bool) : RocketState ℝ :=
  { s with vx := (inFrame s.psi inModelFrame vel).1, vy := (inFrame s.psi inModelFrame vel).2,
           dpsi := omega }

/-- `DynObstacleModel.get_velocity`, obstacles_dyn.py:209-215. -/
def _root_.Verif.DynObstacleState.getVelocity (s : DynObstacleState ℝ) (inModelFrame : Bool) : (ℝ × ℝ) × ℝ :=
  (outFrame s.psi inModelFrame (s.vx, s.vy), s.dpsi)

/-- `DynObstacleModel.set_velocity`, obstacles_dyn.py:217-224. -/
def _root_.Verif.DynObstacleState.setVelocity (s : DynObstacleState ℝ) (vel : ℝ × ℝ) (omega : ℝ)
    (inModelFrame : Bool) : DynObstacleState ℝ :=
  { s with vx := (inFrame s.psi inModelFrame vel).1, vy := (inFrame s.psi inModelFrame vel).2,
           dpsi := omega }

/-! ## dynamics -/

/-- `get_extra_collision_friction_acc`, pedestrian.py:266-274 (`mu` = 2) and vehicle_dynamic.py:233-241
(`mu` = 3 for two wheels, else 1). The arguments are those of `self._state`, the state at the start of
the update, not of the state the rate is asked for. -/
def collisionFriction (mu : ℝ) (hasCollided : Bool) (vx vy dpsi : ℝ) : ℝ × ℝ × ℝ :=
  if hasCollided then (-mu * vx, -mu * vy, -mu * dpsi) else (0, 0, 0)

/-- The real trigonometric functions for `vehicleRate`. -/
def realTrig : Trig ℝ := ⟨Real.sin, Real.cos, Real.tan⟩

/-- `PedestrianModel.dynamics`, pedestrian.py:206-220; `held` is `self._state`. -/
def pedestrianRate (p : ModelParams ℝ) (dpsiMax : ℝ) (hasCollided : Bool) (held x : PedestrianState ℝ)
    (u : PedestrianCommands ℝ) : PedestrianState ℝ :=
  let f := collisionFriction 2 hasCollided held.vx held.vy held.dpsi
  { x := x.vx * Real.cos x.psi - x.vy * Real.sin x.psi
    y := x.vx * Real.sin x.psi + x.vy * Real.cos x.psi
    psi := rotationConstraint dpsiMax u.dpsi
    vx := fullAccelerationLimits p x.vx u.acc + f.1
    vy := f.2.1
    dpsi := f.2.2 }

/-- `DiffDriveModel.dynamics`, diff_drive.py:155-169. -/
def diffDriveRate (wheelbase wheelradius omegaMin omegaMax : ℝ) (x : DiffDriveState ℝ)
    (u : DiffDriveCommands ℝ) : DiffDriveState ℝ :=
  let l := clip u.omega_l omegaMin omegaMax
  let r := clip u.omega_r omegaMin omegaMax
  let s := l + r
  ({ x := Real.cos x.psi * s / 2, y := Real.sin x.psi * s / 2, psi := (r - l) / wheelbase } :
    DiffDriveState ℝ).mul wheelradius

/-- The commands used by `DiffDriveModel.update` (diff_drive.py:125-127) and, in the same form, by the
pedestrian, spacecraft, spaceship and rocket: nothing after a collision. -/
def diffDriveActions (hasCollided : Bool) (u : DiffDriveCommands ℝ) : DiffDriveCommands ℝ :=
  if hasCollided then { omega_l := 0, omega_r := 0 } else u

/-- `SpacecraftModel.dynamics`, spacecraft.py:186-204; `wHalf`, `m`, `iz` are the geometry. -/
def spacecraftRate (p : ModelParams ℝ) (dpsiMin dpsiMax wHalf m iz : ℝ) (x : SpacecraftState ℝ)
    (u : SpacecraftCommands ℝ) : SpacecraftState ℝ :=
  let l := accelerationLimits p.accMin p.accMax u.acc_left
  let r := accelerationLimits p.accMin p.accMax u.acc_right
  { x := x.vx * Real.cos x.psi - x.vy * Real.sin x.psi
    y := x.vx * Real.sin x.psi + x.vy * Real.cos x.psi
    psi := x.dpsi
    vx := (l + r) + x.vy * x.dpsi
    vy := -x.vx * x.dpsi
    dpsi := speedConstraint dpsiMin dpsiMax x.dpsi (wHalf * m / iz * (r - l)) }

/-- The parameters of the spaceship and the rocket, spaceship_structures.py:174-210 and
rocket_structures.py:182-218, with the inertia and the lever arm of the geometry. -/
structure ThrustParams where
  /-- mass of the vehicle without fuel -/
  mv : ℝ
  /-- fuel used per force and time -/
  cT : ℝ
  fMin : ℝ
  fMax : ℝ
  angMin : ℝ
  angMax : ℝ
  dangMin : ℝ
  dangMax : ℝ
  iz : ℝ
  arm : ℝ

/-- The thrust used: limited, and nothing when the fuel has run out, spaceship.py:219-225 and
rocket.py:223-231. -/
def ThrustParams.thrust (p : ThrustParams) (m f : ℝ) : ℝ :=
  if m ≤ p.mv then 0 else forceLimits p.fMin p.fMax f

/-- `SpaceshipModel.dynamics`, spaceship.py:203-241. -/
def spaceshipRate (p : ThrustParams) (x : SpaceshipState ℝ) (u : SpaceshipCommands ℝ) :
    Except Err (SpaceshipState ℝ) :=
  let f := p.thrust x.m u.thrust
  if x.m = 0 ∨ p.iz = 0 then .error .zeroDiv
  else .ok
    { x := x.vx * Real.cos x.psi - x.vy * Real.sin x.psi
      y := x.vx * Real.sin x.psi + x.vy * Real.cos x.psi
      psi := x.dpsi
      vx := 1 / x.m * Real.cos x.delta * f + x.dpsi * x.vy
      vy := 1 / x.m * Real.sin x.delta * f - x.dpsi * x.vx
      dpsi := -1 / p.iz * p.arm * Real.sin x.delta * f
      delta := fullAngVelLimits p.angMin p.angMax p.dangMin p.dangMax x.delta u.ddelta
      m := -p.cT * f }

/-- `RocketModel.dynamics`, rocket.py:207-248. -/
def rocketRate (p : ThrustParams) (x : RocketState ℝ) (u : RocketCommands ℝ) :
    Except Err (RocketState ℝ) :=
  let l := p.thrust x.m u.F_left
  let r := p.thrust x.m u.F_right
  if x.m = 0 ∨ p.iz = 0 then .error .zeroDiv
  else .ok
    { x := x.vx
      y := x.vy
      psi := x.dpsi
      m := -p.cT * (l + r)
      vx := 1 / x.m * (Real.sin (x.psi + x.phi) * l + Real.sin (x.phi - x.psi) * r)
      vy := 1 / x.m * (-Real.cos (x.psi + x.phi) * l + Real.cos (x.phi - x.psi) * r)
      dpsi := 1 / p.iz * p.arm * (Real.cos x.phi * r - Real.cos x.phi * l)
      phi := fullAngVelLimits p.angMin p.angMax p.dangMin p.dangMax x.phi u.dphi }

/-- `DynObstacleModel.dynamics`, obstacles_dyn.py:189-200. -/
def dynObstacleRate (p : ModelParams ℝ) (dpsiMin dpsiMax : ℝ) (x : DynObstacleState ℝ)
    (u : DynObstacleCommands ℝ) : DynObstacleState ℝ :=
  { x := x.vx * Real.cos x.psi - x.vy * Real.sin x.psi
    y := x.vx * Real.sin x.psi + x.vy * Real.cos x.psi
    psi := x.dpsi
    vx := fullAccelerationLimits p x.vx (u.acc_x + x.dpsi * x.vy)
    vy := fullAccelerationLimits p x.vy (u.acc_y - x.dpsi * x.vx)
    dpsi := speedConstraint dpsiMin dpsiMax x.dpsi u.acc_psi }

/-! ## Tyres and the dynamic vehicle -/

/-- `Pacejka` and `Pacejka4p`, tires.py:9-19 and 50-58; `e` is the curvature of the four parameter
version, `none` for the three parameter one. -/
structure Pacejka where
  b : ℝ
  c : ℝ
  d : ℝ
  e : Option ℝ

/-- `Pacejka.evaluate` and `Pacejka4p.evaluate`, tires.py:18-19 and 57-58. -/
def Pacejka.evaluate (t : Pacejka) (slip : ℝ) : ℝ :=
  match t.e with
  | none => t.d * Real.sin (t.c * Real.arctan (t.b * slip))
  | some e => t.d * Real.sin (t.c * Real.arctan
      (t.b * slip - e * (t.b * slip - e * Real.arctan (t.b * slip))))

/-- The part of `VehicleGeometry` used by the dynamics, vehicle_structures.py:25-46. -/
structure VehicleGeom where
  m : ℝ
  iz : ℝ
  lf : ℝ
  lr : ℝ
  cDrag : ℝ
  aDrag : ℝ
  cRrF : ℝ
  cRrR : ℝ
  hCog : ℝ
  twoWheels : Bool

/-- `VehicleGeometry.wheelbase`, vehicle_structures.py:119-122. -/
def VehicleGeom.wheelbase (g : VehicleGeom) : ℝ := g.lf + g.lr

/-- The constants `G` and `rho`, utils.py:20-23. -/
def gravity : ℝ := 981 / 100
/-- Air density, utils.py:23. -/
def rhoAir : ℝ := 1249512 / 1000000

/-- Vertical forces on the front and rear axle (negative: downwards), vehicle_dynamic.py:149-151. -/
def VehicleGeom.loads (g : VehicleGeom) (acc : ℝ) : ℝ × ℝ :=
  (-g.m * (gravity * g.lr - g.hCog * acc) / g.wheelbase,
   -g.m * (gravity * g.lf + g.hCog * acc) / g.wheelbase)

/-- `get_acceleration_split`, vehicle_dynamic.py:220-231 (both branches for a positive force are
equal). -/
def accelerationSplit (f : ℝ) : ℝ × ℝ :=
  if f ≤ 0 then (f * (6 / 10), f * (4 / 10)) else (f * (5 / 10), f * (5 / 10))

/-- `math.atan(v[1] / v[0])` on numpy floats, vehicle_dynamic.py:162 and 168: a zero divisor gives
an infinity of the sign of `v[1]`, whose arctangent is a right angle; `0 / 0` is not a number,
`none`. (A negative zero divisor, which flips the sign, is not modelled.) -/
def slipAngle (v : ℝ × ℝ) : Option ℝ :=
  if v.1 ≠ 0 then some (Real.arctan (v.2 / v.1))
  else if 0 < v.2 then some (Real.pi / 2)
  else if v.2 < 0 then some (-(Real.pi / 2))
  else none

/-- Lateral and saturated longitudinal force of one axle from its slip, load and longitudinal demand,
vehicle_dynamic.py:163-164 and 170-174. `math.sqrt` of a negative number is a `ValueError`. -/
def axleForces (t : Pacejka) (load demand slip : ℝ) : Except Err (ℝ × ℝ) :=
  let lateral := t.evaluate slip * load
  if load * t.d = 0 then .error .zeroDiv
  else
    let q := 1 - (lateral / (load * t.d)) ^ 2
    if q < 0 then .error .value
    else .ok (demand * Real.sqrt q, lateral)

/-- What `VehicleModelDyn.dynamics` computes at speed: the forces of both axles in the frame of the
vehicle, vehicle_dynamic.py:144-174. `none` slip (not a number) would poison the whole rate and is the
error `value` here (`math.sin(nan)` itself does not raise). -/
def tyreForces (g : VehicleGeom) (front rear : Pacejka) (acc : ℝ) (x : VehicleStateDyn ℝ) :
    Except Err ((ℝ × ℝ) × (ℝ × ℝ)) := do
  let n := g.loads acc
  let split := accelerationSplit (g.m * acc)
  let vel1 := rotBy (-x.delta) (x.vx, x.vy + g.lf * x.dpsi)
  let slip1 ← match slipAngle vel1 with | some s => .ok s | none => .error .value
  let f1 ← axleForces front n.1 (split.1 + g.cRrF * n.1) slip1
  let vel2 := (x.vx, x.vy - g.lr * x.dpsi)
  let slip2 ← match slipAngle vel2 with | some s => .ok s | none => .error .value
  let f2 ← axleForces rear n.2 (split.2 + g.cRrR * n.2) slip2
  -- `rot_delta.T @ ...` is the rotation by `delta`
  return (rotBy x.delta f1, f2)

/-- `VehicleModelDyn.dynamics`, vehicle_dynamic.py:127-200; `held` is `self._state`. -/
def vehicleDynRate (g : VehicleGeom) (p : VehicleParams ℝ) (front rear : Pacejka) (hasCollided : Bool)
    (held x : VehicleStateDyn ℝ) (u : VehicleCommands ℝ) : Except Err (VehicleStateDyn ℝ) := do
  let fr := collisionFriction (if g.twoWheels then 3 else 1) hasCollided held.vx held.vy held.dpsi
  if x.vx < 1 / 10 then
    let k := vehicleRate realTrig g.wheelbase g.lr p
      { x := x.x, y := x.y, psi := x.psi, vx := x.vx, delta := x.delta } (u.acc, u.ddelta)
    return { x := k.x, y := k.y, psi := k.psi, vx := k.vx + fr.1, vy := fr.2.1, dpsi := fr.2.2,
             delta := k.delta }
  else
    let acc := fullAccelerationLimits p.toModelParams x.vx u.acc
    let ddelta := steeringConstraint p.deltaMax p.ddeltaMax x.delta u.ddelta
    let f ← tyreForces g front rear acc x
    let drag := -(5 / 10) * x.vx * g.aDrag * g.cDrag * rhoAir ^ 2
    let accX := (f.1.1 + drag + f.2.1) / g.m + x.dpsi * x.vy
    let accY := (f.1.2 + f.2.2) / g.m - x.dpsi * x.vx
    let ddtheta := (f.1.2 * g.lf - f.2.2 * g.lr) / g.iz
    return { x := x.vx * Real.cos x.psi - x.vy * Real.sin x.psi
             y := x.vx * Real.sin x.psi + x.vy * Real.cos x.psi
             psi := x.dpsi
             vx := accX + fr.1
             vy := accY + fr.2.1
             dpsi := ddtheta + fr.2.2
             delta := ddelta }

end

/-! ## Units -/

section units
variable {K : Type} [Field K]

/-- `ms2kmh`, utils.py:8-9. -/
def ms2kmh (v : K) : K := v * (36 / 10)
/-- `ms2mph`, utils.py:12-13. -/
def ms2mph (v : K) : K := v * (223694 / 100000)
/-- `kmh2ms`, utils.py:16-17. -/
def kmh2ms (v : K) : K := v / (36 / 10)

end units

end Phys
end Verif
