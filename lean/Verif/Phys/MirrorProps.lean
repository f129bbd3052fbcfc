import Verif.Phys.Models
import Verif.Phys.TyreProps

/-!
# Property C93: left and right are treated alike

The mirror image (at the first axis) of every state and command, and the theorem that the rate of the
mirror image under the mirrored command is the mirror image of the rate.
-/

namespace Verif
namespace Phys

noncomputable section

/-! ## Mirror images -/

/-- Mirror image of a vehicle. -/
def mirrorV (s : VehicleState ℝ) : VehicleState ℝ := ⟨s.x, -s.y, -s.psi, s.vx, -s.delta⟩
/-- Mirror image of a dynamic vehicle. -/
def mirrorD (s : VehicleStateDyn ℝ) : VehicleStateDyn ℝ :=
  { x := s.x, y := -s.y, psi := -s.psi, vx := s.vx, delta := -s.delta, vy := -s.vy, dpsi := -s.dpsi }
/-- Mirror image of a pedestrian. -/
def mirrorP (s : PedestrianState ℝ) : PedestrianState ℝ :=
  { x := s.x, y := -s.y, psi := -s.psi, vx := s.vx, vy := -s.vy, dpsi := -s.dpsi }
/-- Mirror image of a differential drive. -/
def mirrorR (s : DiffDriveState ℝ) : DiffDriveState ℝ := ⟨s.x, -s.y, -s.psi⟩
/-- Mirror image of a spacecraft. -/
def mirrorC (s : SpacecraftState ℝ) : SpacecraftState ℝ :=
  { x := s.x, y := -s.y, psi := -s.psi, vx := s.vx, vy := -s.vy, dpsi := -s.dpsi }
/-- Mirror image of a spaceship. -/
def mirrorS (s : SpaceshipState ℝ) : SpaceshipState ℝ :=
  { x := s.x, y := -s.y, psi := -s.psi, vx := s.vx, vy := -s.vy, dpsi := -s.dpsi, delta := -s.delta,
    m := s.m }
/-- Mirror image of a rocket: the opening angle of the two nozzles is the same. -/
def mirrorT (s : RocketState ℝ) : RocketState ℝ :=
  { x := s.x, y := -s.y, psi := -s.psi, vx := s.vx, vy := -s.vy, dpsi := -s.dpsi, phi := s.phi, m := s.m }
/-- Mirror image of a dynamic obstacle. -/
def mirrorO (s : DynObstacleState ℝ) : DynObstacleState ℝ :=
  { x := s.x, y := -s.y, psi := -s.psi, vx := s.vx, vy := -s.vy, dpsi := -s.dpsi }

/-- Mirroring twice gives the state back. -/
example (s : VehicleStateDyn ℝ) (t : RocketState ℝ) : mirrorD (mirrorD s) = s ∧ mirrorT (mirrorT t) = t := by
  simp [mirrorD, mirrorT]

/-! ## Limits are symmetric -/

theorem steering_odd (dm ddm a r : ℝ) (h : 0 ≤ ddm) :
    steeringConstraint dm ddm (-a) (-r) = -steeringConstraint dm ddm a r := by
  unfold steeringConstraint
  have e : ((-a ≤ -dm ∧ -r < 0) ∨ (dm ≤ -a ∧ 0 < -r)) ↔ ((a ≤ -dm ∧ r < 0) ∨ (dm ≤ a ∧ 0 < r)) := by
    rw [neg_le_neg_iff, neg_lt_zero, neg_pos, le_neg, or_comm]
  by_cases h1 : (a ≤ -dm ∧ r < 0) ∨ (dm ≤ a ∧ 0 < r)
  · rw [if_pos (e.mpr h1), if_pos h1, neg_zero]
  · rw [if_neg (fun k => h1 (e.mp k)), if_neg h1]
    split_ifs <;> linarith

theorem speed_odd (hi s a : ℝ) : speedConstraint (-hi) hi (-s) (-a) = -speedConstraint (-hi) hi s a := by
  unfold speedConstraint
  have e : ((-s ≤ -hi ∧ -a < 0) ∨ (hi ≤ -s ∧ 0 < -a)) ↔ ((s ≤ -hi ∧ a < 0) ∨ (hi ≤ s ∧ 0 < a)) := by
    rw [neg_le_neg_iff, neg_lt_zero, neg_pos, le_neg, or_comm]
  by_cases h1 : (s ≤ -hi ∧ a < 0) ∨ (hi ≤ s ∧ 0 < a)
  · rw [if_pos (e.mpr h1), if_pos h1, neg_zero]
  · rw [if_neg (fun k => h1 (e.mp k)), if_neg h1]

theorem acc_odd (hi a : ℝ) (h : 0 ≤ hi) : accelerationLimits (-hi) hi (-a) = -accelerationLimits (-hi) hi a := by
  unfold accelerationLimits
  split_ifs <;> linarith

theorem angVel_odd (hi a : ℝ) (h : 0 ≤ hi) : angVelLimits (-hi) hi (-a) = -angVelLimits (-hi) hi a := by
  unfold angVelLimits
  split_ifs <;> linarith

theorem rotation_odd (hi a : ℝ) (h : 0 ≤ hi) : rotationConstraint hi (-a) = -rotationConstraint hi a := by
  unfold rotationConstraint
  split_ifs <;> linarith

theorem clip_odd (hi a : ℝ) (h : 0 ≤ hi) : clip (-a) (-hi) hi = -clip a (-hi) hi := by
  unfold clip
  rcases le_total a hi with h1 | h1 <;> rcases le_total (-hi) a with h2 | h2 <;>
    rcases le_total (-a) hi with h3 | h3 <;> rcases le_total (-hi) (-a) with h4 | h4 <;>
    simp only [max_eq_left, max_eq_right, min_eq_left, min_eq_right, h1, h2, h3, h4,
      (by linarith : -hi ≤ hi)] <;> linarith

/-! ## C93 -/

/-- **C93.** The bicycle model. -/
theorem C93_vehicle (wb lr : ℝ) (p : VehicleParams ℝ) (hp : p.Valid) (s : VehicleState ℝ) (u : ℝ × ℝ) :
    vehicleRate realTrig wb lr p (mirrorV s) (u.1, -u.2) = mirrorV (vehicleRate realTrig wb lr p s u) := by
  have h := steering_odd p.deltaMax p.ddeltaMax s.delta u.2 hp.ddelta.le
  simp only [vehicleRate, bicycleRate, mirrorV, realTrig, Real.tan_neg, Real.cos_neg, Real.sin_neg, h,
    VehicleState.mk.injEq]
  refine ⟨?_, ?_, ?_, trivial, trivial⟩ <;> ring

/-- **C93.** The discrete step of the bicycle model. -/
theorem C93_step (wb lr : ℝ) (p : VehicleParams ℝ) (hp : p.Valid) (s : VehicleState ℝ) (u : ℝ × ℝ) (dt : ℝ) :
    bicycleStep realTrig wb lr p (mirrorV s) (u.1, -u.2) dt = mirrorV (bicycleStep realTrig wb lr p s u dt) := by
  have h1 := clip_odd p.ddeltaMax u.2 hp.ddelta.le
  have h2 := clip_odd p.deltaMax (s.delta + clip u.2 (-p.ddeltaMax) p.ddeltaMax * dt) hp.delta.le
  simp only [bicycleStep, bicycleRate, mirrorV, realTrig, VehicleState.add, VehicleState.mul, Real.tan_neg,
    Real.cos_neg, Real.sin_neg, h1, VehicleState.mk.injEq]
  refine ⟨?_, ?_, ?_, trivial, ?_⟩
  · ring
  · ring
  · ring
  · rw [← h2]; congr 1; ring

/-- **C93.** The pedestrian. -/
theorem C93_pedestrian (p : ModelParams ℝ) (m : ℝ) (hm : 0 ≤ m) (c : Bool) (held s : PedestrianState ℝ)
    (u : PedestrianCommands ℝ) :
    pedestrianRate p m c (mirrorP held) (mirrorP s) ⟨u.acc, -u.dpsi⟩ =
      mirrorP (pedestrianRate p m c held s u) := by
  have h := rotation_odd m u.dpsi hm
  cases c <;>
  · simp only [pedestrianRate, mirrorP, collisionFriction, Real.cos_neg, Real.sin_neg, h,
      PedestrianState.mk.injEq, if_true, if_false, Bool.false_eq_true]
    refine ⟨?_, ?_, ?_, ?_, ?_, ?_⟩ <;> first | trivial | ring

/-- **C93.** The differential drive, with the wheels exchanged. -/
theorem C93_diffDrive (wb R lo hi : ℝ) (s : DiffDriveState ℝ) (u : DiffDriveCommands ℝ) :
    diffDriveRate wb R lo hi (mirrorR s) ⟨u.omega_r, u.omega_l⟩ = mirrorR (diffDriveRate wb R lo hi s u) := by
  simp only [diffDriveRate, mirrorR, DiffDriveState.mul, Real.cos_neg, Real.sin_neg, DiffDriveState.mk.injEq]
  refine ⟨?_, ?_, ?_⟩ <;> ring

/-- **C93.** The spacecraft, with the engines exchanged. -/
theorem C93_spacecraft (p : ModelParams ℝ) (hi w m iz : ℝ) (s : SpacecraftState ℝ)
    (u : SpacecraftCommands ℝ) :
    spacecraftRate p (-hi) hi w m iz (mirrorC s) ⟨u.acc_right, u.acc_left⟩ =
      mirrorC (spacecraftRate p (-hi) hi w m iz s u) := by
  have h := speed_odd hi s.dpsi (w * m / iz * (accelerationLimits p.accMin p.accMax u.acc_right -
    accelerationLimits p.accMin p.accMax u.acc_left))
  simp only [spacecraftRate, mirrorC, Real.cos_neg, Real.sin_neg, SpacecraftState.mk.injEq]
  refine ⟨?_, ?_, ?_, ?_, ?_, ?_⟩
  · ring
  · ring
  · trivial
  · ring
  · ring
  · rw [← h]; congr 1; ring

/-- **C93.** The spaceship. -/
theorem C93_spaceship (p : ThrustParams) (h1 : p.angMin = -p.angMax) (h2 : p.dangMin = -p.dangMax)
    (h3 : 0 ≤ p.dangMax) (s : SpaceshipState ℝ) (u : SpaceshipCommands ℝ) :
    spaceshipRate p (mirrorS s) ⟨u.thrust, -u.ddelta⟩ = (spaceshipRate p s u).map mirrorS := by
  have h := angVel_odd p.dangMax u.ddelta h3
  have h' := speed_odd p.angMax s.delta (angVelLimits (-p.dangMax) p.dangMax u.ddelta)
  unfold spaceshipRate
  by_cases hz : s.m = 0 ∨ p.iz = 0
  · have hz' : (mirrorS s).m = 0 ∨ p.iz = 0 := hz
    simp only [if_pos hz, if_pos hz']; rfl
  · have hz' : ¬((mirrorS s).m = 0 ∨ p.iz = 0) := hz
    simp only [if_neg hz, if_neg hz']
    simp only [Except.map, Except.ok.injEq, mirrorS, Real.cos_neg, Real.sin_neg, fullAngVelLimits, h1, h2,
      h, h', SpaceshipState.mk.injEq]
    refine ⟨?_, ?_, ?_, ?_, ?_, ?_, trivial, trivial⟩ <;> first | trivial | ring

/-- **C93.** The rocket, with the engines exchanged. -/
theorem C93_rocket (p : ThrustParams) (s : RocketState ℝ) (u : RocketCommands ℝ) :
    rocketRate p (mirrorT s) ⟨u.F_right, u.F_left, u.dphi⟩ = (rocketRate p s u).map mirrorT := by
  unfold rocketRate
  by_cases hz : s.m = 0 ∨ p.iz = 0
  · have hz' : (mirrorT s).m = 0 ∨ p.iz = 0 := hz
    simp only [if_pos hz, if_pos hz']; rfl
  · have hz' : ¬((mirrorT s).m = 0 ∨ p.iz = 0) := hz
    simp only [if_neg hz, if_neg hz']
    have e1 : -s.psi + s.phi = s.phi - s.psi := by ring
    have e2 : s.phi - -s.psi = s.psi + s.phi := by ring
    simp only [Except.map, Except.ok.injEq, mirrorT, e1, e2, RocketState.mk.injEq]
    refine ⟨?_, ?_, ?_, ?_, ?_, ?_, ?_, ?_⟩ <;> first | trivial | ring

/-- **C93 (partial).** The dynamic obstacle, if its limits are symmetric. Missing: asymmetric limits, for
which the claim is false (`C93_false_dynObstacle`). -/
theorem C93_dynObstacle_partial (p : ModelParams ℝ) (h1 : p.vxMin = -p.vxMax) (h2 : p.accMin = -p.accMax)
    (h3 : 0 ≤ p.accMax) (hi : ℝ) (s : DynObstacleState ℝ) (u : DynObstacleCommands ℝ) :
    dynObstacleRate p (-hi) hi (mirrorO s) ⟨u.acc_x, -u.acc_y, -u.acc_psi⟩ =
      mirrorO (dynObstacleRate p (-hi) hi s u) := by
  have a1 := acc_odd p.accMax (u.acc_y - s.dpsi * s.vx) h3
  have a2 := speed_odd p.vxMax s.vy (accelerationLimits (-p.accMax) p.accMax (u.acc_y - s.dpsi * s.vx))
  have a3 := speed_odd hi s.dpsi u.acc_psi
  simp only [dynObstacleRate, mirrorO, Real.cos_neg, Real.sin_neg, DynObstacleState.mk.injEq,
    fullAccelerationLimits, h1, h2]
  refine ⟨?_, ?_, ?_, ?_, ?_, ?_⟩
  · ring
  · ring
  · trivial
  · congr 2; ring
  · rw [← a2, ← a1]; congr 2; ring
  · exact a3

/-- **C93 is false** for a dynamic obstacle whose speed limits forbid driving backwards: the same limits apply to
its sideways motion, so that it can be pushed to the left but not to the right. -/
theorem C93_false_dynObstacle : ∃ (p : ModelParams ℝ) (_ : p.Valid) (s : DynObstacleState ℝ)
    (u : DynObstacleCommands ℝ), mirrorO s = s ∧
      0 < (dynObstacleRate p (-2) 2 s u).vy ∧
      (dynObstacleRate p (-2) 2 (mirrorO s) ⟨u.acc_x, -u.acc_y, -u.acc_psi⟩).vy = 0 := by
  refine ⟨⟨0, 10, -5, 5⟩, ⟨by norm_num, by norm_num⟩, ⟨0, 0, 0, 0, 0, 0⟩, ⟨0, 1, 0⟩, ?_, ?_, ?_⟩
  · simp [mirrorO]
  · norm_num [dynObstacleRate, fullAccelerationLimits, speedConstraint, accelerationLimits]
  · norm_num [dynObstacleRate, fullAccelerationLimits, speedConstraint, accelerationLimits, mirrorO]

theorem slip_odd (v : ℝ × ℝ) : slipAngle (v.1, -v.2) = (slipAngle v).map Neg.neg := by
  unfold slipAngle
  simp only
  by_cases h : v.1 ≠ 0
  · simp only [if_pos h, Option.map_some, neg_div, Real.arctan_neg]
  · simp only [if_neg h]
    rcases lt_trichotomy v.2 0 with h2 | h2 | h2
    · rw [if_pos (by linarith), if_neg (by linarith), if_pos h2]; simp
    · simp [h2]
    · rw [if_neg (by linarith), if_pos (by linarith), if_pos h2]; simp

theorem axle_odd (t : Pacejka) (load demand slip : ℝ) : axleForces t load demand (-slip) =
    (axleForces t load demand slip).map fun f => (f.1, -f.2) := by
  unfold axleForces
  simp only [C78_odd, neg_mul, neg_div, neg_sq]
  split
  · rfl
  · split <;> rfl

theorem rot_mirror (a : ℝ) (v : ℝ × ℝ) : rotBy (-a) (v.1, -v.2) = ((rotBy a v).1, -(rotBy a v).2) := by
  simp only [rotBy, Real.cos_neg, Real.sin_neg, Prod.mk.injEq]
  constructor <;> ring

theorem tyre_mirror (g : VehicleGeom) (front rear : Pacejka) (acc : ℝ) (s : VehicleStateDyn ℝ) :
    tyreForces g front rear acc (mirrorD s) =
      (tyreForces g front rear acc s).map fun f => ((f.1.1, -f.1.2), (f.2.1, -f.2.2)) := by
  have v1 : rotBy (-(-s.delta)) (s.vx, -s.vy + g.lf * -s.dpsi) =
      ((rotBy (-s.delta) (s.vx, s.vy + g.lf * s.dpsi)).1, -(rotBy (-s.delta) (s.vx, s.vy + g.lf * s.dpsi)).2) := by
    rw [← rot_mirror]; congr 2; ring
  have v2 : -s.vy - g.lr * -s.dpsi = -(s.vy - g.lr * s.dpsi) := by ring
  unfold tyreForces
  simp only [mirrorD, v1, v2]
  rw [slip_odd, slip_odd (s.vx, s.vy - g.lr * s.dpsi)]
  cases h1 : slipAngle (rotBy (-s.delta) (s.vx, s.vy + g.lf * s.dpsi)) with
  | none => rfl
  | some a =>
    cases h2 : slipAngle (s.vx, s.vy - g.lr * s.dpsi) with
    | none =>
      simp only [Option.map_some, Option.map_none, bind, Except.bind, axle_odd]
      cases axleForces front (g.loads acc).1 ((accelerationSplit (g.m * acc)).1 + g.cRrF * (g.loads acc).1) a <;> rfl
    | some b =>
      simp only [Option.map_some, bind, Except.bind, axle_odd, pure, Except.pure]
      cases axleForces front (g.loads acc).1 ((accelerationSplit (g.m * acc)).1 + g.cRrF * (g.loads acc).1) a with
      | error e => rfl
      | ok f =>
        simp only [Except.map]
        cases axleForces rear (g.loads acc).2 ((accelerationSplit (g.m * acc)).2 + g.cRrR * (g.loads acc).2) b with
        | error e => rfl
        | ok f' => simp only [rot_mirror]

/-- **C93.** The dynamic vehicle. -/
theorem C93_vehicleDyn (g : VehicleGeom) (p : VehicleParams ℝ) (hp : p.Valid) (front rear : Pacejka)
    (c : Bool) (held s : VehicleStateDyn ℝ) (u : VehicleCommands ℝ) :
    vehicleDynRate g p front rear c (mirrorD held) (mirrorD s) { u with ddelta := -u.ddelta } =
      (vehicleDynRate g p front rear c held s u).map mirrorD := by
  have hf : collisionFriction (if g.twoWheels then 3 else 1) c held.vx (-held.vy) (-held.dpsi) =
      ((collisionFriction (if g.twoWheels then 3 else 1) c held.vx held.vy held.dpsi).1,
        -(collisionFriction (if g.twoWheels then 3 else 1) c held.vx held.vy held.dpsi).2.1,
        -(collisionFriction (if g.twoWheels then 3 else 1) c held.vx held.vy held.dpsi).2.2) := by
    unfold collisionFriction
    cases c <;> simp
  unfold vehicleDynRate
  simp only [show (mirrorD s).vx = s.vx from rfl, show (mirrorD held).vx = held.vx from rfl,
    show (mirrorD held).vy = -held.vy from rfl, show (mirrorD held).dpsi = -held.dpsi from rfl, hf]
  generalize collisionFriction (if g.twoWheels then 3 else 1) c held.vx held.vy held.dpsi = fr
  split
  · have hk := C93_vehicle g.wheelbase g.lr p hp
      { x := s.x, y := s.y, psi := s.psi, vx := s.vx, delta := s.delta } (u.acc, u.ddelta)
    simp only [mirrorV] at hk
    simp only [mirrorD, hk, pure, Except.pure, Except.map]
  · rw [tyre_mirror]
    cases tyreForces g front rear (fullAccelerationLimits p.toModelParams s.vx u.acc) s with
    | error e => rfl
    | ok f =>
      have h := steering_odd p.deltaMax p.ddeltaMax s.delta u.ddelta hp.ddelta.le
      simp only [Except.map, bind, Except.bind, pure, Except.pure, mirrorD, Real.cos_neg, Real.sin_neg, h,
        Except.ok.injEq, VehicleStateDyn.mk.injEq]
      refine ⟨?_, ?_, ?_, ?_, ?_, ?_, ?_⟩ <;> first | trivial | ring

end

end Phys
end Verif
