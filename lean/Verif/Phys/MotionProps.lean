import Verif.Phys.VelocityProps
import Verif.Phys.LimitProps
import Mathlib.Analysis.Calculus.Deriv.Prod
import Mathlib.Analysis.SpecialFunctions.Trigonometric.Deriv
import Mathlib.Analysis.Calculus.MeanValue

/-!
# C48, C50, C70, C75, C76, C77: how the models move
-/

namespace Verif
namespace Phys

/-! ## C48: units -/

section units
variable {K : Type} [Field K] [LinearOrder K] [IsStrictOrderedRing K]

/-- **C48.** The conversions are inverse to each other, strictly increasing and linear. -/
theorem C48_units (v w k : K) :
    ms2kmh (kmh2ms v) = v ∧ kmh2ms (ms2kmh v) = v ∧
    (ms2kmh v < ms2kmh w ↔ v < w) ∧ (kmh2ms v < kmh2ms w ↔ v < w) ∧
    (ms2mph v < ms2mph w ↔ v < w) ∧
    ms2kmh (k * v + w) = k * ms2kmh v + ms2kmh w ∧ kmh2ms (k * v + w) = k * kmh2ms v + kmh2ms w ∧
    ms2mph (k * v + w) = k * ms2mph v + ms2mph w := by
  have h : (0 : K) < 36 / 10 := by norm_num
  have h' : (0 : K) < 223694 / 100000 := by norm_num
  refine ⟨div_mul_cancel₀ v h.ne', mul_div_cancel_right₀ v h.ne', mul_lt_mul_iff_left₀ h,
    div_lt_div_iff_of_pos_right h, mul_lt_mul_iff_left₀ h', ?_, ?_, ?_⟩ <;>
    simp only [ms2kmh, kmh2ms, ms2mph] <;> ring

/-- **C48.** The conversion to miles per hour: a mile per hour is 0.44704 m/s, to six digits. -/
theorem C48_mph (v : K) : |ms2mph v * (44704 / 100000) - v| ≤ |v| * (2 / 1000000) := by
  have e : ms2mph v * (44704 / 100000) - v = v * (223694 / 100000 * (44704 / 100000) - 1) := by
    simp only [ms2mph]; ring
  rw [e, abs_mul]
  exact mul_le_mul_of_nonneg_left (by norm_num [abs_le]) (abs_nonneg v)

example : |ms2mph (10 : ℚ) * (44704 / 100000) - 10| ≤ |(10 : ℚ)| * (2 / 1000000) := C48_mph 10

/-- 36 km/h are 10 m/s: fixes the scale. -/
theorem C48_scale : kmh2ms (36 : K) = 10 ∧ ms2kmh (10 : K) = 36 := by
  constructor <;> simp only [ms2kmh, kmh2ms] <;> norm_num

end units

/-! ## C75: the dynamics do not depend on the world frame -/

section frame

/-- Specification: a point under the change of the world frame given by a rotation and a shift. -/
noncomputable def movePoint (al : ℝ) (t : ℝ × ℝ) (p : ℝ × ℝ) : ℝ × ℝ :=
  (Real.cos al * p.1 - Real.sin al * p.2 + t.1, Real.sin al * p.1 + Real.cos al * p.2 + t.2)

/-- Specification: a free vector under the change of the world frame. -/
noncomputable def moveVec (al : ℝ) (p : ℝ × ℝ) : ℝ × ℝ := movePoint al (0, 0) p

/-- **C75.** Kinematic vehicle: seen from a moved world frame, the pose is moved and its rate rotated;
the other rates are the same. -/
theorem C75_vehicle (wb lr al : ℝ) (t : ℝ × ℝ) (p : VehicleParams ℝ) (s : VehicleState ℝ) (u : ℝ × ℝ) :
    let s' := { s with x := (movePoint al t (s.x, s.y)).1, y := (movePoint al t (s.x, s.y)).2,
                       psi := s.psi + al }
    let r := vehicleRate realTrig wb lr p s u
    vehicleRate realTrig wb lr p s' u =
      { r with x := (moveVec al (r.x, r.y)).1, y := (moveVec al (r.x, r.y)).2 } := by
  simp only [vehicleRate, bicycleRate, realTrig, moveVec, movePoint, Real.cos_add, Real.sin_add,
    VehicleState.mk.injEq, and_true]
  constructor <;> ring

/-- **C75.** Pedestrian. -/
theorem C75_pedestrian (m al : ℝ) (t : ℝ × ℝ) (c : Bool) (p : ModelParams ℝ)
    (held s : PedestrianState ℝ) (u : PedestrianCommands ℝ) :
    let mv := fun s : PedestrianState ℝ =>
      { s with x := (movePoint al t (s.x, s.y)).1, y := (movePoint al t (s.x, s.y)).2,
               psi := s.psi + al }
    let r := pedestrianRate p m c held s u
    pedestrianRate p m c (mv held) (mv s) u =
      { r with x := (moveVec al (r.x, r.y)).1, y := (moveVec al (r.x, r.y)).2 } := by
  simp only [pedestrianRate, moveVec, movePoint, Real.cos_add, Real.sin_add,
    PedestrianState.mk.injEq, and_true]
  constructor <;> ring

/-- **C75.** Differential drive. -/
theorem C75_diffDrive (wb R lo hi al : ℝ) (t : ℝ × ℝ) (s : DiffDriveState ℝ)
    (u : DiffDriveCommands ℝ) :
    let s' : DiffDriveState ℝ := ⟨(movePoint al t (s.x, s.y)).1, (movePoint al t (s.x, s.y)).2, s.psi + al⟩
    let r := diffDriveRate wb R lo hi s u
    diffDriveRate wb R lo hi s' u = ⟨(moveVec al (r.x, r.y)).1, (moveVec al (r.x, r.y)).2, r.psi⟩ := by
  simp only [diffDriveRate, DiffDriveState.mul, moveVec, movePoint, Real.cos_add, Real.sin_add,
    DiffDriveState.mk.injEq, and_true]
  constructor <;> ring

/-- **C75.** Spacecraft. -/
theorem C75_spacecraft (lo hi w m iz al : ℝ) (t : ℝ × ℝ) (p : ModelParams ℝ) (s : SpacecraftState ℝ)
    (u : SpacecraftCommands ℝ) :
    let s' := { s with x := (movePoint al t (s.x, s.y)).1, y := (movePoint al t (s.x, s.y)).2,
                       psi := s.psi + al }
    let r := spacecraftRate p lo hi w m iz s u
    spacecraftRate p lo hi w m iz s' u =
      { r with x := (moveVec al (r.x, r.y)).1, y := (moveVec al (r.x, r.y)).2 } := by
  simp only [spacecraftRate, moveVec, movePoint, Real.cos_add, Real.sin_add,
    SpacecraftState.mk.injEq, and_true]
  constructor <;> ring

/-- **C75.** Dynamic obstacle. -/
theorem C75_dynObstacle (lo hi al : ℝ) (t : ℝ × ℝ) (p : ModelParams ℝ) (s : DynObstacleState ℝ)
    (u : DynObstacleCommands ℝ) :
    let s' := { s with x := (movePoint al t (s.x, s.y)).1, y := (movePoint al t (s.x, s.y)).2,
                       psi := s.psi + al }
    let r := dynObstacleRate p lo hi s u
    dynObstacleRate p lo hi s' u =
      { r with x := (moveVec al (r.x, r.y)).1, y := (moveVec al (r.x, r.y)).2 } := by
  simp only [dynObstacleRate, moveVec, movePoint, Real.cos_add, Real.sin_add,
    DynObstacleState.mk.injEq, and_true]
  constructor <;> ring

/-- **C75.** Spaceship, errors included. -/
theorem C75_spaceship (p : ThrustParams) (al : ℝ) (t : ℝ × ℝ) (s : SpaceshipState ℝ)
    (u : SpaceshipCommands ℝ) :
    let s' := { s with x := (movePoint al t (s.x, s.y)).1, y := (movePoint al t (s.x, s.y)).2,
                       psi := s.psi + al }
    spaceshipRate p s' u = (spaceshipRate p s u).map (fun r =>
      { r with x := (moveVec al (r.x, r.y)).1, y := (moveVec al (r.x, r.y)).2 }) := by
  simp only [spaceshipRate]
  by_cases h : s.m = 0 ∨ p.iz = 0
  · rw [if_pos h, if_pos h]; rfl
  · rw [if_neg h, if_neg h]
    simp only [Except.map, moveVec, movePoint, Real.cos_add, Real.sin_add, Except.ok.injEq,
      SpaceshipState.mk.injEq, and_true]
    constructor <;> ring

/-- **C75.** Rocket: its velocities are kept in the world frame and move along, also their rates. -/
theorem C75_rocket (p : ThrustParams) (al : ℝ) (t : ℝ × ℝ) (s : RocketState ℝ)
    (u : RocketCommands ℝ) :
    let s' := { s with x := (movePoint al t (s.x, s.y)).1, y := (movePoint al t (s.x, s.y)).2,
                       psi := s.psi + al,
                       vx := (moveVec al (s.vx, s.vy)).1, vy := (moveVec al (s.vx, s.vy)).2 }
    rocketRate p s' u = (rocketRate p s u).map (fun r =>
      { r with x := (moveVec al (r.x, r.y)).1, y := (moveVec al (r.x, r.y)).2,
               vx := (moveVec al (r.vx, r.vy)).1, vy := (moveVec al (r.vx, r.vy)).2 }) := by
  simp only [rocketRate]
  by_cases h : s.m = 0 ∨ p.iz = 0
  · rw [if_pos h, if_pos h]; rfl
  · rw [if_neg h, if_neg h]
    have e1 : s.psi + al + s.phi = (s.psi + s.phi) + al := by ring
    have e2 : s.phi - (s.psi + al) = (s.phi - s.psi) - al := by ring
    simp only [Except.map, moveVec, movePoint, e1, e2, Real.cos_add _ al, Real.sin_add _ al,
      Real.cos_sub _ al, Real.sin_sub _ al, Except.ok.injEq, RocketState.mk.injEq, and_true, true_and,
      add_zero]
    constructor <;> ring

/-- **C75.** Dynamic vehicle, errors included. -/
theorem C75_vehicleDyn (g : VehicleGeom) (p : VehicleParams ℝ) (front rear : Pacejka) (c : Bool)
    (al : ℝ) (t : ℝ × ℝ) (held s : VehicleStateDyn ℝ) (u : VehicleCommands ℝ) :
    let mv := fun s : VehicleStateDyn ℝ =>
      { s with x := (movePoint al t (s.x, s.y)).1, y := (movePoint al t (s.x, s.y)).2,
               psi := s.psi + al }
    vehicleDynRate g p front rear c (mv held) (mv s) u =
      (vehicleDynRate g p front rear c held s u).map (fun r =>
      { r with x := (moveVec al (r.x, r.y)).1, y := (moveVec al (r.x, r.y)).2 }) := by
  simp only [vehicleDynRate]
  by_cases h : s.vx < 1 / 10
  · simp only [if_pos h, pure, Except.pure, Except.map, Except.ok.injEq, moveVec, movePoint,
      VehicleStateDyn.mk.injEq, vehicleRate, bicycleRate, realTrig, Real.cos_add, Real.sin_add,
      and_true]
    constructor <;> ring
  · have ht : ∀ a, tyreForces g front rear a { s with
        x := (movePoint al t (s.x, s.y)).1, y := (movePoint al t (s.x, s.y)).2,
        psi := s.psi + al } = tyreForces g front rear a s := fun a => rfl
    simp only [if_neg h]
    rw [ht]
    cases tyreForces g front rear (fullAccelerationLimits p.toModelParams s.vx u.acc) s with
    | error e => rfl
    | ok f =>
      simp only [bind, Except.bind, pure, Except.pure, Except.map, Except.ok.injEq, moveVec, movePoint,
        VehicleStateDyn.mk.injEq, Real.cos_add, Real.sin_add, and_true]
      constructor <;> ring

end frame

/-! ## C76: Newton's law in the world frame -/

/-- The derivative of a velocity given in a turning frame, seen in the world frame. -/
theorem hasDerivAt_world {psi vx vy : ℝ → ℝ} {w a b t : ℝ} (hp : HasDerivAt psi w t)
    (hx : HasDerivAt vx a t) (hy : HasDerivAt vy b t) :
    HasDerivAt (fun τ => world (psi τ) true (vx τ, vy τ))
      (world (psi t) true (a - w * vy t, b + w * vx t)) t := by
  have hc : HasDerivAt (fun τ => Real.cos (psi τ)) (-Real.sin (psi t) * w) t := hp.cos
  have hs : HasDerivAt (fun τ => Real.sin (psi τ)) (Real.cos (psi t) * w) t := hp.sin
  have h := ((hx.mul hc).sub (hy.mul hs)).prodMk ((hx.mul hs).add (hy.mul hc))
  have e : world (psi t) true (a - w * vy t, b + w * vx t) =
      (a * Real.cos (psi t) + vx t * (-Real.sin (psi t) * w) -
        (b * Real.sin (psi t) + vy t * (Real.cos (psi t) * w)),
       a * Real.sin (psi t) + vx t * (Real.cos (psi t) * w) +
        (b * Real.cos (psi t) + vy t * (-Real.sin (psi t) * w))) := by
    simp only [world]
    ext <;> simp only <;> ring
  rw [e]
  exact h

/-- **C76.** Spacecraft: along every motion of the model the world velocity changes by the sum of the
two limited thruster accelerations along the heading, and by nothing else. -/
theorem C76_spacecraft (p : ModelParams ℝ) (hp : p.Valid) (lo hi w m iz : ℝ)
    (s : ℝ → SpacecraftState ℝ) (u : SpacecraftCommands ℝ) (t : ℝ)
    (h1 : HasDerivAt (fun τ => (s τ).psi) (spacecraftRate p lo hi w m iz (s t) u).psi t)
    (h2 : HasDerivAt (fun τ => (s τ).vx) (spacecraftRate p lo hi w m iz (s t) u).vx t)
    (h3 : HasDerivAt (fun τ => (s τ).vy) (spacecraftRate p lo hi w m iz (s t) u).vy t) :
    ∃ l r, IsClamp p.accMin p.accMax u.acc_left l ∧ IsClamp p.accMin p.accMax u.acc_right r ∧
      HasDerivAt (fun τ => world (s τ).psi true ((s τ).vx, (s τ).vy))
        ((l + r) * Real.cos (s t).psi, (l + r) * Real.sin (s t).psi) t := by
  refine ⟨_, _, accelerationLimits_clamp hp.acc.le u.acc_left,
    accelerationLimits_clamp hp.acc.le u.acc_right, ?_⟩
  have h := hasDerivAt_world h1 h2 h3
  convert h using 1
  simp only [world, spacecraftRate]
  ext <;> simp only <;> ring

/-- **C76.** Spaceship: mass times world acceleration is the limited thrust in the direction of the
nozzle, `psi + delta`. -/
theorem C76_spaceship (p : ThrustParams) (s : ℝ → SpaceshipState ℝ) (r : SpaceshipState ℝ)
    (u : SpaceshipCommands ℝ) (t : ℝ) (hr : spaceshipRate p (s t) u = .ok r)
    (h1 : HasDerivAt (fun τ => (s τ).psi) r.psi t)
    (h2 : HasDerivAt (fun τ => (s τ).vx) r.vx t)
    (h3 : HasDerivAt (fun τ => (s τ).vy) r.vy t) :
    ∃ a : ℝ × ℝ, HasDerivAt (fun τ => world (s τ).psi true ((s τ).vx, (s τ).vy)) a t ∧
      (s t).m * a.1 = p.thrust (s t).m u.thrust * Real.cos ((s t).psi + (s t).delta) ∧
      (s t).m * a.2 = p.thrust (s t).m u.thrust * Real.sin ((s t).psi + (s t).delta) := by
  refine ⟨_, hasDerivAt_world h1 h2 h3, ?_⟩
  unfold spaceshipRate at hr
  simp only at hr
  split at hr
  · cases hr
  · rename_i hm
    push Not at hm
    injection hr with hr
    subst hr
    simp only [world, Real.cos_add, Real.sin_add]
    have := hm.1
    constructor <;> field_simp <;> ring

/-- **C76.** Rocket (velocities kept in the world frame): mass times acceleration is the sum of the two
nozzle forces, the left one pointing to `psi + phi` turned back by a right angle, the right one to
`psi - phi` turned on by one. -/
theorem C76_rocket (p : ThrustParams) (s r : RocketState ℝ) (u : RocketCommands ℝ)
    (hr : rocketRate p s u = .ok r) :
    s.m * r.vx = p.thrust s.m u.F_left * Real.cos (s.psi + s.phi - Real.pi / 2) +
      p.thrust s.m u.F_right * Real.cos (s.psi - s.phi + Real.pi / 2) ∧
    s.m * r.vy = p.thrust s.m u.F_left * Real.sin (s.psi + s.phi - Real.pi / 2) +
      p.thrust s.m u.F_right * Real.sin (s.psi - s.phi + Real.pi / 2) := by
  unfold rocketRate at hr
  simp only at hr
  split at hr
  · cases hr
  · rename_i hm
    push Not at hm
    injection hr with hr
    subst hr
    have := hm.1
    rw [Real.cos_sub_pi_div_two, Real.cos_add_pi_div_two, Real.sin_sub_pi_div_two,
      Real.sin_add_pi_div_two, ← Real.sin_neg, ← Real.cos_neg (s.psi - s.phi), neg_sub]
    constructor <;> field_simp

/-- **C76.** Dynamic vehicle at speed and before any collision: mass times world acceleration is the sum
of both axle forces and the drag, rotated to the world frame, and the angular acceleration is their
torque divided by the inertia. -/
theorem C76_vehicleDyn (g : VehicleGeom) (hm : g.m ≠ 0) (hi : g.iz ≠ 0) (p : VehicleParams ℝ)
    (front rear : Pacejka) (held : VehicleStateDyn ℝ) (s : ℝ → VehicleStateDyn ℝ)
    (r : VehicleStateDyn ℝ) (u : VehicleCommands ℝ) (t : ℝ) (hv : 1 / 10 ≤ (s t).vx)
    (hr : vehicleDynRate g p front rear false held (s t) u = .ok r)
    (h1 : HasDerivAt (fun τ => (s τ).psi) r.psi t)
    (h2 : HasDerivAt (fun τ => (s τ).vx) r.vx t)
    (h3 : HasDerivAt (fun τ => (s τ).vy) r.vy t) :
    ∃ (F1 F2 a : ℝ × ℝ),
      tyreForces g front rear (fullAccelerationLimits p.toModelParams (s t).vx u.acc) (s t)
        = .ok (F1, F2) ∧
      HasDerivAt (fun τ => world (s τ).psi true ((s τ).vx, (s τ).vy)) a t ∧
      (g.m * a.1, g.m * a.2) = world (s t).psi true
        (F1.1 + F2.1 - (s t).vx * g.aDrag * g.cDrag * rhoAir ^ 2 / 2, F1.2 + F2.2) ∧
      g.iz * r.dpsi = F1.2 * g.lf - F2.2 * g.lr := by
  unfold vehicleDynRate at hr
  simp only [if_neg (not_lt.mpr hv)] at hr
  cases hf : tyreForces g front rear (fullAccelerationLimits p.toModelParams (s t).vx u.acc) (s t) with
  | error e => simp [hf, bind, Except.bind] at hr
  | ok f =>
    simp only [hf, bind, Except.bind, pure, Except.pure] at hr
    injection hr with hr
    subst hr
    refine ⟨f.1, f.2, _, rfl, hasDerivAt_world h1 h2 h3, ?_, ?_⟩
    · simp only [world, collisionFriction, if_false, Bool.false_eq_true]
      ext <;> simp only <;> field_simp <;> ring
    · simp only [collisionFriction, if_false, Bool.false_eq_true]
      field_simp
      ring

/-- A free motion: a spacecraft without thrust, turning once per unit time while drifting along the
first axis, is a motion of the model, so the hypotheses can be met. -/
example : let p : ModelParams ℝ := ⟨-1, 1, -1, 1⟩
    let s : ℝ → SpacecraftState ℝ := fun t => ⟨t, 0, t, Real.cos t, -Real.sin t, 1⟩
    let r := fun t => spacecraftRate p (-6) 6 1 1 1 (s t) ⟨0, 0⟩
    ∀ t, HasDerivAt (fun τ => (s τ).psi) (r t).psi t ∧ HasDerivAt (fun τ => (s τ).vx) (r t).vx t ∧
      HasDerivAt (fun τ => (s τ).vy) (r t).vy t := by
  intro p s r t
  have ha : accelerationLimits (-1 : ℝ) 1 0 = 0 := by unfold accelerationLimits; norm_num
  refine ⟨?_, ?_, ?_⟩
  · exact hasDerivAt_id t
  · have : (r t).vx = -Real.sin t := by simp only [r, spacecraftRate, p, s, ha]; ring
    rw [this]; exact Real.hasDerivAt_cos t
  · have : (r t).vy = -Real.cos t := by simp only [r, spacecraftRate, p, s]; ring
    rw [this]; exact (Real.hasDerivAt_sin t).neg

/-! ## C50: fuel and mass -/

theorem thrust_nonneg (p : ThrustParams) (h0 : 0 ≤ p.fMin) (h1 : p.fMin ≤ p.fMax) (m f : ℝ) :
    0 ≤ p.thrust m f ∧ p.thrust m f ≤ p.fMax := by
  unfold ThrustParams.thrust
  split
  · exact ⟨le_rfl, h0.trans h1⟩
  · have := (C42_force p.fMin p.fMax h1 f)
    exact ⟨h0.trans this.1, this.2.1⟩

theorem thrust_empty (p : ThrustParams) {m : ℝ} (h : m ≤ p.mv) (f : ℝ) : p.thrust m f = 0 :=
  if_pos h

/-- **C50.** Spaceship: with non-negative thrust limits the mass never grows. -/
theorem C50_spaceship_mass_partial (p : ThrustParams) (h0 : 0 ≤ p.fMin) (h1 : p.fMin ≤ p.fMax)
    (hc : 0 ≤ p.cT) (s r : SpaceshipState ℝ) (u : SpaceshipCommands ℝ)
    (hr : spaceshipRate p s u = .ok r) : r.m ≤ 0 ∧ -(p.cT * p.fMax) ≤ r.m := by
  unfold spaceshipRate at hr
  simp only at hr
  split at hr
  · cases hr
  · injection hr with hr
    subst hr
    have h := thrust_nonneg p h0 h1 s.m u.thrust
    simp only
    constructor
    · nlinarith [mul_nonneg hc h.1]
    · nlinarith [mul_le_mul_of_nonneg_left h.2 hc]

/-- **C50.** Spaceship without fuel: no mass is lost and there is no thrust: the speed in the turning
frame changes only by the turning, the rotation does not change. -/
theorem C50_spaceship_empty (p : ThrustParams) (s r : SpaceshipState ℝ) (u : SpaceshipCommands ℝ)
    (hm : s.m ≤ p.mv) (hr : spaceshipRate p s u = .ok r) :
    r.m = 0 ∧ r.dpsi = 0 ∧ r.vx = s.dpsi * s.vy ∧ r.vy = -(s.dpsi * s.vx) := by
  unfold spaceshipRate at hr
  simp only [thrust_empty p hm] at hr
  split at hr
  · cases hr
  · injection hr with hr
    subst hr
    refine ⟨?_, ?_, ?_, ?_⟩ <;> simp

/-- **C50.** Rocket: with non-negative force limits the mass never grows. -/
theorem C50_rocket_mass (p : ThrustParams) (h0 : 0 ≤ p.fMin) (h1 : p.fMin ≤ p.fMax)
    (hc : 0 ≤ p.cT) (s r : RocketState ℝ) (u : RocketCommands ℝ)
    (hr : rocketRate p s u = .ok r) : r.m ≤ 0 ∧ -(2 * p.cT * p.fMax) ≤ r.m := by
  unfold rocketRate at hr
  simp only at hr
  split at hr
  · cases hr
  · injection hr with hr
    subst hr
    have h := thrust_nonneg p h0 h1 s.m u.F_left
    have h' := thrust_nonneg p h0 h1 s.m u.F_right
    simp only
    constructor
    · nlinarith [mul_nonneg hc h.1, mul_nonneg hc h'.1]
    · nlinarith [mul_le_mul_of_nonneg_left h.2 hc, mul_le_mul_of_nonneg_left h'.2 hc]

/-- **C50.** Rocket without fuel: no mass is lost, all velocities stay. -/
theorem C50_rocket_empty (p : ThrustParams) (s r : RocketState ℝ) (u : RocketCommands ℝ)
    (hm : s.m ≤ p.mv) (hr : rocketRate p s u = .ok r) :
    r.m = 0 ∧ r.dpsi = 0 ∧ r.vx = 0 ∧ r.vy = 0 := by
  unfold rocketRate at hr
  simp only [thrust_empty p hm] at hr
  split at hr
  · cases hr
  · injection hr with hr
    subst hr
    refine ⟨?_, ?_, ?_, ?_⟩ <;> simp

/-- **C50.** The rates are defined exactly for a non-zero mass and inertia. -/
theorem C50_defined (p : ThrustParams) (s : SpaceshipState ℝ) (u : SpaceshipCommands ℝ)
    (s' : RocketState ℝ) (u' : RocketCommands ℝ) :
    ((∃ r, spaceshipRate p s u = .ok r) ↔ s.m ≠ 0 ∧ p.iz ≠ 0) ∧
    ((∃ r, rocketRate p s' u' = .ok r) ↔ s'.m ≠ 0 ∧ p.iz ≠ 0) := by
  constructor
  · unfold spaceshipRate
    simp only
    split <;> rename_i h
    · constructor
      · rintro ⟨r, hr⟩; cases hr
      · rintro ⟨h1, h2⟩; exact absurd h (by push Not; exact ⟨h1, h2⟩)
    · push Not at h
      exact ⟨fun _ => h, fun _ => ⟨_, rfl⟩⟩
  · unfold rocketRate
    simp only
    split <;> rename_i h
    · constructor
      · rintro ⟨r, hr⟩; cases hr
      · rintro ⟨h1, h2⟩; exact absurd h (by push Not; exact ⟨h1, h2⟩)
    · push Not at h
      exact ⟨fun _ => h, fun _ => ⟨_, rfl⟩⟩

/-- **C50, over time.** Along every exact motion of the rocket that starts with some fuel, under any
commands, the mass decreases, never falls below the mass of the empty rocket, and the fuel used is at
most proportional to the time. -/
theorem C50_rocket_motion (p : ThrustParams) (h0 : 0 ≤ p.fMin) (h1 : p.fMin ≤ p.fMax)
    (hc : 0 ≤ p.cT) (T : ℝ) (s r : ℝ → RocketState ℝ) (u : ℝ → RocketCommands ℝ)
    (hs : p.mv ≤ (s 0).m) (hr : ∀ t ∈ Set.Icc 0 T, rocketRate p (s t) (u t) = .ok (r t))
    (hd : ∀ t ∈ Set.Icc 0 T, HasDerivWithinAt (fun τ => (s τ).m) (r t).m (Set.Icc 0 T) t) :
    (∀ t ∈ Set.Icc 0 T, p.mv ≤ (s t).m) ∧ AntitoneOn (fun t => (s t).m) (Set.Icc 0 T) ∧
      ∀ t ∈ Set.Icc 0 T, (s 0).m - 2 * p.cT * p.fMax * t ≤ (s t).m := by
  refine ⟨fun t ht => ?_, ?_, fun t ht => ?_⟩
  · have := le_of_deriv_guard (f := fun τ => -(s τ).m) (c := -p.mv) (T := T)
      (f' := fun τ => -(r τ).m) (fun t ht => (hd t ht).neg) (neg_le_neg hs)
      (fun t ht h => by
        have := (C50_rocket_empty p (s t) (r t) (u t) (by linarith) (hr t ht)).1
        linarith) t ht
    linarith
  · refine antitoneOn_of_deriv_nonpos (convex_Icc 0 T)
      (fun t ht => (hd t ht).continuousWithinAt) ?_ ?_
    · intro t ht
      rw [interior_Icc] at ht
      exact ((hd t (Set.Ioo_subset_Icc_self ht)).hasDerivAt
        (Icc_mem_nhds ht.1 ht.2)).differentiableAt.differentiableWithinAt
    · intro t ht
      rw [interior_Icc] at ht
      rw [((hd t (Set.Ioo_subset_Icc_self ht)).hasDerivAt (Icc_mem_nhds ht.1 ht.2)).deriv]
      exact (C50_rocket_mass p h0 h1 hc _ _ _ (hr t (Set.Ioo_subset_Icc_self ht))).1
  · have := le_of_deriv_guard (f := fun τ => -(s τ).m - 2 * p.cT * p.fMax * τ) (c := -(s 0).m) (T := T)
      (f' := fun τ => -(r τ).m - 2 * p.cT * p.fMax)
      (fun t ht => by
        have h := (hasDerivWithinAt_id t (Set.Icc 0 T)).const_mul (2 * p.cT * p.fMax)
        have h2 := (hd t ht).neg.sub h
        rw [mul_one] at h2
        exact h2) (by simp)
      (fun t ht _ => by
        have := (C50_rocket_mass p h0 h1 hc _ _ _ (hr t ht)).2
        linarith) t ht
    linarith

/-- **C50, over time.** The same for the spaceship with non-negative limits. -/
theorem C50_spaceship_motion_partial (p : ThrustParams) (h0 : 0 ≤ p.fMin) (h1 : p.fMin ≤ p.fMax)
    (hc : 0 ≤ p.cT) (T : ℝ) (s r : ℝ → SpaceshipState ℝ) (u : ℝ → SpaceshipCommands ℝ)
    (hs : p.mv ≤ (s 0).m) (hr : ∀ t ∈ Set.Icc 0 T, spaceshipRate p (s t) (u t) = .ok (r t))
    (hd : ∀ t ∈ Set.Icc 0 T, HasDerivWithinAt (fun τ => (s τ).m) (r t).m (Set.Icc 0 T) t) :
    (∀ t ∈ Set.Icc 0 T, p.mv ≤ (s t).m) ∧ AntitoneOn (fun t => (s t).m) (Set.Icc 0 T) ∧
      ∀ t ∈ Set.Icc 0 T, (s 0).m - p.cT * p.fMax * t ≤ (s t).m := by
  refine ⟨fun t ht => ?_, ?_, fun t ht => ?_⟩
  · have := le_of_deriv_guard (f := fun τ => -(s τ).m) (c := -p.mv) (T := T)
      (f' := fun τ => -(r τ).m) (fun t ht => (hd t ht).neg) (neg_le_neg hs)
      (fun t ht h => by
        have := (C50_spaceship_empty p (s t) (r t) (u t) (by linarith) (hr t ht)).1
        linarith) t ht
    linarith
  · refine antitoneOn_of_deriv_nonpos (convex_Icc 0 T)
      (fun t ht => (hd t ht).continuousWithinAt) ?_ ?_
    · intro t ht
      rw [interior_Icc] at ht
      exact ((hd t (Set.Ioo_subset_Icc_self ht)).hasDerivAt
        (Icc_mem_nhds ht.1 ht.2)).differentiableAt.differentiableWithinAt
    · intro t ht
      rw [interior_Icc] at ht
      rw [((hd t (Set.Ioo_subset_Icc_self ht)).hasDerivAt (Icc_mem_nhds ht.1 ht.2)).deriv]
      exact (C50_spaceship_mass_partial p h0 h1 hc _ _ _ (hr t (Set.Ioo_subset_Icc_self ht))).1
  · have := le_of_deriv_guard (f := fun τ => -(s τ).m - p.cT * p.fMax * τ) (c := -(s 0).m) (T := T)
      (f' := fun τ => -(r τ).m - p.cT * p.fMax)
      (fun t ht => by
        have h := (hasDerivWithinAt_id t (Set.Icc 0 T)).const_mul (p.cT * p.fMax)
        have h2 := (hd t ht).neg.sub h
        rw [mul_one] at h2
        exact h2) (by simp)
      (fun t ht _ => by
        have := (C50_spaceship_mass_partial p h0 h1 hc _ _ _ (hr t ht)).2
        linarith) t ht
    linarith

/-- The parameters of the default rocket (rocket_structures.py:192-211) meet the hypotheses, with one
radian instead of sixty and twenty degrees. -/
noncomputable def rocketParams : ThrustParams := ⟨2, 1 / 100, 0, 2, -1, 1, -1 / 3, 1 / 3, 1, 1⟩

example : 0 ≤ rocketParams.fMin ∧ rocketParams.fMin ≤ rocketParams.fMax ∧ 0 ≤ rocketParams.cT := by
  simp only [rocketParams]; norm_num

/-- A motion: full thrust of both nozzles burns a twenty-fifth per second, for ten seconds. -/
example : let s : ℝ → RocketState ℝ := fun t => ⟨0, 0, 0, 0, 0, 0, 0, 3 - t / 25⟩
    ∀ t ∈ Set.Icc (0 : ℝ) 10, ∃ r, rocketRate rocketParams (s t) ⟨9, 9, 0⟩ = .ok r ∧
      HasDerivWithinAt (fun τ => (s τ).m) r.m (Set.Icc 0 10) t := by
  intro s t ht
  unfold rocketRate
  simp only
  have hm : 2 < (s t).m := by simp only [s]; linarith [ht.2]
  rw [if_neg (by
    rintro (h | h)
    · linarith
    · simp [rocketParams] at h)]
  refine ⟨_, rfl, ?_⟩
  have hf : rocketParams.thrust (s t).m 9 = 2 := by
    unfold ThrustParams.thrust
    rw [if_neg (by simp only [rocketParams]; linarith)]
    simp only [rocketParams, forceLimits]; norm_num
  simp only [hf]
  have h := ((hasDerivAt_id t).div_const 25).const_sub 3
  have h2 : -rocketParams.cT * (2 + 2) = -(1 / 25) := by simp only [rocketParams]; norm_num
  rw [h2]
  exact h.hasDerivWithinAt

/-- **C50 is false for the default spaceship** (limits -2 and 2, spaceship_structures.py:192): reverse
thrust makes it heavier. -/
theorem C50_false_spaceship : ∃ (p : ThrustParams) (s r : SpaceshipState ℝ) (u : SpaceshipCommands ℝ),
    p.fMin = -2 ∧ p.fMax = 2 ∧ p.cT = 1 / 100 ∧ p.mv = 2 ∧ spaceshipRate p s u = .ok r ∧ 0 < r.m := by
  have h : ∃ r, spaceshipRate ⟨2, 1 / 100, -2, 2, -1, 1, -1, 1, 1, 1⟩
      (⟨0, 0, 0, 0, 0, 0, 0, 3⟩ : SpaceshipState ℝ) ⟨-1, 0⟩ = .ok r ∧ r.m = 1 / 100 := by
    unfold spaceshipRate
    simp only
    rw [if_neg (by norm_num)]
    refine ⟨_, rfl, ?_⟩
    simp only [ThrustParams.thrust, forceLimits]
    norm_num
  obtain ⟨r, hr, hm⟩ := h
  exact ⟨_, _, r, _, rfl, rfl, rfl, rfl, hr, by rw [hm]; norm_num⟩

/-! ## C70: differential drive -/

/-- **C70.** Both wheels roll without slipping: with the wheel speeds clamped to their limits, the
forward speed at the left wheel (half the wheelbase to the left of the centre) is the wheel radius times
the left wheel speed, the same on the right, and there is no speed sideways. -/
theorem C70_rolling (wb R lo hi : ℝ) (hw : wb ≠ 0) (h : lo ≤ hi) (s : DiffDriveState ℝ)
    (u : DiffDriveCommands ℝ) : let q := diffDriveRate wb R lo hi s u
    ∃ l r, IsClamp lo hi u.omega_l l ∧ IsClamp lo hi u.omega_r r ∧
      q.x * Real.cos s.psi + q.y * Real.sin s.psi - q.psi * (wb / 2) = R * l ∧
      q.x * Real.cos s.psi + q.y * Real.sin s.psi + q.psi * (wb / 2) = R * r ∧
      -q.x * Real.sin s.psi + q.y * Real.cos s.psi = 0 := by
  refine ⟨_, _, clip_clamp h u.omega_l, clip_clamp h u.omega_r, ?_, ?_, ?_⟩
  · simp only [diffDriveRate, DiffDriveState.mul]
    have hs := Real.sin_sq_add_cos_sq s.psi
    field_simp
    linear_combination R * (clip u.omega_l lo hi + clip u.omega_r lo hi) * hs
  · simp only [diffDriveRate, DiffDriveState.mul]
    have hs := Real.sin_sq_add_cos_sq s.psi
    field_simp
    linear_combination R * (clip u.omega_l lo hi + clip u.omega_r lo hi) * hs
  · simp only [diffDriveRate, DiffDriveState.mul]
    ring

/-- **C70.** Equal commands: straight ahead. -/
theorem C70_straight (wb R lo hi : ℝ) (s : DiffDriveState ℝ) (w : ℝ) :
    (diffDriveRate wb R lo hi s ⟨w, w⟩).psi = 0 := by
  simp [diffDriveRate, DiffDriveState.mul]

/-- **C70.** Opposite commands with symmetric limits: turning in place. -/
theorem C70_turn (wb R m : ℝ) (hm : 0 < m) (s : DiffDriveState ℝ) (w : ℝ) :
    (diffDriveRate wb R (-m) m s ⟨-w, w⟩).x = 0 ∧ (diffDriveRate wb R (-m) m s ⟨-w, w⟩).y = 0 := by
  have h : clip (-w) (-m) m + clip w (-m) m = 0 := by
    unfold clip
    rcases le_total w m with h1 | h1 <;> rcases le_total (-m) w with h2 | h2
    · rw [max_eq_left (by linarith), min_eq_left (by linarith), max_eq_left h2, min_eq_left h1]; ring
    · rw [max_eq_left (by linarith), min_eq_right (by linarith), max_eq_right h2,
        min_eq_left (by linarith)]; ring
    · rw [max_eq_right (by linarith), min_eq_left (by linarith), max_eq_left h2, min_eq_right h1]; ring
    · linarith
  constructor <;> simp [diffDriveRate, DiffDriveState.mul, h]

/-- **C70.** The speed is at most the wheel radius times the largest admitted wheel speed, and the
turning rate at most the wheel radius times the width of the limits over the wheelbase. -/
theorem C70_bounds (wb R lo hi m : ℝ) (hw : 0 < wb) (hR : 0 ≤ R) (h : lo ≤ hi) (h1 : -m ≤ lo)
    (h2 : hi ≤ m) (s : DiffDriveState ℝ) (u : DiffDriveCommands ℝ) :
    let q := diffDriveRate wb R lo hi s u
    Real.sqrt (q.x ^ 2 + q.y ^ 2) ≤ R * m ∧ |q.psi| ≤ R * (hi - lo) / wb := by
  have hl := clip_clamp h u.omega_l
  have hr := clip_clamp h u.omega_r
  simp only [diffDriveRate, DiffDriveState.mul]
  generalize clip u.omega_l lo hi = l at *
  generalize clip u.omega_r lo hi = r at *
  have hs := Real.sin_sq_add_cos_sq s.psi
  constructor
  · have e : (Real.cos s.psi * (l + r) / 2 * R) ^ 2 + (Real.sin s.psi * (l + r) / 2 * R) ^ 2 =
        (R * ((l + r) / 2)) ^ 2 := by linear_combination (R * ((l + r) / 2)) ^ 2 * hs
    rw [e, Real.sqrt_sq_eq_abs, abs_mul, abs_of_nonneg hR]
    refine mul_le_mul_of_nonneg_left (abs_le.mpr ⟨?_, ?_⟩) hR
    · linarith [hl.1, hr.1]
    · linarith [hl.2.1, hr.2.1]
  · rw [abs_mul, abs_div, abs_of_nonneg hR, abs_of_pos hw]
    have : |r - l| ≤ hi - lo := abs_le.mpr ⟨by linarith [hl.2.1, hr.1], by linarith [hl.1, hr.2.1]⟩
    calc |r - l| / wb * R = R * (|r - l| / wb) := by ring
      _ ≤ R * ((hi - lo) / wb) := by gcongr
      _ = R * (hi - lo) / wb := by ring

/-- **C70.** After a collision the commands are dropped: a robot whose limits admit standstill stays. -/
theorem C70_collided (wb R lo hi : ℝ) (h1 : lo ≤ 0) (h2 : 0 ≤ hi) (s : DiffDriveState ℝ)
    (u : DiffDriveCommands ℝ) :
    diffDriveRate wb R lo hi s (diffDriveActions true u) = ⟨0, 0, 0⟩ := by
  have : clip 0 lo hi = 0 := by unfold clip; rw [max_eq_left h1, min_eq_left h2]
  simp [diffDriveRate, diffDriveActions, DiffDriveState.mul, this]

/-- The default limits (diff_drive_structures.py:123) and a moving robot: 7 is clipped to 5. -/
example : (diffDriveRate 2 (1 / 10) (-5) 5 ⟨0, 0, 0⟩ ⟨3, 7⟩).x = 4 / 10 ∧
    (diffDriveRate 2 (1 / 10) (-5) 5 ⟨0, 0, 0⟩ ⟨3, 7⟩).psi = 1 / 10 := by
  constructor <;> simp only [diffDriveRate, DiffDriveState.mul, clip, Real.cos_zero] <;> norm_num

/-! ## C77: friction after a collision -/

theorem affine_of_const_deriv {f : ℝ → ℝ} {T c : ℝ}
    (hf : ∀ t ∈ Set.Icc 0 T, HasDerivWithinAt f c (Set.Icc 0 T) t) :
    ∀ t ∈ Set.Icc 0 T, f t = f 0 + c * t := by
  intro t ht
  have h1 := le_of_deriv_guard (f := fun τ => f τ - c * τ) (f' := fun _ => c - c) (T := T) (c := f 0)
    (fun t ht => by
      have h := (hasDerivWithinAt_id t (Set.Icc 0 T)).const_mul c
      rw [mul_one] at h
      exact (hf t ht).sub h) (by simp) (fun _ _ _ => by simp) t ht
  have h2 := le_of_deriv_guard (f := fun τ => -(f τ - c * τ)) (f' := fun _ => -(c - c)) (T := T)
    (c := -f 0)
    (fun t ht => by
      have h := (hasDerivWithinAt_id t (Set.Icc 0 T)).const_mul c
      rw [mul_one] at h
      exact ((hf t ht).sub h).neg) (by simp) (fun _ _ _ => by simp) t ht
  linarith

/-- Specification: one exact update of a collided pedestrian over a time `T`. -/
structure CollidedUpdate (p : ModelParams ℝ) (m T : ℝ) (s : ℝ → PedestrianState ℝ) : Prop where
  vx : ∀ t ∈ Set.Icc 0 T, HasDerivWithinAt (fun τ => (s τ).vx)
    (pedestrianRate p m true (s 0) (s t) ⟨0, 0⟩).vx (Set.Icc 0 T) t
  vy : ∀ t ∈ Set.Icc 0 T, HasDerivWithinAt (fun τ => (s τ).vy)
    (pedestrianRate p m true (s 0) (s t) ⟨0, 0⟩).vy (Set.Icc 0 T) t
  psi : ∀ t ∈ Set.Icc 0 T, HasDerivWithinAt (fun τ => (s τ).psi)
    (pedestrianRate p m true (s 0) (s t) ⟨0, 0⟩).psi (Set.Icc 0 T) t
  dpsi : ∀ t ∈ Set.Icc 0 T, HasDerivWithinAt (fun τ => (s τ).dpsi)
    (pedestrianRate p m true (s 0) (s t) ⟨0, 0⟩).dpsi (Set.Icc 0 T) t

/-- **C77.** During an update after a collision the velocities of a pedestrian, with the rate of turn, fall
linearly, by twice their value per second, and the heading stays. -/
theorem C77_pedestrian (p : ModelParams ℝ) (h1 : p.accMin ≤ 0) (h2 : 0 ≤ p.accMax) (m : ℝ) (hm : 0 < m)
    (T : ℝ) (s : ℝ → PedestrianState ℝ) (hs : CollidedUpdate p m T s) :
    ∀ t ∈ Set.Icc 0 T, (s t).vx = (s 0).vx * (1 - 2 * t) ∧ (s t).vy = (s 0).vy * (1 - 2 * t) ∧
      (s t).psi = (s 0).psi ∧ (s t).dpsi = (s 0).dpsi * (1 - 2 * t) := by
  have ha : ∀ v, fullAccelerationLimits p v 0 = 0 := by
    intro v
    unfold fullAccelerationLimits accelerationLimits speedConstraint
    rw [if_neg (not_lt.mpr h1), if_neg (not_lt.mpr h2)]
    split <;> rfl
  have hr : rotationConstraint m 0 = 0 := by
    unfold rotationConstraint
    rw [if_neg (by linarith), if_neg (by linarith)]
  intro t ht
  refine ⟨?_, ?_, ?_, ?_⟩
  · have := affine_of_const_deriv (f := fun τ => (s τ).vx) (c := 0 + -2 * (s 0).vx) (T := T)
      (fun τ hτ => by
        have := hs.vx τ hτ
        simpa only [pedestrianRate, ha, collisionFriction, if_true] using this) t ht
    rw [this]; ring
  · have := affine_of_const_deriv (f := fun τ => (s τ).vy) (c := -2 * (s 0).vy) (T := T)
      (fun τ hτ => hs.vy τ hτ) t ht
    rw [this]; ring
  · have := affine_of_const_deriv (f := fun τ => (s τ).psi) (c := 0) (T := T)
      (fun τ hτ => by
        have := hs.psi τ hτ
        simpa only [pedestrianRate, hr] using this) t ht
    rw [this]; ring
  · have := affine_of_const_deriv (f := fun τ => (s τ).dpsi) (c := -2 * (s 0).dpsi) (T := T)
      (fun τ hτ => hs.dpsi τ hτ) t ht
    rw [this]; ring

/-- **C77.** Over any number of updates of length `T` after the collision, the velocities are multiplied
by `1 - 2 T` each time. So for steps up to half a second they keep their direction and shrink. -/
theorem C77_pedestrian_updates (p : ModelParams ℝ) (h1 : p.accMin ≤ 0) (h2 : 0 ≤ p.accMax) (m : ℝ)
    (hm : 0 < m) (T : ℝ) (hT : 0 ≤ T) (s : ℕ → ℝ → PedestrianState ℝ)
    (hs : ∀ n, CollidedUpdate p m T (s n)) (hn : ∀ n, s (n + 1) 0 = s n T) (n : ℕ) :
    (s n 0).vx = (s 0 0).vx * (1 - 2 * T) ^ n ∧ (s n 0).vy = (s 0 0).vy * (1 - 2 * T) ^ n ∧
      (s n 0).psi = (s 0 0).psi ∧ (s n 0).dpsi = (s 0 0).dpsi * (1 - 2 * T) ^ n ∧
      (T ≤ 1 → |(s n 0).vx| ≤ |(s 0 0).vx| ∧ |(s n 0).vy| ≤ |(s 0 0).vy| ∧ |(s n 0).dpsi| ≤ |(s 0 0).dpsi|) := by
  have key : (s n 0).vx = (s 0 0).vx * (1 - 2 * T) ^ n ∧ (s n 0).vy = (s 0 0).vy * (1 - 2 * T) ^ n ∧
      (s n 0).psi = (s 0 0).psi ∧ (s n 0).dpsi = (s 0 0).dpsi * (1 - 2 * T) ^ n := by
    induction n with
    | zero => simp
    | succ n ih =>
      have := C77_pedestrian p h1 h2 m hm T (s n) (hs n) T ⟨hT, le_rfl⟩
      rw [hn n, this.1, this.2.1, this.2.2.1, this.2.2.2, ih.1, ih.2.1, ih.2.2.1, ih.2.2.2]
      refine ⟨?_, ?_, rfl, ?_⟩ <;> ring
  refine ⟨key.1, key.2.1, key.2.2.1, key.2.2.2, fun hT1 => ?_⟩
  have hb : |(1 - 2 * T) ^ n| ≤ 1 := by
    rw [abs_pow]
    exact pow_le_one₀ (abs_nonneg _) (abs_le.mpr ⟨by linarith, by linarith⟩)
  rw [key.1, key.2.1, key.2.2.2, abs_mul, abs_mul, abs_mul]
  exact ⟨mul_le_of_le_one_right (abs_nonneg _) hb, mul_le_of_le_one_right (abs_nonneg _) hb,
    mul_le_of_le_one_right (abs_nonneg _) hb⟩

/-- **C77.** A step of more than half a second reverses the motion: the friction is taken from the start
of the update and kept over the whole step. -/
theorem C77_reversal (p : ModelParams ℝ) (h1 : p.accMin ≤ 0) (h2 : 0 ≤ p.accMax) (m : ℝ) (hm : 0 < m)
    (s : ℝ → PedestrianState ℝ) (T : ℝ) (hT : 1 / 2 < T) (hs : CollidedUpdate p m T s)
    (hv : 0 < (s 0).vx) : (s T).vx < 0 := by
  rw [(C77_pedestrian p h1 h2 m hm T s hs T ⟨by linarith, le_rfl⟩).1]
  nlinarith

/-- An update meeting the specification. -/
example : CollidedUpdate ⟨-1, 5, -2, 2⟩ 1 1 (fun t => ⟨4 * t * (1 - t), 0, 0, 4 * (1 - 2 * t), 0, 3 * (1 - 2 * t)⟩) := by
  have ha : ∀ v, fullAccelerationLimits (⟨-1, 5, -2, 2⟩ : ModelParams ℝ) v 0 = 0 := by
    intro v
    have h1 : ¬ ((0 : ℝ) < -2) := by norm_num
    have h2 : ¬ ((2 : ℝ) < 0) := by norm_num
    unfold fullAccelerationLimits accelerationLimits speedConstraint
    simp only [if_neg h1, if_neg h2]
    split <;> rfl
  have hr : rotationConstraint (1 : ℝ) 0 = 0 := by unfold rotationConstraint; norm_num
  constructor
  · intro t _
    have h := (((hasDerivWithinAt_id t (Set.Icc 0 1)).const_mul (2 : ℝ)).const_sub 1).const_mul 4
    have e : (pedestrianRate ⟨-1, 5, -2, 2⟩ 1 true ⟨4 * 0 * (1 - 0), 0, 0, 4 * (1 - 2 * 0), 0, 3 * (1 - 2 * 0)⟩
        ⟨4 * t * (1 - t), 0, 0, 4 * (1 - 2 * t), 0, 3 * (1 - 2 * t)⟩ ⟨0, 0⟩).vx = 4 * -(2 * 1) := by
      simp only [pedestrianRate, ha, collisionFriction, if_true]; norm_num
    rw [e]
    exact h
  · intro t _
    have h := hasDerivWithinAt_const t (Set.Icc (0 : ℝ) 1) (0 : ℝ)
    have e : (pedestrianRate ⟨-1, 5, -2, 2⟩ 1 true ⟨4 * 0 * (1 - 0), 0, 0, 4 * (1 - 2 * 0), 0, 3 * (1 - 2 * 0)⟩
        ⟨4 * t * (1 - t), 0, 0, 4 * (1 - 2 * t), 0, 3 * (1 - 2 * t)⟩ ⟨0, 0⟩).vy = 0 := by
      simp only [pedestrianRate, collisionFriction, if_true]; norm_num
    rw [e]
    exact h
  · intro t _
    have h := hasDerivWithinAt_const t (Set.Icc (0 : ℝ) 1) (0 : ℝ)
    have e : (pedestrianRate ⟨-1, 5, -2, 2⟩ 1 true ⟨4 * 0 * (1 - 0), 0, 0, 4 * (1 - 2 * 0), 0, 3 * (1 - 2 * 0)⟩
        ⟨4 * t * (1 - t), 0, 0, 4 * (1 - 2 * t), 0, 3 * (1 - 2 * t)⟩ ⟨0, 0⟩).psi = 0 := by
      simp only [pedestrianRate, hr]
    rw [e]
    exact h
  · intro t _
    have h := (((hasDerivWithinAt_id t (Set.Icc 0 1)).const_mul (2 : ℝ)).const_sub 1).const_mul 3
    have e : (pedestrianRate ⟨-1, 5, -2, 2⟩ 1 true ⟨4 * 0 * (1 - 0), 0, 0, 4 * (1 - 2 * 0), 0, 3 * (1 - 2 * 0)⟩
        ⟨4 * t * (1 - t), 0, 0, 4 * (1 - 2 * t), 0, 3 * (1 - 2 * t)⟩ ⟨0, 0⟩).dpsi = 3 * -(2 * 1) := by
      simp only [pedestrianRate, collisionFriction, if_true]; norm_num
    rw [e]
    exact h

/-- **C77.** Dynamic vehicle: a collision adds exactly the friction, opposed to the velocities at the
start of the update, with factor 3 for two-wheelers and 1 otherwise, to the rates. -/
theorem C77_vehicleDyn (g : VehicleGeom) (p : VehicleParams ℝ) (front rear : Pacejka)
    (held s : VehicleStateDyn ℝ) (u : VehicleCommands ℝ) :
    vehicleDynRate g p front rear true held s u =
      (vehicleDynRate g p front rear false held s u).map (fun r =>
        { r with vx := r.vx - (if g.twoWheels then 3 else 1) * held.vx,
                 vy := r.vy - (if g.twoWheels then 3 else 1) * held.vy,
                 dpsi := r.dpsi - (if g.twoWheels then 3 else 1) * held.dpsi }) := by
  simp only [vehicleDynRate]
  by_cases h : s.vx < 1 / 10
  · simp only [if_pos h, pure, Except.pure, Except.map, Except.ok.injEq, collisionFriction, if_true,
      Bool.false_eq_true, if_false, VehicleStateDyn.mk.injEq, true_and, and_true]
    refine ⟨?_, ?_, ?_⟩ <;> ring
  · simp only [if_neg h]
    cases tyreForces g front rear (fullAccelerationLimits p.toModelParams s.vx u.acc) s with
    | error e => rfl
    | ok f =>
      simp only [bind, Except.bind, pure, Except.pure, Except.map, Except.ok.injEq, collisionFriction,
        if_true, Bool.false_eq_true, if_false, VehicleStateDyn.mk.injEq, true_and, and_true]
      refine ⟨?_, ?_, ?_⟩ <;> ring

end Phys
end Verif
