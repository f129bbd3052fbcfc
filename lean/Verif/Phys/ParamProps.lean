import Verif.Phys.Params
import Verif.Phys.LimitProps
import Mathlib.Analysis.Real.Pi.Bounds

/-!
# C125: parameters that are accepted, and what the defaults allow
-/

namespace Verif
namespace Phys

noncomputable section

/-- The assertion holds or is the error. -/
theorem assertLt_cases (lo hi : ℝ) :
    (lo < hi ∧ assertLt lo hi = .ok ()) ∨ (¬ lo < hi ∧ assertLt lo hi = .error .assertion) := by
  unfold assertLt
  by_cases h : lo < hi
  · exact Or.inl ⟨h, if_pos h⟩
  · exact Or.inr ⟨h, if_neg h⟩

/-- What a constructor that asserts `P` and stores `p` does. -/
def Checks {α : Type} (P : Prop) (p : α) (r : Except Err α) : Prop :=
  (P ∧ r = .ok p) ∨ (¬ P ∧ r = .error .assertion)

/-- **C125.** The limits of speed and acceleration are accepted exactly when both are proper
intervals, and stored as given; everything else is an `AssertionError`. -/
theorem C125_model (vx acc : ℝ × ℝ) :
    Checks (vx.1 < vx.2 ∧ acc.1 < acc.2) ⟨vx.1, vx.2, acc.1, acc.2⟩ (ModelParams.mk? vx acc) := by
  unfold ModelParams.mk? Checks
  rcases assertLt_cases vx.1 vx.2 with ⟨h1, e1⟩ | ⟨h1, e1⟩ <;>
  rcases assertLt_cases acc.1 acc.2 with ⟨h2, e2⟩ | ⟨h2, e2⟩ <;>
  simp [h1, h2, e1, e2, bind, Except.bind, pure, Except.pure] <;> linarith

/-- **C125.** Vehicles: moreover the largest steering angle and rate are positive. -/
theorem C125_vehicle (vx acc : ℝ × ℝ) (d dd : ℝ) :
    Checks (vx.1 < vx.2 ∧ acc.1 < acc.2 ∧ 0 < d ∧ 0 < dd) ⟨⟨vx.1, vx.2, acc.1, acc.2⟩, d, dd⟩
      (VehicleParams.mk? vx acc d dd) := by
  have h0 := C125_model vx acc
  unfold VehicleParams.mk? Checks at *
  rcases h0 with ⟨h0, e0⟩ | ⟨h0, e0⟩ <;>
  rcases assertLt_cases 0 d with ⟨h1, e1⟩ | ⟨h1, e1⟩ <;>
  rcases assertLt_cases 0 dd with ⟨h2, e2⟩ | ⟨h2, e2⟩ <;>
  simp only [e0, e1, e2, bind, Except.bind, pure, Except.pure] <;> simp [-not_lt] <;> tauto

/-- **C125.** Pedestrians: moreover the largest turning rate is positive. -/
theorem C125_pedestrian (vx acc : ℝ × ℝ) (w : ℝ) :
    Checks (vx.1 < vx.2 ∧ acc.1 < acc.2 ∧ 0 < w) ⟨⟨vx.1, vx.2, acc.1, acc.2⟩, w⟩
      (PedestrianParams.mk? vx acc w) := by
  have h0 := C125_model vx acc
  unfold PedestrianParams.mk? Checks at *
  rcases h0 with ⟨h0, e0⟩ | ⟨h0, e0⟩ <;>
  rcases assertLt_cases 0 w with ⟨h1, e1⟩ | ⟨h1, e1⟩ <;>
  simp only [e0, e1, bind, Except.bind, pure, Except.pure] <;> simp [-not_lt] <;> tauto

/-- **C125.** Spacecraft and differential drives: moreover the limits of the rotation speed are a
proper interval. -/
theorem C125_rot (vx acc rot : ℝ × ℝ) :
    Checks (vx.1 < vx.2 ∧ acc.1 < acc.2 ∧ rot.1 < rot.2) ⟨⟨vx.1, vx.2, acc.1, acc.2⟩, rot.1, rot.2⟩
      (RotParams.mk? vx acc rot) := by
  have h0 := C125_model vx acc
  unfold RotParams.mk? Checks at *
  rcases h0 with ⟨h0, e0⟩ | ⟨h0, e0⟩ <;>
  rcases assertLt_cases rot.1 rot.2 with ⟨h1, e1⟩ | ⟨h1, e1⟩ <;>
  simp only [e0, e1, bind, Except.bind, pure, Except.pure] <;> simp [-not_lt] <;> tauto

/-- **C125.** Dynamic obstacles: moreover the limits of the rotation speed and of its rate are proper
intervals. -/
theorem C125_dynObstacle (vx acc w dw : ℝ × ℝ) :
    Checks (vx.1 < vx.2 ∧ acc.1 < acc.2 ∧ w.1 < w.2 ∧ dw.1 < dw.2)
      ⟨⟨vx.1, vx.2, acc.1, acc.2⟩, w.1, w.2, dw.1, dw.2⟩ (DynObstacleParams.mk? vx acc w dw) := by
  have h0 := C125_model vx acc
  unfold DynObstacleParams.mk? Checks at *
  rcases h0 with ⟨h0, e0⟩ | ⟨h0, e0⟩ <;>
  rcases assertLt_cases w.1 w.2 with ⟨h1, e1⟩ | ⟨h1, e1⟩ <;>
  rcases assertLt_cases dw.1 dw.2 with ⟨h2, e2⟩ | ⟨h2, e2⟩ <;>
  simp only [e0, e1, e2, bind, Except.bind, pure, Except.pure] <;> simp [-not_lt] <;> tauto

/-- **C125.** Rockets and spaceships: all five limits are proper intervals; masses, fuel use and
geometry are not looked at. -/
theorem C125_thrust (mv cT : ℝ) (vx acc f ang dang : ℝ × ℝ) (iz arm : ℝ) :
    Checks (vx.1 < vx.2 ∧ acc.1 < acc.2 ∧ f.1 < f.2 ∧ ang.1 < ang.2 ∧ dang.1 < dang.2)
      ⟨mv, cT, f.1, f.2, ang.1, ang.2, dang.1, dang.2, iz, arm⟩
      (ThrustParams.mk? mv cT vx acc f ang dang iz arm) := by
  have h0 := C125_model vx acc
  unfold ThrustParams.mk? Checks at *
  rcases h0 with ⟨h0, e0⟩ | ⟨h0, e0⟩ <;>
  rcases assertLt_cases dang.1 dang.2 with ⟨h1, e1⟩ | ⟨h1, e1⟩ <;>
  rcases assertLt_cases ang.1 ang.2 with ⟨h2, e2⟩ | ⟨h2, e2⟩ <;>
  rcases assertLt_cases f.1 f.2 with ⟨h3, e3⟩ | ⟨h3, e3⟩ <;>
  simp only [e0, e1, e2, e3, bind, Except.bind, pure, Except.pure] <;> simp [-not_lt] <;> tauto

/-- **C125.** Accepted parameters of a vehicle are those under which the limits of C42 to C44 are
enforced: whatever is commanded, roll-outs of the discrete model stay within the limits that were
given to the constructor. -/
theorem C125_enforced (T : Trig ℝ) (wb lr : ℝ) (vx acc : ℝ × ℝ) (d dd : ℝ) (p : VehicleParams ℝ)
    (hp : VehicleParams.mk? vx acc d dd = .ok p) (us : List ((ℝ × ℝ) × ℝ)) (x0 : VehicleState ℝ) :
    p.Valid ∧ ∀ x ∈ rollout T wb lr p x0 us,
      (vx.1 ≤ x.vx ∧ x.vx ≤ vx.2) ∧ (-d ≤ x.delta ∧ x.delta ≤ d) := by
  rcases C125_vehicle vx acc d dd with ⟨⟨h1, h2, h3, h4⟩, e⟩ | ⟨_, e⟩
  · rw [e] at hp
    injection hp with hp
    have hv : p.Valid := by rw [← hp]; exact ⟨⟨h1, h2⟩, h3, h4⟩
    refine ⟨hv, fun x hx => ?_⟩
    have := C44_rollout T wb lr p hv us x0 x hx
    unfold Admissible at this
    rw [← hp] at this
    exact this
  · rw [e] at hp; cases hp

/-! ## Rest -/

/-- Limits that allow to do nothing. -/
def Idles (lo hi : ℝ) : Prop := lo ≤ 0 ∧ 0 ≤ hi

theorem Idles.acc {lo hi : ℝ} (h : Idles lo hi) : accelerationLimits lo hi 0 = 0 := by
  unfold accelerationLimits
  rw [if_neg (not_lt.mpr h.1), if_neg (not_lt.mpr h.2)]

theorem speedConstraint_zero (lo hi v : ℝ) : speedConstraint lo hi v 0 = 0 := by
  unfold speedConstraint; split <;> rfl

theorem Idles.full {p : ModelParams ℝ} (h : Idles p.accMin p.accMax) (v : ℝ) :
    fullAccelerationLimits p v 0 = 0 := by
  unfold fullAccelerationLimits
  rw [h.acc, speedConstraint_zero]

theorem Idles.angVel {lo hi : ℝ} (h : Idles lo hi) : angVelLimits lo hi 0 = 0 := by
  unfold angVelLimits
  split
  · rename_i h1; exact le_antisymm h.1 h1
  · split
    · rename_i h1; exact le_antisymm h1 h.2
    · rfl

theorem Idles.force {lo hi : ℝ} (h : Idles lo hi) : forceLimits lo hi 0 = 0 := by
  unfold forceLimits
  split
  · rfl
  · rw [min_eq_left h.2, max_eq_right h.1]

theorem Idles.clip {lo hi : ℝ} (h : Idles lo hi) : clip 0 lo hi = 0 := by
  unfold Phys.clip
  rw [max_eq_left h.1, min_eq_left h.2]

theorem steering_zero {d dd : ℝ} (h : 0 < dd) (a : ℝ) : steeringConstraint d dd a 0 = 0 := by
  unfold steeringConstraint
  split
  · rfl
  · rw [if_neg (by linarith), if_neg (by linarith)]

/-- **C125.** A standing vehicle that is commanded nothing has the rate zero, if its accepted limits
of the acceleration contain zero. -/
theorem C125_rest_vehicle_partial (wb lr : ℝ) (vx acc : ℝ × ℝ) (d dd : ℝ) (p : VehicleParams ℝ)
    (hp : VehicleParams.mk? vx acc d dd = .ok p) (hi : Idles acc.1 acc.2) (x : VehicleState ℝ)
    (hx : x.vx = 0) : vehicleRate realTrig wb lr p x (0, 0) = ⟨0, 0, 0, 0, 0⟩ := by
  rcases C125_vehicle vx acc d dd with ⟨⟨h1, h2, h3, h4⟩, e⟩ | ⟨_, e⟩
  · rw [e] at hp
    injection hp with hp
    have hi' : Idles p.toModelParams.accMin p.toModelParams.accMax := by rw [← hp]; exact hi
    have hd : 0 < p.ddeltaMax := by rw [← hp]; exact h4
    unfold vehicleRate bicycleRate
    simp only [hi'.full, steering_zero hd, hx]
    simp
  · rw [e] at hp; cases hp

/-- **C125.** Likewise for pedestrians, also after a collision. -/
theorem C125_rest_pedestrian_partial (vx acc : ℝ × ℝ) (w : ℝ) (p : PedestrianParams)
    (hp : PedestrianParams.mk? vx acc w = .ok p) (hi : Idles acc.1 acc.2) (c : Bool)
    (x : PedestrianState ℝ) (h1 : x.vx = 0) (h2 : x.vy = 0) (h3 : x.dpsi = 0) :
    pedestrianRate p.toModelParams p.dthetaMax c x x ⟨0, 0⟩ = ⟨0, 0, 0, 0, 0, 0⟩ := by
  rcases C125_pedestrian vx acc w with ⟨⟨_, _, h4⟩, e⟩ | ⟨_, e⟩
  · rw [e] at hp
    injection hp with hp
    have hi' : Idles p.toModelParams.accMin p.toModelParams.accMax := by rw [← hp]; exact hi
    have hr : rotationConstraint p.dthetaMax 0 = 0 := by
      rw [← hp]
      unfold rotationConstraint
      rw [if_neg (by simp; linarith), if_neg (by simp; linarith)]
    unfold pedestrianRate collisionFriction
    simp only [hi'.full, hr, h1, h2, h3]
    cases c <;> simp
  · rw [e] at hp; cases hp

/-- **C125.** Likewise for the differential drive, whose wheels stand. -/
theorem C125_rest_diffDrive_partial (wb R : ℝ) (lo hi : ℝ) (h : Idles lo hi) (x : DiffDriveState ℝ) :
    diffDriveRate wb R lo hi x ⟨0, 0⟩ = ⟨0, 0, 0⟩ := by
  unfold diffDriveRate
  simp [h.clip, DiffDriveState.mul]

/-- **C125.** Likewise for the spacecraft. -/
theorem C125_rest_spacecraft_partial (p : ModelParams ℝ) (lo hi w m iz : ℝ) (h : Idles p.accMin p.accMax)
    (x : SpacecraftState ℝ) (h1 : x.vx = 0) (h2 : x.vy = 0) (h3 : x.dpsi = 0) :
    spacecraftRate p lo hi w m iz x ⟨0, 0⟩ = ⟨0, 0, 0, 0, 0, 0⟩ := by
  unfold spacecraftRate
  simp only [h.acc, h1, h2, h3]
  simp [speedConstraint_zero]

/-- **C125.** Likewise for dynamic obstacles. -/
theorem C125_rest_dynObstacle_partial (p : ModelParams ℝ) (lo hi : ℝ) (h : Idles p.accMin p.accMax)
    (x : DynObstacleState ℝ) (h1 : x.vx = 0) (h2 : x.vy = 0) (h3 : x.dpsi = 0) :
    dynObstacleRate p lo hi x ⟨0, 0, 0⟩ = ⟨0, 0, 0, 0, 0, 0⟩ := by
  unfold dynObstacleRate
  simp only [h1, h2, h3]
  simp [speedConstraint_zero, h.full]

theorem Idles.thrust {p : ThrustParams} (h : Idles p.fMin p.fMax) (m : ℝ) : p.thrust m 0 = 0 := by
  unfold ThrustParams.thrust
  rw [h.force]; split <;> rfl

/-- **C125.** Likewise for the spaceship and the rocket, which also keep their fuel. -/
theorem C125_rest_thrust_partial (p : ThrustParams) (h : Idles p.fMin p.fMax) (ha : Idles p.dangMin p.dangMax)
    (hz : p.iz ≠ 0) :
    (∀ x : SpaceshipState ℝ, x.m ≠ 0 → x.vx = 0 → x.vy = 0 → x.dpsi = 0 →
      spaceshipRate p x ⟨0, 0⟩ = .ok ⟨0, 0, 0, 0, 0, 0, 0, 0⟩) ∧
    (∀ x : RocketState ℝ, x.m ≠ 0 → x.vx = 0 → x.vy = 0 → x.dpsi = 0 →
      rocketRate p x ⟨0, 0, 0⟩ = .ok ⟨0, 0, 0, 0, 0, 0, 0, 0⟩) := by
  have e : ∀ a, fullAngVelLimits p.angMin p.angMax p.dangMin p.dangMax a 0 = 0 := by
    intro a
    unfold fullAngVelLimits
    rw [ha.angVel, speedConstraint_zero]
  refine ⟨fun x hm h1 h2 h3 => ?_, fun x hm h1 h2 h3 => ?_⟩
  · unfold spaceshipRate
    simp only [h.thrust, h1, h2, h3, e]
    rw [if_neg (by tauto)]
    simp
  · unfold rocketRate
    simp only [h.thrust, h1, h2, h3, e]
    rw [if_neg (by tauto)]
    simp

/-! ## The defaults -/

/-- Each default of a vehicle is accepted and allows to do nothing, to drive forwards and backwards
and to brake. -/
def Usable (p : ModelParams ℝ) : Prop := p.vxMin < 0 ∧ 0 < p.vxMax ∧ p.accMin < 0 ∧ 0 < p.accMax

/-- **C125.** All default parameters are accepted; those of vehicles, pedestrians and spacecraft
contain zero in the inside of all their limits, those of rockets, spaceships and the differential drive
(in its wheel speeds) allow to do nothing. -/
theorem C125_defaults :
    (∀ r ∈ [defaultCarParams, defaultTruckParams, defaultBicycleParams],
      ∃ p, r = .ok p ∧ p.Valid ∧ Usable p.toModelParams) ∧
    (∃ p, defaultPedestrianParams = .ok p ∧ Usable p.toModelParams ∧ 0 < p.dthetaMax) ∧
    (∃ p, defaultSpacecraftParams = .ok p ∧ Usable p.toModelParams ∧ p.rotMin < 0 ∧ 0 < p.rotMax) ∧
    (∃ p, defaultDiffDriveParams (-5, 5) = .ok p ∧ Idles p.rotMin p.rotMax) ∧
    (∀ r ∈ [defaultRocketParams, defaultSpaceshipParams], ∃ p, r = .ok p ∧ Idles p.fMin p.fMax ∧
      Idles p.angMin p.angMax ∧ Idles p.dangMin p.dangMax ∧ p.iz ≠ 0 ∧ 0 < p.mv) := by
  have hpi := Real.pi_pos
  have key : ∀ (vx acc : ℝ × ℝ), vx.1 < 0 → 0 < vx.2 → acc.1 < 0 → 0 < acc.2 →
      ∃ p, VehicleParams.mk? vx acc 1 (1 / 2) = .ok p ∧ p.Valid ∧ Usable p.toModelParams := by
    intro vx acc h1 h2 h3 h4
    rcases C125_vehicle vx acc 1 (1 / 2) with ⟨⟨a, b, c, d⟩, e⟩ | ⟨h, _⟩
    · exact ⟨_, e, ⟨⟨a, b⟩, c, d⟩, h1, h2, h3, h4⟩
    · exact absurd ⟨by linarith, by linarith, by norm_num, by norm_num⟩ h
  have thr : ∀ (vx f dang : ℝ × ℝ) (arm : ℝ), vx.1 < vx.2 → f.1 ≤ 0 → 0 < f.2 → dang.1 < 0 → 0 < dang.2 →
      ∃ p, ThrustParams.mk? 2 (1 / 100) vx (-1, 1) f (-deg2rad 60, deg2rad 60) dang 1 arm = .ok p ∧
        Idles p.fMin p.fMax ∧ Idles p.angMin p.angMax ∧ Idles p.dangMin p.dangMax ∧ p.iz ≠ 0 ∧
        0 < p.mv := by
    intro vx f dang arm h1 h2 h3 h4 h5
    have h60 : 0 < deg2rad 60 := by unfold deg2rad; positivity
    rcases C125_thrust 2 (1 / 100) vx (-1, 1) f (-deg2rad 60, deg2rad 60) dang 1 arm with ⟨_, e⟩ | ⟨h, _⟩
    · exact ⟨_, e, ⟨h2, h3.le⟩, ⟨by show -deg2rad 60 ≤ 0; linarith, h60.le⟩, ⟨h4.le, h5.le⟩, one_ne_zero,
        two_pos⟩
    · exact absurd ⟨h1, by norm_num, by linarith, by simp; linarith, by linarith⟩ h
  refine ⟨?_, ?_, ?_, ?_, ?_⟩
  · intro r hr
    simp only [List.mem_cons, List.not_mem_nil, or_false] at hr
    rcases hr with rfl | rfl | rfl
    · exact key _ _ (by norm_num [kmh2ms]) (by norm_num [kmh2ms]) (by norm_num) (by norm_num)
    · exact key _ _ (by norm_num [kmh2ms]) (by norm_num [kmh2ms]) (by norm_num) (by norm_num)
    · exact key _ _ (by norm_num [kmh2ms]) (by norm_num [kmh2ms]) (by norm_num) (by norm_num)
  · rcases C125_pedestrian (kmh2ms (-5), kmh2ms 20) (-3, 5) Real.pi with ⟨_, e⟩ | ⟨h, _⟩
    · exact ⟨_, e, ⟨by norm_num [kmh2ms], by norm_num [kmh2ms], by norm_num, by norm_num⟩, hpi⟩
    · exact absurd ⟨by norm_num [kmh2ms], by norm_num, hpi⟩ h
  · rcases C125_rot (kmh2ms (-50), kmh2ms 50) (-10, 10) (-2 * Real.pi, 2 * Real.pi) with ⟨_, e⟩ | ⟨h, _⟩
    · exact ⟨_, e, ⟨by norm_num [kmh2ms], by norm_num [kmh2ms], by norm_num, by norm_num⟩,
        by simp; linarith, by simp; linarith⟩
    · exact absurd ⟨by norm_num [kmh2ms], by norm_num, by simp; linarith⟩ h
  · rcases C125_rot (0, 1) (0, 1) (-5, 5) with ⟨_, e⟩ | ⟨h, _⟩
    · exact ⟨_, e, by norm_num, by norm_num⟩
    · exact absurd ⟨by norm_num, by norm_num, by norm_num⟩ h
  · intro r hr
    simp only [List.mem_cons, List.not_mem_nil, or_false] at hr
    rcases hr with rfl | rfl
    · exact thr _ _ _ _ (by norm_num [kmh2ms]) (by norm_num) (by norm_num)
        (by simp [deg2rad]; linarith) (by simp [deg2rad]; linarith)
    · exact thr _ _ _ _ (by norm_num [kmh2ms]) (by norm_num) (by norm_num)
        (by simp [deg2rad]; linarith) (by simp [deg2rad]; linarith)

/-- **C125.** The values: a default car is limited to [-10, 130] km/h, [-8, 5] m/s², 1 rad and half a
rad/s; trucks and bicycles are slower and weaker, and nobody brakes or accelerates more than cars. -/
theorem C125_values :
    defaultCarParams = .ok ⟨⟨-25 / 9, 325 / 9, -8, 5⟩, 1, 1 / 2⟩ ∧
    defaultTruckParams = .ok ⟨⟨-25 / 9, 25, -6, 7 / 2⟩, 1, 1 / 2⟩ ∧
    defaultBicycleParams = .ok ⟨⟨-5 / 18, 125 / 9, -4, 3⟩, 1, 1 / 2⟩ := by
  have key : ∀ (a b c d a' b' : ℝ), a' < b' → c < d → kmh2ms a = a' → kmh2ms b = b' →
      VehicleParams.mk? (kmh2ms a, kmh2ms b) (c, d) 1 (1 / 2) = .ok ⟨⟨a', b', c, d⟩, 1, 1 / 2⟩ := by
    intro a b c d a' b' h1 h2 ea eb
    rcases C125_vehicle (kmh2ms a, kmh2ms b) (c, d) 1 (1 / 2) with ⟨_, e⟩ | ⟨h, _⟩
    · rw [e]; simp only [ea, eb]
    · rw [ea, eb] at h
      exact absurd ⟨h1, h2, by norm_num, by norm_num⟩ h
  refine ⟨key _ _ _ _ _ _ ?_ ?_ ?_ ?_, key _ _ _ _ _ _ ?_ ?_ ?_ ?_, key _ _ _ _ _ _ ?_ ?_ ?_ ?_⟩ <;>
    norm_num [kmh2ms]

/-- **C125.** The values of the default rocket and spaceship: a dry mass of 2 kg, forces up to 2 N (of the rocket only forward),
nozzles that turn up to 60°, with up to 20° and 45° per second. -/
theorem C125_thrust_values :
    defaultRocketParams = .ok ⟨2, 1 / 100, 0, 2, -(Real.pi / 3), Real.pi / 3, -(Real.pi / 9), Real.pi / 9, 1, 1 / 4⟩ ∧
    defaultSpaceshipParams = .ok ⟨2, 1 / 100, -2, 2, -(Real.pi / 3), Real.pi / 3, -(Real.pi / 4), Real.pi / 4, 1, 1⟩ := by
  have h := Real.pi_pos
  constructor
  · unfold defaultRocketParams
    rcases C125_thrust 2 (1 / 100) (kmh2ms (-(72 / 10)), kmh2ms (72 / 10)) (-1, 1) (0, 2) (-deg2rad 60, deg2rad 60)
      (-deg2rad 20, deg2rad 20) 1 (1 / 4) with ⟨_, e⟩ | ⟨h', _⟩
    · rw [e]
      simp only [deg2rad, Except.ok.injEq, ThrustParams.mk.injEq, true_and, and_true]
      refine ⟨by ring, by ring, by ring, by ring⟩
    · exact absurd ⟨by norm_num [kmh2ms], by norm_num, by norm_num, by simp only [deg2rad]; linarith,
        by simp only [deg2rad]; linarith⟩ h'
  · unfold defaultSpaceshipParams
    rcases C125_thrust 2 (1 / 100) (kmh2ms (-10), kmh2ms 10) (-1, 1) (-2, 2) (-deg2rad 60, deg2rad 60)
      (-deg2rad 45, deg2rad 45) 1 1 with ⟨_, e⟩ | ⟨h', _⟩
    · rw [e]
      simp only [deg2rad, Except.ok.injEq, ThrustParams.mk.injEq, true_and, and_true]
      refine ⟨by ring, by ring, by ring, by ring⟩
    · exact absurd ⟨by norm_num [kmh2ms], by norm_num, by norm_num, by simp only [deg2rad]; linarith,
        by simp only [deg2rad]; linarith⟩ h'

/-! ## What the assertions let through -/

/-- **C125, falsified.** Acceptance is not enough for rest: a vehicle with acceleration limits [1, 2]
is accepted and speeds up although it is commanded nothing; a differential drive with wheel speeds in
[1, 2] is accepted and drives on after a collision, when the model commands nothing; a rocket with
forces in [1, 2] is accepted and burns fuel without a command. -/
theorem C125_false_rest :
    (∃ p, VehicleParams.mk? (-1, 10) (1, 2) 1 1 = .ok p ∧
      (vehicleRate realTrig 2 1 p ⟨0, 0, 0, 0, 0⟩ (0, 0)).vx = 1) ∧
    (∃ p, defaultDiffDriveParams (1, 2) = .ok p ∧
      ∀ u, (diffDriveRate 1 (1 / 5) p.rotMin p.rotMax ⟨0, 0, 0⟩ (diffDriveActions true u)).x = 1 / 5) ∧
    (∃ p, ThrustParams.mk? 2 (1 / 100) (-2, 2) (-1, 1) (1, 2) (-1, 1) (-1, 1) 1 1 = .ok p ∧
      ∃ r, rocketRate p ⟨0, 0, 0, 0, 0, 0, 0, 3⟩ ⟨0, 0, 0⟩ = .ok r ∧ r.m < 0) := by
  refine ⟨?_, ?_, ?_⟩
  · rcases C125_vehicle (-1, 10) (1, 2) 1 1 with ⟨_, e⟩ | ⟨h, _⟩
    · refine ⟨_, e, ?_⟩
      norm_num [vehicleRate, bicycleRate, fullAccelerationLimits, speedConstraint, accelerationLimits]
    · exact absurd ⟨by norm_num, by norm_num, by norm_num, by norm_num⟩ h
  · rcases C125_rot (0, 1) (0, 1) (1, 2) with ⟨_, e⟩ | ⟨h, _⟩
    · refine ⟨_, e, fun u => ?_⟩
      norm_num [diffDriveRate, diffDriveActions, DiffDriveState.mul, Phys.clip]
    · exact absurd ⟨by norm_num, by norm_num, by norm_num⟩ h
  · rcases C125_thrust 2 (1 / 100) (-2, 2) (-1, 1) (1, 2) (-1, 1) (-1, 1) 1 1 with ⟨_, e⟩ | ⟨h, _⟩
    · refine ⟨_, e, ?_⟩
      unfold rocketRate
      rw [if_neg (by norm_num)]
      refine ⟨_, rfl, ?_⟩
      norm_num [ThrustParams.thrust, forceLimits]
    · exact absurd ⟨by norm_num, by norm_num, by norm_num, by norm_num, by norm_num⟩ h

/-- The hypotheses of the theorems on rest hold for the defaults. -/
example : ∃ p, defaultCarParams = .ok p ∧ Idles p.accMin p.accMax ∧
    vehicleRate realTrig (12 / 5) (6 / 5) p ⟨3, 4, 1, 0, 1 / 10⟩ (0, 0) = ⟨0, 0, 0, 0, 0⟩ :=
  ⟨_, C125_values.1, ⟨by norm_num, by norm_num⟩,
    C125_rest_vehicle_partial _ _ _ _ _ _ _ C125_values.1 ⟨by norm_num, by norm_num⟩ _ rfl⟩

end

end Phys
end Verif
