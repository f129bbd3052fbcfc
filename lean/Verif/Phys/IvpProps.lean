import Verif.Phys.Ivp
import Verif.Phys.AfterProps

/-!
# C118: the two propagations of the discrete bicycle model
-/

namespace Verif
namespace Phys

/-- Specification: an exact solution of the kinematic bicycle without limits, for constant commands. -/
structure BicycleMotion (wb lr acc ddelta T : ℝ) (s : ℝ → VehicleState ℝ) : Prop where
  x : ∀ t ∈ Set.Icc 0 T, HasDerivWithinAt (fun τ => (s τ).x) ((s t).vx * Real.cos (s t).psi -
    (s t).vx * Real.tan (s t).delta / wb * lr * Real.sin (s t).psi) (Set.Icc 0 T) t
  y : ∀ t ∈ Set.Icc 0 T, HasDerivWithinAt (fun τ => (s τ).y) ((s t).vx * Real.sin (s t).psi +
    (s t).vx * Real.tan (s t).delta / wb * lr * Real.cos (s t).psi) (Set.Icc 0 T) t
  psi : ∀ t ∈ Set.Icc 0 T, HasDerivWithinAt (fun τ => (s τ).psi) ((s t).vx * Real.tan (s t).delta / wb)
    (Set.Icc 0 T) t
  vx : ∀ t ∈ Set.Icc 0 T, HasDerivWithinAt (fun τ => (s τ).vx) acc (Set.Icc 0 T) t
  delta : ∀ t ∈ Set.Icc 0 T, HasDerivWithinAt (fun τ => (s τ).delta) ddelta (Set.Icc 0 T) t

theorem motion_bicycle {wb lr T : ℝ} {u : VehicleCommands ℝ} {s : ℝ → VehicleState ℝ} :
    Motion (bicycleIvp wb lr).toS (fun x => (bicycleIvp wb lr).rate x u) T s ↔
      BicycleMotion wb lr u.acc u.ddelta T s := by
  constructor
  · intro h
    have hd : ∀ t ∈ Set.Icc 0 T, ∀ i, HasDerivWithinAt (fun τ => ((s τ).toArray).getD i 0)
        ((bicycleRate realTrig wb lr (s t) u.acc u.ddelta).toArray.getD i 0) (Set.Icc 0 T) t := by
      intro t ht i
      obtain ⟨d, h1, h2⟩ := h t ht
      injection h1 with h1
      subst h1
      exact h2 i
    exact ⟨fun t ht => hd t ht 0, fun t ht => hd t ht 1, fun t ht => hd t ht 2, fun t ht => hd t ht 3,
      fun t ht => hd t ht 4⟩
  · intro h t ht
    refine ⟨_, rfl, fun i => ?_⟩
    match i with
    | 0 => exact h.x t ht
    | 1 => exact h.y t ht
    | 2 => exact h.psi t ht
    | 3 => exact h.vx t ht
    | 4 => exact h.delta t ht
    | i + 5 => exact hasDerivWithinAt_const _ _ _

/-- **C118.** `successor_ivp` hands the bicycle with the given commands, unclipped, to the integrator: what it asks
to solve are exactly the motions of the bicycle, and the state is read back from them. -/
theorem C118_ivp (wb lr T : ℝ) (hT : 0 ≤ T) (x0 : VehicleState ℝ) (u : VehicleCommands ℝ) (y : ℝ → List ℝ)
    (h0 : y 0 = (bicycleIvp wb lr).pack x0 u) :
    Solves (bicycleIvp wb lr).rhs 7 T y ↔ ∃ s : ℝ → VehicleState ℝ, s 0 = x0 ∧
      BicycleMotion wb lr u.acc u.ddelta T s ∧
      ∀ t ∈ Set.Icc 0 T, y t = (bicycleIvp wb lr).pack (s t) u ∧
        (bicycleIvp wb lr).unpack (y t) = .ok (s t, { acc := u.acc, ddelta := u.ddelta }) := by
  have hf : Faithful (bicycleIvp wb lr) (fun u => { acc := u.acc, ddelta := u.ddelta }) :=
    ⟨C46_VehicleState, fun _ => rfl, fun s u => rfl⟩
  have := C94_refines _ _ hf T hT x0 u y h0
  refine this.trans ?_
  constructor
  · rintro ⟨s, h1, h2, h3⟩
    exact ⟨s, h1, motion_bicycle.mp h2, h3⟩
  · rintro ⟨s, h1, h2, h3⟩
    exact ⟨s, h1, motion_bicycle.mpr h2, h3⟩

/-- **C118.** In an exact solution speed and steering angle grow with the commands, past all limits. -/
theorem C118_inputs {wb lr acc ddelta T : ℝ} {s : ℝ → VehicleState ℝ} (h : BicycleMotion wb lr acc ddelta T s)
    (t : ℝ) (ht : t ∈ Set.Icc 0 T) :
    (s t).vx = (s 0).vx + acc * t ∧ (s t).delta = (s 0).delta + ddelta * t :=
  ⟨affine_of_const_deriv h.vx t ht, affine_of_const_deriv h.delta t ht⟩

/-- **C118.** To first order the two propagations agree: the increment of `successor` over a step that reaches no
limit, with commands within their limits, is the step times the rate at which the exact solution starts. -/
theorem C118_first_order {wb lr T : ℝ} {s : ℝ → VehicleState ℝ} (p : VehicleParams ℝ) (hp : p.Valid) (u : ℝ × ℝ)
    (h : BicycleMotion wb lr u.1 u.2 T s) (hT : 0 ≤ T) (hu1 : p.accMin ≤ u.1 ∧ u.1 ≤ p.accMax)
    (hu2 : |u.2| ≤ p.ddeltaMax) :
    ∃ r : VehicleState ℝ, (∀ i, HasDerivWithinAt (fun τ => (s τ).toArray.getD i 0) (r.toArray.getD i 0)
        (Set.Icc 0 T) 0) ∧
      ∀ dt, (p.vxMin ≤ (s 0).vx + u.1 * dt ∧ (s 0).vx + u.1 * dt ≤ p.vxMax) →
        |(s 0).delta + u.2 * dt| ≤ p.deltaMax →
        bicycleStep realTrig wb lr p (s 0) u dt = (s 0).add (r.mul dt) := by
  refine ⟨bicycleRate realTrig wb lr (s 0) u.1 u.2, ?_, ?_⟩
  · have h0 : (0 : ℝ) ∈ Set.Icc 0 T := ⟨le_rfl, hT⟩
    intro i
    match i with
    | 0 => exact h.x 0 h0
    | 1 => exact h.y 0 h0
    | 2 => exact h.psi 0 h0
    | 3 => exact h.vx 0 h0
    | 4 => exact h.delta 0 h0
    | i + 5 => exact hasDerivWithinAt_const _ _ _
  · intro dt hv hd
    rw [C44_euler realTrig wb lr p hp (s 0) u dt hu1 hu2 hv hd]
    simp [VehicleState.add, VehicleState.mul, bicycleRate]

/-- **C118.** Driving straight on, speed and steering agree exactly and the exact solution is ahead of `successor` by
half the acceleration times the square of the step. -/
theorem C118_straight {wb lr T : ℝ} {s : ℝ → VehicleState ℝ} (p : VehicleParams ℝ) (hp : p.Valid) (acc : ℝ)
    (h : BicycleMotion wb lr acc 0 T s) (hd : (s 0).delta = 0) (hacc : p.accMin ≤ acc ∧ acc ≤ p.accMax)
    (t : ℝ) (ht : t ∈ Set.Icc 0 T) (hv : p.vxMin ≤ (s 0).vx + acc * t ∧ (s 0).vx + acc * t ≤ p.vxMax) :
    let e := bicycleStep realTrig wb lr p (s 0) (acc, 0) t
    (s t).vx = e.vx ∧ (s t).delta = e.delta ∧ (s t).psi = e.psi ∧
      (s t).x = e.x + acc * t ^ 2 / 2 * Real.cos (s 0).psi ∧
      (s t).y = e.y + acc * t ^ 2 / 2 * Real.sin (s 0).psi := by
  have hdel : ∀ t ∈ Set.Icc 0 T, (s t).delta = 0 := by
    intro t ht
    rw [(C118_inputs h t ht).2, hd]
    ring
  have hpsi : ∀ t ∈ Set.Icc 0 T, (s t).psi = (s 0).psi := by
    refine const_of_zero_deriv fun t ht => ?_
    have := h.psi t ht
    rw [hdel t ht, Real.tan_zero, mul_zero, zero_div] at this
    exact this
  have hvx := fun t ht => (C118_inputs h t ht).1
  have hx : ∀ t ∈ Set.Icc 0 T, (s t).x - ((s 0).vx * t + acc * t ^ 2 / 2) * Real.cos (s 0).psi = (s 0).x := by
    intro t ht
    have := const_of_zero_deriv (f := fun t => (s t).x - ((s 0).vx * t + acc * t ^ 2 / 2) * Real.cos (s 0).psi)
      (T := T) (fun t ht => by
        have h1 := h.x t ht
        have h2 : HasDerivWithinAt (fun τ : ℝ => ((s 0).vx * τ + acc * τ ^ 2 / 2) * Real.cos (s 0).psi)
            (((s 0).vx + acc * t) * Real.cos (s 0).psi) (Set.Icc 0 T) t := by
          have h3 : HasDerivAt (fun τ : ℝ => ((s 0).vx * τ + acc * τ ^ 2 / 2) * Real.cos (s 0).psi)
              (((s 0).vx * 1 + acc * (2 * t ^ 1 * 1) / 2) * Real.cos (s 0).psi) t := by
            refine HasDerivAt.mul_const ?_ _
            exact ((hasDerivAt_id t).const_mul _).add ((((hasDerivAt_id t).pow 2).const_mul acc).div_const 2)
          have h4 := h3.hasDerivWithinAt (s := Set.Icc 0 T)
          exact h4.congr_deriv (by ring)
        have h5 := h1.sub h2
        rw [hdel t ht, hpsi t ht, hvx t ht, Real.tan_zero] at h5
        exact h5.congr_deriv (by ring)) t ht
    simpa using this
  have hy : ∀ t ∈ Set.Icc 0 T, (s t).y - ((s 0).vx * t + acc * t ^ 2 / 2) * Real.sin (s 0).psi = (s 0).y := by
    intro t ht
    have := const_of_zero_deriv (f := fun t => (s t).y - ((s 0).vx * t + acc * t ^ 2 / 2) * Real.sin (s 0).psi)
      (T := T) (fun t ht => by
        have h1 := h.y t ht
        have h2 : HasDerivWithinAt (fun τ : ℝ => ((s 0).vx * τ + acc * τ ^ 2 / 2) * Real.sin (s 0).psi)
            (((s 0).vx + acc * t) * Real.sin (s 0).psi) (Set.Icc 0 T) t := by
          have h3 : HasDerivAt (fun τ : ℝ => ((s 0).vx * τ + acc * τ ^ 2 / 2) * Real.sin (s 0).psi)
              (((s 0).vx * 1 + acc * (2 * t ^ 1 * 1) / 2) * Real.sin (s 0).psi) t := by
            refine HasDerivAt.mul_const ?_ _
            exact ((hasDerivAt_id t).const_mul _).add ((((hasDerivAt_id t).pow 2).const_mul acc).div_const 2)
          have h4 := h3.hasDerivWithinAt (s := Set.Icc 0 T)
          exact h4.congr_deriv (by ring)
        have h5 := h1.sub h2
        rw [hdel t ht, hpsi t ht, hvx t ht, Real.tan_zero] at h5
        exact h5.congr_deriv (by ring)) t ht
    simpa using this
  intro e
  have he := C44_euler realTrig wb lr p hp (s 0) (acc, 0) t hacc (by simpa using hp.ddelta.le) hv
    (by simpa [hd] using hp.delta.le)
  have he : e = _ := he
  rw [he]
  simp only [realTrig, hd, Real.tan_zero, mul_zero, zero_div, zero_mul, sub_zero, add_zero]
  refine ⟨hvx t ht, hdel t ht, hpsi t ht, ?_, ?_⟩
  · linarith [hx t ht]
  · linarith [hy t ht]

theorem fullAcc_inside (p : ModelParams ℝ) {v a : ℝ} (hv : p.vxMin < v ∧ v < p.vxMax)
    (ha : p.accMin ≤ a ∧ a ≤ p.accMax) : fullAccelerationLimits p v a = a := by
  unfold fullAccelerationLimits accelerationLimits speedConstraint
  rw [if_neg (not_lt.mpr ha.1), if_neg (not_lt.mpr ha.2), if_neg]
  rintro (h | h)
  · exact absurd h.1 (not_le.mpr hv.1)
  · exact absurd h.1 (not_le.mpr hv.2)

theorem steering_inside {dm ddm v r : ℝ} (hv : |v| < dm) (hr : |r| ≤ ddm) : steeringConstraint dm ddm v r = r := by
  have h1 := abs_lt.mp hv
  have h2 := abs_le.mp hr
  unfold steeringConstraint
  rw [if_neg, if_neg (not_lt.mpr h2.1), if_neg (not_lt.mpr h2.2)]
  rintro (h | h)
  · linarith [h.1]
  · linarith [h.1]

/-- **C118.** As long as speed and steering angle stay inside their limits, and for commands within theirs, the
motions that `successor_ivp` integrates are those of the kinematic vehicle in the simulator. -/
theorem C118_simulator_partial {wb lr T : ℝ} {s : ℝ → VehicleState ℝ} (p : VehicleParams ℝ) (isCar : Bool)
    (u : VehicleCommands ℝ) (ha : p.accMin ≤ u.acc ∧ u.acc ≤ p.accMax) (hr : |u.ddelta| ≤ p.ddeltaMax)
    (hs : ∀ t ∈ Set.Icc 0 T, (p.vxMin < (s t).vx ∧ (s t).vx < p.vxMax) ∧ |(s t).delta| < p.deltaMax) :
    Motion VehicleState.toArray (fun x => (vehicleUpdate wb lr p false isCar).rate x u) T s ↔
      BicycleMotion wb lr u.acc u.ddelta T s := by
  rw [← motion_bicycle]
  have key : ∀ t ∈ Set.Icc 0 T, (vehicleUpdate wb lr p false isCar).rate (s t) u = (bicycleIvp wb lr).rate (s t) u := by
    intro t ht
    obtain ⟨h1, h2⟩ := hs t ht
    simp only [vehicleUpdate, bicycleIvp, vehicleRate]
    rw [fullAcc_inside p.toModelParams h1 ha, steering_inside h2 hr]
  constructor
  · intro h t ht
    obtain ⟨d, h1, h2⟩ := h t ht
    exact ⟨d, (key t ht).symm.trans h1, h2⟩
  · intro h t ht
    obtain ⟨d, h1, h2⟩ := h t ht
    exact ⟨d, (key t ht).trans h1, h2⟩

/-- A car that drives straight on and accelerates. -/
noncomputable def straightOn (v a : ℝ) (t : ℝ) : VehicleState ℝ := ⟨v * t + a * t ^ 2 / 2, 0, 0, v + a * t, 0⟩

theorem straightOn_motion (wb lr v a T : ℝ) : BicycleMotion wb lr a 0 T (straightOn v a) where
  x := by
    intro t _
    have h : HasDerivAt (fun τ : ℝ => v * τ + a * τ ^ 2 / 2) (v * 1 + a * (2 * t ^ 1 * 1) / 2) t :=
      ((hasDerivAt_id t).const_mul _).add ((((hasDerivAt_id t).pow 2).const_mul a).div_const 2)
    have h2 := h.hasDerivWithinAt (s := Set.Icc 0 T)
    simp only [straightOn, Real.cos_zero, Real.tan_zero, Real.sin_zero]
    exact h2.congr_deriv (by ring)
  y := by
    intro t _
    simp only [straightOn, Real.cos_zero, Real.tan_zero, Real.sin_zero, mul_zero, zero_div, zero_mul, add_zero]
    exact hasDerivWithinAt_const _ _ _
  psi := by
    intro t _
    simp only [straightOn, Real.tan_zero, mul_zero, zero_div]
    exact hasDerivWithinAt_const _ _ _
  vx := by
    intro t _
    have h : HasDerivAt (fun τ : ℝ => v + a * τ) (a * 1) t := ((hasDerivAt_id t).const_mul a).const_add v
    rw [mul_one] at h
    exact h.hasDerivWithinAt
  delta := by
    intro t _
    exact hasDerivWithinAt_const _ _ _

example := C118_inputs (straightOn_motion 3 1 10 2 4) 4 (by norm_num)

/-- Parameters for the examples. -/
noncomputable def ivpParams : VehicleParams ℝ where
  vxMin := -5
  vxMax := 20
  accMin := -8
  accMax := 5
  deltaMax := 1
  ddeltaMax := 1

theorem ivpParams_valid : ivpParams.Valid := by
  refine ⟨⟨?_, ?_⟩, ?_, ?_⟩ <;> norm_num [ivpParams]

example := C118_first_order ivpParams ivpParams_valid (2, 0) (straightOn_motion 3 1 10 2 4) (by norm_num)
  (by norm_num [ivpParams]) (by norm_num [ivpParams])
example := C118_straight ivpParams ivpParams_valid 2 (straightOn_motion 3 1 10 2 4) rfl (by norm_num [ivpParams]) 3
  (by norm_num) (by norm_num [ivpParams, straightOn])
example := (C118_simulator_partial (wb := 3) (lr := 1) (T := 4) (s := straightOn 10 2) ivpParams true ⟨2, 0, .none⟩
  (by norm_num [ivpParams]) (by norm_num [ivpParams]) (fun t ht => by
    have := ht.1; have := ht.2
    simp only [straightOn, ivpParams]
    exact ⟨⟨by linarith, by linarith⟩, by norm_num⟩)).mpr (straightOn_motion 3 1 10 2 4)

/-- **C118 fails at the limits.** From 18 m/s with 2 m/s² for 4 s, all within the limits, `successor` ends at the
maximal speed of 20 m/s, and every exact solution, as integrated by `successor_ivp`, ends at 26 m/s. -/
theorem C118_false_limits : ivpParams.Valid ∧ Admissible ivpParams (straightOn 18 2 0) ∧
    (bicycleStep realTrig 3 1 ivpParams (straightOn 18 2 0) (2, 0) 4).vx = 20 ∧
    BicycleMotion 3 1 2 0 4 (straightOn 18 2) ∧
    ∀ s, BicycleMotion 3 1 2 0 4 s → s 0 = straightOn 18 2 0 → (s 4).vx = 26 ∧ ¬ Admissible ivpParams (s 4) := by
  refine ⟨ivpParams_valid, ?_, ?_, straightOn_motion _ _ _ _ _, ?_⟩
  · norm_num [Admissible, ivpParams, straightOn]
  · norm_num [bicycleStep, ivpParams, straightOn, clip, bicycleRate, VehicleState.add, VehicleState.mul]
  · intro s hs h0
    have := (C118_inputs hs 4 (by norm_num)).1
    rw [h0] at this
    have hv : (s 4).vx = 26 := by rw [this]; norm_num [straightOn]
    refine ⟨hv, fun h => ?_⟩
    have := h.1.2
    rw [hv] at this
    norm_num [ivpParams] at this

end Phys
end Verif
