import Verif.Phys.Limits
import Mathlib.Tactic.Linarith
import Mathlib.Tactic.Ring
import Mathlib.Analysis.Calculus.Deriv.MeanValue
import Mathlib.Topology.Order.Compact

/-!
# C42–C44: limits
-/

set_option linter.unusedSectionVars false

namespace Verif
namespace Phys

variable {K : Type} [Field K] [LinearOrder K] [IsStrictOrderedRing K]

/-! ## C42 -/

/-- `y` is the value of the interval `[lo, hi]` that is closest to `x`. -/
def IsClamp (lo hi x y : K) : Prop :=
  lo ≤ y ∧ y ≤ hi ∧ (lo ≤ x → x ≤ hi → y = x) ∧ (x < lo → y = lo) ∧ (hi < x → y = hi)

theorem accelerationLimits_clamp {lo hi : K} (h : lo ≤ hi) (x : K) :
    IsClamp lo hi x (accelerationLimits lo hi x) := by
  unfold accelerationLimits
  split
  · exact ⟨le_refl _, h, fun _ _ => by linarith, fun _ => rfl, fun _ => by linarith⟩
  · split
    · exact ⟨h, le_refl _, fun _ _ => by linarith, fun _ => by linarith, fun _ => rfl⟩
    · exact ⟨by linarith, by linarith, fun _ _ => rfl, fun _ => by linarith, fun _ => by linarith⟩

/-- `y` is what may be applied of a request `x`: nothing if a limit is reached and the request would
go on beyond it, otherwise all of it. -/
def IsGuarded (lo hi value x y : K) : Prop :=
  (hi ≤ value → y ≤ 0) ∧ (value ≤ lo → 0 ≤ y) ∧ (y = x ∨ y = 0) ∧
    (lo < value → value < hi → y = x) ∧ (value ≤ lo → 0 ≤ x → (hi ≤ value → x = 0) → y = x) ∧
    (hi ≤ value → x ≤ 0 → (value ≤ lo → x = 0) → y = x)

theorem speedConstraint_guarded (lo hi value x : K) :
    IsGuarded lo hi value x (speedConstraint lo hi value x) := by
  unfold speedConstraint
  split
  · rename_i h
    refine ⟨fun _ => le_refl _, fun _ => le_refl _, Or.inr rfl, ?_, ?_, ?_⟩
    · intro h1 h2; rcases h with h | h <;> linarith [h.1]
    · intro h1 h2 h3; rcases h with h | h
      · linarith [h.2]
      · linarith [h.2, h3 h.1]
    · intro h1 h2 h3; rcases h with h | h
      · linarith [h.2, h3 h.1]
      · linarith [h.2]
  · rename_i h
    simp only [not_or, not_and, not_lt] at h
    exact ⟨fun h1 => h.2 h1, fun h1 => h.1 h1, Or.inl rfl, fun _ _ => rfl, fun _ _ _ => rfl,
      fun _ _ _ => rfl⟩

/-- **C42.** The limited acceleration: the request is first clamped to the acceleration limits, then
dropped if it would push the speed beyond a reached limit. -/
theorem C42_full (p : ModelParams K) (hp : p.Valid) (speed acc : K) :
    ∃ c, IsClamp p.accMin p.accMax acc c ∧
      IsGuarded p.vxMin p.vxMax speed c (fullAccelerationLimits p speed acc) :=
  ⟨_, accelerationLimits_clamp hp.acc.le acc, speedConstraint_guarded _ _ _ _⟩

/-- **C42.** If the acceleration limits contain zero, the result is within them; if moreover the
request is within them and does not push beyond a reached speed limit, it is returned. It never pushes
beyond a reached speed limit. -/
theorem C42_limits (p : ModelParams K) (hp : p.Valid) (speed acc : K) :
    let r := fullAccelerationLimits p speed acc
    (p.accMin ≤ 0 → 0 ≤ p.accMax → p.accMin ≤ r ∧ r ≤ p.accMax) ∧
    (p.vxMax ≤ speed → r ≤ 0) ∧ (speed ≤ p.vxMin → 0 ≤ r) ∧
    (p.accMin ≤ acc → acc ≤ p.accMax → (p.vxMax ≤ speed → acc ≤ 0) → (speed ≤ p.vxMin → 0 ≤ acc) →
      r = acc) := by
  obtain ⟨c, hc, hg⟩ := C42_full p hp speed acc
  refine ⟨?_, hg.1, hg.2.1, ?_⟩
  · intro h0 h1
    rcases hg.2.2.1 with h | h <;> rw [h]
    · exact ⟨hc.1, hc.2.1⟩
    · exact ⟨h0, h1⟩
  · intro h1 h2 h3 h4
    have hca := hc.2.2.1 h1 h2
    by_cases hv : p.vxMax ≤ speed
    · rw [hg.2.2.2.2.2 hv (hca ▸ h3 hv) (fun h => by linarith [hp.vx]), hca]
    · by_cases hl : speed ≤ p.vxMin
      · rw [hg.2.2.2.2.1 hl (hca ▸ h4 hl) (fun h => absurd h hv), hca]
      · rw [hg.2.2.2.1 (not_le.mp hl) (not_le.mp hv), hca]

/-- **C42.** Without zero in the limits the result can be outside of them: with limits [1, 2] and the
maximal speed reached the result is zero. -/
theorem C42_zero_counterexample :
    (⟨0, 10, 1, 2⟩ : ModelParams ℚ).Valid ∧
      fullAccelerationLimits (⟨0, 10, 1, 2⟩ : ModelParams ℚ) 10 (3 / 2) < 1 := by
  refine ⟨⟨by norm_num, by norm_num⟩, ?_⟩
  decide +kernel

/-- Parameters of a car. -/
def carParams : VehicleParams ℚ := ⟨⟨-4, 36, -8, 5⟩, 11 / 21, 1⟩

theorem carParams_valid : carParams.Valid :=
  ⟨⟨by decide +kernel, by decide +kernel⟩, by decide +kernel, by decide +kernel⟩

example : fullAccelerationLimits carParams.toModelParams 10 7 = 5 ∧
    fullAccelerationLimits carParams.toModelParams 36 7 = 0 ∧
    fullAccelerationLimits carParams.toModelParams 36 (-9) = -8 := by decide +kernel

/-- **C42.** Force limits clamp. -/
theorem C42_force (lo hi : K) (h : lo ≤ hi) (x : K) : IsClamp lo hi x (forceLimits lo hi x) := by
  unfold forceLimits
  split
  · rename_i hx
    exact ⟨hx.1.le, hx.2.le, fun _ _ => rfl, fun _ => by linarith [hx.1], fun _ => by linarith [hx.2]⟩
  · refine ⟨le_max_left _ _, max_le h (min_le_right _ _), ?_, ?_, ?_⟩
    · intro h1 h2; rw [min_eq_left h2, max_eq_right h1]
    · intro h1; rw [max_eq_left (le_trans (min_le_left _ _) h1.le)]
    · intro h1; rw [min_eq_right h1.le, max_eq_right h]

theorem angVelLimits_clamp (lo hi : K) (h : lo ≤ hi) (x : K) :
    IsClamp lo hi x (angVelLimits lo hi x) := by
  unfold angVelLimits
  split
  · exact ⟨le_refl _, h, fun _ _ => by linarith, fun _ => rfl, fun _ => by linarith⟩
  · split
    · exact ⟨h, le_refl _, fun _ _ => by linarith, fun _ => by linarith, fun _ => rfl⟩
    · exact ⟨by linarith, by linarith, fun _ _ => rfl, fun _ => by linarith, fun _ => by linarith⟩

/-- **C42.** The angular variant: clamp to the rate limits, then drop what would push the angle beyond
a reached limit; within the rate limits if these contain zero. -/
theorem C42_angular (lo hi dlo dhi : K) (h : dlo ≤ dhi) (ang dang : K) :
    ∃ c, IsClamp dlo dhi dang c ∧ IsGuarded lo hi ang c (fullAngVelLimits lo hi dlo dhi ang dang) ∧
      (dlo ≤ 0 → 0 ≤ dhi → dlo ≤ fullAngVelLimits lo hi dlo dhi ang dang ∧
        fullAngVelLimits lo hi dlo dhi ang dang ≤ dhi) := by
  refine ⟨_, angVelLimits_clamp dlo dhi h dang, speedConstraint_guarded _ _ _ _, fun h0 h1 => ?_⟩
  have hc := angVelLimits_clamp dlo dhi h dang
  unfold fullAngVelLimits
  rcases (speedConstraint_guarded lo hi ang (angVelLimits dlo dhi dang)).2.2.1 with hh | hh <;> rw [hh]
  · exact ⟨hc.1, hc.2.1⟩
  · exact ⟨h0, h1⟩

example : fullAngVelLimits (-1) 1 (-2) 2 (1 : ℚ) 5 = 0 ∧ fullAngVelLimits (-1) 1 (-2) 2 (0 : ℚ) 5 = 2 ∧
    forceLimits (-2) 3 (7 : ℚ) = 3 := by decide +kernel

/-! ## C43 -/

/-- **C43.** The steering rate is within the rate limits, is zero if the steering angle is at or
beyond its limit and the request would increase it, and is otherwise the request clamped to the rate
limits. -/
theorem C43_steering (p : VehicleParams K) (hp : p.Valid) (angle rate : K) :
    let r := steeringConstraint p.deltaMax p.ddeltaMax angle rate
    (-p.ddeltaMax ≤ r ∧ r ≤ p.ddeltaMax) ∧
    (angle ≤ -p.deltaMax → 0 ≤ r) ∧ (p.deltaMax ≤ angle → r ≤ 0) ∧
    (((angle ≤ -p.deltaMax ∧ rate < 0) ∨ (p.deltaMax ≤ angle ∧ 0 < rate)) → r = 0) ∧
    (¬((angle ≤ -p.deltaMax ∧ rate < 0) ∨ (p.deltaMax ≤ angle ∧ 0 < rate)) →
      IsClamp (-p.ddeltaMax) p.ddeltaMax rate r) := by
  intro r
  have hd := hp.ddelta
  by_cases h : (angle ≤ -p.deltaMax ∧ rate < 0) ∨ (p.deltaMax ≤ angle ∧ 0 < rate)
  · have hr : r = 0 := by simp only [r, steeringConstraint]; rw [if_pos h]
    rw [hr]
    exact ⟨⟨by linarith, hd.le⟩, fun _ => le_refl _, fun _ => le_refl _, fun _ => rfl, fun h' => absurd h h'⟩
  · have hr : r = accelerationLimits (-p.ddeltaMax) p.ddeltaMax rate := by
      simp only [r, steeringConstraint]; rw [if_neg h]; rfl
    have hc := accelerationLimits_clamp (show -p.ddeltaMax ≤ p.ddeltaMax by linarith) rate
    rw [← hr] at hc
    simp only [not_or, not_and, not_lt] at h
    refine ⟨⟨hc.1, hc.2.1⟩, fun ha => ?_, fun ha => ?_, fun h' => ?_, fun _ => hc⟩
    · have := h.1 ha
      by_cases h2 : rate ≤ p.ddeltaMax
      · rw [hc.2.2.1 (by linarith) h2]; exact this
      · rw [hc.2.2.2.2 (not_le.mp h2)]; exact hd.le
    · have := h.2 ha
      by_cases h2 : -p.ddeltaMax ≤ rate
      · rw [hc.2.2.1 h2 (by linarith)]; exact this
      · rw [hc.2.2.2.1 (not_le.mp h2)]; linarith
    · rcases h' with h' | h'
      · linarith [h.1 h'.1, h'.2]
      · linarith [h.2 h'.1, h'.2]

example : steeringConstraint carParams.deltaMax carParams.ddeltaMax (11 / 21) (1 / 2) = 0 ∧
    steeringConstraint carParams.deltaMax carParams.ddeltaMax 0 (-3) = -1 := by decide +kernel

/-- **C43.** The rotation rate of a pedestrian is the request clamped to the limits. -/
theorem C43_rotation (m rate : K) (hm : 0 < m) : IsClamp (-m) m rate (rotationConstraint m rate) :=
  angVelLimits_clamp (-m) m (by linarith) rate

/-! ## C44 -/

theorem clip_clamp {lo hi : K} (h : lo ≤ hi) (x : K) : IsClamp lo hi x (clip x lo hi) := by
  unfold clip
  refine ⟨le_min (le_max_right _ _) h, min_le_right _ _, ?_, ?_, ?_⟩
  · intro h1 h2; rw [max_eq_left h1, min_eq_left h2]
  · intro h1; rw [max_eq_right h1.le, min_eq_left h]
  · intro h1; rw [min_eq_right (le_trans h1.le (le_max_left _ _))]

/-- Clipping moves a value towards every value of the interval. -/
theorem clip_dist {lo hi : K} (x v : K) (h1 : lo ≤ v) (h2 : v ≤ hi) :
    |clip x lo hi - v| ≤ |x - v| := by
  have hc := clip_clamp (le_trans h1 h2) x
  rcases lt_or_ge x lo with h | h
  · rw [hc.2.2.2.1 h]
    rw [abs_of_nonpos (by linarith), abs_of_nonpos (by linarith)]; linarith
  · rcases lt_or_ge hi x with h' | h'
    · rw [hc.2.2.2.2 h', abs_of_nonneg (by linarith), abs_of_nonneg (by linarith)]; linarith
    · rw [hc.2.2.1 h h']

/-- A state whose speed and steering angle respect the limits. -/
def Admissible (p : VehicleParams K) (x : VehicleState K) : Prop :=
  (p.vxMin ≤ x.vx ∧ x.vx ≤ p.vxMax) ∧ (-p.deltaMax ≤ x.delta ∧ x.delta ≤ p.deltaMax)

/-- **C44.** One step of the discrete bicycle model ends in an admissible state, whatever the state,
the command and the step size. -/
theorem C44_admissible (T : Trig K) (wb lr : K) (p : VehicleParams K) (hp : p.Valid)
    (x0 : VehicleState K) (u : K × K) (dt : K) : Admissible p (bicycleStep T wb lr p x0 u dt) := by
  have h1 := clip_clamp hp.base.vx.le (x0.add ((bicycleRate T wb lr x0 (clip u.1 p.accMin p.accMax)
    (clip u.2 (-p.ddeltaMax) p.ddeltaMax)).mul dt)).vx
  have h2 := clip_clamp (show -p.deltaMax ≤ p.deltaMax by linarith [hp.delta])
    (x0.add ((bicycleRate T wb lr x0 (clip u.1 p.accMin p.accMax)
    (clip u.2 (-p.ddeltaMax) p.ddeltaMax)).mul dt)).delta
  exact ⟨⟨h1.1, h1.2.1⟩, ⟨h2.1, h2.2.1⟩⟩

/-- **C44.** From an admissible state the speed changes by at most the maximal acceleration (in either
direction) times the step, and the steering angle by at most the maximal steering rate times the
step. -/
theorem C44_rate (T : Trig K) (wb lr : K) (p : VehicleParams K) (hp : p.Valid)
    (x0 : VehicleState K) (hx : Admissible p x0) (u : K × K) (dt : K) (hdt : 0 ≤ dt) :
    let x := bicycleStep T wb lr p x0 u dt
    |x.vx - x0.vx| ≤ max |p.accMin| |p.accMax| * dt ∧ |x.delta - x0.delta| ≤ p.ddeltaMax * dt := by
  intro x
  have ha := clip_clamp hp.base.acc.le u.1
  have hs := clip_clamp (show -p.ddeltaMax ≤ p.ddeltaMax by linarith [hp.ddelta]) u.2
  constructor
  · have h := clip_dist (x0.vx + clip u.1 p.accMin p.accMax * dt) x0.vx hx.1.1 hx.1.2
    refine le_trans h ?_
    rw [add_sub_cancel_left, abs_mul, abs_of_nonneg hdt]
    exact mul_le_mul_of_nonneg_right (abs_le_max_abs_abs ha.1 ha.2.1) hdt
  · have h := clip_dist (x0.delta + clip u.2 (-p.ddeltaMax) p.ddeltaMax * dt) x0.delta hx.2.1 hx.2.2
    refine le_trans h ?_
    rw [add_sub_cancel_left, abs_mul, abs_of_nonneg hdt]
    exact mul_le_mul_of_nonneg_right (abs_le.mpr ⟨hs.1, hs.2.1⟩) hdt

/-- **C44.** For an admissible command and a step that does not reach a limit, the step is the Euler
step of the kinematic bicycle with that command. -/
theorem C44_euler (T : Trig K) (wb lr : K) (p : VehicleParams K) (hp : p.Valid)
    (x0 : VehicleState K) (u : K × K) (dt : K)
    (hu1 : p.accMin ≤ u.1 ∧ u.1 ≤ p.accMax) (hu2 : |u.2| ≤ p.ddeltaMax)
    (hv : p.vxMin ≤ x0.vx + u.1 * dt ∧ x0.vx + u.1 * dt ≤ p.vxMax)
    (hd : |x0.delta + u.2 * dt| ≤ p.deltaMax) :
    let w := x0.vx * T.tan x0.delta / wb
    bicycleStep T wb lr p x0 u dt =
      ⟨x0.x + (x0.vx * T.cos x0.psi - w * lr * T.sin x0.psi) * dt,
        x0.y + (x0.vx * T.sin x0.psi + w * lr * T.cos x0.psi) * dt,
        x0.psi + w * dt, x0.vx + u.1 * dt, x0.delta + u.2 * dt⟩ := by
  intro w
  have e1 := (clip_clamp hp.base.acc.le u.1).2.2.1 hu1.1 hu1.2
  have e2 := (clip_clamp (show -p.ddeltaMax ≤ p.ddeltaMax by linarith [hp.ddelta]) u.2).2.2.1
    (abs_le.mp hu2).1 (abs_le.mp hu2).2
  have e3 := (clip_clamp hp.base.vx.le (x0.vx + u.1 * dt)).2.2.1 hv.1 hv.2
  have e4 := (clip_clamp (show -p.deltaMax ≤ p.deltaMax by linarith [hp.delta])
    (x0.delta + u.2 * dt)).2.2.1 (abs_le.mp hd).1 (abs_le.mp hd).2
  unfold bicycleStep
  simp only [e1, e2, VehicleState.add, VehicleState.mul, bicycleRate, e3, e4, w]

/-- A roll-out of the discrete bicycle model. -/
def rollout (T : Trig K) (wb lr : K) (p : VehicleParams K) (x0 : VehicleState K) :
    List ((K × K) × K) → List (VehicleState K)
  | [] => []
  | (u, dt) :: us =>
    bicycleStep T wb lr p x0 u dt :: rollout T wb lr p (bicycleStep T wb lr p x0 u dt) us

/-- **C44.** Hence every state of every roll-out is admissible. -/
theorem C44_rollout (T : Trig K) (wb lr : K) (p : VehicleParams K) (hp : p.Valid)
    (us : List ((K × K) × K)) : ∀ x0 : VehicleState K,
    ∀ x ∈ rollout T wb lr p x0 us, Admissible p x := by
  induction us with
  | nil => intro x0 x hx; simp [rollout] at hx
  | cons u us ih =>
    obtain ⟨u, dt⟩ := u
    intro x0 x hx
    rcases List.mem_cons.mp hx with rfl | hx
    · exact C44_admissible T wb lr p hp x0 u dt
    · exact ih _ x hx

/-- A car at 35 m/s with full throttle for a second ends at its maximal speed. -/
example : (bicycleStep ⟨fun _ => 0, fun _ => 1, fun d => d⟩ 3 (3 / 2) carParams ⟨0, 0, 0, 35, 1 / 10⟩
    (9, 1 / 10) 1) = ⟨35, 7 / 4, 7 / 6, 36, 1 / 5⟩ := by decide +kernel

/-- **C44.** The continuous vehicle model: the rate of the speed never points out of a reached speed
limit, the rate of the steering angle never out of a reached steering limit. -/
theorem C44_continuous_rate (T : Trig K) (wb lr : K) (p : VehicleParams K) (hp : p.Valid)
    (x : VehicleState K) (u : K × K) :
    let r := vehicleRate T wb lr p x u
    (p.vxMax ≤ x.vx → r.vx ≤ 0) ∧ (x.vx ≤ p.vxMin → 0 ≤ r.vx) ∧
    (p.deltaMax ≤ x.delta → r.delta ≤ 0) ∧ (x.delta ≤ -p.deltaMax → 0 ≤ r.delta) := by
  have h1 := C42_limits p.toModelParams hp.base x.vx u.1
  have h2 := C43_steering p hp x.delta u.2
  exact ⟨h1.2.1, h1.2.2.1, h2.2.2.1, h2.2.1⟩

/-- A differentiable function that never grows while above `c` stays below `c`. -/
theorem le_of_deriv_guard {f f' : ℝ → ℝ} {T c : ℝ}
    (hf : ∀ t ∈ Set.Icc 0 T, HasDerivWithinAt f (f' t) (Set.Icc 0 T) t)
    (h0 : f 0 ≤ c) (hg : ∀ t ∈ Set.Icc 0 T, c ≤ f t → f' t ≤ 0) :
    ∀ t ∈ Set.Icc 0 T, f t ≤ c := by
  have hcont : ContinuousOn f (Set.Icc 0 T) := fun t ht => (hf t ht).continuousWithinAt
  intro t ht
  by_contra hlt
  have hlt := not_le.mp hlt
  -- last time before `t` at which the value is at most `c`
  let S := Set.Icc 0 t ∩ f ⁻¹' Set.Iic c
  have hsub : Set.Icc (0 : ℝ) t ⊆ Set.Icc 0 T := Set.Icc_subset_Icc le_rfl ht.2
  have hS : IsCompact S :=
    (isCompact_Icc).of_isClosed_subset
      ((hcont.mono hsub).preimage_isClosed_of_isClosed isClosed_Icc isClosed_Iic)
      Set.inter_subset_left
  have hne : S.Nonempty := ⟨0, ⟨⟨le_rfl, ht.1⟩, h0⟩⟩
  obtain ⟨s, hs, hmax⟩ := hS.exists_isGreatest hne
  have hst : s < t := by
    rcases lt_or_eq_of_le hs.1.2 with h | h
    · exact h
    · exfalso
      have := hs.2
      rw [h] at this
      exact absurd this (not_le.mpr hlt)
  have habove : ∀ r ∈ Set.Ioc s t, c < f r := by
    intro r hr
    by_contra hle
    have hrS : r ∈ S := ⟨⟨le_trans hs.1.1 hr.1.le, hr.2⟩, not_lt.mp hle⟩
    exact absurd (hmax hrS) (not_le.mpr hr.1)
  have hsT : Set.Icc s t ⊆ Set.Icc 0 T := Set.Icc_subset_Icc hs.1.1 ht.2
  obtain ⟨r, hr, hslope⟩ := exists_hasDerivAt_eq_slope f f' hst (hcont.mono hsT) (by
    intro r hr
    have hrT : r ∈ Set.Ioo 0 T := ⟨lt_of_le_of_lt hs.1.1 hr.1, lt_of_lt_of_le hr.2 ht.2⟩
    exact (hf r ⟨hrT.1.le, hrT.2.le⟩).hasDerivAt (Icc_mem_nhds hrT.1 hrT.2))
  have hneg := hg r (hsT ⟨hr.1.le, hr.2.le⟩) (habove r ⟨hr.1, hr.2.le⟩).le
  rw [hslope] at hneg
  have hts : 0 < t - s := sub_pos.mpr hst
  have : f t - f s ≤ 0 := by
    by_contra h
    exact absurd hneg (not_le.mpr (div_pos (not_le.mp h) hts))
  have hfs : f s ≤ c := hs.2
  linarith

/-- **C44.** Every exact solution of the continuous vehicle model that starts admissible stays
admissible, whatever the commands over time. (The numerical integrator is not modelled.) -/
theorem C44_continuous (Tr : Trig ℝ) (wb lr : ℝ) (p : VehicleParams ℝ) (hp : p.Valid) (T : ℝ)
    (x : ℝ → VehicleState ℝ) (u : ℝ → ℝ × ℝ) (hx0 : Admissible p (x 0))
    (hv : ∀ t ∈ Set.Icc 0 T, HasDerivWithinAt (fun s => (x s).vx)
      (vehicleRate Tr wb lr p (x t) (u t)).vx (Set.Icc 0 T) t)
    (hd : ∀ t ∈ Set.Icc 0 T, HasDerivWithinAt (fun s => (x s).delta)
      (vehicleRate Tr wb lr p (x t) (u t)).delta (Set.Icc 0 T) t) :
    ∀ t ∈ Set.Icc 0 T, Admissible p (x t) := by
  have hr := fun t => C44_continuous_rate Tr wb lr p hp (x t) (u t)
  intro t ht
  refine ⟨⟨?_, ?_⟩, ⟨?_, ?_⟩⟩
  · have := le_of_deriv_guard (f := fun s => -(x s).vx) (c := -p.vxMin) (T := T)
      (f' := fun s => -(vehicleRate Tr wb lr p (x s) (u s)).vx) (fun s hs => (hv s hs).neg)
      (neg_le_neg hx0.1.1) (fun s hs h => by
        have := (hr s).2.1 (by linarith); linarith) t ht
    linarith
  · exact le_of_deriv_guard (f := fun s => (x s).vx) (c := p.vxMax) (T := T) hv hx0.1.2
      (fun s hs h => (hr s).1 h) t ht
  · have := le_of_deriv_guard (f := fun s => -(x s).delta) (c := p.deltaMax) (T := T)
      (f' := fun s => -(vehicleRate Tr wb lr p (x s) (u s)).delta) (fun s hs => (hd s hs).neg)
      (by linarith [hx0.2.1]) (fun s hs h => by
        have := (hr s).2.2.2 (by linarith); linarith) t ht
    linarith
  · exact le_of_deriv_guard (f := fun s => (x s).delta) (c := p.deltaMax) (T := T) hd hx0.2.2
      (fun s hs h => (hr s).2.2.1 h) t ht

/-- A solution: full throttle (a request of 9, limited to 5) for one second from standstill. -/
example (Tr : Trig ℝ) : let p : VehicleParams ℝ := ⟨⟨-4, 36, -8, 5⟩, 1 / 2, 1⟩
    let x : ℝ → VehicleState ℝ := fun t => ⟨0, 0, 0, 5 * t, 0⟩
    Admissible p (x 0) ∧ (∀ t ∈ Set.Icc (0 : ℝ) 1, HasDerivWithinAt (fun s => (x s).vx)
      (vehicleRate Tr 3 1 p (x t) (9, 0)).vx (Set.Icc 0 1) t) ∧
      ∀ t ∈ Set.Icc (0 : ℝ) 1, HasDerivWithinAt (fun s => (x s).delta)
      (vehicleRate Tr 3 1 p (x t) (9, 0)).delta (Set.Icc 0 1) t := by
  intro p x
  refine ⟨by simp only [p, x, Admissible]; norm_num, fun t ht => ?_, fun t ht => ?_⟩
  · have hr : (vehicleRate Tr 3 1 p (x t) (9, 0)).vx = 5 := by
      simp only [p, x, vehicleRate, bicycleRate, fullAccelerationLimits, accelerationLimits]
      have h1 : ¬ (9 : ℝ) < -8 := by norm_num
      have h2 : (5 : ℝ) < 9 := by norm_num
      rw [if_neg h1, if_pos h2]
      unfold speedConstraint
      rw [if_neg]
      rintro (h | h)
      · linarith [h.2]
      · linarith [h.1, ht.2]
    rw [hr]
    have := ((hasDerivAt_id t).const_mul 5).hasDerivWithinAt (s := Set.Icc 0 1)
    simpa using this
  · have hr : (vehicleRate Tr 3 1 p (x t) (9, 0)).delta = 0 := by
      simp only [p, x, vehicleRate, bicycleRate, steeringConstraint]
      norm_num
    rw [hr]
    exact hasDerivWithinAt_const _ _ _

end Phys
end Verif
