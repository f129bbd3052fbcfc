import Verif.Control.PidFloat
import Verif.Seq.FloatLemmas
import Mathlib.Algebra.Order.Group.MinMax

/-!
# C139: the PID controller in floating point
-/

namespace Verif

/-! ## Lemmas -/

/-- 2⁻⁵³ -/
local notation "𝕦" => (1 / 9007199254740992 : ℚ)

theorem getControlF_eq (r : ℚ → ℚ) (p : PIDParam ℚ) (s : PIDState ℚ) (t : ℚ) :
    s.getControlF r p t =
      let dt : ℚ := match s.lastRequestAt with | none => 0 | some t0 => r (t - t0)
      let e := r (s.reference - s.measurement)
      let i := npClip (r (s.lastIntegralError + r (r (p.kI * e) * dt))) p.antiwindup.1 p.antiwindup.2
      let d := if dt = 0 then 0 else r (r (e - s.lastProportionalError) / dt)
      (⟨s.measurement, s.reference, some t, i, e⟩,
        .ok (npClip (r (r (r (p.kP * e) + i) + r (p.kD * d))) p.output.1 p.output.2)) := by
  simp only [PIDState.getControlF]
  rcases s with ⟨m, x, _ | t0, i, q⟩
  · simp
  · by_cases h : r (t - t0) = 0 <;> simp [h]

theorem getControl_eq (p : PIDParam ℚ) (s : PIDState ℚ) (t : ℚ) :
    s.getControl p t =
      let dt : ℚ := match s.lastRequestAt with | none => 0 | some t0 => t - t0
      let e := s.reference - s.measurement
      let i := npClip (s.lastIntegralError + p.kI * e * dt) p.antiwindup.1 p.antiwindup.2
      let d := if dt = 0 then 0 else (e - s.lastProportionalError) / dt
      (⟨s.measurement, s.reference, some t, i, e⟩,
        .ok (npClip (p.kP * e + i + p.kD * d) p.output.1 p.output.2)) := by
  simp only [PIDState.getControl]
  rcases s with ⟨m, x, _ | t0, i, q⟩
  · simp
  · by_cases h : t - t0 = 0 <;> simp [h]

theorem npClip_lipschitz (x y lo hi : ℚ) : |npClip x lo hi - npClip y lo hi| ≤ |x - y| := by
  unfold npClip
  refine (abs_min_sub_min_le_max _ _ _ _).trans ?_
  simp only [sub_self, abs_zero]
  refine max_le ?_ (abs_nonneg _)
  refine (abs_max_sub_max_le_max _ _ _ _).trans ?_
  simp

theorem npClip_abs {x lo hi W : ℚ} (h : lo ≤ hi) (h1 : |lo| ≤ W) (h2 : |hi| ≤ W) : |npClip x lo hi| ≤ W := by
  have a := le_npClip x lo hi h
  have b := npClip_le x lo hi
  rw [abs_le] at h1 h2 ⊢
  constructor <;> linarith [h1.1, h2.2]

/-- The rounded integral term before clipping. -/
theorem integral_near {r : ℚ → ℚ} (hr : RoundLaws r) {I I' e e' dt k W P D η : ℚ} (hI' : |I'| ≤ W)
    (hI : |I' - I| ≤ η) (he : |e| ≤ P) (he' : |e' - e| ≤ 𝕦 * P) (hdt : |dt| ≤ D) :
    |r (I' + r (r (k * e') * r dt)) - (I + k * e * dt)| ≤ η + 8 * 𝕦 * (W + |k| * P * D) := by
  have hP : 0 ≤ P := (abs_nonneg _).trans he
  have hD : 0 ≤ D := (abs_nonneg _).trans hdt
  have hW : 0 ≤ W := (abs_nonneg _).trans hI'
  have k1 := mul_near hr (a := k) (a' := k) (b := e) (b' := e') (α := 0) (β := 𝕦) le_rfl he (by simp) he' le_rfl
    (by norm_num)
  have k2 := hr.near dt
  have k3 : |r dt - dt| ≤ 𝕦 * D := by
    refine k2.trans ?_
    rw [mul_comm]
    exact mul_le_mul_of_nonneg_left hdt (by norm_num)
  have ke : |k * e| ≤ |k| * P := by rw [abs_mul]; exact mul_le_mul_of_nonneg_left he (abs_nonneg _)
  have k4 := mul_near hr (a := k * e) (a' := r (k * e')) (b := dt) (b' := r dt) (α := 201 / 100 * 𝕦) (β := 𝕦) ke hdt
    (k1.trans (mul_le_mul_of_nonneg_right (by norm_num) (by positivity))) k3 (by norm_num) (by norm_num)
  obtain ⟨x, hx⟩ : ∃ x, x = r (r (k * e') * r dt) := ⟨_, rfl⟩
  obtain ⟨X, hX⟩ : ∃ X, X = |k| * P * D := ⟨_, rfl⟩
  have hX0 : 0 ≤ X := by rw [hX]; positivity
  rw [← hx, ← hX] at k4
  rw [← hx, ← hX]
  have k5 : |k * e * dt| ≤ X := by rw [abs_mul, hX]; exact mul_le_mul ke hdt (abs_nonneg _) (by positivity)
  have k6 : |x - k * e * dt| ≤ 403 / 100 * 𝕦 * X :=
    k4.trans (mul_le_mul_of_nonneg_right (by norm_num) hX0)
  have k7 : |I' + x| ≤ W + 101 / 100 * X := by
    rw [abs_le] at k5 k6 hI' ⊢
    constructor <;> linarith [k5.1, k5.2, k6.1, k6.2, hI'.1, hI'.2]
  have k8 := hr.near (I' + x)
  rw [abs_le] at k8 k6 hI ⊢
  constructor <;> linarith [k8.1, k8.2, k6.1, k6.2, hI.1, hI.2]

/-- The rounded derivative term. -/
theorem deriv_near {r : ℚ → ℚ} (hr : RoundLaws r) {e e' q q' dt P τ : ℚ} (he : |e| ≤ P) (he' : |e' - e| ≤ 𝕦 * P)
    (hq : |q| ≤ P) (hq' : |q' - q| ≤ 𝕦 * P) (hτ : 0 < τ) (hdt : τ ≤ |dt|) :
    |r (r (e' - q') / r dt) - (e - q) / dt| ≤ 41 / 10 * 𝕦 * (2 * P / τ) ∧ |(e - q) / dt| ≤ 2 * P / τ := by
  have hP : 0 ≤ P := (abs_nonneg _).trans he
  have hdt0 : 0 < |dt| := lt_of_lt_of_le hτ hdt
  have hne : dt ≠ 0 := abs_pos.mp hdt0
  obtain ⟨n, hn⟩ : ∃ n, n = e - q := ⟨_, rfl⟩
  obtain ⟨n', hn'⟩ : ∃ n', n' = r (e' - q') := ⟨_, rfl⟩
  obtain ⟨d', hd'⟩ : ∃ d', d' = r dt := ⟨_, rfl⟩
  have k1 : |n| ≤ 2 * P := by
    rw [hn]; rw [abs_le] at he hq ⊢
    constructor <;> linarith [he.1, he.2, hq.1, hq.2]
  have k2 : |n' - n| ≤ 402 / 100 * 𝕦 * P := by
    have k := hr.near (e' - q')
    rw [← hn'] at k
    have k' : |e' - q'| ≤ 2 * P + 2 * 𝕦 * P := by
      rw [abs_le] at he hq he' hq' ⊢
      constructor <;> linarith [he.1, he.2, hq.1, hq.2, he'.1, he'.2, hq'.1, hq'.2]
    rw [hn]
    rw [abs_le] at k he' hq' ⊢
    constructor <;> linarith [k.1, k.2, he'.1, he'.2, hq'.1, hq'.2]
  have k3 := hr.near dt
  rw [← hd'] at k3
  have hlow : (1 - 𝕦) * |dt| ≤ |d'| := by
    have := abs_sub_abs_le_abs_sub dt d'
    rw [abs_sub_comm dt d'] at this
    linarith
  have hd'0 : 0 < |d'| := lt_of_lt_of_le (by positivity) hlow
  have hd'ne : d' ≠ 0 := abs_pos.mp hd'0
  rw [← hn', ← hd', ← hn]
  have hbound : |n / dt| ≤ 2 * P / τ := by
    rw [abs_div]
    exact div_le_div₀ (by linarith) k1 hτ hdt
  refine ⟨?_, hbound⟩
  obtain ⟨z, hz⟩ : ∃ z, z = 2 * P / τ := ⟨_, rfl⟩
  have hz0 : 0 ≤ z := by rw [hz]; positivity
  rw [← hz] at hbound ⊢
  have hPz : P = z * τ / 2 := by rw [hz]; field_simp
  have hzd : z * τ ≤ z * |dt| := mul_le_mul_of_nonneg_left hdt hz0
  have k4 : |n' / d' - n / dt| ≤ 305 / 100 * 𝕦 * z := by
    have e1 : n' / d' - n / dt = ((n' - n) - n / dt * (d' - dt)) / d' := by field_simp; ring
    rw [e1, abs_div, div_le_iff₀ hd'0]
    refine (abs_sub _ _).trans ?_
    rw [abs_mul]
    have h1 : |n / dt| * |d' - dt| ≤ z * (|dt| * 𝕦) := mul_le_mul hbound k3 (abs_nonneg _) hz0
    have h2 : 305 / 100 * 𝕦 * z * ((1 - 𝕦) * |dt|) ≤ 305 / 100 * 𝕦 * z * |d'| :=
      mul_le_mul_of_nonneg_left hlow (by positivity)
    have h3 : 305 / 100 * 𝕦 * z * ((1 - 𝕦) * |dt|) = 305 / 100 * 𝕦 * (1 - 𝕦) * (z * |dt|) := by ring
    have h4 : z * (|dt| * 𝕦) = 𝕦 * (z * |dt|) := by ring
    rw [h3] at h2
    rw [h4] at h1
    have h5 : 0 ≤ z * |dt| := by positivity
    linarith
  have k5 := hr.near (n' / d')
  have k6 : |n' / d'| ≤ z + 305 / 100 * 𝕦 * z := by
    rw [abs_le] at k4 hbound ⊢
    constructor <;> linarith [k4.1, k4.2, hbound.1, hbound.2]
  rw [abs_le] at k4 k5 ⊢
  constructor <;> linarith [k4.1, k4.2, k5.1, k5.2]

/-- The rounded sum of the three terms. -/
theorem output_near {r : ℚ → ℚ} (hr : RoundLaws r) {e e' I I' d d' kp kd W P G η : ℚ} (he : |e| ≤ P)
    (he' : |e' - e| ≤ 𝕦 * P) (hI' : |I'| ≤ W) (hI : |I' - I| ≤ η) (hd : |d| ≤ G)
    (hd' : |d' - d| ≤ 41 / 10 * 𝕦 * G) :
    |r (r (r (kp * e') + I') + r (kd * d')) - (kp * e + I + kd * d)| ≤ η + 8 * 𝕦 * (|kp| * P + W + |kd| * G) := by
  have hP : 0 ≤ P := (abs_nonneg _).trans he
  have hG : 0 ≤ G := (abs_nonneg _).trans hd
  have hW : 0 ≤ W := (abs_nonneg _).trans hI'
  have k1 := mul_near hr (a := kp) (a' := kp) (b := e) (b' := e') (α := 0) (β := 𝕦) le_rfl he (by simp) he' le_rfl
    (by norm_num)
  have k2 := mul_near hr (a := kd) (a' := kd) (b := d) (b' := d') (α := 0) (β := 41 / 10 * 𝕦) le_rfl hd (by simp) hd'
    le_rfl (by norm_num)
  obtain ⟨x, hx⟩ : ∃ x, x = r (kp * e') := ⟨_, rfl⟩
  obtain ⟨y, hy⟩ : ∃ y, y = r (kd * d') := ⟨_, rfl⟩
  obtain ⟨X, hX⟩ : ∃ X, X = |kp| * P := ⟨_, rfl⟩
  obtain ⟨Y, hY⟩ : ∃ Y, Y = |kd| * G := ⟨_, rfl⟩
  have hX0 : 0 ≤ X := by rw [hX]; positivity
  have hY0 : 0 ≤ Y := by rw [hY]; positivity
  rw [← hx, ← hX] at k1
  rw [← hy, ← hY] at k2
  rw [← hx, ← hy, ← hX, ← hY]
  have b1 : |kp * e| ≤ X := by rw [abs_mul, hX]; exact mul_le_mul_of_nonneg_left he (abs_nonneg _)
  have b2 : |kd * d| ≤ Y := by rw [abs_mul, hY]; exact mul_le_mul_of_nonneg_left hd (abs_nonneg _)
  have k1' : |x - kp * e| ≤ 201 / 100 * 𝕦 * X := k1.trans (mul_le_mul_of_nonneg_right (by norm_num) hX0)
  have k2' : |y - kd * d| ≤ 511 / 100 * 𝕦 * Y := k2.trans (mul_le_mul_of_nonneg_right (by norm_num) hY0)
  have c1 : |x + I'| ≤ 101 / 100 * X + W := by
    rw [abs_le] at k1' b1 hI' ⊢
    constructor <;> linarith [k1'.1, k1'.2, b1.1, b1.2, hI'.1, hI'.2]
  have k3 := hr.near (x + I')
  obtain ⟨z, hz⟩ : ∃ z, z = r (x + I') := ⟨_, rfl⟩
  rw [← hz] at k3 ⊢
  have c2 : |z + y| ≤ 102 / 100 * X + 101 / 100 * W + 101 / 100 * Y := by
    have c1' := abs_le.mp c1
    rw [abs_le] at k3 k2' b2 ⊢
    constructor <;> linarith [c1'.1, c1'.2, k3.1, k3.2, k2'.1, k2'.2, b2.1, b2.2]
  have k4 := hr.near (z + y)
  rw [abs_le] at k4 k3 k1' k2' hI ⊢
  constructor <;> linarith [k4.1, k4.2, k3.1, k3.2, k1'.1, k1'.2, k2'.1, k2'.2, hI.1, hI.2]

/-- What the two controllers have in common after `n` requests. -/
structure PidNear (p : PIDParam ℚ) (V W D : ℚ) (n : ℕ) (s s' : PIDState ℚ) : Prop where
  meas : s'.measurement = s.measurement
  refe : s'.reference = s.reference
  last : s'.lastRequestAt = s.lastRequestAt
  measV : |s.measurement| ≤ V
  refV : |s.reference| ≤ V
  int' : |s'.lastIntegralError| ≤ W
  intN : |s'.lastIntegralError - s.lastIntegralError| ≤ n * (8 * 𝕦 * (W + |p.kI| * (2 * V) * D))
  prop : |s.lastProportionalError| ≤ 2 * V
  propN : |s'.lastProportionalError - s.lastProportionalError| ≤ 𝕦 * (2 * V)

theorem PidNear.control {r : ℚ → ℚ} (hr : RoundLaws r) {p : PIDParam ℚ} {V W D τ : ℚ} {n : ℕ} {s s' : PIDState ℚ}
    (h : PidNear p V W D n s s') (hW : |p.antiwindup.1| ≤ W ∧ |p.antiwindup.2| ≤ W)
    (haw : p.antiwindup.1 ≤ p.antiwindup.2) (hτ : 0 < τ) (hD : 0 ≤ D) (t : ℚ)
    (ht : ∀ t0 ∈ s.lastRequestAt, t = t0 ∨ (τ ≤ |t - t0| ∧ |t - t0| ≤ D)) :
    PidNear p V W D (n + 1) (s.getControl p t).1 (s'.getControlF r p t).1 ∧
      ∃ x x', (s.getControl p t).2 = .ok x ∧ (s'.getControlF r p t).2 = .ok x' ∧
        |x' - x| ≤ 8 * 𝕦 * (|p.kP| * (2 * V) + W + |p.kD| * (2 * (2 * V) / τ)) +
          ((n + 1 : ℕ) : ℚ) * (8 * 𝕦 * (W + |p.kI| * (2 * V) * D)) := by
  obtain ⟨dt, hdt⟩ : ∃ dt : ℚ, dt = (match s.lastRequestAt with | none => 0 | some t0 => t - t0) := ⟨_, rfl⟩
  have hV : 0 ≤ V := (abs_nonneg _).trans h.measV
  have hdtF : (match s'.lastRequestAt with | none => 0 | some t0 => r (t - t0)) = r dt := by
    rw [h.last, hdt]
    cases s.lastRequestAt with
    | none => simp [hr.zero]
    | some t0 => rfl
  have hdtD : |dt| ≤ D := by
    rw [hdt]
    cases hl : s.lastRequestAt with
    | none => simpa using hD
    | some t0 =>
      rcases ht t0 (by rw [hl]; rfl) with e | e
      · simpa [e] using hD
      · exact e.2
  have hdtτ : dt ≠ 0 → τ ≤ |dt| := by
    rw [hdt]
    cases hl : s.lastRequestAt with
    | none => simp
    | some t0 =>
      intro hne
      rcases ht t0 (by rw [hl]; rfl) with e | e
      · simp [e] at hne
      · exact e.1
  have hrdt : r dt = 0 ↔ dt = 0 := by
    constructor
    · intro h0
      have := hr.near dt
      rw [h0, zero_sub, abs_neg] at this
      by_contra hc
      have := abs_pos.mpr hc
      linarith
    · rintro rfl; exact hr.zero
  have heP : |s.reference - s.measurement| ≤ 2 * V := by
    have a := h.measV
    have b := h.refV
    rw [abs_le] at a b ⊢
    constructor <;> linarith [a.1, a.2, b.1, b.2]
  have heN : |r (s.reference - s.measurement) - (s.reference - s.measurement)| ≤ 𝕦 * (2 * V) := by
    refine (hr.near _).trans ?_
    rw [mul_comm]
    exact mul_le_mul_of_nonneg_left heP (by norm_num)
  have hi := integral_near hr (k := p.kI) h.int' h.intN heP heN hdtD
  have hi2 := (npClip_lipschitz _ _ p.antiwindup.1 p.antiwindup.2).trans hi
  have hcast : (n : ℚ) * (8 * 𝕦 * (W + |p.kI| * (2 * V) * D)) + 8 * 𝕦 * (W + |p.kI| * (2 * V) * D) =
      ((n + 1 : ℕ) : ℚ) * (8 * 𝕦 * (W + |p.kI| * (2 * V) * D)) := by push_cast; ring
  rw [hcast] at hi2
  rw [getControl_eq, getControlF_eq]
  simp only [← hdt, hdtF]
  rw [h.meas, h.refe]
  refine ⟨⟨rfl, rfl, rfl, h.measV, h.refV, npClip_abs haw hW.1 hW.2, hi2, heP, heN⟩, _, _, rfl, rfl, ?_⟩
  refine (npClip_lipschitz _ _ _ _).trans (le_trans ?_ (le_of_eq (add_comm _ _)))
  by_cases h0 : dt = 0
  · rw [if_pos (hrdt.mpr h0), if_pos h0]
    have hG0 : 0 ≤ 2 * (2 * V) / τ := by positivity
    have a0 : |(0 : ℚ)| ≤ 2 * (2 * V) / τ := by rw [abs_zero]; exact hG0
    have a1 : |(0 : ℚ) - 0| ≤ 41 / 10 * 𝕦 * (2 * (2 * V) / τ) := by
      rw [sub_self, abs_zero]; exact mul_nonneg (by norm_num) hG0
    exact output_near (d := 0) (d' := 0) hr heP heN (npClip_abs haw hW.1 hW.2) hi2 a0 a1
  · rw [if_neg (fun hc => h0 (hrdt.mp hc)), if_neg h0]
    obtain ⟨d1, d2⟩ := deriv_near hr heP heN h.prop h.propN hτ (hdtτ h0)
    exact output_near hr heP heN (npClip_abs haw hW.1 hW.2) hi2 d2 d1

/-- Times of the requests. -/
def requestTimes (ops : List (PIDOp ℚ)) : List ℚ :=
  ops.filterMap (fun o => match o with | .control t => some t | _ => none)

/-! ## C139 -/

/-- **C139** Whatever the rounding of the operations, in every history of calls with validated parameters every request
is answered, within the output limits; after a reference it is within the set point limits, and after a request the
integral is within its limits. -/
theorem C139_limits (r : ℚ → ℚ) (kP kI kD : ℚ) (aw sp om : ℚ × ℚ) (p : PIDParam ℚ)
    (hp : PIDParam.mk? kP kI kD aw sp om = .ok p) (ops : List (PIDOp ℚ)) :
    (PIDState.runF r p PIDState.init ops).2.length = (requestTimes ops).length ∧
    (∀ x ∈ (PIDState.runF r p PIDState.init ops).2, ∃ u, x = .ok u ∧ om.1 ≤ u ∧ u ≤ om.2) ∧
    ((∃ x, .refer x ∈ ops) → sp.1 ≤ (PIDState.runF r p PIDState.init ops).1.reference ∧
      (PIDState.runF r p PIDState.init ops).1.reference ≤ sp.2) ∧
    ((∃ t, .control t ∈ ops) → aw.1 ≤ (PIDState.runF r p PIDState.init ops).1.lastIntegralError ∧
      (PIDState.runF r p PIDState.init ops).1.lastIntegralError ≤ aw.2) := by
  rw [C18_accepted] at hp
  split_ifs at hp with hh
  obtain ⟨h1, h2, h3⟩ := hh
  injection hp with hp
  subst hp
  have key : ∀ (ops : List (PIDOp ℚ)) (s : PIDState ℚ),
      (PIDState.runF r ⟨kP, kI, kD, aw, sp, om⟩ s ops).2.length = (requestTimes ops).length ∧
      (∀ x ∈ (PIDState.runF r ⟨kP, kI, kD, aw, sp, om⟩ s ops).2, ∃ u, x = .ok u ∧ om.1 ≤ u ∧ u ≤ om.2) ∧
      (((∃ x, .refer x ∈ ops) ∨ (sp.1 ≤ s.reference ∧ s.reference ≤ sp.2)) →
        sp.1 ≤ (PIDState.runF r ⟨kP, kI, kD, aw, sp, om⟩ s ops).1.reference ∧
        (PIDState.runF r ⟨kP, kI, kD, aw, sp, om⟩ s ops).1.reference ≤ sp.2) ∧
      (((∃ t, .control t ∈ ops) ∨ (aw.1 ≤ s.lastIntegralError ∧ s.lastIntegralError ≤ aw.2)) →
        aw.1 ≤ (PIDState.runF r ⟨kP, kI, kD, aw, sp, om⟩ s ops).1.lastIntegralError ∧
        (PIDState.runF r ⟨kP, kI, kD, aw, sp, om⟩ s ops).1.lastIntegralError ≤ aw.2) := by
    intro ops
    induction ops with
    | nil => intro s; simp [PIDState.runF, requestTimes]
    | cons op ops ih =>
      intro s
      cases op with
      | measure m =>
        obtain ⟨i0, i1, i2, i3⟩ := ih (s.updateMeasurement m)
        refine ⟨by simpa [PIDState.runF, PIDState.stepF, requestTimes] using i0,
          by simpa [PIDState.runF, PIDState.stepF] using i1, ?_, ?_⟩
        · intro h
          exact i2 (h.imp (fun ⟨x, hx⟩ => ⟨x, by simpa using hx⟩) id)
        · intro h
          exact i3 (h.imp (fun ⟨x, hx⟩ => ⟨x, by simpa using hx⟩) id)
      | refer y =>
        obtain ⟨i0, i1, i2, i3⟩ := ih (s.updateReference ⟨kP, kI, kD, aw, sp, om⟩ y)
        refine ⟨by simpa [PIDState.runF, PIDState.stepF, requestTimes] using i0,
          by simpa [PIDState.runF, PIDState.stepF] using i1, ?_, ?_⟩
        · intro _
          exact i2 (Or.inr ⟨le_npClip _ _ _ h2.le, npClip_le _ _ _⟩)
        · intro h
          exact i3 (h.imp (fun ⟨x, hx⟩ => ⟨x, by simpa using hx⟩) id)
      | control t =>
        obtain ⟨i0, i1, i2, i3⟩ := ih (s.getControlF r ⟨kP, kI, kD, aw, sp, om⟩ t).1
        refine ⟨?_, ?_, ?_, ?_⟩
        · simp only [PIDState.runF, PIDState.stepF, Option.toList, List.singleton_append, List.length_cons, i0]
          simp [requestTimes]
        · intro x hx
          simp only [PIDState.runF, PIDState.stepF, Option.toList, List.singleton_append] at hx
          rcases List.mem_cons.mp hx with rfl | hx
          · rw [getControlF_eq]
            exact ⟨_, rfl, le_npClip _ _ _ h3.le, npClip_le _ _ _⟩
          · exact i1 x hx
        · intro h
          exact i2 (h.imp (fun ⟨x, hx⟩ => ⟨x, by simpa using hx⟩) (fun h => by rw [getControlF_eq]; exact h))
        · intro _
          exact i3 (Or.inr (by rw [getControlF_eq]; exact ⟨le_npClip _ _ _ h1.le, npClip_le _ _ _⟩))
  obtain ⟨k0, k1, k2, k3⟩ := key ops PIDState.init
  exact ⟨k0, k1, fun h => k2 (Or.inl h), fun h => k3 (Or.inl h)⟩

/-- **C139** A second request at the same time, with limits of the integral that are floats, changes nothing in the
controller and is answered without derivative term. -/
theorem C139_repeat (p : PIDParam ℚ) (h : p.antiwindup.1 ≤ p.antiwindup.2)
    (f1 : Sim.double p.antiwindup.1 = p.antiwindup.1) (f2 : Sim.double p.antiwindup.2 = p.antiwindup.2)
    (s : PIDState ℚ) (t : ℚ) :
    let s1 := (s.getControlF Sim.double p t).1
    (s1.getControlF Sim.double p t).1 = s1 ∧
    (s1.getControlF Sim.double p t).2 = .ok (npClip (Sim.double (Sim.double (p.kP * s1.lastProportionalError) +
      s1.lastIntegralError)) p.output.1 p.output.2) := by
  have L := double_laws
  intro s1
  have e : ∃ i, s1 = ⟨s.measurement, s.reference, some t,
      npClip (Sim.double i) p.antiwindup.1 p.antiwindup.2, Sim.double (s.reference - s.measurement)⟩ := by
    simp only [s1]
    rw [getControlF_eq]
    exact ⟨_, rfl⟩
  obtain ⟨i, hi⟩ := e
  rw [hi]
  have hfix : Sim.double (npClip (Sim.double i) p.antiwindup.1 p.antiwindup.2) =
      npClip (Sim.double i) p.antiwindup.1 p.antiwindup.2 := by
    unfold npClip
    rcases max_choice (Sim.double i) p.antiwindup.1 with h1 | h1 <;> rw [h1]
    · rcases min_choice (Sim.double i) p.antiwindup.2 with h2 | h2 <;> rw [h2]
      · exact L.idem i
      · exact f2
    · rcases min_choice p.antiwindup.1 p.antiwindup.2 with h2 | h2 <;> rw [h2]
      · exact f1
      · exact f2
  have hc : npClip (npClip (Sim.double i) p.antiwindup.1 p.antiwindup.2) p.antiwindup.1 p.antiwindup.2 =
      npClip (Sim.double i) p.antiwindup.1 p.antiwindup.2 :=
    npClip_of_mem _ _ _ (le_npClip _ _ _ h) (npClip_le _ _ _)
  rw [getControlF_eq]
  simp only [sub_self, L.zero, mul_zero, add_zero, hfix, hc, if_true]
  refine ⟨trivial, ?_⟩
  rw [L.idem]

/-- **C139** In every history of calls from a new controller, with set points and measurements up to `V`, limits of the
integral up to `W`, and times between requests that are 0 or from `τ` to `D`, the `k`-th answer in floats differs from
the answer in exact arithmetic by at most 2⁻⁵⁰ times the size of the three terms, and of `k + 1` steps of the
integral. -/
theorem C139_near (kP kI kD : ℚ) (aw sp om : ℚ × ℚ) (p : PIDParam ℚ)
    (hp : PIDParam.mk? kP kI kD aw sp om = .ok p) (V W D τ : ℚ) (hsp : |sp.1| ≤ V ∧ |sp.2| ≤ V)
    (hW : |aw.1| ≤ W ∧ |aw.2| ≤ W) (hτ : 0 < τ) (hD : 0 ≤ D) (ops : List (PIDOp ℚ))
    (hm : ∀ m, .measure m ∈ ops → |m| ≤ V)
    (ht : (requestTimes ops).IsChain (fun a b => b = a ∨ (τ ≤ |b - a| ∧ |b - a| ≤ D))) :
    (PIDState.runF Sim.double p PIDState.init ops).2.length = (PIDState.run p PIDState.init ops).2.length ∧
    ∀ (k : ℕ) x', (PIDState.runF Sim.double p PIDState.init ops).2[k]? = some x' →
      ∃ u u', x' = .ok u' ∧ (PIDState.run p PIDState.init ops).2[k]? = some (.ok u) ∧
        |u' - u| ≤ (|kP| * (2 * V) + W + |kD| * (2 * (2 * V) / τ) + (k + 1) * (W + |kI| * (2 * V) * D)) / 2 ^ 50 := by
  rw [C18_accepted] at hp
  split_ifs at hp with hh
  obtain ⟨h1, h2, h3⟩ := hh
  injection hp with hp
  have hV : 0 ≤ V := (abs_nonneg _).trans hsp.1
  have hW0 : 0 ≤ W := (abs_nonneg _).trans hW.1
  have hpW : |p.antiwindup.1| ≤ W ∧ |p.antiwindup.2| ≤ W := by subst hp; exact hW
  have haw : p.antiwindup.1 ≤ p.antiwindup.2 := by subst hp; exact h1.le
  have key : ∀ (ops : List (PIDOp ℚ)) (s s' : PIDState ℚ) (n : ℕ), PidNear p V W D n s s' →
      (∀ m, .measure m ∈ ops → |m| ≤ V) →
      (s.lastRequestAt.toList ++ requestTimes ops).IsChain (fun a b => b = a ∨ (τ ≤ |b - a| ∧ |b - a| ≤ D)) →
      (PIDState.runF Sim.double p s' ops).2.length = (PIDState.run p s ops).2.length ∧
      ∀ k x', (PIDState.runF Sim.double p s' ops).2[k]? = some x' →
        ∃ u u', x' = .ok u' ∧ (PIDState.run p s ops).2[k]? = some (.ok u) ∧
          |u' - u| ≤ 8 * 𝕦 * (|p.kP| * (2 * V) + W + |p.kD| * (2 * (2 * V) / τ)) +
            ((n + k + 1 : ℕ) : ℚ) * (8 * 𝕦 * (W + |p.kI| * (2 * V) * D)) := by
    intro ops
    induction ops with
    | nil => intro s s' n _ _ _; simp [PIDState.runF, PIDState.run]
    | cons op ops ih =>
      intro s s' n h hm ht
      have hm' : ∀ m, .measure m ∈ ops → |m| ≤ V := fun m hm0 => hm m (List.mem_cons_of_mem _ hm0)
      cases op with
      | measure m =>
        have := ih (s.updateMeasurement m) (s'.updateMeasurement m) n
          ⟨rfl, h.refe, h.last, hm m List.mem_cons_self, h.refV, h.int', h.intN, h.prop, h.propN⟩ hm' ht
        simpa [PIDState.runF, PIDState.run, PIDState.stepF, PIDState.step] using this
      | refer y =>
        have hy : |npClip y p.setpoint.1 p.setpoint.2| ≤ V := by
          subst hp
          exact npClip_abs h2.le hsp.1 hsp.2
        have := ih (s.updateReference p y) (s'.updateReference p y) n
          ⟨h.meas, rfl, h.last, h.measV, hy, h.int', h.intN, h.prop, h.propN⟩ hm' ht
        simpa [PIDState.runF, PIDState.run, PIDState.stepF, PIDState.step] using this
      | control t =>
        have hrt : requestTimes (.control t :: ops) = t :: requestTimes ops := rfl
        rw [hrt] at ht
        have hlast : ∀ t0 ∈ s.lastRequestAt, t = t0 ∨ (τ ≤ |t - t0| ∧ |t - t0| ≤ D) := by
          intro t0 h0
          rw [Option.mem_def] at h0
          rw [h0] at ht
          simp only [Option.toList, List.singleton_append] at ht
          rw [List.isChain_cons_cons] at ht
          exact ht.1
        obtain ⟨hn, x, x', e1, e2, e3⟩ := PidNear.control double_laws h hpW haw hτ hD t hlast
        have hl : (s.getControl p t).1.lastRequestAt = some t := by rw [getControl_eq]
        have ht' : ((s.getControl p t).1.lastRequestAt.toList ++ requestTimes ops).IsChain
            (fun a b => b = a ∨ (τ ≤ |b - a| ∧ |b - a| ≤ D)) := by
          rw [hl]
          cases h0 : s.lastRequestAt with
          | none => rw [h0] at ht; exact ht
          | some t0 =>
            rw [h0] at ht
            simp only [Option.toList, List.singleton_append] at ht
            rw [List.isChain_cons_cons] at ht
            exact ht.2
        obtain ⟨i0, i1⟩ := ih _ _ (n + 1) hn hm' ht'
        simp only [PIDState.runF, PIDState.run, PIDState.stepF, PIDState.step, Option.toList, List.singleton_append,
          List.length_cons]
        refine ⟨by rw [i0], ?_⟩
        intro k z hz
        cases k with
        | zero =>
          simp only [List.getElem?_cons_zero, Option.some.injEq] at hz ⊢
          exact ⟨x, x', by rw [← hz, e2], e1, e3⟩
        | succ k =>
          simp only [List.getElem?_cons_succ] at hz ⊢
          obtain ⟨u, u', j1, j2, j3⟩ := i1 k z hz
          refine ⟨u, u', j1, j2, ?_⟩
          rw [show n + (k + 1) + 1 = n + 1 + k + 1 by omega]
          exact j3
  obtain ⟨k0, k1⟩ := key ops PIDState.init PIDState.init 0
    ⟨rfl, rfl, rfl, by simpa [PIDState.init] using hV, by simpa [PIDState.init] using hV,
      by simpa [PIDState.init] using hW0, by simp [PIDState.init], by simpa [PIDState.init] using hV,
      by simpa [PIDState.init] using hV⟩ hm (by simpa [PIDState.init] using ht)
  refine ⟨k0, ?_⟩
  intro k x' hx'
  obtain ⟨u, u', j1, j2, j3⟩ := k1 k x' hx'
  refine ⟨u, u', j1, j2, ?_⟩
  subst hp
  refine j3.trans (le_of_eq ?_)
  push_cast
  ring

/-! ## Cases -/

/-- A controller with limits that are floats. -/
def exPid : PIDParam ℚ := ⟨4, 1 / 64, 1 / 8, (-1 / 2, 1 / 2), (-2, 2), (-8, 8)⟩

example : PIDParam.mk? 4 (1 / 64) (1 / 8) (-1 / 2, 1 / 2) (-2, 2) (-8, 8) = .ok exPid := by decide +kernel

example : Sim.double exPid.antiwindup.1 = exPid.antiwindup.1 ∧ Sim.double exPid.antiwindup.2 = exPid.antiwindup.2 := by
  decide +kernel

def exOps : List (PIDOp ℚ) :=
  [.refer 1, .measure 0, .control 0, .measure (Sim.double (1 / 10)), .control (Sim.double (1 / 10)),
    .control (Sim.double (1 / 10)), .measure (Sim.double (3 / 10)), .control (Sim.double (1 / 5))]

example : (requestTimes exOps).IsChain (fun a b => b = a ∨ (1 / 100 ≤ |b - a| ∧ |b - a| ≤ 1)) := by decide +kernel

/-- Rounding does show in the answers. -/
example : (PIDState.runF Sim.double exPid PIDState.init exOps).2 ≠ (PIDState.run exPid PIDState.init exOps).2 := by
  decide +kernel

end Verif
