import Verif.Phys.IvpProps
import Mathlib.Analysis.Calculus.MeanValue
import Mathlib.Analysis.SpecialFunctions.Trigonometric.ArctanDeriv

/-!
# C118: how far the Euler step of the bicycle is from the exact motion
-/

namespace Verif
namespace Phys

/-- Taylor's estimate of second order. -/
theorem second_order {f f' f'' : ℝ → ℝ} {T M : ℝ}
    (h1 : ∀ t ∈ Set.Icc 0 T, HasDerivWithinAt f (f' t) (Set.Icc 0 T) t)
    (h2 : ∀ t ∈ Set.Icc 0 T, HasDerivWithinAt f' (f'' t) (Set.Icc 0 T) t)
    (hM : ∀ t ∈ Set.Icc 0 T, |f'' t| ≤ M) (t : ℝ) (ht : t ∈ Set.Icc 0 T) :
    |f t - f 0 - f' 0 * t| ≤ M * t ^ 2 / 2 := by
  have hf' : ∀ t ∈ Set.Icc 0 T, |f' t - f' 0| ≤ M * t := by
    intro t ht
    have := norm_image_sub_le_of_norm_deriv_le_segment' h2 (fun x hx => hM x ⟨hx.1, hx.2.le⟩) t ht
    simpa using this
  have hg : ∀ x ∈ Set.Icc 0 T, HasDerivWithinAt (fun t => f t - f 0 - f' 0 * t) (f' x - f' 0) (Set.Icc 0 T) x := by
    intro x hx
    have h3 : HasDerivWithinAt (fun t : ℝ => f' 0 * t) (f' 0 * 1) (Set.Icc 0 T) x :=
      (hasDerivWithinAt_id x _).const_mul _
    exact (((h1 x hx).sub_const (f 0)).sub h3).congr_deriv (by ring)
  have := image_norm_le_of_norm_deriv_right_le_deriv_boundary (f := fun t => f t - f 0 - f' 0 * t)
    (f' := fun x => f' x - f' 0) (a := 0) (b := T) (fun x hx => (hg x hx).continuousWithinAt)
    (fun x hx => ((hg x ⟨hx.1, hx.2.le⟩).mono_of_mem_nhdsWithin (Icc_mem_nhdsGE_of_mem hx)))
    (B := fun t => M * t ^ 2 / 2) (B' := fun t => M * t) (by simp)
    (fun x => by
      have h3 : HasDerivAt (fun t : ℝ => M * t ^ 2 / 2) (M * (2 * x ^ 1 * 1) / 2) x :=
        (((hasDerivAt_id x).pow 2).const_mul M).div_const 2
      exact h3.congr_deriv (by ring))
    (fun x hx => hf' x ⟨hx.1, hx.2.le⟩) ht
  simpa using this

/-! ## Specification -/

/-- Specification: the largest yaw rate for speeds up to `V` and steering angles up to `Δ`. -/
noncomputable def yawMax (wb V Δ : ℝ) : ℝ := V * Real.tan Δ / wb

/-- Specification: the largest yaw acceleration, for accelerations up to `A` and steering rates up to `D`. -/
noncomputable def yawAccMax (wb V Δ A D : ℝ) : ℝ := (A * Real.tan Δ + V * (D * (1 + Real.tan Δ ^ 2))) / wb

/-- Specification: a bound of the acceleration of the center of gravity in each coordinate. -/
noncomputable def posAccMax (wb lr V Δ A D : ℝ) : ℝ :=
  A + V * yawMax wb V Δ + lr * (yawAccMax wb V Δ A D + yawMax wb V Δ ^ 2)

/-- Specification: `V`, `A`, `Δ` and `D` bound the absolute values that the parameters allow. -/
structure Within (p : VehicleParams ℝ) (V Δ A D : ℝ) : Prop where
  vx : -V ≤ p.vxMin ∧ p.vxMax ≤ V
  delta : p.deltaMax ≤ Δ ∧ Δ < Real.pi / 2
  acc : -A ≤ p.accMin ∧ p.accMax ≤ A
  ddelta : p.ddeltaMax ≤ D

/-! ## One step -/

theorem abs_tan_le {d Δ : ℝ} (hd : |d| ≤ Δ) (hΔ : Δ < Real.pi / 2) : |Real.tan d| ≤ Real.tan Δ := by
  have h0 : 0 ≤ Δ := (abs_nonneg d).trans hd
  have hmono : ∀ x y : ℝ, -(Real.pi / 2) < x → y < Real.pi / 2 → x ≤ y → Real.tan x ≤ Real.tan y := by
    intro x y hx hy hxy
    exact (Real.strictMonoOn_tan.le_iff_le ⟨hx, by linarith⟩ ⟨by linarith, hy⟩).mpr hxy
  obtain ⟨h1, h2⟩ := abs_le.mp hd
  refine abs_le.mpr ⟨?_, hmono _ _ (by linarith) hΔ h2⟩
  rw [← Real.tan_neg]
  exact hmono _ _ (by linarith) (by linarith) h1

section
variable {wb lr T : ℝ} {s : ℝ → VehicleState ℝ} {p : VehicleParams ℝ} {u : ℝ × ℝ} {V Δ A D : ℝ}

/-- Within the limits at both ends means within the limits in between. -/
theorem linear_between {a b lo hi T t : ℝ} (ht : t ∈ Set.Icc 0 T) (h0 : lo ≤ a ∧ a ≤ hi)
    (h1 : lo ≤ a + b * T ∧ a + b * T ≤ hi) : lo ≤ a + b * t ∧ a + b * t ≤ hi := by
  obtain ⟨t0, t1⟩ := ht
  rcases le_total 0 b with hb | hb
  · have := mul_le_mul_of_nonneg_left t1 hb
    have := mul_nonneg hb t0
    exact ⟨by linarith, by linarith⟩
  · have := mul_le_mul_of_nonpos_left t1 hb
    have := mul_nonpos_of_nonpos_of_nonneg hb t0
    exact ⟨by linarith, by linarith⟩

set_option maxHeartbeats 1000000 in
/-- **C118.** One step of `successor` that reaches no limit: speed and steering are exact, heading and position are off by at
most half the square of the step times the largest yaw acceleration and the largest acceleration. -/
theorem C118_error (hp : p.Valid) (hb : Within p V Δ A D) (hwb : 0 < wb) (hlr : 0 ≤ lr) (hT : 0 ≤ T)
    (h : BicycleMotion wb lr u.1 u.2 T s) (hu1 : p.accMin ≤ u.1 ∧ u.1 ≤ p.accMax) (hu2 : |u.2| ≤ p.ddeltaMax)
    (hv0 : p.vxMin ≤ (s 0).vx ∧ (s 0).vx ≤ p.vxMax) (hd0 : |(s 0).delta| ≤ p.deltaMax)
    (hv1 : p.vxMin ≤ (s T).vx ∧ (s T).vx ≤ p.vxMax) (hd1 : |(s T).delta| ≤ p.deltaMax) :
    let e := bicycleStep realTrig wb lr p (s 0) u T
    (s T).vx = e.vx ∧ (s T).delta = e.delta ∧
      |(s T).psi - e.psi| ≤ yawAccMax wb V Δ A D * T ^ 2 / 2 ∧
      |(s T).x - e.x| ≤ posAccMax wb lr V Δ A D * T ^ 2 / 2 ∧
      |(s T).y - e.y| ≤ posAccMax wb lr V Δ A D * T ^ 2 / 2 := by
  have hTm : T ∈ Set.Icc 0 T := ⟨hT, le_rfl⟩
  have hin := fun t ht => C118_inputs h t ht
  obtain ⟨evT, edT⟩ := hin T hTm
  intro e
  have he : e = _ := C44_euler realTrig wb lr p hp (s 0) u T hu1 hu2 (by rw [← evT]; exact hv1) (by rw [← edT]; exact hd1)
  simp only [realTrig] at he
  -- bounds during the step
  have hv : ∀ t ∈ Set.Icc 0 T, |(s t).vx| ≤ V := by
    intro t ht
    rw [(hin t ht).1]
    have := linear_between ht hv0 (by rw [← evT]; exact hv1)
    exact abs_le.mpr ⟨by linarith [hb.vx.1], by linarith [hb.vx.2]⟩
  have hd : ∀ t ∈ Set.Icc 0 T, |(s t).delta| ≤ Δ := by
    intro t ht
    rw [(hin t ht).2]
    have := linear_between ht (abs_le.mp hd0) (by rw [← edT]; exact abs_le.mp hd1)
    exact (abs_le.mpr this).trans hb.delta.1
  have hA : |u.1| ≤ A := abs_le.mpr ⟨by linarith [hb.acc.1], by linarith [hb.acc.2]⟩
  have hD : |u.2| ≤ D := hu2.trans hb.ddelta
  have htan : ∀ t ∈ Set.Icc 0 T, |Real.tan (s t).delta| ≤ Real.tan Δ := fun t ht => abs_tan_le (hd t ht) hb.delta.2
  have htan0 : 0 ≤ Real.tan Δ := (abs_nonneg _).trans (htan T hTm)
  have hV0 : 0 ≤ V := (abs_nonneg _).trans (hv T hTm)
  have hA0 : 0 ≤ A := (abs_nonneg _).trans hA
  have hD0 : 0 ≤ D := (abs_nonneg _).trans hD
  have hcos : ∀ t ∈ Set.Icc 0 T, 0 < Real.cos (s t).delta := by
    intro t ht
    obtain ⟨a1, a2⟩ := abs_le.mp (hd t ht)
    exact Real.cos_pos_of_mem_Ioo ⟨by linarith [hb.delta.2], by linarith [hb.delta.2]⟩
  -- the yaw rate and its derivative
  set w : ℝ → ℝ := fun t => (s t).vx * Real.tan (s t).delta / wb with hw
  set w' : ℝ → ℝ := fun t => (u.1 * Real.tan (s t).delta + (s t).vx * (1 / Real.cos (s t).delta ^ 2 * u.2)) / wb with hw'
  have hwd : ∀ t ∈ Set.Icc 0 T, HasDerivWithinAt w (w' t) (Set.Icc 0 T) t := by
    intro t ht
    have h1 : HasDerivWithinAt (fun τ => Real.tan (s τ).delta) (1 / Real.cos (s t).delta ^ 2 * u.2) (Set.Icc 0 T) t := by
      have h2 := Real.hasDerivAt_tan (hcos t ht).ne'
      exact h2.comp_hasDerivWithinAt t (h.delta t ht)
    exact ((h.vx t ht).mul h1).div_const wb
  have hwb' : ∀ t ∈ Set.Icc 0 T, |w t| ≤ yawMax wb V Δ := by
    intro t ht
    simp only [hw, yawMax]
    rw [abs_div, abs_mul, abs_of_pos hwb]
    exact div_le_div_of_nonneg_right (mul_le_mul (hv t ht) (htan t ht) (abs_nonneg _) hV0) hwb.le
  have hwd' : ∀ t ∈ Set.Icc 0 T, |w' t| ≤ yawAccMax wb V Δ A D := by
    intro t ht
    simp only [hw', yawAccMax]
    rw [abs_div, abs_of_pos hwb]
    refine div_le_div_of_nonneg_right ((abs_add_le _ _).trans (add_le_add ?_ ?_)) hwb.le
    · rw [abs_mul]
      exact mul_le_mul hA (htan t ht) (abs_nonneg _) hA0
    · have e1 : 1 / Real.cos (s t).delta ^ 2 = 1 + Real.tan (s t).delta ^ 2 := by
        have := hcos t ht
        rw [Real.tan_eq_sin_div_cos]
        field_simp
        rw [Real.cos_sq_add_sin_sq]
      have e2 : Real.tan (s t).delta ^ 2 ≤ Real.tan Δ ^ 2 := by
        rw [← sq_abs (Real.tan (s t).delta)]
        exact pow_le_pow_left₀ (abs_nonneg _) (htan t ht) 2
      rw [e1, abs_mul, abs_mul, mul_comm D]
      refine mul_le_mul (hv t ht) (mul_le_mul ?_ hD (abs_nonneg _) (by positivity)) (by positivity) hV0
      rw [abs_of_nonneg (by positivity)]
      linarith
  have hW0 : 0 ≤ yawMax wb V Δ := (abs_nonneg _).trans (hwb' T hTm)
  have hW1 : 0 ≤ yawAccMax wb V Δ A D := (abs_nonneg _).trans (hwd' T hTm)
  have hsin : ∀ t ∈ Set.Icc 0 T, HasDerivWithinAt (fun τ => Real.sin (s τ).psi) (Real.cos (s t).psi * w t) (Set.Icc 0 T) t :=
    fun t ht => (Real.hasDerivAt_sin _).comp_hasDerivWithinAt t (h.psi t ht)
  have hcosd : ∀ t ∈ Set.Icc 0 T, HasDerivWithinAt (fun τ => Real.cos (s τ).psi) (-Real.sin (s t).psi * w t) (Set.Icc 0 T) t :=
    fun t ht => (Real.hasDerivAt_cos _).comp_hasDerivWithinAt t (h.psi t ht)
  -- a bound for both coordinates
  have hacc : ∀ t ∈ Set.Icc 0 T, ∀ c1 c2 : ℝ, |c1| ≤ 1 → |c2| ≤ 1 →
      |u.1 * c1 + (s t).vx * (c2 * w t) + lr * (w' t * c2 + w t * (c1 * w t))| ≤ posAccMax wb lr V Δ A D ∧
      |u.1 * c1 + (s t).vx * (c2 * w t) + lr * (w' t * c2 - w t * (c1 * w t))| ≤ posAccMax wb lr V Δ A D := by
    intro t ht c1 c2 k1 k2
    have m1 : |u.1 * c1| ≤ A := by
      rw [abs_mul]; exact (mul_le_mul hA k1 (abs_nonneg _) hA0).trans (by rw [mul_one])
    have m2 : |(s t).vx * (c2 * w t)| ≤ V * yawMax wb V Δ := by
      rw [abs_mul, abs_mul]
      refine mul_le_mul (hv t ht) ?_ (by positivity) hV0
      exact (mul_le_mul k2 (hwb' t ht) (abs_nonneg _) zero_le_one).trans (by rw [one_mul])
    have m3 : |w' t * c2| ≤ yawAccMax wb V Δ A D := by
      rw [abs_mul]; exact (mul_le_mul (hwd' t ht) k2 (abs_nonneg _) hW1).trans (by rw [mul_one])
    have m4 : |w t * (c1 * w t)| ≤ yawMax wb V Δ ^ 2 := by
      rw [abs_mul, abs_mul, sq]
      refine mul_le_mul (hwb' t ht) ?_ (by positivity) hW0
      exact (mul_le_mul k1 (hwb' t ht) (abs_nonneg _) zero_le_one).trans (by rw [one_mul])
    have key : ∀ z, |z| ≤ yawAccMax wb V Δ A D + yawMax wb V Δ ^ 2 →
        |u.1 * c1 + (s t).vx * (c2 * w t) + lr * z| ≤ posAccMax wb lr V Δ A D := by
      intro z hz
      unfold posAccMax
      refine (abs_add_le _ _).trans (add_le_add ((abs_add_le _ _).trans (add_le_add m1 m2)) ?_)
      rw [abs_mul, abs_of_nonneg hlr]
      exact mul_le_mul_of_nonneg_left hz hlr
    exact ⟨key _ ((abs_add_le _ _).trans (add_le_add m3 m4)), key _ ((abs_sub _ _).trans (add_le_add m3 m4))⟩
  have hs1 : ∀ a, |Real.sin a| ≤ 1 := Real.abs_sin_le_one
  have hc1 : ∀ a, |Real.cos a| ≤ 1 := Real.abs_cos_le_one
  refine ⟨by rw [evT, he], by rw [edT, he], ?_, ?_, ?_⟩
  · have := second_order h.psi hwd hwd' T hTm
    rw [he]
    have e1 : (s T).psi - ((s 0).psi + (s 0).vx * Real.tan (s 0).delta / wb * T) = (s T).psi - (s 0).psi - w 0 * T := by
      simp only [hw]; ring
    simp only
    rw [e1]
    exact this
  · have := second_order (f'' := fun t => u.1 * Real.cos (s t).psi + (s t).vx * (-Real.sin (s t).psi * w t) -
        (w' t * lr * Real.sin (s t).psi + w t * lr * (Real.cos (s t).psi * w t))) h.x
      (fun t ht => ((h.vx t ht).mul (hcosd t ht)).sub (((hwd t ht).mul_const lr).mul (hsin t ht)))
      (fun t ht => by
        have := (hacc t ht (Real.cos (s t).psi) (-Real.sin (s t).psi) (hc1 _) (by rw [abs_neg]; exact hs1 _)).2
        refine le_of_eq_of_le (congrArg abs ?_) this
        ring) T hTm
    rw [he]
    refine le_of_eq_of_le (congrArg abs ?_) this
    simp only
    ring
  · have := second_order (f'' := fun t => u.1 * Real.sin (s t).psi + (s t).vx * (Real.cos (s t).psi * w t) +
        (w' t * lr * Real.cos (s t).psi + w t * lr * (-Real.sin (s t).psi * w t))) h.y
      (fun t ht => ((h.vx t ht).mul (hsin t ht)).add (((hwd t ht).mul_const lr).mul (hcosd t ht)))
      (fun t ht => by
        have := (hacc t ht (Real.sin (s t).psi) (Real.cos (s t).psi) (hs1 _) (hc1 _)).2
        refine le_of_eq_of_le (congrArg abs ?_) this
        ring) T hTm
    rw [he]
    refine le_of_eq_of_le (congrArg abs ?_) this
    simp only
    ring

/-! ## Many steps -/

/-- Specification: exact motions one after the other, each of duration `h` with its own commands, inside the limits at the
beginning and at the end of each. -/
structure Drives (wb lr : ℝ) (p : VehicleParams ℝ) (h : ℝ) (us : List (ℝ × ℝ)) (s : Nat → ℝ → VehicleState ℝ) : Prop where
  motion : ∀ (k : Nat) (u : ℝ × ℝ), us[k]? = some u → BicycleMotion wb lr u.1 u.2 h (s k) ∧ s (k + 1) 0 = s k h
  commands : ∀ u ∈ us, (p.accMin ≤ u.1 ∧ u.1 ≤ p.accMax) ∧ |u.2| ≤ p.ddeltaMax
  limits : ∀ k, k ≤ us.length → (p.vxMin ≤ (s k 0).vx ∧ (s k 0).vx ≤ p.vxMax) ∧ |(s k 0).delta| ≤ p.deltaMax

/-- Repeated calls of `successor`, bicycle_dynamic.py:36-52. -/
noncomputable def eulerRun (wb lr : ℝ) (p : VehicleParams ℝ) (h : ℝ) (x : VehicleState ℝ) (us : List (ℝ × ℝ)) : VehicleState ℝ :=
  us.foldl (fun x u => bicycleStep realTrig wb lr p x u h) x

theorem eulerRun_take (wb lr : ℝ) (p : VehicleParams ℝ) (h : ℝ) (x : VehicleState ℝ) (us : List (ℝ × ℝ)) (k : Nat) (u : ℝ × ℝ)
    (hu : us[k]? = some u) : eulerRun wb lr p h x (us.take (k + 1)) =
      bicycleStep realTrig wb lr p (eulerRun wb lr p h x (us.take k)) u h := by
  obtain ⟨hk, rfl⟩ := List.getElem?_eq_some_iff.mp hu
  unfold eulerRun
  rw [List.take_add_one, List.getElem?_eq_getElem hk, List.foldl_append]
  rfl

theorem abs_sin_sub_le (a b : ℝ) : |Real.sin a - Real.sin b| ≤ |a - b| := by
  have := Real.abs_sin_sub_sin_le a b
  exact this

theorem abs_cos_sub_le (a b : ℝ) : |Real.cos a - Real.cos b| ≤ |a - b| := by
  have := Real.abs_cos_sub_cos_le a b
  exact this

set_option maxHeartbeats 1000000 in
/-- **C118.** Many steps: after `k` steps of length `h` speed and steering of repeated calls of `successor` are those of the
exact motion; the error of the heading is at most `k h² / 2` times the largest yaw acceleration, and so on for the position. For
a fixed duration `k h` the errors are in proportion to the step. -/
theorem C118_converges {h : ℝ} {us : List (ℝ × ℝ)} {s : Nat → ℝ → VehicleState ℝ} (hp : p.Valid) (hb : Within p V Δ A D)
    (hwb : 0 < wb) (hlr : 0 ≤ lr) (hh : 0 ≤ h) (hs : Drives wb lr p h us s) (k : Nat) (hk : k ≤ us.length) :
    let e := eulerRun wb lr p h (s 0 0) (us.take k)
    let t := k * h
    (s k 0).vx = e.vx ∧ (s k 0).delta = e.delta ∧
      |(s k 0).psi - e.psi| ≤ t * h * (yawAccMax wb V Δ A D / 2) ∧
      |(s k 0).x - e.x| ≤ t * h * (posAccMax wb lr V Δ A D / 2 + t * (V + lr * yawMax wb V Δ) * (yawAccMax wb V Δ A D / 2)) ∧
      |(s k 0).y - e.y| ≤ t * h * (posAccMax wb lr V Δ A D / 2 + t * (V + lr * yawMax wb V Δ) * (yawAccMax wb V Δ A D / 2)) := by
  induction k with
  | zero => simp [eulerRun]
  | succ k ih =>
    obtain ⟨ih1, ih2, ih3, ih4, ih5⟩ := ih (by omega)
    have hu : us[k]? = some us[k] := List.getElem?_eq_getElem (by omega)
    set u := us[k]
    obtain ⟨hm, hnext⟩ := hs.motion k u hu
    obtain ⟨c1, c2⟩ := hs.commands u (List.mem_of_getElem? hu)
    obtain ⟨l1, l2⟩ := hs.limits k (by omega)
    obtain ⟨l3, l4⟩ := hs.limits (k + 1) hk
    have l3' := l3
    have l4' := l4
    rw [hnext] at l3 l4
    obtain ⟨o1, o2, o3, o4, o5⟩ := C118_error hp hb hwb hlr hh hm c1 c2 l1 l2 l3 l4
    intro e t
    have he : e = _ := eulerRun_take wb lr p h (s 0 0) us k u hu
    set e0 := eulerRun wb lr p h (s 0 0) (us.take k)
    have hin := C118_inputs hm h ⟨hh, le_rfl⟩
    -- the Euler steps from the exact and from the computed state
    have euler : ∀ x : VehicleState ℝ, (p.vxMin ≤ x.vx + u.1 * h ∧ x.vx + u.1 * h ≤ p.vxMax) →
        |x.delta + u.2 * h| ≤ p.deltaMax → bicycleStep realTrig wb lr p x u h =
        ⟨x.x + (x.vx * Real.cos x.psi - x.vx * Real.tan x.delta / wb * lr * Real.sin x.psi) * h,
          x.y + (x.vx * Real.sin x.psi + x.vx * Real.tan x.delta / wb * lr * Real.cos x.psi) * h,
          x.psi + x.vx * Real.tan x.delta / wb * h, x.vx + u.1 * h, x.delta + u.2 * h⟩ :=
      fun x a1 a2 => C44_euler realTrig wb lr p hp x u h c1 c2 a1 a2
    have s1 := euler (s k 0) (by rw [← hin.1]; exact l3) (by rw [← hin.2]; exact l4)
    have s2 := euler e0 (by rw [← ih1, ← hin.1]; exact l3) (by rw [← ih2, ← hin.2]; exact l4)
    have hv : |(s k 0).vx| ≤ V := abs_le.mpr ⟨by linarith [hb.vx.1], by linarith [hb.vx.2]⟩
    have ht : |Real.tan (s k 0).delta| ≤ Real.tan Δ := abs_tan_le (l2.trans hb.delta.1) hb.delta.2
    have hV0 : 0 ≤ V := (abs_nonneg _).trans hv
    have hw : |(s k 0).vx * Real.tan (s k 0).delta / wb| ≤ yawMax wb V Δ := by
      unfold yawMax
      rw [abs_div, abs_mul, abs_of_pos hwb]
      exact div_le_div_of_nonneg_right (mul_le_mul hv ht (abs_nonneg _) hV0) hwb.le
    set w := (s k 0).vx * Real.tan (s k 0).delta / wb with hwdef
    set Y := yawAccMax wb V Δ A D
    set X := posAccMax wb lr V Δ A D
    set W := yawMax wb V Δ
    have hW0 : 0 ≤ W := (abs_nonneg _).trans hw
    rw [s1] at o1 o2 o3 o4 o5
    rw [← ih1, ← ih2, ← hwdef] at s2
    rw [s2] at he
    simp only at o1 o2 o3 o4 o5
    set E := (k : ℝ) * h * h * (Y / 2) with hE
    have hE' : |(s k 0).psi - e0.psi| ≤ E := ih3
    have hcs : |Real.cos (s k 0).psi - Real.cos e0.psi| ≤ E := (abs_cos_sub_le _ _).trans hE'
    have hsn : |Real.sin (s k 0).psi - Real.sin e0.psi| ≤ E := (abs_sin_sub_le _ _).trans hE'
    have hE0 : 0 ≤ E := (abs_nonneg _).trans hE'
    -- how much the direction matters
    have key : ∀ p1 p2 : ℝ, |p1| ≤ E → |p2| ≤ E → |((s k 0).vx * p1 - w * lr * p2) * h| ≤ (V + lr * W) * E * h ∧
        |((s k 0).vx * p1 + w * lr * p2) * h| ≤ (V + lr * W) * E * h := by
      intro p1 p2 h1 h2
      have m1 : |(s k 0).vx * p1| ≤ V * E := by rw [abs_mul]; exact mul_le_mul hv h1 (abs_nonneg _) hV0
      have m2 : |w * lr * p2| ≤ lr * W * E := by
        rw [abs_mul, abs_mul, abs_of_nonneg hlr, mul_comm |w|]
        exact mul_le_mul (mul_le_mul_of_nonneg_left hw hlr) h2 (abs_nonneg _) (by positivity)
      constructor
      · rw [abs_mul, abs_of_nonneg hh]
        refine mul_le_mul_of_nonneg_right ((abs_sub _ _).trans ?_) hh
        linarith
      · rw [abs_mul, abs_of_nonneg hh]
        refine mul_le_mul_of_nonneg_right ((abs_add_le _ _).trans ?_) hh
        linarith
    have hkh : 0 ≤ (k : ℝ) * h := by positivity
    have hY0 : 0 ≤ Y * h ^ 2 / 2 := (abs_nonneg _).trans o3
    have ht' : t = k * h + h := by simp only [t]; push_cast; ring
    -- the sum of the errors stays below the bound
    have hsum : (V + lr * W) * E * h + X * h ^ 2 / 2 + (k : ℝ) * h * h * (X / 2 + (k : ℝ) * h * (V + lr * W) * (Y / 2)) ≤
        t * h * (X / 2 + t * (V + lr * W) * (Y / 2)) := by
      rw [ht', hE]
      have hq : 0 ≤ (V + lr * W) * (Y * h ^ 2 / 2) * (k * h + h) :=
        mul_nonneg (mul_nonneg (by positivity) hY0) (by positivity)
      nlinarith [hq]
    rw [hnext, he]
    refine ⟨by rw [o1, ih1], by rw [o2, ih2], ?_, ?_, ?_⟩
    · simp only
      rw [show (s k h).psi - (e0.psi + w * h) = ((s k h).psi - ((s k 0).psi + w * h)) + ((s k 0).psi - e0.psi) by ring]
      refine (abs_add_le _ _).trans ((add_le_add o3 hE').trans (le_of_eq ?_))
      rw [ht', hE]; ring
    · simp only
      rw [show (s k h).x - (e0.x + ((s k 0).vx * Real.cos e0.psi - w * lr * Real.sin e0.psi) * h) =
        ((s k 0).vx * (Real.cos (s k 0).psi - Real.cos e0.psi) - w * lr * (Real.sin (s k 0).psi - Real.sin e0.psi)) * h +
        ((s k h).x - ((s k 0).x + ((s k 0).vx * Real.cos (s k 0).psi - w * lr * Real.sin (s k 0).psi) * h)) +
        ((s k 0).x - e0.x) by ring]
      exact (abs_add_le _ _).trans ((add_le_add ((abs_add_le _ _).trans (add_le_add (key _ _ hcs hsn).1 o4)) ih4).trans hsum)
    · simp only
      rw [show (s k h).y - (e0.y + ((s k 0).vx * Real.sin e0.psi + w * lr * Real.cos e0.psi) * h) =
        ((s k 0).vx * (Real.sin (s k 0).psi - Real.sin e0.psi) + w * lr * (Real.cos (s k 0).psi - Real.cos e0.psi)) * h +
        ((s k h).y - ((s k 0).y + ((s k 0).vx * Real.sin (s k 0).psi + w * lr * Real.cos (s k 0).psi) * h)) +
        ((s k 0).y - e0.y) by ring]
      exact (abs_add_le _ _).trans ((add_le_add ((abs_add_le _ _).trans (add_le_add (key _ _ hsn hcs).2 o5)) ih5).trans hsum)

end

/-! ## Example -/

/-- A vehicle that drives in a circle at two metres per second. -/
noncomputable def circling (t : ℝ) : VehicleState ℝ :=
  ⟨2 * Real.sin t + Real.cos t - 1, 2 - 2 * Real.cos t + Real.sin t, t, 2, Real.pi / 4⟩

theorem circling_motion (T : ℝ) : BicycleMotion 2 1 0 0 T circling where
  x t _ := by
    have h : HasDerivAt (fun t => 2 * Real.sin t + Real.cos t - 1) (2 * Real.cos t + -Real.sin t) t :=
      (((Real.hasDerivAt_sin t).const_mul 2).add (Real.hasDerivAt_cos t)).sub_const 1
    exact h.hasDerivWithinAt.congr_deriv (by simp only [circling, Real.tan_pi_div_four]; ring)
  y t _ := by
    have h : HasDerivAt (fun t => 2 - 2 * Real.cos t + Real.sin t) (-(2 * -Real.sin t) + Real.cos t) t :=
      (((Real.hasDerivAt_cos t).const_mul 2).const_sub 2).add (Real.hasDerivAt_sin t)
    exact h.hasDerivWithinAt.congr_deriv (by simp only [circling, Real.tan_pi_div_four]; ring)
  psi t _ := by
    have h := (hasDerivAt_id t).hasDerivWithinAt (s := Set.Icc 0 T)
    exact h.congr_deriv (by simp only [circling, Real.tan_pi_div_four]; norm_num)
  vx t _ := hasDerivWithinAt_const _ _ _
  delta t _ := hasDerivWithinAt_const _ _ _

/-- The parameters of this vehicle. -/
noncomputable def circlingParams : VehicleParams ℝ := ⟨⟨-10, 10, -3, 3⟩, 1, 1⟩

/-- The circle meets the hypotheses: the error of the position after steps of a tenth of a second is bounded. -/
example : circlingParams.Valid ∧ Within circlingParams 10 1 3 1 ∧ Drives 2 1 circlingParams (1 / 10) [(0, 0), (0, 0), (0, 0)]
    fun k t => circling (k / 10 + t) := by
  have h4 := Real.pi_gt_three
  have h5 := Real.pi_le_four
  refine ⟨⟨⟨by norm_num [circlingParams], by norm_num [circlingParams]⟩, by norm_num [circlingParams],
    by norm_num [circlingParams]⟩, ⟨by norm_num [circlingParams], ⟨le_rfl, by linarith⟩, by norm_num [circlingParams],
    le_rfl⟩, ?_, ?_, ?_⟩
  · intro k u hu
    have hu' : u = (0, 0) := by
      have := List.mem_of_getElem? hu
      simpa using this
    subst hu'
    refine ⟨?_, by congr 1; push_cast; ring⟩
    have h := circling_motion (k / 10 + 1 / 10)
    have hmem : ∀ t ∈ Set.Icc (0 : ℝ) (1 / 10), (k / 10 + t) ∈ Set.Icc (0 : ℝ) (k / 10 + 1 / 10) :=
      fun t ht => ⟨by have := ht.1; positivity, by linarith [ht.2]⟩
    have hshift : ∀ t : ℝ, HasDerivWithinAt (fun τ : ℝ => k / 10 + τ) 1 (Set.Icc 0 (1 / 10)) t :=
      fun t => ((hasDerivAt_id t).const_add _).hasDerivWithinAt
    have comp : ∀ (f : ℝ → ℝ) (d t : ℝ), t ∈ Set.Icc (0 : ℝ) (1 / 10) →
        HasDerivWithinAt f d (Set.Icc (0 : ℝ) (k / 10 + 1 / 10)) (k / 10 + t) →
        HasDerivWithinAt (fun τ => f (k / 10 + τ)) d (Set.Icc 0 (1 / 10)) t := by
      intro f d t _ hf
      have := hf.comp t (hshift t) hmem
      rw [mul_one] at this
      exact this
    exact ⟨fun t ht => comp _ _ t ht (h.x _ (hmem t ht)), fun t ht => comp _ _ t ht (h.y _ (hmem t ht)),
      fun t ht => comp _ _ t ht (h.psi _ (hmem t ht)), fun t ht => comp _ _ t ht (h.vx _ (hmem t ht)),
      fun t ht => comp _ _ t ht (h.delta _ (hmem t ht))⟩
  · intro u hu
    have hu' : u = (0, 0) := by simpa using hu
    subst hu'
    norm_num [circlingParams]
  · intro k _
    simp only [circling, circlingParams]
    refine ⟨by norm_num, abs_le.mpr ⟨by linarith, by linarith⟩⟩

end Phys
end Verif
