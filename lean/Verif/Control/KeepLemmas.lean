import Mathlib.Analysis.SpecialFunctions.Integrals.Basic
import Mathlib.Analysis.SpecialFunctions.Log.Deriv
import Mathlib.Analysis.Calculus.Deriv.MeanValue
import Mathlib.Analysis.SpecialFunctions.Trigonometric.Deriv
import Mathlib.MeasureTheory.Integral.IntervalIntegral.FundThmCalculus

/-!
# The closed loop of pure pursuit on a straight line

`y` is the lateral position of the rear axle, `psi` the heading, both relative to the line; `L` is the distance from the
reference point of the vehicle to the goal, `r` the distance of the rear axle from the reference point. No code is
modelled here: these are lemmas about the differential equation that `KeepProps` derives from the code.
-/

namespace Verif
namespace Keep

open Set

/-- How far ahead of the reference point, along the line, a goal at distance `L` lies. -/
noncomputable def far (L g : ℝ) : ℝ := Real.sqrt (L ^ 2 - g ^ 2)

/-- Distance of the goal from the rear axle when the vehicle is parallel to the line. -/
noncomputable def dist0 (L r y : ℝ) : ℝ := Real.sqrt (y ^ 2 + (r + far L y) ^ 2)

/-- The goal seen from the rear axle, along the line. -/
noncomputable def lon (L r y c s : ℝ) : ℝ := r * c + far L (y + r * s)

/-- Distance of the goal from the rear axle. -/
noncomputable def dist (L r y c s : ℝ) : ℝ := Real.sqrt (y ^ 2 + lon L r y c s ^ 2)

/-- The curvature that is asked for. -/
noncomputable def curv (L r e y c s : ℝ) : ℝ :=
  -(2 / L) * ((y * c + lon L r y c s * s) / dist L r y c s - e)

section algebra

variable {L r e y c s : ℝ}

theorem far_bounds (hL : 0 < L) (hy : |y| ≤ L / 2) : 43 / 50 * L ≤ far L y ∧ far L y ≤ L ∧ far L y ^ 2 = L ^ 2 - y ^ 2 ∧
    3 / 4 * L ^ 2 ≤ far L y ^ 2 := by
  have h1 : y ^ 2 ≤ (L / 2) ^ 2 := by rw [← sq_abs]; gcongr
  have h2 : far L y ^ 2 = L ^ 2 - y ^ 2 := Real.sq_sqrt (by nlinarith)
  have h0 : 0 ≤ far L y := Real.sqrt_nonneg _
  refine ⟨?_, ?_, h2, by nlinarith⟩
  · by_contra h
    push Not at h
    nlinarith
  · by_contra h
    push Not at h
    nlinarith [sq_nonneg y]

theorem dist0_bounds (hL : 0 < L) (hr : 0 ≤ r) (hy : |y| ≤ L / 2) : 43 / 50 * L + r ≤ dist0 L r y ∧
    dist0 L r y ≤ L + r ∧ dist0 L r y ^ 2 = L ^ 2 + r ^ 2 + 2 * r * far L y := by
  obtain ⟨h1, h2, h3, -⟩ := far_bounds hL hy
  have h4 : dist0 L r y ^ 2 = y ^ 2 + (r + far L y) ^ 2 := Real.sq_sqrt (by positivity)
  have h0 : 0 ≤ dist0 L r y := Real.sqrt_nonneg _
  refine ⟨?_, ?_, by rw [h4]; linear_combination h3⟩
  · by_contra h
    push Not at h
    nlinarith [sq_nonneg y]
  · by_contra h
    push Not at h
    nlinarith [mul_nonneg hr (sub_nonneg.mpr h2)]

theorem lon_bounds (hL : 0 < L) (hr : 0 ≤ r) (hcs : c ^ 2 + s ^ 2 = 1) (hc : 0 < c) (hy : |y| ≤ L / 2)
    (hg : |y + r * s| ≤ L / 2) : 43 / 50 * L ≤ lon L r y c s ∧ lon L r y c s ≤ dist L r y c s ∧
    43 / 50 * dist L r y c s ≤ lon L r y c s ∧
    dist L r y c s ^ 2 = L ^ 2 + r ^ 2 + 2 * r * (c * far L (y + r * s) - s * (y + r * s)) := by
  obtain ⟨h1, h2, h3, h5⟩ := far_bounds hL hg
  have hy2 : y ^ 2 ≤ (L / 2) ^ 2 := by rw [← sq_abs]; gcongr
  have hrc : 0 ≤ r * c := by positivity
  have h4 : dist L r y c s ^ 2 = y ^ 2 + lon L r y c s ^ 2 := Real.sq_sqrt (by positivity)
  have h0 : 0 ≤ dist L r y c s := Real.sqrt_nonneg _
  have hl : far L (y + r * s) ≤ lon L r y c s := by unfold lon; linarith
  refine ⟨by linarith, ?_, ?_, ?_⟩
  · by_contra h
    push Not at h
    nlinarith [sq_nonneg y]
  · by_contra h
    push Not at h
    nlinarith
  · rw [h4]; unfold lon; linear_combination h3 + r ^ 2 * hcs

theorem one_sub_le (hcs : c ^ 2 + s ^ 2 = 1) (hc : 0 < c) : 1 - c ≤ |s| ∧ c ≤ 1 ∧ |s| ≤ 1 ∧ 1 - c ≤ s ^ 2 := by
  have h1 : c ≤ 1 := by nlinarith [sq_nonneg s]
  have h2 : |s| ^ 2 = s ^ 2 := sq_abs s
  have h0 := abs_nonneg s
  refine ⟨?_, h1, ?_, by nlinarith⟩
  · by_contra h
    push Not at h
    nlinarith
  · by_contra h
    push Not at h
    nlinarith

set_option maxHeartbeats 400000 in
theorem inv_diff (hL : 0 < L) (hr : 0 ≤ r) (hcs : c ^ 2 + s ^ 2 = 1) (hc : 0 < c) (hy : |y| ≤ L / 2)
    (hg : |y + r * s| ≤ L / 2) : |y * (1 / dist L r y c s - 1 / dist0 L r y)| ≤
    7 / 10 * (lon L r y c s / dist L r y c s) * |s| := by
  obtain ⟨a1, a2, a3, a4⟩ := far_bounds hL hy
  obtain ⟨b1, b2, b3⟩ := dist0_bounds hL hr hy
  obtain ⟨c1, c2, c3, c4⟩ := lon_bounds hL hr hcs hc hy hg
  obtain ⟨d1, d2, d3, d4⟩ := far_bounds hL hg
  obtain ⟨e1, e2, e3, -⟩ := one_sub_le hcs hc
  set Q := far L (y + r * s)
  set Q0 := far L y
  set d := dist L r y c s
  set d0 := dist0 L r y
  set D := lon L r y c s
  have hs0 := abs_nonneg s
  have hD : 0 < D := by linarith
  have hdp : 0 < d := by linarith
  have hd0p : 0 < d0 := by linarith
  have hQ : 0 < Q := by linarith
  have hQ0 : 0 < Q0 := by linarith
  have hq : |Q0 - Q| ≤ 6 / 10 * r * |s| := by
    have h1 : (Q0 - Q) * (Q0 + Q) = r * s * (y + (y + r * s)) := by linear_combination a3 - d3
    have h2 : |y + (y + r * s)| ≤ L := by
      refine (abs_add_le _ _).trans (by linarith)
    have h3 : |Q0 - Q| * (Q0 + Q) ≤ r * |s| * L := by
      rw [show |Q0 - Q| * (Q0 + Q) = |(Q0 - Q) * (Q0 + Q)| by
        rw [abs_mul, abs_of_pos (show (0 : ℝ) < Q0 + Q by linarith)], h1, abs_mul, abs_mul, abs_of_nonneg hr]
      gcongr
    have h4 : 43 / 25 * L ≤ Q0 + Q := by linarith
    have h5 := abs_nonneg (Q0 - Q)
    have h6 : |Q0 - Q| * (43 / 25 * L) ≤ r * |s| * L := (mul_le_mul_of_nonneg_left h4 h5).trans h3
    have h7 : |Q0 - Q| * (43 / 25) ≤ r * |s| := by
      have : (|Q0 - Q| * (43 / 25)) * L ≤ (r * |s|) * L := by linarith
      exact le_of_mul_le_mul_right this hL
    have h8 : 0 ≤ r * |s| := by positivity
    linarith
  have hdd : |d0 ^ 2 - d ^ 2| ≤ 2 * r * |s| * (3 / 2 * L + 6 / 10 * r) := by
    have h1 : d0 ^ 2 - d ^ 2 = 2 * r * ((Q0 - Q) + (1 - c) * Q + s * (y + r * s)) := by
      rw [b3, c4]; ring
    rw [h1, abs_mul, abs_of_nonneg (by positivity : (0 : ℝ) ≤ 2 * r)]
    have h2 : |(Q0 - Q) + (1 - c) * Q + s * (y + r * s)| ≤ 6 / 10 * r * |s| + |s| * L + |s| * (L / 2) := by
      refine (abs_add_le _ _).trans (add_le_add ((abs_add_le _ _).trans (add_le_add hq ?_)) ?_)
      · rw [abs_mul, abs_of_nonneg (by linarith : (0 : ℝ) ≤ 1 - c), abs_of_pos hQ]
        gcongr
      · rw [abs_mul]; gcongr
    calc 2 * r * _ ≤ 2 * r * (6 / 10 * r * |s| + |s| * L + |s| * (L / 2)) := by gcongr
      _ = _ := by ring
  have hid : y * (1 / d - 1 / d0) = y * (d0 ^ 2 - d ^ 2) / (d * (d0 * (d + d0))) := by
    field_simp
    ring
  have hden : (43 / 50 * L + r) * (43 / 25 * L + r) ≤ d0 * (d + d0) := by
    apply mul_le_mul b1 (by linarith) (by positivity) hd0p.le
  rw [hid, abs_div, abs_of_pos (by positivity : 0 < d * (d0 * (d + d0))), div_le_iff₀ (by positivity), abs_mul]
  have hrhs : 7 / 10 * (D / d) * |s| * (d * (d0 * (d + d0))) = 7 / 10 * D * |s| * (d0 * (d + d0)) := by
    field_simp
  rw [hrhs]
  have h1 : |y| * |d0 ^ 2 - d ^ 2| ≤ L / 2 * (2 * r * |s| * (3 / 2 * L + 6 / 10 * r)) := by gcongr
  have h2 : 7 / 10 * (43 / 50 * L) * |s| * ((43 / 50 * L + r) * (43 / 25 * L + r)) ≤
      7 / 10 * D * |s| * (d0 * (d + d0)) := by gcongr
  refine h1.trans (le_trans ?_ h2)
  have h3 : 0 ≤ L * |s| := by positivity
  have h4 : 0 ≤ r * L := by positivity
  have h5 : r * (3 / 2 * L + 6 / 10 * r) ≤ 7 / 10 * (43 / 50) * ((43 / 50 * L + r) * (43 / 25 * L + r)) := by
    linarith [sq_nonneg r, sq_nonneg L]
  calc L / 2 * (2 * r * |s| * (3 / 2 * L + 6 / 10 * r)) = (L * |s|) * (r * (3 / 2 * L + 6 / 10 * r)) := by ring
    _ ≤ (L * |s|) * (7 / 10 * (43 / 50) * ((43 / 50 * L + r) * (43 / 25 * L + r))) := by gcongr
    _ = _ := by ring

/-- The offset at which the vehicle drives parallel to the line. -/
theorem exists_rest (hL : 0 < L) (hr : 0 ≤ r) (hr' : r ≤ 10 * L) (he : 0 < e) (he' : e ≤ 1 / 10 ^ 9) :
    ∃ ys, 0 < ys ∧ ys ≤ e * (L + r) ∧ ys ≤ L / 2 ∧ ys / dist0 L r ys = e := by
  have hpos : ∀ u, |u| ≤ L / 2 → 0 < dist0 L r u := fun u hu => by
    have := (dist0_bounds hL hr hu).1; nlinarith
  have hab : ∀ u ∈ Icc 0 (L / 2), |u| ≤ L / 2 := fun u hu => by rw [abs_of_nonneg hu.1]; exact hu.2
  have hcont : ContinuousOn (fun u => u / dist0 L r u) (Icc 0 (L / 2)) := by
    refine ContinuousOn.div continuousOn_id ?_ (fun u hu => (hpos u (hab u hu)).ne')
    unfold dist0 far
    fun_prop
  have hm : e ∈ Icc (0 / dist0 L r 0) (L / 2 / dist0 L r (L / 2)) := by
    refine ⟨by rw [zero_div]; exact he.le, ?_⟩
    have h2 : |L / 2| ≤ L / 2 := by rw [abs_of_pos (by positivity)]
    rw [le_div_iff₀ (hpos _ h2)]
    have h3 := (dist0_bounds hL hr h2).2.1
    have h4 := hpos _ h2
    calc e * dist0 L r (L / 2) ≤ 1 / 10 ^ 9 * (L + r) := by gcongr
      _ ≤ _ := by norm_num; linarith
  obtain ⟨ys, hys, h1⟩ := intermediate_value_Icc (by positivity : (0 : ℝ) ≤ L / 2) hcont hm
  have hd := hpos ys (hab ys hys)
  have h2 : ys = e * dist0 L r ys := by
    simp only at h1; rw [← h1]; field_simp
  refine ⟨ys, ?_, ?_, hys.2, h1⟩
  · rw [h2]; positivity
  · calc ys = _ := h2
      _ ≤ _ := by have := (dist0_bounds hL hr (hab ys hys)).2.1; gcongr

set_option maxHeartbeats 400000 in
theorem slope (hL : 0 < L) (hr : 0 ≤ r) (hr' : r ≤ 10 * L) (he : 0 < e) (he' : e ≤ 1 / 10 ^ 9) (hy : |y| ≤ L / 2)
    {ys : ℝ} (h0 : 0 < ys) (h1 : ys ≤ e * (L + r)) (h2 : ys ≤ L / 2) (h3 : ys / dist0 L r ys = e) :
    9 / 10 * ((y - ys) ^ 2 / (L + r)) ≤ (y - ys) * (y / dist0 L r y - e) ∧
    (y - ys) * (y / dist0 L r y - e) ≤ 6 / 5 * ((y - ys) ^ 2 / (L + r)) := by
  have hys : |ys| ≤ L / 2 := by rw [abs_of_pos h0]; exact h2
  obtain ⟨a1, a2, a3, a4⟩ := far_bounds hL hy
  obtain ⟨b1, b2, b3⟩ := dist0_bounds hL hr hy
  obtain ⟨c1, c2, c3, c4⟩ := far_bounds hL hys
  obtain ⟨d1, d2, d3⟩ := dist0_bounds hL hr hys
  set q := far L y
  set q' := far L ys
  set d := dist0 L r y
  set d' := dist0 L r ys
  have hN : 0 < L + r := by linarith
  have hd : 43 / 50 * (L + r) ≤ d := by linarith
  have hd' : 43 / 50 * (L + r) ≤ d' := by linarith
  have hdp : 0 < d := by linarith
  have hdp' : 0 < d' := by linarith
  set z := y - ys with hz
  have hq : |q' - q| ≤ |z| := by
    have e1 : (q' - q) * (q' + q) = z * (y + ys) := by rw [hz]; linear_combination c3 - a3
    have e2 : |y + ys| ≤ L := (abs_add_le _ _).trans (by linarith)
    have e3 : |q' - q| * (q' + q) ≤ |z| * L := by
      rw [show |q' - q| * (q' + q) = |(q' - q) * (q' + q)| by
        rw [abs_mul, abs_of_pos (show (0 : ℝ) < q' + q by linarith)], e1, abs_mul]
      gcongr
    have e5 := abs_nonneg (q' - q)
    have e6 : |q' - q| * L ≤ |z| * L := (mul_le_mul_of_nonneg_left (by linarith) e5).trans e3
    exact le_of_mul_le_mul_right e6 hL
  have hδ : |ys * (1 / d - 1 / d')| ≤ 2 * e * (|z| / (L + r)) := by
    have e1 : ys * (1 / d - 1 / d') = ys * (2 * r * (q' - q)) / (d * d' * (d + d')) := by
      rw [show 2 * r * (q' - q) = d' ^ 2 - d ^ 2 by rw [d3, b3]; ring]
      field_simp
      ring
    rw [e1, abs_div, abs_of_pos (by positivity : 0 < d * d' * (d + d')), abs_mul, abs_mul,
      abs_of_pos h0, abs_of_nonneg (by positivity : 0 ≤ 2 * r), div_le_iff₀ (by positivity)]
    have e2 : (L + r) ^ 3 ≤ d * d' * (d + d') := by
      have : 43 / 50 * (L + r) * (43 / 50 * (L + r)) * (43 / 50 * (L + r) + 43 / 50 * (L + r)) ≤ d * d' * (d + d') := by
        gcongr
      have h3 : 0 < (L + r) ^ 3 := by positivity
      linarith
    calc ys * (2 * r * |q' - q|) ≤ (e * (L + r)) * (2 * (L + r) * |z|) := by gcongr; linarith
      _ = 2 * e * (|z| / (L + r)) * (L + r) ^ 3 := by
        have : |z| / (L + r) * (L + r) ^ 3 = |z| * (L + r) ^ 2 := by field_simp
        rw [mul_assoc (2 * e), this]; ring
      _ ≤ _ := by gcongr
  have hG : z * (y / d - e) = z ^ 2 / d + z * (ys * (1 / d - 1 / d')) := by
    rw [← h3, hz]; field_simp; ring
  have habs : |z * (ys * (1 / d - 1 / d'))| ≤ 2 * e * (z ^ 2 / (L + r)) := by
    rw [abs_mul]
    calc |z| * _ ≤ |z| * (2 * e * (|z| / (L + r))) := by gcongr
      _ = 2 * e * (|z| ^ 2 / (L + r)) := by ring
      _ = _ := by rw [sq_abs]
  have hzz : 0 ≤ z ^ 2 / (L + r) := by positivity
  have hle : z ^ 2 / (L + r) ≤ z ^ 2 / d := by gcongr
  have hge : z ^ 2 / d ≤ 50 / 43 * (z ^ 2 / (L + r)) := by
    rw [div_le_iff₀ hdp]
    calc z ^ 2 = 50 / 43 * (z ^ 2 / (L + r)) * (43 / 50 * (L + r)) := by field_simp
      _ ≤ _ := by gcongr
  have he2 : 2 * e * (z ^ 2 / (L + r)) ≤ 1 / 100 * (z ^ 2 / (L + r)) := by
    gcongr
    norm_num at he'
    linarith
  rw [hG]
  have := abs_le.mp habs
  constructor <;> linarith [this.1, this.2]

theorem curv_eq (hd : dist L r y c s ≠ 0) : curv L r e y c s =
    -(2 / L) * ((y / dist0 L r y - e) * c + y * (1 / dist L r y c s - 1 / dist0 L r y) * c +
      lon L r y c s / dist L r y c s * s - e * (1 - c)) := by
  unfold curv
  congr 1
  field_simp
  ring

theorem rate_alg {A B G : ℝ} (hL : 0 < L) (hcs : c ^ 2 + s ^ 2 = 1) (hc : 0 < c) (he : 0 < e) (he' : e ≤ 1 / 10 ^ 9)
    (hA : 43 / 50 ≤ A) (hB : |B| ≤ 7 / 10 * A * |s|) :
    s / c * (-(2 / L) * (G * c + B * c + A * s - e * (1 - c))) + 2 / L * G * s ≤ -(2 / L) * (1 / 4 * s ^ 2) := by
  obtain ⟨h1, h2, h3, h4⟩ := one_sub_le hcs hc
  have e1 : s / c * (-(2 / L) * (G * c + B * c + A * s - e * (1 - c))) + 2 / L * G * s =
      -(2 / L) * ((A * s ^ 2 + B * s * c - e * s * (1 - c)) / c) := by
    field_simp
    ring
  rw [e1]
  have hl : 0 < 2 / L := by positivity
  rw [neg_mul, neg_mul, neg_le_neg_iff]
  refine mul_le_mul_of_nonneg_left ?_ hl.le
  rw [le_div_iff₀ hc]
  have hss : |s| * |s| = s ^ 2 := by rw [← sq, sq_abs]
  have hb : |B * s * c| ≤ 7 / 10 * A * s ^ 2 := by
    rw [abs_mul, abs_mul, abs_of_pos hc]
    calc |B| * |s| * c ≤ 7 / 10 * A * |s| * |s| * 1 := by gcongr
      _ = _ := by rw [mul_one, mul_assoc, hss]
  have hee : |e * s * (1 - c)| ≤ e * s ^ 2 := by
    rw [abs_mul, abs_mul, abs_of_pos he, abs_of_nonneg (by linarith : 0 ≤ 1 - c)]
    calc e * |s| * (1 - c) ≤ e * |s| * |s| := by gcongr
      _ = _ := by rw [mul_assoc, hss]
  have hs := sq_nonneg s
  have h5 : e * s ^ 2 ≤ 1 / 1000 * s ^ 2 := by gcongr; norm_num at he'; linarith
  have h6 : 43 / 50 * s ^ 2 ≤ A * s ^ 2 := by gcongr
  have h7 : 1 / 4 * s ^ 2 * c ≤ 1 / 4 * s ^ 2 * 1 := by gcongr
  have := abs_le.mp hb
  have := abs_le.mp hee
  linarith

theorem rate_alg2 {A B G z N : ℝ} (hL : 0 < L) (hN : L ≤ N) (hcs : c ^ 2 + s ^ 2 = 1) (hc : 4 / 5 ≤ c) (he : 0 < e)
    (he' : e ≤ 1 / 10 ^ 9) (hA : 43 / 50 ≤ A) (hA1 : A ≤ 1) (hB : |B| ≤ 7 / 10 * A * |s|)
    (hG : 9 / 10 * (z ^ 2 / N) ≤ z * G) :
    s / c * (-(2 / L) * (G * c + B * c + A * s - e * (1 - c))) + 2 / L * G * s +
      1 / (40 * N) * (s * s + z * (c * (-(2 / L) * (G * c + B * c + A * s - e * (1 - c))))) ≤
      -(2 / L) * (1 / 125 * (s ^ 2 + (z / N) ^ 2)) := by
  have hc0 : 0 < c := by linarith
  have hN0 : 0 < N := by linarith
  obtain ⟨h1, h2, h3, h4⟩ := one_sub_le hcs hc0
  have h5 := rate_alg (G := G) hL hcs hc0 he he' hA hB
  have hl : 0 < 2 / L := by positivity
  have hs0 := abs_nonneg s
  set R := B * c + A * s - e * (1 - c) with hR
  have hRb : |R| ≤ 3 * |s| := by
    have a1 : |B * c| ≤ |s| := by
      rw [abs_mul, abs_of_pos hc0]
      calc |B| * c ≤ 7 / 10 * A * |s| * 1 := by gcongr
        _ ≤ 7 / 10 * 1 * |s| * 1 := by gcongr
        _ ≤ _ := by linarith
    have a2 : |A * s| ≤ |s| := by
      rw [abs_mul, abs_of_nonneg (by linarith)]
      calc A * |s| ≤ 1 * |s| := by gcongr
        _ = _ := one_mul _
    have a3 : |e * (1 - c)| ≤ |s| := by
      rw [abs_mul, abs_of_pos he, abs_of_nonneg (by linarith : 0 ≤ 1 - c)]
      calc e * (1 - c) ≤ 1 * |s| := by gcongr; norm_num at he'; linarith
        _ = _ := one_mul _
    have := abs_sub (B * c + A * s) (e * (1 - c))
    have := abs_add_le (B * c) (A * s)
    linarith
  set w := z / N with hw
  have hz : z = w * N := by rw [hw]; field_simp
  have e1 : 1 / (40 * N) * (s * s + z * (c * (-(2 / L) * (G * c + B * c + A * s - e * (1 - c))))) =
      1 / (40 * N) * s ^ 2 - 2 / L * (1 / 40 * (z * G / N * c ^ 2 + w * c * R)) := by
    rw [hR, hw]; field_simp; ring
  have e2 : 1 / (40 * N) * s ^ 2 ≤ 2 / L * (1 / 80 * s ^ 2) := by
    rw [show 2 / L * (1 / 80 * s ^ 2) = 1 / (40 * L) * s ^ 2 by field_simp; ring]
    gcongr
  have e3 : 9 / 10 * w ^ 2 ≤ z * G / N := by
    rw [le_div_iff₀ hN0, hw]
    calc 9 / 10 * (z / N) ^ 2 * N = 9 / 10 * (z ^ 2 / N) := by field_simp
      _ ≤ _ := hG
  have e4 : 9 / 10 * (16 / 25) * w ^ 2 ≤ z * G / N * c ^ 2 := by
    calc 9 / 10 * (16 / 25) * w ^ 2 = 9 / 10 * w ^ 2 * (4 / 5) ^ 2 := by ring
      _ ≤ _ := mul_le_mul e3 (by gcongr) (by positivity) (le_trans (by positivity) e3)
  have e5 : |w * c * R| ≤ 3 * (|w| * |s|) := by
    rw [abs_mul, abs_mul, abs_of_pos hc0]
    calc |w| * c * |R| ≤ |w| * 1 * (3 * |s|) := by gcongr
      _ = _ := by ring
  have e6 : 3 / 40 * (|w| * |s|) ≤ 16 / 2500 * w ^ 2 + 22 / 100 * s ^ 2 := by
    rw [← sq_abs w, ← sq_abs s]
    nlinarith [sq_nonneg (|w| * 8 - |s| * 46)]
  have e7 := (abs_le.mp e5).1
  have e8 : 1 / 125 * (s ^ 2 + w ^ 2) ≤ 1 / 4 * s ^ 2 - 1 / 80 * s ^ 2 +
      1 / 40 * (z * G / N * c ^ 2 + w * c * R) := by
    linarith [sq_nonneg s, sq_nonneg w]
  rw [e1]
  have e9 := mul_le_mul_of_nonneg_left e8 hl.le
  linarith

end algebra

/-! ### The Lyapunov function -/

section motion

variable {L r e ys : ℝ}

theorem dist0_pos (hL : 0 < L) (hr : 0 ≤ r) (y : ℝ) : 0 < dist0 L r y := by
  unfold dist0
  rw [Real.sqrt_pos]
  by_cases h : y = 0
  · subst h
    have : far L 0 = L := by unfold far; rw [show L ^ 2 - (0 : ℝ) ^ 2 = L ^ 2 by ring, Real.sqrt_sq hL.le]
    rw [this]; positivity
  · have := Real.sqrt_nonneg (L ^ 2 - y ^ 2)
    positivity

/-- The part of the Lyapunov function that depends on the lateral position. -/
noncomputable def pot (L r e ys y : ℝ) : ℝ := ∫ u in ys..y, 2 / L * (u / dist0 L r u - e)

theorem cont_G (hL : 0 < L) (hr : 0 ≤ r) : Continuous (fun u => 2 / L * (u / dist0 L r u - e)) := by
  have h : Continuous (dist0 L r) := by unfold dist0 far; fun_prop
  exact continuous_const.mul ((continuous_id.div h (fun u => (dist0_pos hL hr u).ne')).sub continuous_const)

theorem pot_deriv (hL : 0 < L) (hr : 0 ≤ r) (y : ℝ) :
    HasDerivAt (pot L r e ys) (2 / L * (y / dist0 L r y - e)) y :=
  intervalIntegral.integral_hasDerivAt_right ((cont_G hL hr).intervalIntegrable _ _)
    ((cont_G hL hr).stronglyMeasurableAtFilter _ _) (cont_G hL hr).continuousAt

theorem pot_bounds (hL : 0 < L) (hr : 0 ≤ r) (hr' : r ≤ 10 * L) (he : 0 < e) (he' : e ≤ 1 / 10 ^ 9)
    (h0 : 0 < ys) (h1 : ys ≤ e * (L + r)) (h2 : ys ≤ L / 2) (h3 : ys / dist0 L r ys = e) {y : ℝ} (hy : |y| ≤ L / 2) :
    9 / 10 * ((y - ys) ^ 2 / (L * (L + r))) ≤ pot L r e ys y ∧
    pot L r e ys y ≤ 6 / 5 * ((y - ys) ^ 2 / (L * (L + r))) := by
  have hN : 0 < L + r := by linarith
  have hI : ∀ k : ℝ, ∫ u in ys..y, 2 / L * (k * ((u - ys) / (L + r))) = k * ((y - ys) ^ 2 / (L * (L + r))) := by
    intro k
    have hd : ∀ u ∈ uIcc ys y, HasDerivAt (fun u => k * ((u - ys) ^ 2 / (L * (L + r))))
        (2 / L * (k * ((u - ys) / (L + r)))) u := by
      intro u _
      have := (((hasDerivAt_id u).sub_const ys).pow 2).div_const (L * (L + r)) |>.const_mul k
      refine this.congr_deriv ?_
      simp only [id]
      field_simp
      norm_num
      ring
    rw [intervalIntegral.integral_eq_sub_of_hasDerivAt hd
      (Continuous.intervalIntegrable (by fun_prop) _ _)]
    simp
  have hint : ∀ k : ℝ, ∀ a b, IntervalIntegrable (fun u => 2 / L * (k * ((u - ys) / (L + r)))) MeasureTheory.volume a b :=
    fun k a b => Continuous.intervalIntegrable (by fun_prop) _ _
  have hG := fun a b => (cont_G (e := e) hL hr).intervalIntegrable (μ := MeasureTheory.volume) a b
  have hl : 0 ≤ 2 / L := by positivity
  have hys : |ys| ≤ L / 2 := by rw [abs_of_pos h0]; exact h2
  rcases le_total ys y with hle | hle
  · have key : ∀ u ∈ Icc ys y, 9 / 10 * ((u - ys) / (L + r)) ≤ u / dist0 L r u - e ∧
        u / dist0 L r u - e ≤ 6 / 5 * ((u - ys) / (L + r)) := by
      intro u hu
      rcases eq_or_lt_of_le hu.1 with rfl | hlt
      · rw [h3]; simp
      · obtain ⟨s1, s2⟩ := slope hL hr hr' he he' (y := u) (abs_le.mpr ⟨by linarith, by
          have := (abs_le.mp hy).2; linarith [hu.2]⟩) h0 h1 h2 h3
        have hp : 0 < u - ys := by linarith
        constructor
        · refine le_of_mul_le_mul_left ?_ hp
          rw [show (u - ys) * (9 / 10 * ((u - ys) / (L + r))) = 9 / 10 * ((u - ys) ^ 2 / (L + r)) by ring]
          exact s1
        · refine le_of_mul_le_mul_left ?_ hp
          rw [show (u - ys) * (6 / 5 * ((u - ys) / (L + r))) = 6 / 5 * ((u - ys) ^ 2 / (L + r)) by ring]
          exact s2
    constructor
    · rw [← hI]
      exact intervalIntegral.integral_mono_on hle (hint _ _ _) (hG _ _)
        (fun u hu => mul_le_mul_of_nonneg_left (key u hu).1 hl)
    · rw [← hI]
      exact intervalIntegral.integral_mono_on hle (hG _ _) (hint _ _ _)
        (fun u hu => mul_le_mul_of_nonneg_left (key u hu).2 hl)
  · have key : ∀ u ∈ Icc y ys, u / dist0 L r u - e ≤ 9 / 10 * ((u - ys) / (L + r)) ∧
        6 / 5 * ((u - ys) / (L + r)) ≤ u / dist0 L r u - e := by
      intro u hu
      rcases eq_or_lt_of_le hu.2 with rfl | hlt
      · rw [h3]; simp
      · obtain ⟨s1, s2⟩ := slope hL hr hr' he he' (y := u) (abs_le.mpr ⟨by
          have := (abs_le.mp hy).1; linarith [hu.1], by linarith⟩) h0 h1 h2 h3
        have hp : 0 < ys - u := by linarith
        constructor
        · refine le_of_mul_le_mul_left ?_ hp
          have e1 : (ys - u) * (9 / 10 * ((u - ys) / (L + r))) = -(9 / 10 * ((u - ys) ^ 2 / (L + r))) := by ring
          rw [e1]
          linarith
        · refine le_of_mul_le_mul_left ?_ hp
          have e1 : (ys - u) * (6 / 5 * ((u - ys) / (L + r))) = -(6 / 5 * ((u - ys) ^ 2 / (L + r))) := by ring
          rw [e1]
          linarith
    unfold pot
    rw [intervalIntegral.integral_symm]
    constructor
    · rw [← hI, intervalIntegral.integral_symm, neg_le_neg_iff]
      exact intervalIntegral.integral_mono_on hle (hG _ _) (hint _ _ _)
        (fun u hu => mul_le_mul_of_nonneg_left (key u hu).1 hl)
    · rw [← hI, intervalIntegral.integral_symm y ys, neg_le_neg_iff]
      exact intervalIntegral.integral_mono_on hle (hint _ _ _) (hG _ _)
        (fun u hu => mul_le_mul_of_nonneg_left (key u hu).2 hl)

theorem neg_log_bounds {c s : ℝ} (hcs : c ^ 2 + s ^ 2 = 1) (hc : 0 < c) :
    s ^ 2 / 2 ≤ -Real.log c ∧ -Real.log c ≤ (s / c) ^ 2 / 2 ∧ 1 - c ≤ -Real.log c := by
  have h2 : 0 < c ^ 2 := by positivity
  have e1 : Real.log (c ^ 2) = 2 * Real.log c := by rw [Real.log_pow]; norm_num
  refine ⟨?_, ?_, ?_⟩
  · have := Real.log_le_sub_one_of_pos h2
    rw [e1] at this
    linarith
  · have := Real.one_sub_inv_le_log_of_pos h2
    rw [e1] at this
    have e2 : (s / c) ^ 2 = (c ^ 2)⁻¹ - 1 := by
      rw [div_pow, show s ^ 2 = 1 - c ^ 2 by linarith]
      field_simp
    rw [e2]; linarith
  · have := Real.log_le_sub_one_of_pos hc
    linarith

/-- A continuous function that is below a bound as long as it is at most the bound stays below it. -/
theorem stays {T : ℝ} {g : ℝ → ℝ} (hg : ContinuousOn g (Icc 0 T)) (h0 : g 0 < 1)
    (h : ∀ t ∈ Icc 0 T, (∀ u ∈ Icc 0 t, g u ≤ 1) → g t < 1) : ∀ t ∈ Icc 0 T, g t < 1 := by
  by_contra hc
  push Not at hc
  obtain ⟨t, ht, hgt⟩ := hc
  set S := {u ∈ Icc (0 : ℝ) T | 1 ≤ g u} with hS
  have hSc : IsClosed S := by
    have : S = Icc 0 T ∩ g ⁻¹' Ici 1 := rfl
    rw [this]
    exact hg.preimage_isClosed_of_isClosed isClosed_Icc isClosed_Ici
  have hne : S.Nonempty := ⟨t, ht, hgt⟩
  have hbd : BddBelow S := ⟨0, fun u hu => hu.1.1⟩
  have hm := hSc.csInf_mem hne hbd
  set τ := sInf S
  have hlt : ∀ u ∈ Ico 0 τ, g u < 1 := by
    intro u hu
    by_contra hge
    push Not at hge
    have : τ ≤ u := csInf_le hbd ⟨⟨hu.1, hu.2.le.trans hm.1.2⟩, hge⟩
    linarith [hu.2]
  have hτ0 : 0 < τ := by
    rcases eq_or_lt_of_le hm.1.1 with h' | h'
    · rw [← h'] at hm; linarith [hm.2]
    · exact h'
  have hle : g τ ≤ 1 := by
    have hcl : τ ∈ closure (Ico 0 τ) := by
      rw [closure_Ico hτ0.ne]
      exact ⟨hτ0.le, le_rfl⟩
    have hcw : ContinuousWithinAt g (Ico 0 τ) τ :=
      (hg τ hm.1).mono (fun u hu => ⟨hu.1, hu.2.le.trans hm.1.2⟩)
    have hne' : (nhdsWithin τ (Ico 0 τ)).NeBot := mem_closure_iff_nhdsWithin_neBot.mp hcl
    exact le_of_tendsto hcw (Filter.eventually_of_mem self_mem_nhdsWithin (fun u hu => (hlt u hu).le))
  have := h τ hm.1 (fun u hu => by
    rcases eq_or_lt_of_le hu.2 with h' | h'
    · rw [h']; exact hle
    · exact (hlt u ⟨hu.1, h'⟩).le)
  linarith [hm.2]

end motion

end Keep
end Verif
