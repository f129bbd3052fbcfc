import Verif.Control.KeepLemmas

/-!
# Convergence of pure pursuit on a straight line
-/

namespace Verif
namespace Keep

open Set

variable {L r e : ℝ}

/-- The measure of the error: heading and lateral position of the rear axle. -/
noncomputable def err (L r ys y psi : ℝ) : ℝ := Real.sin psi ^ 2 + (y - ys) ^ 2 / (L * (L + r))

theorem inside {ys y c s : ℝ} (hL : 0 < L) (hr : 0 ≤ r) (hr' : r ≤ 10 * L) (he : 0 < e) (he' : e ≤ 1 / 10 ^ 9)
    (h0 : 0 < ys) (h1 : ys ≤ e * (L + r)) (h2 : ys ≤ L / 2) (h3 : ys / dist0 L r ys = e) (hy : |y| ≤ L / 2)
    (hcs : c ^ 2 + s ^ 2 = 1) (hc : 0 < c)
    (hV : -Real.log c + pot L r e ys y < L ^ 2 / (5 * (L * (L + r) + 2 * r ^ 2))) :
    4 / 5 ≤ c ∧ |y| < L / 2 ∧ |y + r * s| < L / 2 := by
  obtain ⟨a1, -, a3⟩ := neg_log_bounds hcs hc
  obtain ⟨b1, -⟩ := pot_bounds hL hr hr' he he' h0 h1 h2 h3 hy
  have hN : 0 < L + r := by linarith
  set P := L * (L + r) with hP
  have hPp : 0 < P := by positivity
  have hden : 0 < P + 2 * r ^ 2 := by positivity
  have hM : L ^ 2 / (5 * (P + 2 * r ^ 2)) ≤ 1 / 5 := by
    rw [div_le_div_iff₀ (by positivity) (by norm_num)]
    have : L ^ 2 ≤ P := by rw [hP]; nlinarith
    nlinarith [sq_nonneg r]
  have hz0 : 0 ≤ (y - ys) ^ 2 / P := by positivity
  refine ⟨by nlinarith [sq_nonneg s], ?_⟩
  have hys : ys ≤ L / 100 := by
    norm_num at he'
    calc ys ≤ e * (L + r) := h1
      _ ≤ 1 / 1000000000 * (L + 10 * L) := by gcongr
      _ ≤ _ := by linarith
  have hq : (|y - ys| + r * |s|) ^ 2 < (12 / 25 * L) ^ 2 := by
    have e1 : 9 / 10 * (|y - ys| ^ 2 / P) + |s| ^ 2 / 2 < L ^ 2 / (5 * (P + 2 * r ^ 2)) := by
      rw [sq_abs, sq_abs]; linarith
    rw [lt_div_iff₀ (by positivity)] at e1
    set a := |y - ys|
    set σ := |s|
    have e2 : (a + r * σ) ^ 2 ≤ (9 / 10 * (a ^ 2 / P) + σ ^ 2 / 2) * (10 / 9 * P + 2 * r ^ 2) := by
      have : (9 / 10 * (a ^ 2 / P) + σ ^ 2 / 2) * (10 / 9 * P + 2 * r ^ 2) - (a + r * σ) ^ 2 =
          9 / 5 / P * (a * r - 5 / 9 * P * σ) ^ 2 := by
        field_simp
        ring
      have h5 : 0 ≤ 9 / 5 / P * (a * r - 5 / 9 * P * σ) ^ 2 := by positivity
      linarith
    have h6 : 0 ≤ 9 / 10 * (a ^ 2 / P) + σ ^ 2 / 2 := by positivity
    have e3 : (9 / 10 * (a ^ 2 / P) + σ ^ 2 / 2) * (10 / 9 * P + 2 * r ^ 2) ≤
        (9 / 10 * (a ^ 2 / P) + σ ^ 2 / 2) * (10 / 9 * (P + 2 * r ^ 2)) :=
      mul_le_mul_of_nonneg_left (by linarith [sq_nonneg r]) h6
    have e4 : (12 / 25 * L) ^ 2 = 144 / 625 * L ^ 2 := by ring
    have hL2 : 0 < L ^ 2 := by positivity
    rw [e4]
    linarith
  have hlt : |y - ys| + r * |s| < 12 / 25 * L := lt_of_pow_lt_pow_left₀ 2 (by positivity) hq
  have hrs : 0 ≤ r * |s| := by positivity
  have hyb : |y| ≤ |y - ys| + ys := by
    calc |y| = |(y - ys) + ys| := by rw [sub_add_cancel]
      _ ≤ |y - ys| + |ys| := abs_add_le _ _
      _ = _ := by rw [abs_of_pos h0]
  refine ⟨by linarith, ?_⟩
  calc |y + r * s| ≤ |y| + |r * s| := abs_add_le _ _
    _ = |y| + r * |s| := by rw [abs_mul, abs_of_nonneg hr]
    _ < _ := by linarith

theorem start {ys y c s : ℝ} (hL : 0 < L) (hr : 0 ≤ r) (hr' : r ≤ 10 * L) (he : 0 < e) (he' : e ≤ 1 / 10 ^ 9)
    (h0 : 0 < ys) (h1 : ys ≤ e * (L + r)) (h2 : ys ≤ L / 2) (h3 : ys / dist0 L r ys = e)
    (hcs : c ^ 2 + s ^ 2 = 1) (hc : 0 < c)
    (hi : 2 * y ^ 2 / (L * (L + r)) + (s / c) ^ 2 / 2 < L ^ 2 / (6 * (L * (L + r) + 2 * r ^ 2))) :
    |y| ≤ L / 2 ∧ -Real.log c + pot L r e ys y < L ^ 2 / (5 * (L * (L + r) + 2 * r ^ 2)) := by
  have hN : 0 < L + r := by linarith
  set P := L * (L + r) with hP
  have hPp : 0 < P := by positivity
  have hden : 0 < P + 2 * r ^ 2 := by positivity
  have hsc : 0 ≤ (s / c) ^ 2 / 2 := by positivity
  have hy : |y| ≤ L / 2 := by
    have e1 : 2 * y ^ 2 / P < L ^ 2 / (6 * (P + 2 * r ^ 2)) := by linarith
    have e2 : L ^ 2 / (6 * (P + 2 * r ^ 2)) ≤ L ^ 2 / (6 * P) := by gcongr; linarith [sq_nonneg r]
    have e3 := e1.trans_le e2
    rw [div_lt_div_iff₀ hPp (by positivity)] at e3
    have e4 : 12 * y ^ 2 < L ^ 2 := by
      have : 12 * y ^ 2 * P < L ^ 2 * P := by linarith
      exact lt_of_mul_lt_mul_right this hPp.le
    refine abs_le_of_sq_le_sq ?_ (by positivity)
    nlinarith [sq_nonneg y]
  refine ⟨hy, ?_⟩
  obtain ⟨-, a2, -⟩ := neg_log_bounds hcs hc
  obtain ⟨-, b2⟩ := pot_bounds hL hr hr' he he' h0 h1 h2 h3 hy
  have e1 : 6 / 5 * ((y - ys) ^ 2 / P) ≤ 2 * y ^ 2 / P + 3 * ys ^ 2 / P := by
    rw [← add_div, ← mul_div_assoc]
    gcongr
    nlinarith [sq_nonneg (2 * y + 3 * ys)]
  have e2 : 3 * ys ^ 2 / P ≤ 1 / 10000 := by
    rw [div_le_iff₀ hPp]
    norm_num at he'
    have h5 : ys ≤ 1 / 1000000000 * (L + r) := h1.trans (by gcongr)
    have h6 : ys ≤ 1 / 1000000000 * (11 * L) := h5.trans (by gcongr; linarith)
    have h7 : ys * ys ≤ (1 / 1000000000 * (L + r)) * (1 / 1000000000 * (11 * L)) := by gcongr
    rw [hP]
    nlinarith [mul_pos hL hN]
  have e3 : L ^ 2 / (6 * (P + 2 * r ^ 2)) + 1 / 10000 ≤ L ^ 2 / (5 * (P + 2 * r ^ 2)) := by
    have h5 : P + 2 * r ^ 2 ≤ 211 * L ^ 2 := by rw [hP]; nlinarith
    have h6 : L ^ 2 / (5 * (P + 2 * r ^ 2)) - L ^ 2 / (6 * (P + 2 * r ^ 2)) = 1 / 30 * (L ^ 2 / (P + 2 * r ^ 2)) := by
      field_simp
      ring
    have h7 : 1 / 211 ≤ L ^ 2 / (P + 2 * r ^ 2) := by
      rw [div_le_div_iff₀ (by norm_num) hden]; linarith
    linarith
  linarith

theorem err_bounds {ys y c s N : ℝ} {F : ℝ} (hL : 0 < L) (hr : 0 ≤ r) (hN : N = L + r)
    (hcs : c ^ 2 + s ^ 2 = 1) (hc : 4 / 5 ≤ c)
    (hF : 9 / 10 * ((y - ys) ^ 2 / (L * N)) ≤ F ∧ F ≤ 6 / 5 * ((y - ys) ^ 2 / (L * N))) :
    12 / 25 * (s ^ 2 + (y - ys) ^ 2 / (L * N)) ≤ -Real.log c + F + 1 / (40 * N) * ((y - ys) * s) ∧
    -Real.log c + F + 1 / (40 * N) * ((y - ys) * s) ≤ 5 / 4 * (s ^ 2 + (y - ys) ^ 2 / (L * N)) ∧
    1 / (64 * N) * (s ^ 2 + (y - ys) ^ 2 / (L * N)) ≤ 2 / L * (1 / 125 * (s ^ 2 + ((y - ys) / N) ^ 2)) := by
  have hc0 : 0 < c := by linarith
  have hN0 : 0 < N := by rw [hN]; linarith
  have hLN : L ≤ N := by rw [hN]; linarith
  obtain ⟨a1, a2, -⟩ := neg_log_bounds hcs hc0
  set z := y - ys
  set Z := z ^ 2 / (L * N) with hZ
  set w := z / N with hw
  have hwZ : w ^ 2 ≤ Z := by
    rw [hw, hZ, div_pow, sq N]
    gcongr
  have hw2 : w ^ 2 / L = Z / N := by rw [hw, hZ]; field_simp
  have hcross : 1 / (40 * N) * (z * s) = 1 / 40 * (w * s) := by rw [hw]; field_simp
  have hs2 : (s / c) ^ 2 ≤ 25 / 16 * s ^ 2 := by
    rw [div_pow, div_le_iff₀ (by positivity)]
    have : (4 / 5) ^ 2 ≤ c ^ 2 := by gcongr
    nlinarith [sq_nonneg s]
  have hs0 := sq_nonneg s
  have hZ0 : 0 ≤ Z := by positivity
  rw [hcross]
  refine ⟨?_, ?_, ?_⟩
  · nlinarith [sq_nonneg (w + s), sq_nonneg (w - s)]
  · nlinarith [sq_nonneg (w + s), sq_nonneg (w - s)]
  · have e1 : 2 / L * (1 / 125 * (s ^ 2 + w ^ 2)) = 2 / 125 * (s ^ 2 / L) + 2 / 125 * (w ^ 2 / L) := by ring
    have e2 : s ^ 2 / N ≤ s ^ 2 / L := by gcongr
    have e3 : 1 / (64 * N) * (s ^ 2 + Z) = 1 / 64 * (s ^ 2 / N) + 1 / 64 * (Z / N) := by field_simp
    rw [e1, e3, hw2]
    have : 0 ≤ s ^ 2 / N := by positivity
    have : 0 ≤ Z / N := by positivity
    linarith

/-- A motion along a line whose curvature is the one of pure pursuit wherever the goal can be found. -/
structure Motion (L r e T : ℝ) (v κ S y psi : ℝ → ℝ) : Prop where
  nonneg : ∀ t ∈ Icc 0 T, 0 ≤ v t
  path : ∀ t ∈ Icc 0 T, HasDerivWithinAt S (v t) (Icc 0 T) t
  lat : ∀ t ∈ Icc 0 T, HasDerivWithinAt y (v t * Real.sin (psi t)) (Icc 0 T) t
  turn : ∀ t ∈ Icc 0 T, HasDerivWithinAt psi (v t * κ t) (Icc 0 T) t
  pursue : ∀ t ∈ Icc 0 T, 0 < Real.cos (psi t) → |y t| ≤ L / 2 → |y t + r * Real.sin (psi t)| ≤ L / 2 →
    κ t = curv L r e (y t) (Real.cos (psi t)) (Real.sin (psi t))

theorem antitone_of {T : ℝ} {f f' : ℝ → ℝ} (h : ∀ t ∈ Icc 0 T, HasDerivWithinAt f (f' t) (Icc 0 T) t)
    {t : ℝ} (ht : t ∈ Icc 0 T) (hf : ∀ u ∈ Icc 0 t, f' u ≤ 0) : f t ≤ f 0 := by
  have hsub : Icc 0 t ⊆ Icc 0 T := Icc_subset_Icc_right ht.2
  have := antitoneOn_of_hasDerivWithinAt_nonpos (convex_Icc 0 t) (f := f) (f' := f')
    (fun u hu => ((h u (hsub hu)).continuousWithinAt).mono hsub)
    (fun u hu => (h u (hsub (interior_subset hu))).mono (interior_subset.trans hsub))
    (fun u hu => hf u (interior_subset hu))
  exact this ⟨le_rfl, ht.1⟩ ⟨ht.1, le_rfl⟩ ht.1

theorem keep {T : ℝ} {v κ S y psi : ℝ → ℝ} (hL : 0 < L) (hr : 0 ≤ r) (hr' : r ≤ 10 * L) (he : 0 < e)
    (he' : e ≤ 1 / 10 ^ 9) {ys : ℝ} (h0 : 0 < ys) (h1 : ys ≤ e * (L + r)) (h2 : ys ≤ L / 2)
    (h3 : ys / dist0 L r ys = e) (H : Motion L r e T v κ S y psi) (hS : S 0 = 0) (hp : |psi 0| < Real.pi / 2)
    (hi : 2 * y 0 ^ 2 / (L * (L + r)) + Real.tan (psi 0) ^ 2 / 2 < L ^ 2 / (6 * (L * (L + r) + 2 * r ^ 2))) :
    ∀ t ∈ Icc 0 T, |psi t| < Real.pi / 3 ∧ |y t| < L / 2 ∧ |y t + r * Real.sin (psi t)| < L / 2 ∧
      err L r ys (y t) (psi t) ≤ 3 * err L r ys (y 0) (psi 0) * Real.exp (-(S t / (80 * (L + r)))) := by
  have hN : 0 < L + r := by linarith
  have hcs : ∀ t, Real.cos (psi t) ^ 2 + Real.sin (psi t) ^ 2 = 1 := fun t => Real.cos_sq_add_sin_sq _
  have hc0 : 0 < Real.cos (psi 0) :=
    Real.cos_pos_of_mem_Ioo ⟨by linarith [(abs_lt.mp hp).1], (abs_lt.mp hp).2⟩
  rw [Real.tan_eq_sin_div_cos] at hi
  obtain ⟨hy0, hV0⟩ := start hL hr hr' he he' h0 h1 h2 h3 (hcs 0) hc0 hi
  have hpi := Real.pi_pos
  set V : ℝ → ℝ := fun t => -Real.log (Real.cos (psi t)) + pot L r e ys (y t) with hVdef
  -- the region
  set g : ℝ → ℝ := fun t => max (|psi t| / (Real.pi / 3)) (max (|y t| / (L / 2)) (|y t + r * Real.sin (psi t)| / (L / 2)))
    with hg
  have hg1 : ∀ t, g t ≤ 1 ↔ |psi t| ≤ Real.pi / 3 ∧ |y t| ≤ L / 2 ∧ |y t + r * Real.sin (psi t)| ≤ L / 2 := by
    intro t
    rw [hg]
    simp only [max_le_iff]
    rw [div_le_one (by positivity), div_le_one (by positivity), div_le_one (by positivity)]
  have hg2 : ∀ t, g t < 1 ↔ |psi t| < Real.pi / 3 ∧ |y t| < L / 2 ∧ |y t + r * Real.sin (psi t)| < L / 2 := by
    intro t
    rw [hg]
    simp only [max_lt_iff]
    rw [div_lt_one (by positivity), div_lt_one (by positivity), div_lt_one (by positivity)]
  have hcψ : ContinuousOn psi (Icc 0 T) := fun t ht => (H.turn t ht).continuousWithinAt
  have hcy : ContinuousOn y (Icc 0 T) := fun t ht => (H.lat t ht).continuousWithinAt
  have hgc : ContinuousOn g (Icc 0 T) := by
    rw [hg]
    refine ((hcψ.abs).div_const _).sup (((hcy.abs).div_const _).sup (((hcy.add ?_).abs).div_const _))
    exact continuousOn_const.mul (Real.continuous_sin.comp_continuousOn hcψ)
  have hcos : ∀ t, |psi t| ≤ Real.pi / 3 → 0 < Real.cos (psi t) := fun t ht =>
    Real.cos_pos_of_mem_Ioo ⟨by linarith [(abs_le.mp ht).1], by linarith [(abs_le.mp ht).2]⟩
  have hlt3 : ∀ t, |psi t| < Real.pi / 2 → 4 / 5 ≤ Real.cos (psi t) → |psi t| < Real.pi / 3 := by
    intro t ht hc
    by_contra hge
    push Not at hge
    have := Real.cos_le_cos_of_nonneg_of_le_pi (by positivity) (by linarith) hge
    rw [Real.cos_pi_div_three, Real.cos_abs] at this
    linarith
  -- the derivatives
  have hdV : ∀ t ∈ Icc 0 T, g t ≤ 1 → HasDerivWithinAt V (v t * (Real.sin (psi t) / Real.cos (psi t) * κ t +
      2 / L * (y t / dist0 L r (y t) - e) * Real.sin (psi t))) (Icc 0 T) t := by
    intro t ht hgt
    have hc := hcos t ((hg1 t).mp hgt).1
    have d1 := ((H.turn t ht).cos).log hc.ne'
    have d2 := (pot_deriv (e := e) (ys := ys) hL hr (y t)).comp_hasDerivWithinAt t (H.lat t ht)
    refine (d1.neg.add d2).congr_deriv ?_
    field_simp
  have hA : ∀ t, g t ≤ 1 → 43 / 50 ≤ lon L r (y t) (Real.cos (psi t)) (Real.sin (psi t)) /
      dist L r (y t) (Real.cos (psi t)) (Real.sin (psi t)) ∧ lon L r (y t) (Real.cos (psi t)) (Real.sin (psi t)) /
      dist L r (y t) (Real.cos (psi t)) (Real.sin (psi t)) ≤ 1 ∧
      dist L r (y t) (Real.cos (psi t)) (Real.sin (psi t)) ≠ 0 := by
    intro t hgt
    obtain ⟨r1, r2, r3⟩ := (hg1 t).mp hgt
    obtain ⟨l1, l2, l3, -⟩ := lon_bounds hL hr (hcs t) (hcos t r1) r2 r3
    have hd : 0 < dist L r (y t) (Real.cos (psi t)) (Real.sin (psi t)) := by linarith
    exact ⟨by rw [le_div_iff₀ hd]; exact l3, by rw [div_le_one hd]; exact l2, hd.ne'⟩
  have hκ : ∀ t ∈ Icc 0 T, g t ≤ 1 → κ t = -(2 / L) * ((y t / dist0 L r (y t) - e) * Real.cos (psi t) +
      y t * (1 / dist L r (y t) (Real.cos (psi t)) (Real.sin (psi t)) - 1 / dist0 L r (y t)) * Real.cos (psi t) +
      lon L r (y t) (Real.cos (psi t)) (Real.sin (psi t)) / dist L r (y t) (Real.cos (psi t)) (Real.sin (psi t)) *
        Real.sin (psi t) - e * (1 - Real.cos (psi t))) := by
    intro t ht hgt
    obtain ⟨r1, r2, r3⟩ := (hg1 t).mp hgt
    rw [H.pursue t ht (hcos t r1) r2 r3, curv_eq (hA t hgt).2.2]
  have hVneg : ∀ t ∈ Icc 0 T, g t ≤ 1 → v t * (Real.sin (psi t) / Real.cos (psi t) * κ t +
      2 / L * (y t / dist0 L r (y t) - e) * Real.sin (psi t)) ≤ 0 := by
    intro t ht hgt
    obtain ⟨r1, r2, r3⟩ := (hg1 t).mp hgt
    refine mul_nonpos_of_nonneg_of_nonpos (H.nonneg t ht) ?_
    rw [hκ t ht hgt]
    refine (rate_alg hL (hcs t) (hcos t r1) he he' (hA t hgt).1
      (inv_diff hL hr (hcs t) (hcos t r1) r2 r3)).trans ?_
    have : 0 ≤ 2 / L * (1 / 4 * Real.sin (psi t) ^ 2) := by positivity
    linarith
  have hin0 := inside hL hr hr' he he' h0 h1 h2 h3 hy0 (hcs 0) hc0 hV0
  have hg0 : g 0 < 1 := (hg2 0).mpr ⟨hlt3 0 hp hin0.1, hin0.2⟩
  have hVle : ∀ t ∈ Icc 0 T, (∀ u ∈ Icc 0 t, g u ≤ 1) → V t ≤ V 0 := by
    intro t ht hu
    have hsub : Icc 0 t ⊆ Icc 0 T := Icc_subset_Icc_right ht.2
    refine antitone_of (T := t) (f' := fun t => v t * (Real.sin (psi t) / Real.cos (psi t) * κ t +
      2 / L * (y t / dist0 L r (y t) - e) * Real.sin (psi t)))
      (fun u hut => (hdV u (hsub hut) (hu u hut)).mono hsub) ⟨ht.1, le_rfl⟩
      (fun u hut => hVneg u (hsub hut) (hu u hut))
  have hin : ∀ t ∈ Icc 0 T, (∀ u ∈ Icc 0 t, g u ≤ 1) → 4 / 5 ≤ Real.cos (psi t) ∧ g t < 1 := by
    intro t ht hu
    obtain ⟨r1, r2, r3⟩ := (hg1 t).mp (hu t ⟨ht.1, le_rfl⟩)
    have := inside hL hr hr' he he' h0 h1 h2 h3 r2 (hcs t) (hcos t r1) ((hVle t ht hu).trans_lt hV0)
    exact ⟨this.1, (hg2 t).mpr ⟨hlt3 t (by linarith) this.1, this.2⟩⟩
  have hall := stays hgc hg0 (fun t ht hu => (hin t ht hu).2)
  have hc45 : ∀ t ∈ Icc 0 T, 4 / 5 ≤ Real.cos (psi t) := fun t ht =>
    (hin t ht (fun u hu => (hall u ⟨hu.1, hu.2.trans ht.2⟩).le)).1
  -- the strict function
  set W : ℝ → ℝ := fun t => V t + 1 / (40 * (L + r)) * ((y t - ys) * Real.sin (psi t)) with hW
  have hdW : ∀ t ∈ Icc 0 T, HasDerivWithinAt W (v t * (Real.sin (psi t) / Real.cos (psi t) * κ t +
      2 / L * (y t / dist0 L r (y t) - e) * Real.sin (psi t) + 1 / (40 * (L + r)) *
      (Real.sin (psi t) * Real.sin (psi t) + (y t - ys) * (Real.cos (psi t) * κ t)))) (Icc 0 T) t := by
    intro t ht
    have d1 := hdV t ht (hall t ht).le
    have d2 := (((H.lat t ht).sub_const ys).mul (H.turn t ht).sin).const_mul (1 / (40 * (L + r)))
    exact (d1.add d2).congr_deriv (by ring)
  have hb : ∀ t ∈ Icc 0 T, 12 / 25 * err L r ys (y t) (psi t) ≤ W t ∧ W t ≤ 5 / 4 * err L r ys (y t) (psi t) ∧
      1 / (64 * (L + r)) * err L r ys (y t) (psi t) ≤
        2 / L * (1 / 125 * (Real.sin (psi t) ^ 2 + ((y t - ys) / (L + r)) ^ 2)) := by
    intro t ht
    obtain ⟨r1, r2, r3⟩ := (hg1 t).mp (hall t ht).le
    exact err_bounds hL hr rfl (hcs t) (hc45 t ht) (pot_bounds hL hr hr' he he' h0 h1 h2 h3 r2)
  have hWrate : ∀ t ∈ Icc 0 T, Real.sin (psi t) / Real.cos (psi t) * κ t +
      2 / L * (y t / dist0 L r (y t) - e) * Real.sin (psi t) + 1 / (40 * (L + r)) *
      (Real.sin (psi t) * Real.sin (psi t) + (y t - ys) * (Real.cos (psi t) * κ t)) ≤
      -(1 / (80 * (L + r))) * W t := by
    intro t ht
    have hgt := (hall t ht).le
    obtain ⟨r1, r2, r3⟩ := (hg1 t).mp hgt
    obtain ⟨b1, b2, b3⟩ := hb t ht
    rw [hκ t ht hgt]
    refine (rate_alg2 hL (by linarith) (hcs t) (hc45 t ht) he he' (hA t hgt).1 (hA t hgt).2.1
      (inv_diff hL hr (hcs t) (hcos t r1) r2 r3) (slope hL hr hr' he he' r2 h0 h1 h2 h3).1).trans ?_
    have e1 : 1 / (80 * (L + r)) * W t ≤ 1 / (80 * (L + r)) * (5 / 4 * err L r ys (y t) (psi t)) :=
      mul_le_mul_of_nonneg_left b2 (by positivity)
    have e2 : 1 / (80 * (L + r)) * (5 / 4 * err L r ys (y t) (psi t)) = 1 / (64 * (L + r)) * err L r ys (y t) (psi t) := by
      field_simp
      ring
    linarith
  intro t ht
  refine ⟨((hg2 t).mp (hall t ht)).1, ((hg2 t).mp (hall t ht)).2.1, ((hg2 t).mp (hall t ht)).2.2, ?_⟩
  have hdE : ∀ u ∈ Icc 0 T, HasDerivWithinAt (fun u => W u * Real.exp (S u / (80 * (L + r)))) (
      (v u * (Real.sin (psi u) / Real.cos (psi u) * κ u +
      2 / L * (y u / dist0 L r (y u) - e) * Real.sin (psi u) + 1 / (40 * (L + r)) *
      (Real.sin (psi u) * Real.sin (psi u) + (y u - ys) * (Real.cos (psi u) * κ u))) + W u * (v u / (80 * (L + r)))) *
      Real.exp (S u / (80 * (L + r)))) (Icc 0 T) u := by
    intro u hu
    have d1 := ((H.path u hu).div_const (80 * (L + r))).exp
    exact ((hdW u hu).mul d1).congr_deriv (by ring)
  have := antitone_of hdE ht (fun u hu => by
    have hu' : u ∈ Icc 0 T := ⟨hu.1, hu.2.trans ht.2⟩
    refine mul_nonpos_of_nonpos_of_nonneg ?_ (Real.exp_pos _).le
    have := mul_le_mul_of_nonneg_left (hWrate u hu') (H.nonneg u hu')
    have e1 : v u * (-(1 / (80 * (L + r))) * W u) = -(W u * (v u / (80 * (L + r)))) := by ring
    linarith)
  simp only [hS, zero_div, Real.exp_zero, mul_one] at this
  have h0T : (0 : ℝ) ∈ Icc 0 T := ⟨le_rfl, ht.1.trans ht.2⟩
  obtain ⟨b1, -, -⟩ := hb t ht
  obtain ⟨-, c2, -⟩ := hb 0 h0T
  have hE0 : 0 ≤ err L r ys (y 0) (psi 0) := by unfold err; positivity
  have hexp := Real.exp_pos (S t / (80 * (L + r)))
  rw [Real.exp_neg, ← div_eq_mul_inv, le_div_iff₀ hexp]
  have : 12 / 25 * err L r ys (y t) (psi t) * Real.exp (S t / (80 * (L + r))) ≤ 5 / 4 * err L r ys (y 0) (psi 0) :=
    (mul_le_mul_of_nonneg_right b1 hexp.le).trans (this.trans c2)
  linarith

end Keep
end Verif
