import Verif.Eval.FourierLemmas
import Verif.Seq.InterpLemmas
import Mathlib.Tactic.NormNum
import Mathlib.Tactic.Positivity
import Mathlib.Tactic.Linarith

/-!
# Property C83: frequency-weighted acceleration
-/

namespace Verif
namespace Eval

open Finset Complex

variable {α : Type}

/-! ## Specification -/

/-- The `k`-th Fourier coefficient of the samples `x`. -/
noncomputable def coef (x : List ℝ) (k : Nat) : ℂ :=
  ∑ j ∈ range x.length, (x.getD j 0 : ℂ) * Complex.exp (-(2 * Real.pi * Complex.I * j * k / x.length))

/-- The energy of frequency `k` and its mirror frequency `n - k`, for real samples. -/
noncomputable def energy (x : List ℝ) (k : Nat) : ℝ :=
  (if k = 0 ∨ 2 * k = x.length then 1 else 2) * normSq (coef x k)

/-- The samples with a timestamp in the range; a missing bound is no bound. -/
def SampleRange (lo hi : Option ℝ) (t : ℝ) : Prop := (∀ a ∈ lo, a ≤ t) ∧ ∀ b ∈ hi, t ≤ b

/-! ## Lemmas -/

theorem filter_pos (f : ℝ) (hf : 0 ≤ f) : 0 < accFreqFilter f := by
  unfold accFreqFilter; positivity

theorem filter_lt_one (f : ℝ) (hf : 0 ≤ f) : accFreqFilter f < 1 := by
  unfold accFreqFilter
  rw [div_lt_one (by positivity)]
  nlinarith [pow_nonneg hf 3, pow_nonneg hf 2]

theorem coef_eq (x : List ℝ) (k : Nat) :
    coef x k = ∑ j ∈ range x.length, (x.getD j 0 : ℂ) * ex x.length (-(j * k)) := by
  unfold coef ex
  refine Finset.sum_congr rfl fun j _ => ?_
  congr 2
  push_cast; ring

theorem coef_conj (x : List ℝ) (k : Nat) :
    (starRingEnd ℂ) (coef x k) = ∑ j ∈ range x.length, (x.getD j 0 : ℂ) * ex x.length (j * k) := by
  rw [coef_eq, map_sum]
  refine Finset.sum_congr rfl fun j _ => ?_
  rw [map_mul, ex_conj, Complex.conj_ofReal, neg_neg]

theorem coef_mirror (x : List ℝ) (k : Nat) (hk : k ≤ x.length) (hn : x.length ≠ 0) :
    coef x (x.length - k) = (starRingEnd ℂ) (coef x k) := by
  rw [coef_conj, coef_eq]
  refine Finset.sum_congr rfl fun j _ => ?_
  congr 1
  have : (-((j : ℤ) * ((x.length - k : ℕ) : ℤ))) = (x.length : ℤ) * (-j) + j * k := by
    push_cast [Nat.cast_sub hk]; ring
  rw [this, ex_add, ex_self _ hn, one_mul]

theorem coef_real (x : List ℝ) (k : Nat) (hn : x.length ≠ 0) (h : k = 0 ∨ 2 * k = x.length) :
    coef x k = ((coef x k).re : ℂ) := by
  have h2 : (starRingEnd ℂ) (coef x k) = coef x k := by
    rcases h with rfl | h
    · rw [coef_conj, coef_eq]; simp
    · rw [← coef_mirror x k (by omega) hn]; congr 1; omega
  exact ((Complex.conj_eq_iff_re).mp h2).symm

theorem sum_range_list (n : Nat) (f : Nat → ℝ) : ((List.range n).map f).sum = ∑ k ∈ range n, f k := by
  induction n with
  | zero => rfl
  | succ n ih => rw [List.range_succ, List.map_append, List.sum_append, ih, Finset.sum_range_succ]; simp

theorem sum_list (x : List ℝ) (f : ℝ → ℝ) :
    (x.map f).sum = ∑ j ∈ range x.length, f (x.getD j 0) := by
  rw [← sum_range_list]
  congr 1
  apply List.ext_getElem
  · simp
  · intro i h1 h2
    simp at h1
    simp [h1]

/-- Parseval for the samples: total energy. -/
theorem energy_total (x : List ℝ) (hn : x.length ≠ 0) :
    ∑ k ∈ range (x.length / 2 + 1), energy x k = x.length * (x.map (fun a => a ^ 2)).sum := by
  have h := parseval x.length hn (fun j => (x.getD j 0 : ℂ))
  have h1 : ∀ k : ℕ, normSq (∑ j ∈ range x.length, (x.getD j 0 : ℂ) * ex x.length (j * k)) =
      normSq (coef x k) := by
    intro k; rw [← coef_conj, Complex.normSq_conj]
  simp only [h1] at h
  rw [sum_fold x.length hn] at h
  rw [sum_list]
  have e : ∀ a : ℝ, normSq (a : ℂ) = a ^ 2 := fun a => by rw [Complex.normSq_ofReal]; ring
  simp only [e] at h
  rw [← h]
  refine Finset.sum_congr rfl fun k hk => ?_
  have := Finset.mem_range.mp hk
  unfold energy
  split
  · ring
  · rw [coef_mirror x k (by omega) hn, Complex.normSq_conj]; ring

/-- The energy of the samples computed by `irfft`. -/
theorem irfft_energy (Y : List ℂ) (M : Nat) (hM : M ≠ 0) (hY : Y.length = M + 1) :
    ∃ y, irfft Y = .ok y ∧ y.length = 2 * M ∧
      (y.map (fun a => a ^ 2)).sum = 1 / (2 * M : ℝ) * ∑ k ∈ range (M + 1),
        (if k = 0 ∨ k = M then (Y.getD k 0).re ^ 2 else 2 * normSq (Y.getD k 0)) := by
  have hN : 2 * (Y.length - 1) = 2 * M := by omega
  unfold irfft
  rw [hN]
  simp only
  rw [if_neg (by omega)]
  refine ⟨_, rfl, by simp, ?_⟩
  rw [List.map_map, sum_range_list, hY]
  have hM2 : (2 * M : ℕ) ≠ 0 := by omega
  set Z : ℕ → ℂ := fun k => if k = 0 ∨ 2 * k = 2 * M then ((Y.getD k 0).re : ℂ)
    else if k < M then Y.getD k 0 else (starRingEnd ℂ) (Y.getD (2 * M - k) 0) with hZ
  have hexp : ∀ j k : ℕ, Complex.exp (2 * Real.pi * Complex.I * j * k / (2 * M : ℕ)) =
      ex (2 * M) (k * j) := by
    intro j k; unfold ex; congr 1; push_cast; ring
  -- the sum over all frequencies
  have hfull : ∀ j : ℕ, ((∑ k ∈ range (M + 1), (if k = 0 ∨ 2 * k = 2 * M then (1 : ℝ) else 2) *
      (Y.getD k 0 * Complex.exp (2 * Real.pi * Complex.I * j * k / (2 * M : ℕ))).re : ℝ) : ℂ) =
      ∑ k ∈ range (2 * M), Z k * ex (2 * M) (k * j) := by
    intro j
    rw [sum_fold (2 * M) hM2, show 2 * M / 2 = M by omega]
    rw [Complex.ofReal_sum]
    refine Finset.sum_congr rfl fun k hk => ?_
    have hk' := Finset.mem_range.mp hk
    rw [hexp, Complex.ofReal_mul]
    by_cases h : k = 0 ∨ 2 * k = 2 * M
    · rw [if_pos h, if_pos h]
      simp only [hZ]
      rw [if_pos h]
      have hreal : ex (2 * M) (k * j) = ((ex (2 * M) (k * j)).re : ℂ) := by
        have : (starRingEnd ℂ) (ex (2 * M) (k * j)) = ex (2 * M) (k * j) := by
          rw [ex_conj]
          have : ((k : ℤ) * j) = ((2 * M : ℕ) : ℤ) * (if k = 0 then 0 else j) + (-(k * j)) := by
            rcases h with rfl | h
            · simp
            · have hk0 : k ≠ 0 := by omega
              rw [if_neg hk0, show M = k by omega]; push_cast; ring
          conv_rhs => rw [this, ex_add, ex_self _ hM2, one_mul]
        exact ((Complex.conj_eq_iff_re).mp this).symm
      rw [hreal]
      simp
    · rw [if_neg h, if_neg h]
      have hk1 : ¬ (2 * M - k = 0 ∨ 2 * (2 * M - k) = 2 * M) := by omega
      simp only [hZ]
      rw [if_neg h, if_pos (by omega), if_neg hk1, if_neg (by omega),
        show 2 * M - (2 * M - k) = k by omega]
      have he : ex (2 * M) (((2 * M - k : ℕ) : ℤ) * j) = (starRingEnd ℂ) (ex (2 * M) (k * j)) := by
        rw [ex_conj]
        have : (((2 * M - k : ℕ) : ℤ) * j) = ((2 * M : ℕ) : ℤ) * j + (-(k * j)) := by
          rw [Nat.cast_sub (by omega)]; ring
        rw [this, ex_add, ex_self _ hM2, one_mul]
      rw [he, ← map_mul, Complex.add_conj]
      push_cast; ring
  have hpar := parseval (2 * M) hM2 Z
  have hout : ∀ j : ℕ, normSq (∑ k ∈ range (2 * M), Z k * ex (2 * M) (k * j)) =
      (∑ k ∈ range (M + 1), (if k = 0 ∨ 2 * k = 2 * M then (1 : ℝ) else 2) *
      (Y.getD k 0 * Complex.exp (2 * Real.pi * Complex.I * j * k / (2 * M : ℕ))).re) ^ 2 := by
    intro j; rw [← hfull j, Complex.normSq_ofReal]; ring
  simp only [hout] at hpar
  rw [sum_fold (2 * M) hM2 (fun k => normSq (Z k)), show 2 * M / 2 = M by omega] at hpar
  have hsum : ∑ k ∈ range (M + 1), (if k = 0 ∨ 2 * k = 2 * M then normSq (Z k)
      else normSq (Z k) + normSq (Z (2 * M - k))) = ∑ k ∈ range (M + 1),
        (if k = 0 ∨ k = M then (Y.getD k 0).re ^ 2 else 2 * normSq (Y.getD k 0)) := by
    refine Finset.sum_congr rfl fun k hk => ?_
    have hk' := Finset.mem_range.mp hk
    by_cases h : k = 0 ∨ 2 * k = 2 * M
    · rw [if_pos h, if_pos (by omega)]
      simp only [hZ]
      rw [if_pos h, Complex.normSq_ofReal]; ring
    · rw [if_neg h, if_neg (by omega)]
      have hk1 : ¬ (2 * M - k = 0 ∨ 2 * (2 * M - k) = 2 * M) := by omega
      simp only [hZ]
      rw [if_neg h, if_pos (by omega), if_neg hk1, if_neg (by omega),
        show 2 * M - (2 * M - k) = k by omega, Complex.normSq_conj]
      ring
  rw [hsum] at hpar
  have hMr : (M : ℝ) ≠ 0 := by exact_mod_cast hM
  simp only [Function.comp, mul_pow]
  rw [← Finset.mul_sum, hpar]
  push_cast
  field_simp

/-- The weight of frequency `k` among `n` samples. -/
noncomputable def weight (n k : Nat) : ℝ := accFreqFilter ((k : ℝ) / (n * (1 / 10)))

theorem weight_pos (n k : Nat) : 0 < weight n k := filter_pos _ (by positivity)
theorem weight_lt_one (n k : Nat) : weight n k < 1 := filter_lt_one _ (by positivity)

theorem weightedRms_eq (x : List ℝ) (hn : 2 ≤ x.length) :
    ∃ r, weightedRms x = .ok r ∧ 0 ≤ r ∧
      (2 * (x.length / 2 : ℕ) : ℝ) ^ 2 * r ^ 2 = ∑ k ∈ range (x.length / 2 + 1),
        (if k = 0 ∨ k = x.length / 2 then (weight x.length k * (coef x k).re) ^ 2
        else 2 * (weight x.length k ^ 2 * normSq (coef x k))) := by
  have hr : rfft x = .ok ((List.range (x.length / 2 + 1)).map (coef x)) := by
    unfold rfft; rw [if_neg (by omega)]; rfl
  have hY : (((List.range (x.length / 2 + 1)).map (coef x)).zip (rfftfreq x.length (1 / 10))).map
      (fun q => q.1 * (accFreqFilter q.2 : ℂ)) =
      (List.range (x.length / 2 + 1)).map (fun k => coef x k * (weight x.length k : ℂ)) := by
    unfold rfftfreq
    rw [List.zip_map', List.map_map]
    rfl
  set Y := (List.range (x.length / 2 + 1)).map (fun k => coef x k * (weight x.length k : ℂ)) with hYd
  have hM : x.length / 2 ≠ 0 := by omega
  obtain ⟨y, h1, h2, h3⟩ := irfft_energy Y (x.length / 2) hM (by simp [hYd])
  refine ⟨Real.sqrt ((y.map fun a => a ^ 2).sum / y.length), ?_, Real.sqrt_nonneg _, ?_⟩
  · unfold weightedRms
    rw [hr]
    simp only
    rw [hY, h1]
  · have hnn : 0 ≤ (y.map fun a => a ^ 2).sum / (y.length : ℝ) := by
      apply div_nonneg
      · apply List.sum_nonneg
        intro a ha
        obtain ⟨b, _, rfl⟩ := List.mem_map.mp ha
        positivity
      · positivity
    rw [Real.sq_sqrt hnn, h2, h3]
    have hMr : ((x.length / 2 : ℕ) : ℝ) ≠ 0 := by exact_mod_cast hM
    push_cast
    have e : ∀ S : ℝ, (2 * ((x.length / 2 : ℕ) : ℝ)) ^ 2 *
        (1 / (2 * ((x.length / 2 : ℕ) : ℝ)) * S / (2 * ((x.length / 2 : ℕ) : ℝ))) = S := by
      intro S; field_simp
    rw [e]
    refine Finset.sum_congr rfl fun k hk => ?_
    have hk' := Finset.mem_range.mp hk
    have hg : Y.getD k 0 = coef x k * (weight x.length k : ℂ) := by
      simp [hYd, hk']
    rw [hg]
    split
    · rw [Complex.re_mul_ofReal]; ring
    · rw [Complex.normSq_mul, Complex.normSq_ofReal]; ring

/-! ## C83 -/

/-- **C83.** For at least two samples a non-negative number is returned; for one sample or none the
call raises `ValueError`. -/
theorem C83_defined (x : List ℝ) :
    (2 ≤ x.length → ∃ r, weightedRms x = .ok r ∧ 0 ≤ r) ∧
    (x.length < 2 → weightedRms x = .error .value) := by
  constructor
  · intro h
    obtain ⟨r, h1, h2, _⟩ := weightedRms_eq x h
    exact ⟨r, h1, h2⟩
  · intro h
    match x, h with
    | [], _ => rfl
    | [a], _ => simp [weightedRms, rfft, irfft, rfftfreq]

/-- **C83.** For an even number of samples the result is the root mean square of the samples after
weighting every frequency `k / (n · 0.1 s)` with the filter (Parseval's identity). -/
theorem C83_energy_partial (x : List ℝ) (hn : 2 ≤ x.length) (he : x.length % 2 = 0) :
    ∃ r, weightedRms x = .ok r ∧ 0 ≤ r ∧
      (x.length : ℝ) ^ 2 * r ^ 2 = ∑ k ∈ range (x.length / 2 + 1),
        accFreqFilter ((k : ℝ) / (x.length * (1 / 10))) ^ 2 * energy x k := by
  obtain ⟨r, h1, h2, h3⟩ := weightedRms_eq x hn
  refine ⟨r, h1, h2, ?_⟩
  have hN : (2 * (x.length / 2 : ℕ) : ℝ) = x.length := by
    have : 2 * (x.length / 2) = x.length := by omega
    exact_mod_cast this
  rw [hN] at h3
  rw [h3]
  refine Finset.sum_congr rfl fun k hk => ?_
  unfold energy
  by_cases h : k = 0 ∨ k = x.length / 2
  · rw [if_pos h, if_pos (by omega)]
    have hc := coef_real x k (by omega) (by omega)
    have : normSq (coef x k) = (coef x k).re ^ 2 := by
      rw [hc, Complex.normSq_ofReal, Complex.ofReal_re]; ring
    rw [this]; unfold weight; ring
  · rw [if_neg h, if_neg (by omega)]
    unfold weight; ring

/-- The energies of the specification add up to the sum of squares of the samples, so that without
the weights the right hand side of `C83_energy_partial` gives the plain root mean square. -/
theorem C83_energy_total (x : List ℝ) (hn : x ≠ []) :
    ∑ k ∈ range (x.length / 2 + 1), energy x k = x.length * (x.map (fun a => a ^ 2)).sum :=
  energy_total x (by simpa using hn)

theorem energy_nonneg (x : List ℝ) (k : Nat) : 0 ≤ energy x k := by
  unfold energy
  have := Complex.normSq_nonneg (coef x k)
  split <;> linarith

/-- **C83.** The result is at most the plain root mean square of the samples for an even number `n` of
samples, and at most `n / (n - 1)` times it for an odd one. -/
theorem C83_bound (x : List ℝ) (hn : 2 ≤ x.length) (r : ℝ) (h : weightedRms x = .ok r) :
    r ≤ (x.length : ℝ) / (2 * (x.length / 2 : ℕ)) *
      Real.sqrt ((x.map (fun a => a ^ 2)).sum / x.length) := by
  obtain ⟨r', h1, h2, h3⟩ := weightedRms_eq x hn
  rw [h] at h1
  obtain rfl : r = r' := by injection h1
  have hM : x.length / 2 ≠ 0 := by omega
  have hMr : (0 : ℝ) < 2 * ((x.length / 2 : ℕ) : ℝ) := by
    have : (0 : ℝ) < ((x.length / 2 : ℕ) : ℝ) := by exact_mod_cast Nat.pos_of_ne_zero hM
    linarith
  have hnr : (0 : ℝ) < x.length := by exact_mod_cast (by omega : 0 < x.length)
  have hS : 0 ≤ (x.map (fun a => a ^ 2)).sum := by
    apply List.sum_nonneg
    intro a ha
    obtain ⟨b, _, rfl⟩ := List.mem_map.mp ha
    positivity
  have hle : (2 * (x.length / 2 : ℕ) : ℝ) ^ 2 * r ^ 2 ≤ x.length * (x.map (fun a => a ^ 2)).sum := by
    rw [h3, ← energy_total x (by omega)]
    refine Finset.sum_le_sum fun k hk => ?_
    have hw := weight_pos x.length k
    have hw1 := weight_lt_one x.length k
    have hw2 : weight x.length k ^ 2 ≤ 1 := by nlinarith
    have hq := Complex.normSq_nonneg (coef x k)
    have hre : (coef x k).re ^ 2 ≤ normSq (coef x k) := by
      rw [Complex.normSq_apply]; nlinarith [mul_self_nonneg (coef x k).im]
    unfold energy
    split
    · have : (weight x.length k * (coef x k).re) ^ 2 ≤ normSq (coef x k) := by
        rw [mul_pow]; nlinarith [sq_nonneg (coef x k).re]
      split <;> linarith
    · rw [if_neg (by omega)]
      nlinarith
  have : r ^ 2 ≤ ((x.length : ℝ) / (2 * (x.length / 2 : ℕ)) *
      Real.sqrt ((x.map (fun a => a ^ 2)).sum / x.length)) ^ 2 := by
    rw [mul_pow, Real.sq_sqrt (by positivity), div_pow, div_mul_eq_mul_div, le_div_iff₀ (by positivity)]
    have e : (x.length : ℝ) ^ 2 * ((x.map (fun a => a ^ 2)).sum / x.length) =
        x.length * (x.map (fun a => a ^ 2)).sum := by field_simp
    rw [e]; linarith
  exact abs_le_of_sq_le_sq' this (by positivity) |>.2

/-- **C83.** Multiplying all accelerations by `c` multiplies the result by `|c|`. -/
theorem C83_scale (x : List ℝ) (hn : 2 ≤ x.length) (c r : ℝ) (h : weightedRms x = .ok r) :
    weightedRms (x.map (fun a => c * a)) = .ok (|c| * r) := by
  obtain ⟨r1, h1, h2, h3⟩ := weightedRms_eq x hn
  rw [h] at h1
  obtain rfl : r = r1 := by injection h1
  obtain ⟨r2, g1, g2, g3⟩ := weightedRms_eq (x.map (fun a => c * a)) (by simpa using hn)
  have hc : ∀ k, coef (x.map (fun a => c * a)) k = (c : ℂ) * coef x k := by
    intro k
    unfold coef
    rw [Finset.mul_sum, List.length_map]
    refine Finset.sum_congr rfl fun j hj => ?_
    have := Finset.mem_range.mp hj
    simp [this]
    ring
  rw [List.length_map] at g3
  have hM : ((x.length / 2 : ℕ) : ℝ) ≠ 0 := by
    have : x.length / 2 ≠ 0 := by omega
    exact_mod_cast this
  have e : (2 * (x.length / 2 : ℕ) : ℝ) ^ 2 * r2 ^ 2 = (2 * (x.length / 2 : ℕ) : ℝ) ^ 2 * (|c| * r) ^ 2 := by
    rw [g3, mul_pow |c| r, sq_abs, mul_left_comm, h3, Finset.mul_sum]
    refine Finset.sum_congr rfl fun k _ => ?_
    rw [hc]
    split
    · rw [Complex.re_ofReal_mul]; ring
    · rw [Complex.normSq_mul, Complex.normSq_ofReal]; ring
  have e2 : r2 ^ 2 = (|c| * r) ^ 2 := mul_left_cancel₀ (by positivity) e
  have : r2 = |c| * r := by
    have := (sq_eq_sq₀ g2 (mul_nonneg (abs_nonneg c) h2)).mp e2
    exact this
  rw [g1, this]

theorem coef_replicate (n : Nat) (a : ℝ) (k : Nat) (hk : k < n) :
    coef (List.replicate n a) k = if k = 0 then (n * a : ℂ) else 0 := by
  rw [coef_eq, List.length_replicate]
  have e : ∀ j ∈ range n, ((List.replicate n a).getD j 0 : ℂ) * ex n (-(j * k)) =
      (a : ℂ) * ex n ((-(k : ℤ)) * j) := by
    intro j hj
    have hj' := Finset.mem_range.mp hj
    have : (List.replicate n a).getD j 0 = a := by simp [hj']
    rw [this]
    congr 2
    ring
  rw [Finset.sum_congr rfl e, ← Finset.mul_sum]
  split
  · rename_i h; subst h
    simp [ex_zero]; ring
  · rename_i h
    rw [sum_ex n (by omega), mul_zero]
    rw [Int.dvd_neg]
    intro hd
    have := Int.natCast_dvd_natCast.mp hd
    exact absurd (Nat.le_of_dvd (Nat.pos_of_ne_zero h) this) (by omega)

/-- **C83.** A constant acceleration `a` gives `|a|` times the weight of frequency zero for an even number of
samples — and `n / (n - 1)` times that for an odd number `n`. -/
theorem C83_constant (n : Nat) (hn : 2 ≤ n) (a : ℝ) :
    weightedRms (List.replicate n a) =
      .ok ((n : ℝ) / (2 * (n / 2 : ℕ)) * (|a| * (7725 / 47610))) := by
  obtain ⟨r, h1, h2, h3⟩ := weightedRms_eq (List.replicate n a) (by simpa using hn)
  rw [List.length_replicate] at h3
  have hM : n / 2 ≠ 0 := by omega
  have hMr : ((n / 2 : ℕ) : ℝ) ≠ 0 := by exact_mod_cast hM
  rw [Finset.sum_eq_single 0] at h3
  · rw [if_pos (Or.inl rfl), coef_replicate n a 0 (by omega), if_pos rfl] at h3
    have hw : weight n 0 = 7725 / 47610 := by unfold weight accFreqFilter; norm_num
    have hre : ((n : ℂ) * (a : ℂ)).re = n * a := by
      rw [show ((n : ℂ) * (a : ℂ)) = ((n * a : ℝ) : ℂ) by push_cast; rfl, Complex.ofReal_re]
    rw [hw, hre] at h3
    rw [h1]
    congr 1
    refine (sq_eq_sq₀ h2 (by positivity)).mp ?_
    have h4 : (2 * ((n / 2 : ℕ) : ℝ)) ^ 2 ≠ 0 := by positivity
    refine mul_left_cancel₀ h4 ?_
    rw [h3, mul_pow _ (|a| * _), mul_pow |a|, sq_abs, div_pow]
    field_simp
  · intro k hk hk0
    have hk' := Finset.mem_range.mp hk
    rw [coef_replicate n a k (by omega), if_neg hk0]
    simp
  · intro h; exact absurd (Finset.mem_range.mpr (by omega)) h

/-- **C83.** For an even number of samples the result is zero only if all accelerations are. -/
theorem C83_zero_partial (x : List ℝ) (hn : 2 ≤ x.length) (he : x.length % 2 = 0) :
    weightedRms x = .ok 0 ↔ ∀ a ∈ x, a = 0 := by
  obtain ⟨r, h1, h2, h3⟩ := C83_energy_partial x hn he
  rw [h1]
  have hnr : (0 : ℝ) < x.length := by exact_mod_cast (by omega : 0 < x.length)
  constructor
  · intro h
    obtain rfl : r = 0 := by injection h
    have hz : ∑ k ∈ range (x.length / 2 + 1),
        accFreqFilter ((k : ℝ) / (x.length * (1 / 10))) ^ 2 * energy x k = 0 := by
      rw [← h3]; ring
    rw [Finset.sum_eq_zero_iff_of_nonneg
      (fun k _ => mul_nonneg (sq_nonneg _) (energy_nonneg x k))] at hz
    have hE : ∀ k ∈ range (x.length / 2 + 1), energy x k = 0 := by
      intro k hk
      rcases mul_eq_zero.mp (hz k hk) with h | h
      · exact absurd h (ne_of_gt (pow_pos (weight_pos x.length k) 2))
      · exact h
    have ht := energy_total x (by omega)
    rw [Finset.sum_eq_zero hE] at ht
    have hs : (x.map (fun a => a ^ 2)).sum = 0 := by
      rcases mul_eq_zero.mp ht.symm with h | h
      · linarith
      · exact h
    intro a ha
    have hall : ∀ b ∈ x.map (fun a => a ^ 2), (0 : ℝ) ≤ b := by
      intro b hb
      obtain ⟨c, _, rfl⟩ := List.mem_map.mp hb
      positivity
    have := List.all_zero_of_le_zero_le_of_sum_eq_zero hall hs (List.mem_map_of_mem (f := fun a => a ^ 2) ha)
    exact pow_eq_zero_iff (two_ne_zero) |>.mp this
  · intro h
    have hc : ∀ k, coef x k = 0 := by
      intro k
      unfold coef
      refine Finset.sum_eq_zero fun j hj => ?_
      have hj' := Finset.mem_range.mp hj
      have : x.getD j 0 = 0 := by
        simp only [List.getD_eq_getElem?_getD, List.getElem?_eq_getElem hj', Option.getD_some]; exact h _ (List.getElem_mem hj')
      rw [this]; simp
    have : (x.length : ℝ) ^ 2 * r ^ 2 = 0 := by
      rw [h3]
      refine Finset.sum_eq_zero fun k _ => ?_
      unfold energy; rw [hc]; simp
    have : r ^ 2 = 0 := by
      rcases mul_eq_zero.mp this with h | h
      · nlinarith
      · exact h
    rw [pow_eq_zero_iff (two_ne_zero)] at this
    rw [this]

example : (2 ≤ ([1, -1] : List ℝ).length) ∧ ([1, -1] : List ℝ).length % 2 = 0 := by decide

/-- C83 fails for an odd number of samples: accelerating and braking with 1 m/s² counts as no
acceleration at all. -/
theorem C83_false_odd : weightedRms [0, 1, -1] = .ok 0 := by
  obtain ⟨r, h1, h2, h3⟩ := weightedRms_eq [0, 1, -1] (by simp)
  have h0 : (coef [0, 1, -1] 0).re = 0 := by
    simp [coef, Finset.sum_range_succ]
  have hc1 : (coef [0, 1, -1] 1).re = 0 := by
    have e1 : (ex 3 (-1)).re = (ex 3 (-2)).re := by
      have : ex 3 (-2) = (starRingEnd ℂ) (ex 3 (-1)) := by
        rw [ex_conj, show (-2 : ℤ) = ((3 : ℕ) : ℤ) * (-1) + 1 by norm_num, ex_add, ex_self _ (by norm_num)]
        simp
      rw [this, Complex.conj_re]
    rw [coef_eq]
    simp only [Finset.sum_range_succ, List.length_cons, List.length_nil, Finset.sum_range_zero]
    simp
    norm_num at e1 ⊢
    linarith
  rw [h1]
  congr 1
  simp [Finset.sum_range_succ, h0, hc1] at h3
  exact h3

/-! ### Time range and sampling rate -/

theorem zip_filter_all (vs : List α) (ts : List ℝ) (p : ℝ → Bool) (h : ∀ t ∈ ts, p t = true) :
    ((vs.zip ts).filter fun q => p q.2) = vs.zip ts := by
  apply List.filter_eq_self.mpr
  intro q hq
  exact h _ (List.of_mem_zip hq).2

open Classical in
/-- **C83.** Exactly the samples within the time range are used, in their order. -/
theorem C83_range (acc : α → ℝ) (lo hi : Option ℝ) (s : Seq ℝ α) (h : s.Valid) (hne : s.ts ≠ []) :
    getAccRms acc lo hi s =
      weightedRms (((s.vs.zip s.ts).filter fun q => decide (SampleRange lo hi q.2)).map fun q => acc q.1) := by
  have hpos : 0 < s.ts.length := List.length_pos_of_ne_nil hne
  have hfirst : pyGet s.ts 0 = .ok (s.ts[0]) := by
    simp [pyGet, hpos]
  have hlast : pyGet s.ts (-1) = .ok (s.ts[s.ts.length - 1]) := by
    unfold pyGet
    have e : (if (-1 : ℤ) < 0 then (-1 : ℤ) + s.ts.length else -1) = -1 + s.ts.length := if_pos (by norm_num)
    simp only [e]
    rw [if_neg (by omega), show ((-1 : ℤ) + (s.ts.length : ℤ)).toNat = s.ts.length - 1 by omega,
      List.getElem?_eq_getElem (by omega)]
  have hmin : ∀ t ∈ s.ts, s.ts[0] ≤ t := by
    intro t ht
    obtain ⟨i, hi, rfl⟩ := List.getElem_of_mem ht
    exact Seq.ts_le s h hi (Nat.zero_le i)
  have hmax : ∀ t ∈ s.ts, t ≤ s.ts[s.ts.length - 1] := by
    intro t ht
    obtain ⟨i, hi, rfl⟩ := List.getElem_of_mem ht
    exact Seq.ts_le s h (by omega) (by omega)
  unfold getAccRms
  have hA : ∃ a, boundOr lo (pyGet s.ts 0) = .ok a ∧
      ∀ t ∈ s.ts, (a ≤ t ↔ ∀ a ∈ lo, a ≤ t) := by
    cases lo with
    | some a => exact ⟨a, rfl, fun t _ => by simp⟩
    | none => exact ⟨_, hfirst, fun t ht => by simp [hmin t ht]⟩
  have hB : ∃ b, boundOr hi (pyGet s.ts (-1)) = .ok b ∧
      ∀ t ∈ s.ts, (t ≤ b ↔ ∀ b ∈ hi, t ≤ b) := by
    cases hi with
    | some b => exact ⟨b, rfl, fun t _ => by simp⟩
    | none => exact ⟨_, hlast, fun t ht => by simp [hmax t ht]⟩
  obtain ⟨a, ha, ha'⟩ := hA
  obtain ⟨b, hb, hb'⟩ := hB
  rw [ha]
  simp only
  rw [hb]
  simp only
  congr 2
  apply List.filter_congr
  intro q hq
  have hq' := (List.of_mem_zip hq).2
  simp only [SampleRange, ← ha' _ hq', ← hb' _ hq', Bool.decide_and]

example : (⟨[0, 1 / 10, 1 / 5, 3 / 10], [1, 2, 1, 0]⟩ : Seq ℝ ℝ).Valid := by
  refine ⟨rfl, ?_⟩
  simp
  norm_num

example : getAccRms (fun a : ℝ => a) (some (1 / 10)) (some (1 / 5))
    (⟨[0, 1 / 10, 1 / 5, 3 / 10], [1, 2, 2, 0]⟩ : Seq ℝ ℝ) = .ok (2 * (7725 / 47610)) := by
  have h := C83_constant 2 (le_refl 2) 2
  have e : getAccRms (fun a : ℝ => a) (some (1 / 10)) (some (1 / 5))
      (⟨[0, 1 / 10, 1 / 5, 3 / 10], [1, 2, 2, 0]⟩ : Seq ℝ ℝ) = weightedRms (List.replicate 2 2) := by
    simp only [getAccRms, boundOr]
    congr 1
    simp only [List.zip_cons_cons, List.zip_nil_right, List.filter_cons, List.filter_nil]
    norm_num [List.replicate]
  rw [e, h]
  norm_num

open Classical in
/-- C83: the distance between the timestamps has no influence; the frequencies are always those of
samples 0.1 s apart. -/
theorem C83_rate (acc : α → ℝ) (s s' : Seq ℝ α) (h : s.Valid) (h' : s'.Valid) (hne : s.ts ≠ [])
    (hv : s.vs = s'.vs) : getAccRms acc none none s = getAccRms acc none none s' := by
  have hne' : s'.ts ≠ [] := by
    have l1 := h.1; have l2 := h'.1
    have := List.length_pos_of_ne_nil hne
    apply List.ne_nil_of_length_pos
    rw [hv] at l1
    omega
  have key : ∀ s : Seq ℝ α, s.Valid → s.ts ≠ [] → getAccRms acc none none s = weightedRms (s.vs.map acc) := by
    intro s h hne
    rw [C83_range acc none none s h hne]
    congr 1
    have : ((s.vs.zip s.ts).filter fun q => decide (SampleRange none none q.2)) = s.vs.zip s.ts := by
      apply List.filter_eq_self.mpr
      intro q _
      simp [SampleRange]
    rw [this]
    rw [show (fun q : α × ℝ => acc q.1) = acc ∘ Prod.fst from rfl, ← List.map_map,
      List.map_fst_zip (by have := h.1; omega)]
  rw [key s h hne, key s' h' hne', hv]

open Classical in
/-- C83 fails for sequences not sampled at 10 Hz: accelerations alternating once per second are
given the weight of 5 Hz instead of 0.5 Hz. -/
theorem C83_false_rate :
    getAccRms (fun a : ℝ => a) none none (⟨[0, 1], [1, -1]⟩ : Seq ℝ ℝ) = .ok (accFreqFilter 5) ∧
    accFreqFilter 5 ≠ accFreqFilter (1 / 2) := by
  constructor
  · rw [C83_range]
    · have : (((([1, -1] : List ℝ).zip [0, 1]).filter fun q => decide (SampleRange none none q.2)).map
          fun q : ℝ × ℝ => q.1) = [1, -1] := by simp [SampleRange]
      obtain ⟨r, h1, h2, h3⟩ := weightedRms_eq [1, -1] (by simp)
      have h0 : (coef [1, -1] 0).re = 0 := by
        simp [coef, Finset.sum_range_succ]
      have hc1 : (coef [1, -1] 1).re = 2 := by
        rw [coef_eq]
        have : ex 2 (-1) = -1 := by
          unfold ex
          rw [show (2 * (Real.pi : ℂ) * Complex.I * ((-1 : ℤ) : ℂ) / ((2 : ℕ) : ℂ)) = -(Real.pi * Complex.I) by
            push_cast; ring, Complex.exp_neg, Complex.exp_pi_mul_I]
          norm_num
        simp [Finset.sum_range_succ, ex_zero, this]
        norm_num
      refine Eq.trans (congrArg weightedRms this) ?_
      rw [h1]
      congr 1
      have hw : weight 2 1 = accFreqFilter 5 := by unfold weight; norm_num
      simp [Finset.sum_range_succ, h0, hc1, hw] at h3
      have hp := filter_pos 5 (by norm_num)
      have : r ^ 2 = accFreqFilter 5 ^ 2 := by nlinarith
      exact (sq_eq_sq₀ h2 hp.le).mp this
    · exact ⟨rfl, by simp⟩
    · simp
  · unfold accFreqFilter; norm_num

end Eval
end Verif
