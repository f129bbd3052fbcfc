import Verif.Eval.Comfort
import Mathlib.RingTheory.RootsOfUnity.Complex
import Mathlib.Tactic.FieldSimp
import Mathlib.Tactic.LinearCombination

/-!
# Lemmas on finite Fourier sums
-/

namespace Verif
namespace Eval

open Finset Complex

/-- The unit vector at angle `2π a / n`. -/
noncomputable def ex (n : Nat) (a : ℤ) : ℂ := Complex.exp (2 * Real.pi * Complex.I * a / n)

theorem ex_add (n : Nat) (a b : ℤ) : ex n (a + b) = ex n a * ex n b := by
  unfold ex; rw [← Complex.exp_add]; congr 1; push_cast; ring

theorem ex_zero (n : Nat) : ex n 0 = 1 := by simp [ex]

theorem ex_self (n : Nat) (hn : n ≠ 0) (k : ℤ) : ex n (n * k) = 1 := by
  unfold ex
  rw [Complex.exp_eq_one_iff]
  refine ⟨k, ?_⟩
  have : (n : ℂ) ≠ 0 := by exact_mod_cast hn
  push_cast
  field_simp

theorem ex_conj (n : Nat) (a : ℤ) : (starRingEnd ℂ) (ex n a) = ex n (-a) := by
  unfold ex
  rw [← Complex.exp_conj]
  congr 1
  simp only [map_div₀, map_mul, Complex.conj_I, Complex.conj_ofReal, map_ofNat, map_intCast,
    map_natCast]
  push_cast
  ring

theorem ex_pow (n : Nat) (a : ℤ) (k : Nat) : ex n (a * k) = ex n a ^ k := by
  induction k with
  | zero => simp [ex_zero]
  | succ k ih => rw [pow_succ, ← ih, ← ex_add]; congr 1; push_cast; ring

theorem ex_eq_one (n : Nat) (hn : n ≠ 0) (a : ℤ) (h : ex n a = 1) : (n : ℤ) ∣ a := by
  unfold ex at h
  rw [Complex.exp_eq_one_iff] at h
  obtain ⟨k, hk⟩ := h
  have hn' : (n : ℂ) ≠ 0 := by exact_mod_cast hn
  have h2 : (2 * Real.pi * Complex.I : ℂ) ≠ 0 := Complex.two_pi_I_ne_zero
  refine ⟨k, ?_⟩
  have : (2 * Real.pi * Complex.I : ℂ) * a = (2 * Real.pi * Complex.I) * (n * k) := by
    rw [div_eq_iff hn'] at hk
    rw [hk]; ring
  have := mul_left_cancel₀ h2 this
  exact_mod_cast this

/-- Orthogonality. -/
theorem sum_ex (n : Nat) (hn : n ≠ 0) (a : ℤ) (ha : ¬ (n : ℤ) ∣ a) :
    ∑ k ∈ range n, ex n (a * k) = 0 := by
  have h1 : ex n a ≠ 1 := fun h => ha (ex_eq_one n hn a h)
  have h2 : ex n a ^ n = 1 := by rw [← ex_pow, mul_comm]; exact ex_self n hn a
  simp only [ex_pow]
  have := geom_sum_mul (ex n a) n
  rw [h2, sub_self] at this
  rcases mul_eq_zero.mp this with h | h
  · exact h
  · exact absurd (sub_eq_zero.mp h) h1

/-- Parseval for the sum with positive exponents. -/
theorem parseval (n : Nat) (hn : n ≠ 0) (f : Nat → ℂ) :
    ∑ k ∈ range n, normSq (∑ j ∈ range n, f j * ex n (j * k)) = n * ∑ j ∈ range n, normSq (f j) := by
  have key : ∀ z : ℂ, ((normSq z : ℝ) : ℂ) = z * (starRingEnd ℂ) z := fun z => (mul_conj z).symm
  have : ((∑ k ∈ range n, normSq (∑ j ∈ range n, f j * ex n (j * k)) : ℝ) : ℂ) =
      ((n * ∑ j ∈ range n, normSq (f j) : ℝ) : ℂ) := by
    push_cast
    simp only [key, map_sum, map_mul, ex_conj, Finset.sum_mul_sum]
    rw [Finset.sum_comm]
    rw [Finset.mul_sum]
    refine Finset.sum_congr rfl fun j hj => ?_
    rw [Finset.sum_comm]
    rw [Finset.sum_eq_single j]
    · have : ∀ k ∈ range n, f j * ex n (j * k) * ((starRingEnd ℂ) (f j) * ex n (-(j * k))) =
          f j * (starRingEnd ℂ) (f j) := by
        intro k _
        have h : ex n (j * k) * ex n (-(j * k)) = 1 := by rw [← ex_add, add_neg_cancel, ex_zero]
        linear_combination (f j * (starRingEnd ℂ) (f j)) * h
      rw [Finset.sum_congr rfl this]
      simp
    · intro l hl hlj
      have : ∀ k ∈ range n, f j * ex n (j * k) * ((starRingEnd ℂ) (f l) * ex n (-(l * k))) =
          f j * (starRingEnd ℂ) (f l) * ex n (((j : ℤ) - l) * k) := by
        intro k _
        have h : ex n (j * k) * ex n (-(l * k)) = ex n (((j : ℤ) - l) * k) := by
          rw [← ex_add]; congr 1; ring
        linear_combination (f j * (starRingEnd ℂ) (f l)) * h
      rw [Finset.sum_congr rfl this, ← Finset.mul_sum, sum_ex n hn, mul_zero]
      rintro ⟨c, hc⟩
      have hj' := Finset.mem_range.mp hj
      have hl' := Finset.mem_range.mp hl
      have hc0 : c = 0 := by
        rcases lt_trichotomy c 0 with h | h | h
        · nlinarith
        · exact h
        · nlinarith
      rw [hc0] at hc
      omega
    · intro h; exact absurd hj h
  exact_mod_cast this

/-- A sum over all frequencies, folded onto the first half. -/
theorem sum_fold {M : Type*} [AddCommMonoid M] (n : Nat) (hn : n ≠ 0) (G : Nat → M) :
    ∑ k ∈ range n, G k = ∑ k ∈ range (n / 2 + 1),
      (if k = 0 ∨ 2 * k = n then G k else G k + G (n - k)) := by
  have h : ∀ m, ∑ k ∈ range m, (G (k + 1) + G (2 * m + 1 - (k + 1))) = ∑ k ∈ range (2 * m), G (k + 1) := by
    intro m
    rw [Finset.sum_add_distrib, two_mul m, Finset.sum_range_add]
    congr 1
    rw [← Finset.sum_range_reflect]
    refine Finset.sum_congr rfl fun k hk => ?_
    have := Finset.mem_range.mp hk
    congr 1
    omega
  have h' : ∀ m, ∑ k ∈ range m, (G (k + 1) + G (2 * m + 2 - (k + 1))) + G (m + 1) =
      ∑ k ∈ range (2 * m + 1), G (k + 1) := by
    intro m
    rw [Finset.sum_add_distrib, show 2 * m + 1 = m + (1 + m) by ring, Finset.sum_range_add,
      Finset.sum_range_add]
    rw [Finset.sum_range_one]
    have : ∑ k ∈ range m, G (m + (1 + m) + 1 - (k + 1)) = ∑ k ∈ range m, G (m + (1 + k) + 1) := by
      rw [← Finset.sum_range_reflect]
      refine Finset.sum_congr rfl fun k hk => ?_
      have := Finset.mem_range.mp hk
      congr 1
      omega
    rw [show 2 * m + 2 = m + (1 + m) + 1 by ring, this, add_assoc, add_comm _ (G (m + 1))]
  obtain ⟨m, rfl | rfl⟩ : ∃ m, n = 2 * m + 1 ∨ n = 2 * m + 2 := ⟨(n - 1) / 2, by omega⟩
  · rw [Finset.sum_range_succ', ← h m, show (2 * m + 1) / 2 = m by omega, Finset.sum_range_succ']
    congr 1
    · refine Finset.sum_congr rfl fun k hk => ?_
      rw [if_neg]
      omega
  · rw [Finset.sum_range_succ', ← h' m, show (2 * m + 2) / 2 = m + 1 by omega, Finset.sum_range_succ',
      Finset.sum_range_succ (n := m)]
    congr 1
    congr 1
    · refine Finset.sum_congr rfl fun k hk => ?_
      have := Finset.mem_range.mp hk
      rw [if_neg]
      omega
    · rw [if_pos]; omega

end Eval
end Verif
