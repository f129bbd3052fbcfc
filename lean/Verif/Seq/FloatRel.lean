import Verif.Seq.FloatLemmas

/-!
# Relative errors of chains of rounded operations
-/

namespace Verif

/-- `a` is `A` up to `k` roundings, measured against the magnitude `M`. -/
def Rel (k : ℕ) (a A M : ℚ) : Prop := |A| ≤ M ∧ |a - A| ≤ ((1 + 1 / 9007199254740992) ^ k - 1) * M

namespace Rel
variable {r : ℚ → ℚ} {k l : ℕ} {a A M b B N : ℚ}

theorem one_le (k : ℕ) : (1 : ℚ) ≤ (1 + 1 / 9007199254740992) ^ k := one_le_pow₀ (by norm_num)

theorem self (a : ℚ) : Rel 0 a a |a| := ⟨le_rfl, by simp⟩

theorem nonneg (h : Rel k a A M) : 0 ≤ M := (abs_nonneg _).trans h.1

theorem abs_le' (h : Rel k a A M) : |a| ≤ (1 + 1 / 9007199254740992) ^ k * M := by
  have h1 := abs_sub_abs_le_abs_sub a A
  have e : ((1 + 1 / 9007199254740992) ^ k - 1) * M = (1 + 1 / 9007199254740992) ^ k * M - M := by ring
  have h2 := h.2
  rw [e] at h2
  linarith [h.1]

theorem mono (h : Rel k a A M) (hkl : k ≤ l) : Rel l a A M := by
  refine ⟨h.1, h.2.trans (mul_le_mul_of_nonneg_right ?_ h.nonneg)⟩
  have : (1 + 1 / 9007199254740992 : ℚ) ^ k ≤ (1 + 1 / 9007199254740992) ^ l := pow_le_pow_right₀ (by norm_num) hkl
  linarith

theorem wide (h : Rel k a A M) (hMN : M ≤ N) : Rel k a A N := by
  refine ⟨h.1.trans hMN, h.2.trans (mul_le_mul_of_nonneg_left hMN ?_)⟩
  have := one_le k
  linarith

theorem round (hr : RoundLaws r) (h : Rel k a A M) : Rel (k + 1) (r a) A M := by
  refine ⟨h.1, ?_⟩
  have h1 := hr.near a
  have h2 := h.abs_le'
  have h3 := abs_sub_le (r a) a A
  have h4 : |a| * (1 / 9007199254740992) ≤ (1 + 1 / 9007199254740992) ^ k * M * (1 / 9007199254740992) :=
    mul_le_mul_of_nonneg_right h2 (by norm_num)
  have e : ((1 + 1 / 9007199254740992) ^ (k + 1) - 1) * M =
      (1 + 1 / 9007199254740992) ^ k * M * (1 / 9007199254740992) + ((1 + 1 / 9007199254740992) ^ k - 1) * M := by
    rw [pow_succ]; ring
  rw [e]
  exact h3.trans (add_le_add (h1.trans h4) h.2)

theorem mul (h : Rel k a A M) (h' : Rel l b B N) : Rel (k + l) (a * b) (A * B) (M * N) := by
  refine ⟨by rw [abs_mul]; exact mul_le_mul h.1 h'.1 (abs_nonneg _) h.nonneg, ?_⟩
  have e : a * b - A * B = a * (b - B) + (a - A) * B := by ring
  have e2 : ((1 + 1 / 9007199254740992) ^ (k + l) - 1) * (M * N) =
      (1 + 1 / 9007199254740992) ^ k * M * (((1 + 1 / 9007199254740992) ^ l - 1) * N) +
        ((1 + 1 / 9007199254740992) ^ k - 1) * M * N := by
    rw [pow_add]; ring
  rw [e, e2]
  refine (abs_add_le _ _).trans (add_le_add ?_ ?_)
  · rw [abs_mul]
    exact mul_le_mul h.abs_le' h'.2 (abs_nonneg _) (mul_nonneg (le_trans zero_le_one (one_le k)) h.nonneg)
  · rw [abs_mul]
    exact mul_le_mul h.2 h'.1 (abs_nonneg _) (mul_nonneg (by linarith [one_le k]) h.nonneg)

theorem add (h : Rel k a A M) (h' : Rel k b B N) : Rel k (a + b) (A + B) (M + N) := by
  refine ⟨(abs_add_le _ _).trans (add_le_add h.1 h'.1), ?_⟩
  rw [show a + b - (A + B) = (a - A) + (b - B) by ring, mul_add]
  exact (abs_add_le _ _).trans (add_le_add h.2 h'.2)

theorem neg (h : Rel k a A M) : Rel k (-a) (-A) M := by
  refine ⟨by rw [abs_neg]; exact h.1, ?_⟩
  rw [show -a - -A = -(a - A) by ring, abs_neg]
  exact h.2

theorem sub (h : Rel k a A M) (h' : Rel k b B N) : Rel k (a - b) (A - B) (M + N) := by
  rw [sub_eq_add_neg, sub_eq_add_neg]; exact h.add h'.neg

theorem divc (h : Rel k a A M) (c : ℚ) : Rel k (a / c) (A / c) (M / |c|) := by
  have := h.mul (Rel.self c⁻¹)
  rw [abs_inv] at this
  simpa [div_eq_mul_inv] using this

theorem bound (h : Rel k a A M) (hk : k ≤ 2 ^ 52) : |a - A| ≤ k / 2 ^ 52 * M :=
  h.2.trans (mul_le_mul_of_nonneg_right (pow_near k hk) h.nonneg)

end Rel

/-! ## Rounding is odd -/

theorem roundEven_neg (x : ℚ) : Sim.roundEven (-x) = -Sim.roundEven x := by
  unfold Sim.roundEven
  rcases eq_or_ne (x : ℚ) (⌊x⌋ : ℚ) with h | h
  · have hf : ⌊-x⌋ = -⌊x⌋ := by
      rw [h, Int.floor_intCast, ← Int.cast_neg, Int.floor_intCast]
    simp only [hf]
    push_cast
    rw [if_pos (by rw [← h]; norm_num), if_pos (by rw [← h]; norm_num)]
  · have hlt : (⌊x⌋ : ℚ) < x := lt_of_le_of_ne (Int.floor_le x) h.symm
    have hlt2 : x < ⌊x⌋ + 1 := Int.lt_floor_add_one x
    have hf : ⌊-x⌋ = -⌊x⌋ - 1 := by
      rw [Int.floor_eq_iff]; push_cast; constructor <;> linarith
    simp only [hf]
    push_cast
    have hodd : (-⌊x⌋ - 1) % 2 = 0 ↔ ¬ ⌊x⌋ % 2 = 0 := by omega
    rcases lt_trichotomy (x - ⌊x⌋) (1 / 2) with h1 | h1 | h1
    · rw [if_neg (by linarith), if_pos (by linarith), if_pos h1]; ring
    · have c1 : ¬ (-x - (-(⌊x⌋ : ℚ) - 1) < 1 / 2) := by linarith
      have c2 : ¬ (1 / 2 < -x - (-(⌊x⌋ : ℚ) - 1)) := by linarith
      have c3 : ¬ (x - ⌊x⌋ < 1 / 2) := by linarith
      have c4 : ¬ (1 / 2 < x - ⌊x⌋) := by linarith
      rw [if_neg c1, if_neg c2, if_neg c3, if_neg c4]
      split_ifs <;> omega
    · rw [if_pos (by linarith), if_neg (by linarith), if_pos h1]; ring

theorem roundTo_neg (b p : ℕ) (x : ℚ) : Sim.roundTo b p (-x) = -Sim.roundTo b p x := by
  unfold Sim.roundTo
  by_cases h : x = 0
  · simp [h]
  · rw [if_neg (by simpa using h), if_neg h]
    simp only [abs_neg, neg_div, roundEven_neg]
    push_cast; ring

theorem double_neg (x : ℚ) : Sim.double (-x) = -Sim.double x := roundTo_neg 2 53 x

end Verif
