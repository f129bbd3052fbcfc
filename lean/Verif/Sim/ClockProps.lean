import Verif.Sim.Clock
import Verif.Sim.Closed
import Verif.Sim.Invariant
import Verif.Sim.Toy
import Mathlib.Tactic.Linarith
import Mathlib.Tactic.NormNum
import Mathlib.Algebra.Order.Floor.Ring

/-!
# C134: the clock of the simulator in `Decimal` arithmetic
-/

namespace Verif
namespace Sim

/-! ## Rounding -/

theorem roundEven_int (m : ℤ) : roundEven (m : ℚ) = m := by
  simp [roundEven]

theorem roundEven_near (x : ℚ) : |(roundEven x : ℚ) - x| ≤ 1 / 2 := by
  have h1 := Int.floor_le x
  have h2 := Int.lt_floor_add_one x
  unfold roundEven
  simp only
  split_ifs with a b c
  · rw [abs_le]; constructor <;> linarith
  · push_cast; rw [abs_le]; constructor <;> linarith
  · rw [abs_le]; constructor <;> linarith
  · push_cast; rw [abs_le]; constructor <;> linarith

theorem roundTo_exact {b p : ℕ} (hb : 1 < b) (m q : ℤ) (hm : |(m : ℚ)| < (b : ℚ) ^ p) :
    roundTo b p (m * (b : ℚ) ^ q) = m * (b : ℚ) ^ q := by
  have hb0 : (0 : ℚ) < b := by exact_mod_cast (by omega : 0 < b)
  have hb1 : (1 : ℚ) < b := by exact_mod_cast hb
  unfold roundTo
  split_ifs with h
  · exact h.symm
  · obtain ⟨x, hx⟩ : ∃ x : ℚ, x = m * (b : ℚ) ^ q := ⟨_, rfl⟩
    rw [← hx] at h ⊢
    obtain ⟨L, hL⟩ : ∃ L, L = Int.log b |x| := ⟨_, rfl⟩
    simp only [← hL]
    have h1 : (b : ℚ) ^ L ≤ |x| := by rw [hL]; exact Int.zpow_log_le_self hb (abs_pos.mpr h)
    have h2 : |x| < (b : ℚ) ^ ((p : ℤ) + q) := by
      rw [hx, abs_mul, abs_of_pos (zpow_pos hb0 q), zpow_add₀ hb0.ne', zpow_natCast]
      exact mul_lt_mul_of_pos_right hm (zpow_pos hb0 q)
    have h3 : L < p + q := (zpow_lt_zpow_iff_right₀ hb1).mp (h1.trans_lt h2)
    obtain ⟨n, hn⟩ : ∃ n : ℕ, q = (L - (p - 1)) + n := ⟨(q - (L - (p - 1))).toNat, by omega⟩
    have h4 : x / (b : ℚ) ^ (L - ((p : ℤ) - 1)) = ((m * (b : ℤ) ^ n : ℤ) : ℚ) := by
      rw [hx, hn, zpow_add₀ hb0.ne', zpow_natCast]
      push_cast
      field_simp
    rw [h4, roundEven_int, ← h4]
    field_simp

theorem roundTo_near {b p : ℕ} (hb : 1 < b) (x : ℚ) :
    |roundTo b p x - x| ≤ |x| * (b : ℚ) ^ (1 - (p : ℤ)) / 2 := by
  have hb0 : (0 : ℚ) < b := by exact_mod_cast (by omega : 0 < b)
  unfold roundTo
  split_ifs with h
  · simp [h]
  · obtain ⟨L, hL⟩ : ∃ L, L = Int.log b |x| := ⟨_, rfl⟩
    simp only [← hL]
    have h1 : (b : ℚ) ^ L ≤ |x| := by rw [hL]; exact Int.zpow_log_le_self hb (abs_pos.mpr h)
    obtain ⟨E, hE⟩ : ∃ E : ℚ, E = (b : ℚ) ^ (L - ((p : ℤ) - 1)) := ⟨_, rfl⟩
    have hE0 : 0 < E := by rw [hE]; exact zpow_pos hb0 _
    rw [← hE]
    have h2 : (roundEven (x / E) : ℚ) * E - x = ((roundEven (x / E) : ℚ) - x / E) * E := by
      field_simp
    have h3 := mul_le_mul_of_nonneg_right (roundEven_near (x / E)) hE0.le
    have h4 : E ≤ |x| * (b : ℚ) ^ (1 - (p : ℤ)) := by
      have e : L - ((p : ℤ) - 1) = L + (1 - p) := by ring
      rw [hE, e, zpow_add₀ hb0.ne']
      exact mul_le_mul_of_nonneg_right h1 (zpow_pos hb0 _).le
    rw [h2, abs_mul, abs_of_pos hE0]
    linarith

/-- The nearest integer is at least as near as any other one; if another one is as near, it is even. -/
theorem roundEven_best (x : ℚ) (n : ℤ) :
    |x - roundEven x| ≤ |x - n| ∧ (|x - n| = |x - roundEven x| → n ≠ roundEven x → roundEven x % 2 = 0) := by
  have hn := roundEven_near x
  rw [abs_sub_comm] at hn
  by_cases he : n = roundEven x
  · subst he
    exact ⟨le_rfl, fun _ h => absurd rfl h⟩
  · have h1 : (1 : ℚ) ≤ |(n : ℚ) - roundEven x| := by
      have : (1 : ℤ) ≤ |n - roundEven x| := Int.one_le_abs (sub_ne_zero.mpr he)
      exact_mod_cast this
    have h2 : |(n : ℚ) - roundEven x| ≤ |x - n| + |x - roundEven x| := by
      have := abs_sub_le (n : ℚ) x (roundEven x)
      rwa [abs_sub_comm (n : ℚ) x] at this
    refine ⟨by linarith, fun heq _ => ?_⟩
    have h3 : |x - roundEven x| = 1 / 2 := by linarith
    have f1 := Int.floor_le x
    have f2 := Int.lt_floor_add_one x
    obtain ⟨r, hr⟩ : ∃ r, r = roundEven x := ⟨_, rfl⟩
    rw [← hr] at h3 ⊢
    unfold roundEven at hr
    simp only at hr
    split_ifs at hr with a b c
    · subst hr
      rw [abs_of_nonneg (by linarith)] at h3
      linarith
    · subst hr
      push_cast at h3
      rw [abs_of_nonpos (by linarith)] at h3
      linarith
    · subst hr
      exact c
    · subst hr
      omega

theorem roundEven_lower (x : ℚ) (n : ℤ) (h : (n : ℚ) ≤ |x|) : n ≤ |roundEven x| := by
  by_contra hc
  push Not at hc
  have hc' : |(roundEven x : ℚ)| < n := by exact_mod_cast hc
  obtain ⟨c1, c2⟩ := abs_lt.mp hc'
  rcases le_total 0 x with h0 | h0
  · have := (roundEven_best x n).1
    rw [abs_of_nonneg h0] at h
    rw [abs_of_nonneg (by linarith), abs_of_nonneg (by linarith)] at this
    linarith
  · have := (roundEven_best x (-n)).1
    rw [abs_of_nonpos h0] at h
    push_cast at this
    rw [abs_of_nonpos (by linarith), abs_of_nonpos (by linarith)] at this
    linarith

theorem roundEven_upper (x : ℚ) (n : ℤ) (h : |x| ≤ n) : |roundEven x| ≤ n := by
  obtain ⟨h1, h2⟩ := abs_le.mp h
  have a := (roundEven_best x n).1
  have b := (roundEven_best x (-n)).1
  push_cast at b
  rw [abs_of_nonpos (by linarith : x - (n : ℚ) ≤ 0)] at a
  rw [abs_of_nonneg (by linarith : 0 ≤ x - -(n : ℚ))] at b
  obtain ⟨a1, a2⟩ := abs_le.mp a
  obtain ⟨b1, b2⟩ := abs_le.mp b
  rw [abs_le]
  constructor
  · have : (-(n : ℚ)) ≤ roundEven x := by linarith
    exact_mod_cast this
  · have : (roundEven x : ℚ) ≤ n := by linarith
    exact_mod_cast this

/-- Specification: a number with at most `p` digits in base `b`. -/
def Digits (b p : ℕ) (y : ℚ) : Prop := ∃ m e : ℤ, |m| < (b : ℤ) ^ p ∧ y = m * (b : ℚ) ^ e

/-- Specification: `y` is `x` rounded to `p` digits in base `b`, half to even: it has at most `p` digits, no number with
at most `p` digits is nearer, and if another one is as near, the last of the `p` digits of `y` is even. -/
structure Rounded (b p : ℕ) (x y : ℚ) : Prop where
  digits : Digits b p y
  nearest : ∀ z, Digits b p z → |x - y| ≤ |x - z|
  even : ∀ z, Digits b p z → z ≠ y → |x - z| = |x - y| →
    ∃ m e : ℤ, y = (2 * m) * (b : ℚ) ^ e ∧ (b : ℤ) ^ (p - 1) ≤ |2 * m| ∧ |2 * m| < (b : ℤ) ^ p

theorem roundTo_rounded {b p : ℕ} (hb : 1 < b) (hev : 2 ∣ b) (hp2 : 2 ≤ p) (x : ℚ) : Rounded b p x (roundTo b p x) := by
  have hp : 0 < p := by omega
  have hb0 : (0 : ℚ) < b := by exact_mod_cast (by omega : 0 < b)
  have hb1 : (1 : ℚ) < b := by exact_mod_cast hb
  unfold roundTo
  split_ifs with h
  · subst h
    refine ⟨⟨0, 0, by simpa using pow_pos (by omega : 0 < (b : ℤ)) p, by simp⟩, fun z _ => by simp, fun z _ hz he => ?_⟩
    exact absurd (by simpa using he) hz
  · obtain ⟨L, hL⟩ : ∃ L, L = Int.log b |x| := ⟨_, rfl⟩
    simp only [← hL]
    have h1 : (b : ℚ) ^ L ≤ |x| := by rw [hL]; exact Int.zpow_log_le_self hb (abs_pos.mpr h)
    have h2 : |x| < (b : ℚ) ^ (L + 1) := by rw [hL]; exact Int.lt_zpow_succ_log_self hb _
    obtain ⟨e, he⟩ : ∃ e : ℤ, e = L - ((p : ℤ) - 1) := ⟨_, rfl⟩
    rw [← he]
    obtain ⟨E, hE⟩ : ∃ E : ℚ, E = (b : ℚ) ^ e := ⟨_, rfl⟩
    have hE0 : 0 < E := by rw [hE]; exact zpow_pos hb0 _
    rw [← hE]
    obtain ⟨q, hq⟩ : ∃ q, q = x / E := ⟨_, rfl⟩
    have hx : x = q * E := by rw [hq]; field_simp
    rw [← hq]
    obtain ⟨r, hr⟩ : ∃ r, r = roundEven q := ⟨_, rfl⟩
    rw [← hr]
    have hLe : (b : ℚ) ^ L = (b : ℚ) ^ (p - 1) * E := by
      rw [hE, ← zpow_natCast, ← zpow_add₀ hb0.ne']
      congr 1
      push_cast [Nat.cast_sub hp]
      omega
    have hLe' : (b : ℚ) ^ (L + 1) = (b : ℚ) ^ p * E := by
      rw [hE, ← zpow_natCast, ← zpow_add₀ hb0.ne']
      congr 1
      omega
    have q1 : (b : ℚ) ^ (p - 1) ≤ |q| := by
      rw [hLe, hx, abs_mul, abs_of_pos hE0] at h1
      exact le_of_mul_le_mul_right h1 hE0
    have q2 : |q| < (b : ℚ) ^ p := by
      rw [hLe', hx, abs_mul, abs_of_pos hE0] at h2
      exact lt_of_mul_lt_mul_right h2 hE0.le
    -- the bounds are integers, so that the rounded quotient lies within them
    have best := roundEven_best q
    rw [← hr] at best
    have r1 : (b : ℤ) ^ (p - 1) ≤ |r| := by
      rw [hr]
      refine roundEven_lower q _ ?_
      push_cast
      exact q1
    have r2 : |r| ≤ (b : ℤ) ^ p := by
      rw [hr]
      refine roundEven_upper q _ ?_
      push_cast
      exact q2.le
    have scale : ∀ t : ℚ, |x - t * E| = |q - t| * E := by
      intro t
      rw [hx, ← sub_mul, abs_mul, abs_of_pos hE0]
    -- a number with at most `p` digits is a multiple of `E`, or it is farther away than such a multiple
    have key : ∀ z, Digits b p z → (∃ n : ℤ, z = n * E) ∨ |x - r * E| < |x - z| := by
      rintro z ⟨m, f, hm, rfl⟩
      rcases le_or_gt e f with hf | hf
      · refine Or.inl ⟨m * (b : ℤ) ^ (f - e).toNat, ?_⟩
        push_cast
        rw [hE, mul_assoc, ← zpow_natCast, ← zpow_add₀ hb0.ne', Int.toNat_of_nonneg (by omega), sub_add_cancel]
      · refine Or.inr ?_
        obtain ⟨t, ht⟩ : ∃ t : ℚ, t = m * (b : ℚ) ^ f / E := ⟨_, rfl⟩
        have hz : (m : ℚ) * (b : ℚ) ^ f = t * E := by rw [ht]; field_simp
        rw [hz, scale, scale]
        refine mul_lt_mul_of_pos_right ?_ hE0
        have hm' : |(m : ℚ)| < (b : ℚ) ^ p := by exact_mod_cast hm
        have ht1 : |t| < (b : ℚ) ^ (p - 1) := by
          have hfe : (b : ℚ) ^ f * b ≤ E := by
            rw [hE, ← zpow_add_one₀ hb0.ne']
            exact zpow_le_zpow_right₀ hb1.le (by omega)
          have hpp : (b : ℚ) ^ p = (b : ℚ) ^ (p - 1) * b := by
            rw [← pow_succ]
            congr 1
            omega
          have hf0 : (0 : ℚ) < (b : ℚ) ^ f := zpow_pos hb0 _
          have : |t| * E < (b : ℚ) ^ (p - 1) * E := by
            calc |t| * E = |t * E| := by rw [abs_mul, abs_of_pos hE0]
              _ = |(m : ℚ)| * (b : ℚ) ^ f := by rw [← hz, abs_mul, abs_of_pos hf0]
              _ < (b : ℚ) ^ p * (b : ℚ) ^ f := mul_lt_mul_of_pos_right hm' hf0
              _ = (b : ℚ) ^ (p - 1) * ((b : ℚ) ^ f * b) := by rw [hpp]; ring
              _ ≤ _ := mul_le_mul_of_nonneg_left hfe (by positivity)
          exact lt_of_mul_lt_mul_right this hE0.le
        have hqt : |q| - |t| ≤ |q - t| := abs_sub_abs_le_abs_sub q t
        rcases le_total 0 q with hq0 | hq0
        · have := (best ((b : ℤ) ^ (p - 1))).1
          push_cast at this
          rw [abs_of_nonneg hq0] at q1 hqt
          rw [abs_of_nonneg (by linarith : (0 : ℚ) ≤ q - (b : ℚ) ^ (p - 1))] at this
          linarith
        · have := (best (-(b : ℤ) ^ (p - 1))).1
          push_cast at this
          rw [abs_of_nonpos hq0] at q1 hqt
          rw [abs_of_nonpos (by linarith : q - -(b : ℚ) ^ (p - 1) ≤ 0)] at this
          linarith
    refine ⟨?_, ?_, ?_⟩
    · rcases r2.lt_or_eq with hlt | heq
      · exact ⟨r, e, hlt, by rw [hE]⟩
      · have hbp : (1 : ℤ) < (b : ℤ) ^ p := one_lt_pow₀ (by exact_mod_cast hb) (by omega)
        rcases abs_eq (by positivity) |>.mp heq with hh | hh
        · refine ⟨1, p + e, by simpa using hbp, ?_⟩
          rw [hh, hE, zpow_add₀ hb0.ne']
          push_cast
          rw [zpow_natCast, one_mul]
        · refine ⟨-1, p + e, by simpa using hbp, ?_⟩
          rw [hh, hE, zpow_add₀ hb0.ne']
          push_cast
          rw [zpow_natCast]
          ring
    · intro z hz
      rcases key z hz with ⟨n, rfl⟩ | hlt
      · rw [scale, scale]
        exact mul_le_mul_of_nonneg_right (best n).1 hE0.le
      · exact hlt.le
    · intro z hz hne heq
      rcases key z hz with ⟨n, rfl⟩ | hlt
      · rw [scale, scale] at heq
        have h0 := (best n).2 (mul_right_cancel₀ hE0.ne' heq) (by rintro rfl; exact hne rfl)
        obtain ⟨c, hc⟩ : (2 : ℤ) ∣ r := Int.dvd_of_emod_eq_zero h0
        rcases r2.lt_or_eq with hlt' | heq'
        · refine ⟨c, e, by rw [hc, hE]; push_cast; ring, by rw [← hc]; exact r1, by rw [← hc]; exact hlt'⟩
        · obtain ⟨d, hd⟩ := hev
          obtain ⟨k, rfl⟩ : ∃ k, p = k + 2 := ⟨p - 2, by omega⟩
          have hb2 : (0 : ℤ) < b := by exact_mod_cast (by omega : 0 < b)
          have hcarry : 2 * ((d : ℤ) * (b : ℤ) ^ k) = (b : ℤ) ^ (k + 1) := by
            rw [pow_succ, show (b : ℤ) = 2 * d by exact_mod_cast hd]
            ring
          have hcq : 2 * ((d : ℚ) * (b : ℚ) ^ k) = (b : ℚ) ^ (k + 1) := by exact_mod_cast hcarry
          have hlt2 : (b : ℤ) ^ (k + 1) < (b : ℤ) ^ (k + 2) :=
            pow_lt_pow_right₀ (by exact_mod_cast hb) (by omega)
          rcases abs_eq (by positivity) |>.mp heq' with hh | hh
          · refine ⟨d * (b : ℤ) ^ k, e + 1, ?_, ?_, ?_⟩
            · rw [hh, hE, zpow_add_one₀ hb0.ne']
              push_cast
              rw [hcq]
              ring
            · rw [hcarry, abs_of_nonneg (by positivity)]
              exact le_rfl
            · rw [hcarry, abs_of_nonneg (by positivity)]
              exact hlt2
          · refine ⟨-(d * (b : ℤ) ^ k), e + 1, ?_, ?_, ?_⟩
            · rw [hh, hE, zpow_add_one₀ hb0.ne']
              push_cast
              rw [mul_neg, hcq]
              ring
            · rw [mul_neg, hcarry, abs_neg, abs_of_nonneg (by positivity)]
              exact le_rfl
            · rw [mul_neg, hcarry, abs_neg, abs_of_nonneg (by positivity)]
              exact hlt2
      · exact absurd heq hlt.ne'

/-- **C134.** What the rounding of the clock is: `Decimal` rounds the exact result of an operation to the nearest number
with 28 decimal digits, a float is the nearest number with 53 binary digits, both half to even. -/
theorem C134_rounding (x : ℚ) : Rounded 10 28 x (decimal x) ∧ Rounded 2 53 x (double x) :=
  ⟨roundTo_rounded (by norm_num) (by norm_num) (by norm_num) x,
    roundTo_rounded (by norm_num) (by norm_num) (by norm_num) x⟩

/-- A tie: the 28 digits of `10 ^ 28 + 5` are rounded down to the even one, those of `10 ^ 28 + 15` up. -/
example : decimal (10 ^ 28 + 5) = 10 ^ 28 ∧ decimal (10 ^ 28 + 15) = 10 ^ 28 + 20 := by
  decide +kernel

/-! ## What the parts of a step do to the times -/

section
variable {N K : Type} [DecidableEq N] [LinearOrder K] {Wd : World N K}

/-- Nothing that the timers depend on has changed. -/
def Kept (s s' : St Wd) : Prop :=
  s'.time = s.time ∧ s'.lastCmdTs = s.lastCmdTs ∧ s'.firstColl = s.firstColl ∧ s'.terminated = s.terminated

theorem Kept.refl (s : St Wd) : Kept s s := ⟨rfl, rfl, rfl, rfl⟩

theorem Kept.trans {s1 s2 s3 : St Wd} (h : Kept s1 s2) (h' : Kept s2 s3) : Kept s1 s3 :=
  ⟨h'.1.trans h.1, h'.2.1.trans h.2.1, h'.2.2.1.trans h.2.2.1, h'.2.2.2.trans h.2.2.2⟩

theorem kept_ask {s s' : St Wd} {n : N} (h : askPlayer s n = .ok s') : Kept s s' := by
  unfold askPlayer at h
  obtain ⟨⟨w1, o⟩, -, h⟩ := bind_ok.mp h
  obtain ⟨⟨w2, c, i⟩, -, h⟩ := bind_ok.mp h
  obtain ⟨lg, -, h⟩ := bind_ok.mp h
  obtain ⟨cs, -, h⟩ := bind_ok.mp h
  obtain ⟨is, -, h⟩ := bind_ok.mp h
  obtain ⟨⟨w3, ex⟩, -, h⟩ := bind_ok.mp h
  obtain ⟨es, -, h⟩ := bind_ok.mp h
  injection h with h
  subst h
  exact ⟨rfl, rfl, rfl, rfl⟩

theorem kept_pre [Sub K] {cfg : Cfg Wd} {s s' : St Wd} (h : preUpdate cfg s = .ok s') : Kept s s' := by
  unfold preUpdate at h
  split at h
  · obtain ⟨ps, -, h⟩ := bind_ok.mp h
    injection h with h
    subst h
    exact ⟨rfl, rfl, rfl, rfl⟩
  · injection h with h
    subst h
    exact Kept.refl _

theorem kept_player [Sub K] {cfg : Cfg Wd} {s s' : St Wd} {n : N} (h : updatePlayer cfg s n = .ok s') : Kept s s' := by
  unfold updatePlayer at h
  obtain ⟨m, -, h⟩ := bind_ok.mp h
  obtain ⟨lg, -, h⟩ := bind_ok.mp h
  obtain ⟨st, -, h⟩ := bind_ok.mp h
  dsimp only at h
  obtain ⟨s2, h2, h⟩ := bind_ok.mp h
  obtain ⟨c, -, h⟩ := bind_ok.mp h
  obtain ⟨m2, -, h⟩ := bind_ok.mp h
  obtain ⟨⟨w', m'⟩, -, h⟩ := bind_ok.mp h
  injection h with h
  subst h
  unfold maybeAsk at h2
  split at h2
  · obtain ⟨a, b, c, d⟩ := kept_ask h2
    exact ⟨a, b, c, d⟩
  · injection h2 with h2
    subst h2
    exact ⟨rfl, rfl, rfl, rfl⟩

theorem kept_players [Sub K] {cfg : Cfg Wd} (l : List N) : ∀ {s s' : St Wd}, updateLoop cfg s l = .ok s' → Kept s s' := by
  induction l with
  | nil =>
    intro s s' h
    injection h with h
    subst h
    exact Kept.refl _
  | cons n l ih =>
    intro s s' h
    obtain ⟨s1, h1, h⟩ := bind_ok.mp h
    exact (kept_player h1).trans (ih h)

theorem kept_removePlayer {s s' : St Wd} {p : N} {g : Wd.G} (h : removePlayer s p g = .ok s') : Kept s s' := by
  unfold removePlayer at h
  split at h
  · obtain ⟨m, -, h⟩ := bind_ok.mp h
    obtain ⟨⟨w', b⟩, -, h⟩ := bind_ok.mp h
    dsimp only at h
    split at h
    · obtain ⟨lg, -, h⟩ := bind_ok.mp h
      obtain ⟨states, -, h⟩ := bind_ok.mp h
      injection h with h
      subst h
      exact ⟨rfl, rfl, rfl, rfl⟩
    · injection h with h
      subst h
      exact ⟨rfl, rfl, rfl, rfl⟩
  · injection h with h
    subst h
    exact Kept.refl _

theorem kept_remove (l : Dict N Wd.G) : ∀ {s s' : St Wd}, removeLoop s l = .ok s' → Kept s s' := by
  induction l with
  | nil =>
    intro s s' h
    injection h with h
    subst h
    exact Kept.refl _
  | cons n l ih =>
    obtain ⟨p, g⟩ := n
    intro s s' h
    obtain ⟨s1, h1, h⟩ := bind_ok.mp h
    exact (kept_removePlayer h1).trans (ih h)

/-- Nothing has changed but that a first collision may be noted at the present time. -/
def Noted (s s' : St Wd) : Prop :=
  s'.time = s.time ∧ s'.lastCmdTs = s.lastCmdTs ∧ s'.terminated = s.terminated ∧
    (s'.firstColl = s.firstColl ∨ s'.firstColl = some s.time)

theorem Noted.refl (s : St Wd) : Noted s s := ⟨rfl, rfl, rfl, Or.inl rfl⟩

theorem Noted.trans {s1 s2 s3 : St Wd} (h : Noted s1 s2) (h' : Noted s2 s3) : Noted s1 s3 := by
  refine ⟨h'.1.trans h.1, h'.2.1.trans h.2.1, h'.2.2.1.trans h.2.2.1, ?_⟩
  rcases h'.2.2.2 with e | e
  · rw [e]; exact h.2.2.2
  · rw [e, h.1]; exact Or.inr rfl

theorem noted_record {s s1 : St Wd} (h : Kept s s1) (r : Report Wd) (hr : r.atTime = s.time) :
    Noted s (recordReport s1 r) := by
  refine ⟨h.1, h.2.1, h.2.2.2, ?_⟩
  simp only [recordReport, hr, ← h.2.2.1]
  cases s1.firstColl with
  | none => exact Or.inr rfl
  | some t =>
    simp only
    split
    · exact Or.inr rfl
    · exact Or.inl rfl

theorem reportOf_time {ps qs : List N} {t : K} {x : Except Err (Option Wd.D)} {rep : Report Wd}
    (h : reportOf ps qs t x = .ok (some rep)) : rep.atTime = t := by
  unfold reportOf at h
  split at h <;> cases h <;> rfl

theorem noted_obstacle {s s' : St Wd} {p : N} {o : Wd.O} (h : envObstacle s p o = .ok s') : Noted s s' := by
  unfold envObstacle at h
  obtain ⟨m, hm, h⟩ := bind_ok.mp h
  obtain ⟨rep, hr, h⟩ := bind_ok.mp h
  injection h with h
  subst h
  cases rep with
  | none => exact ⟨rfl, rfl, rfl, Or.inl rfl⟩
  | some rep =>
    dsimp only
    split
    · exact noted_record ⟨rfl, rfl, rfl, rfl⟩ rep (reportOf_time hr)
    · exact ⟨rfl, rfl, rfl, Or.inl rfl⟩

theorem noted_obstacles {p : N} (l : List Wd.O) : ∀ {s s' : St Wd}, envObstacles p s l = .ok s' → Noted s s' := by
  induction l with
  | nil =>
    intro s s' h
    injection h with h
    subst h
    exact Noted.refl _
  | cons o l ih =>
    intro s s' h
    obtain ⟨s1, h1, h⟩ := bind_ok.mp h
    exact (noted_obstacle h1).trans (ih h)

theorem noted_env (l : List N) : ∀ {s s' : St Wd}, envLoop s l = .ok s' → Noted s s' := by
  induction l with
  | nil =>
    intro s s' h
    injection h with h
    subst h
    exact Noted.refl _
  | cons p l ih =>
    intro s s' h
    obtain ⟨m, -, h⟩ := bind_ok.mp h
    obtain ⟨s1, h1, h⟩ := bind_ok.mp h
    obtain ⟨a, b, c, d⟩ := noted_obstacles _ h1
    exact Noted.trans ⟨a, b, c, d⟩ (ih h)

theorem noted_pair {s s' : St Wd} {a b : N} (h : checkPair s a b = .ok s') : Noted s s' := by
  unfold checkPair at h
  obtain ⟨m1, h1, h⟩ := bind_ok.mp h
  obtain ⟨m2, h2, h⟩ := bind_ok.mp h
  dsimp only at h
  split at h
  · obtain ⟨rep, hr, h⟩ := bind_ok.mp h
    injection h with h
    subst h
    cases rep with
    | none => exact ⟨rfl, rfl, rfl, Or.inl rfl⟩
    | some rep => exact noted_record ⟨rfl, rfl, rfl, rfl⟩ rep (reportOf_time hr)
  · injection h with h
    subst h
    exact ⟨rfl, rfl, rfl, Or.inl rfl⟩

theorem noted_pairs (l : List (N × N)) : ∀ {s s' : St Wd}, pairLoop s l = .ok s' → Noted s s' := by
  induction l with
  | nil =>
    intro s s' h
    injection h with h
    subst h
    exact Noted.refl _
  | cons p l ih =>
    obtain ⟨a, b⟩ := p
    intro s s' h
    obtain ⟨s1, h1, h⟩ := bind_ok.mp h
    exact (noted_pair h1).trans (ih h)

/-- What a step does to the times, in any arithmetic: the clock moves by `dt`; the last request stays or is the
present time; the first collision stays or is the new time; the timers expire as the maximal time says. -/
theorem times_step [Add K] [Sub K] {cfg : Cfg Wd} {s s' : St Wd} (h : step cfg s = .ok s') :
    s'.time = s.time + cfg.dt ∧
      s'.lastCmdTs = (if need cfg s then some s.time else s.lastCmdTs) ∧
      (s'.firstColl = s.firstColl ∨ s'.firstColl = some s'.time) ∧
      (s'.terminated = false → s'.time ≤ cfg.maxSimTime) := by
  obtain ⟨s1, h1, h⟩ := bind_ok.mp h
  obtain ⟨s2, h2, h⟩ := bind_ok.mp h
  have k1 := kept_pre h1
  obtain ⟨s2', h2', h2⟩ := bind_ok.mp h2
  have k2 := k1.trans (kept_players _ h2')
  have hneed : need cfg s2' = need cfg s := by unfold need; rw [k2.1, k2.2.1]
  injection h2 with h2
  rw [hneed, k1.1] at h2
  have t2 : s2.time = s.time := by rw [← h2]; split <;> exact k2.1
  have l2 : s2.lastCmdTs = if need cfg s then some s.time else s.lastCmdTs := by
    rw [← h2]
    cases need cfg s with
    | true => rfl
    | false => exact k2.2.1
  have f2 : s2.firstColl = s.firstColl := by rw [← h2]; split <;> exact k2.2.2.1
  unfold postUpdate at h
  dsimp only at h
  obtain ⟨s3, h3, h⟩ := bind_ok.mp h
  obtain ⟨a3, b3, c3, d3⟩ := kept_remove _ h3
  dsimp only at a3 b3 c3 d3 h
  split at h
  · rename_i ht
    injection h with h
    subst h
    refine ⟨by rw [← t2]; exact a3, by rw [← l2]; exact b3, Or.inl (by rw [← f2]; exact c3), fun hf => ?_⟩
    rw [ht] at hf
    cases hf
  · rename_i ht
    obtain ⟨s4, h4, h⟩ := bind_ok.mp h
    obtain ⟨a4, b4, c4, d4⟩ := (noted_env _ h4).trans (noted_pairs _ h)
    dsimp only at a4 b4 c4 d4
    refine ⟨by rw [a4, a3, t2], by rw [b4, b3, l2], ?_, fun _ => ?_⟩
    · rw [a4]
      rcases d4 with e | e
      · exact Or.inl (by rw [e, c3, f2])
      · exact Or.inr e
    · by_contra hn
      have hlt : cfg.maxSimTime < s3.time := by rw [← a4]; exact not_le.mp hn
      apply ht
      simp [terminationCondition, hlt]

end

/-! ## Rounded and exact steps -/

section
variable {N : Type} [DecidableEq N] {Wd : World N ℚ} {rnd : ℚ → ℚ} {cfg : Cfg Wd}

theorem needR_kept {s s' : St Wd} (h : Kept s s') (hn : needR rnd cfg s = need cfg s) :
    needR rnd cfg s' = need cfg s' := by
  have e1 : needR rnd cfg s' = needR rnd cfg s := by unfold needR need; rw [h.1, h.2.1]
  have e2 : need cfg s' = need cfg s := by unfold need; rw [h.1, h.2.1]
  rw [e1, e2, hn]

theorem preR_eq {s : St Wd} (hn : needR rnd cfg s = need cfg s) :
    @preUpdate _ _ _ _ _ (subR rnd) cfg s = preUpdate cfg s := by
  unfold preUpdate
  have : @need _ _ _ _ (subR rnd) cfg s = need cfg s := hn
  rw [this]

theorem playerR_eq {s : St Wd} {n : N} (hn : needR rnd cfg s = need cfg s) :
    @updatePlayer _ _ _ _ _ (subR rnd) cfg s n = updatePlayer cfg s n := by
  unfold updatePlayer maybeAsk
  have : ∀ L, @need _ _ _ _ (subR rnd) cfg ({ s with logger := L } : St Wd) = need cfg ({ s with logger := L } : St Wd) :=
    fun L => needR_kept (s := s) ⟨rfl, rfl, rfl, rfl⟩ hn
  simp only [this]

theorem playersR_eq (l : List N) : ∀ {s : St Wd}, needR rnd cfg s = need cfg s →
    @updateLoop _ _ _ _ _ (subR rnd) cfg s l = updateLoop cfg s l := by
  induction l with
  | nil => intro s _; rfl
  | cons n l ih =>
    intro s hn
    unfold updateLoop
    rw [playerR_eq hn]
    cases h : updatePlayer cfg s n with
    | error e => rfl
    | ok s1 => exact ih (needR_kept (kept_player h) hn)

theorem updateR_eq {s : St Wd} (hn : needR rnd cfg s = need cfg s) :
    @update _ _ _ _ _ (subR rnd) cfg s = update cfg s := by
  unfold update
  rw [playersR_eq _ hn]
  cases h : updateLoop cfg s s.players with
  | error e => rfl
  | ok s1 =>
    have : @need _ _ _ _ (subR rnd) cfg s1 = need cfg s1 := needR_kept (kept_players _ h) hn
    simp only [bind, Except.bind, this]

theorem postR_eq {s : St Wd} (ht : rnd (s.time + cfg.dt) = s.time + cfg.dt)
    (hf : ∀ t, s.firstColl = some t → rnd (t + cfg.afterCollision) = t + cfg.afterCollision) :
    @postUpdate _ _ _ _ _ (addR rnd) cfg s = postUpdate cfg s := by
  unfold postUpdate
  have e : @HAdd.hAdd ℚ ℚ ℚ (@instHAdd ℚ (addR rnd)) s.time cfg.dt = s.time + cfg.dt := ht
  simp only [e]
  cases h : removeLoop ({ s with time := s.time + cfg.dt } : St Wd) cfg.missions with
  | error e => rfl
  | ok s2 =>
    obtain ⟨a, b, c, d⟩ := kept_remove _ h
    have e2 : @terminationCondition _ _ _ _ _ (addR rnd) cfg s2 = terminationCondition cfg s2 := by
      unfold terminationCondition collTimer
      rw [show s2.firstColl = s.firstColl from c]
      cases hfc : s.firstColl with
      | none => rfl
      | some t =>
        have e3 : @HAdd.hAdd ℚ ℚ ℚ (@instHAdd ℚ (addR rnd)) t cfg.afterCollision = t + cfg.afterCollision := hf t hfc
        simp only [e3]
    simp only [bind, Except.bind, e2]

theorem stepR_eq {s : St Wd} (hn : needR rnd cfg s = need cfg s) (ht : rnd (s.time + cfg.dt) = s.time + cfg.dt)
    (hf : ∀ t, s.firstColl = some t → rnd (t + cfg.afterCollision) = t + cfg.afterCollision) :
    stepR rnd cfg s = step cfg s := by
  unfold stepR step
  rw [preR_eq hn]
  cases h : preUpdate cfg s with
  | error e => rfl
  | ok s1 =>
    have k1 := kept_pre h
    simp only [bind, Except.bind]
    rw [updateR_eq (needR_kept k1 hn)]
    cases h2 : update cfg s1 with
    | error e => rfl
    | ok s2 =>
      obtain ⟨s2', h2', h2⟩ := bind_ok.mp h2
      have k2 := k1.trans (kept_players _ h2')
      injection h2 with h2
      have t2 : s2.time = s.time := by rw [← h2]; split <;> exact k2.1
      have f2 : s2.firstColl = s.firstColl := by rw [← h2]; split <;> exact k2.2.2.1
      exact postR_eq (by rw [t2]; exact ht) (by rw [f2]; exact hf)

/-- Where the times of a state lie when they are multiples of `u`. -/
structure OnGrid (u : ℚ) (cfg : Cfg Wd) (s : St Wd) : Prop where
  time : ∃ k : ℤ, s.time = k * u
  nonneg : 0 ≤ s.time
  upper : s.terminated = false → s.time ≤ max 0 cfg.maxSimTime
  last : ∀ t, s.lastCmdTs = some t → (∃ k : ℤ, t = k * u) ∧ 0 ≤ t ∧ t ≤ s.time
  first : ∀ t, s.firstColl = some t → (∃ k : ℤ, t = k * u) ∧ 0 ≤ t ∧ t ≤ s.time

theorem OnGrid.step {u : ℚ} {s s' : St Wd} (h : OnGrid u cfg s) (hdt : 0 < cfg.dt) (hu : ∃ k : ℤ, cfg.dt = k * u)
    (hs : step cfg s = .ok s') : OnGrid u cfg s' := by
  obtain ⟨a, b, c, d⟩ := times_step hs
  obtain ⟨k, hk⟩ := h.time
  obtain ⟨m, hm⟩ := hu
  have hle : s.time ≤ s'.time := by rw [a]; linarith
  have hgrid : ∃ k : ℤ, s'.time = k * u := ⟨k + m, by rw [a, hk, hm]; push_cast; ring⟩
  refine ⟨hgrid, h.nonneg.trans hle, fun hf => (d hf).trans (le_max_right _ _), fun t ht => ?_, fun t ht => ?_⟩
  · rw [b] at ht
    split at ht
    · cases ht
      exact ⟨h.time, h.nonneg, hle⟩
    · obtain ⟨h1, h2, h3⟩ := h.last t ht
      exact ⟨h1, h2, h3.trans hle⟩
  · rcases c with e | e
    · obtain ⟨h1, h2, h3⟩ := h.first t (by rw [← e]; exact ht)
      exact ⟨h1, h2, h3.trans hle⟩
    · rw [e] at ht
      cases ht
      exact ⟨hgrid, h.nonneg.trans hle, le_refl _⟩

/-- Rounding changes no multiple of `u` up to `B`. -/
def ExactUpTo (rnd : ℚ → ℚ) (u B : ℚ) : Prop := ∀ k : ℤ, |(k : ℚ) * u| ≤ B → rnd (k * u) = k * u

theorem OnGrid.stepR {u B : ℚ} {s : St Wd} (h : OnGrid u cfg s) (hrun : s.terminated = false) (hdt : 0 < cfg.dt)
    (hu : ∃ k : ℤ, cfg.dt = k * u) (ha : ∃ k : ℤ, cfg.afterCollision = k * u) (hex : ExactUpTo rnd u B)
    (hB : max 0 cfg.maxSimTime + cfg.dt + |cfg.afterCollision| ≤ B) : Sim.stepR rnd cfg s = Sim.step cfg s := by
  obtain ⟨k, hk⟩ := h.time
  obtain ⟨m, hm⟩ := hu
  obtain ⟨c, hc⟩ := ha
  have h1 := h.upper hrun
  have h0 := h.nonneg
  have habs := abs_nonneg cfg.afterCollision
  obtain ⟨ha1, ha2⟩ := abs_le.mp (le_refl |cfg.afterCollision|)
  have hM : 0 ≤ max 0 cfg.maxSimTime := le_max_left _ _
  refine stepR_eq ?_ ?_ ?_
  · unfold needR need
    cases hl : s.lastCmdTs with
    | none => rfl
    | some t =>
      obtain ⟨⟨j, hj⟩, h2, h3⟩ := h.last t hl
      have e : @HSub.hSub ℚ ℚ ℚ (@instHSub ℚ (subR rnd)) s.time t = s.time - t := by
        show rnd (s.time - t) = s.time - t
        have e1 : s.time - t = ((k - j : ℤ) : ℚ) * u := by rw [hk, hj]; push_cast; ring
        rw [e1]
        refine hex _ ?_
        rw [← e1, abs_le]
        constructor <;> linarith
      simp only [e]
  · have e1 : s.time + cfg.dt = ((k + m : ℤ) : ℚ) * u := by rw [hk, hm]; push_cast; ring
    rw [e1]
    refine hex _ ?_
    rw [← e1, abs_le]
    constructor <;> linarith
  · intro t ht
    obtain ⟨⟨j, hj⟩, h2, h3⟩ := h.first t ht
    have e1 : t + cfg.afterCollision = ((j + c : ℤ) : ℚ) * u := by rw [hj, hc]; push_cast; ring
    rw [e1]
    refine hex _ ?_
    rw [← e1, abs_le]
    constructor <;> linarith

theorem OnGrid.loopR {u B : ℚ} (hdt : 0 < cfg.dt)
    (hu : ∃ k : ℤ, cfg.dt = k * u) (ha : ∃ k : ℤ, cfg.afterCollision = k * u) (hex : ExactUpTo rnd u B)
    (hB : max 0 cfg.maxSimTime + cfg.dt + |cfg.afterCollision| ≤ B) (fuel : Nat) : ∀ {s : St Wd}, OnGrid u cfg s →
    @loop _ _ _ _ _ (addR rnd) (subR rnd) cfg fuel s = loop cfg fuel s := by
  induction fuel with
  | zero => intro s _; rfl
  | succ n ih =>
    intro s h
    unfold loop
    cases hrun : s.terminated with
    | true => rfl
    | false =>
      have e := h.stepR hrun hdt hu ha hex hB
      unfold Sim.stepR at e
      rw [if_neg (by simp), if_neg (by simp), e]
      cases hs : Sim.step cfg s with
      | error e => rfl
      | ok s' => exact ih (h.step hdt hu hs)

theorem kept_init (l : List N) : ∀ {s s' : St Wd}, initLoop s l = .ok s' → Kept s s' := by
  induction l with
  | nil =>
    intro s s' h
    injection h with h
    subst h
    exact Kept.refl _
  | cons n l ih =>
    intro s s' h
    obtain ⟨m, -, h⟩ := bind_ok.mp h
    obtain ⟨w', -, h⟩ := bind_ok.mp h
    obtain ⟨a, b, c, d⟩ := ih h
    exact ⟨a, b, c, d⟩

/-- **C134.** When the time step and the time after a collision are multiples of a unit whose multiples are not
changed by rounding up to the length of the simulation, a run with rounded times is the run with exact times. -/
theorem C134_exact (rnd : ℚ → ℚ) (u B : ℚ) (hex : ExactUpTo rnd u B) (cfg : Cfg Wd) (hdt : 0 < cfg.dt)
    (hu : ∃ k : ℤ, cfg.dt = k * u) (ha : ∃ k : ℤ, cfg.afterCollision = k * u)
    (hB : max 0 cfg.maxSimTime + cfg.dt + |cfg.afterCollision| ≤ B) (s : St Wd) (hs : Fresh s) (fuel : Nat)
    (log : Dict N (PlayerLog Wd)) : runR rnd cfg fuel s log = run cfg fuel s log := by
  unfold runR run
  cases h : initLoop s s.players with
  | error e => rfl
  | ok s1 =>
    obtain ⟨a, b, c, d⟩ := kept_init _ h
    have hg : OnGrid u cfg s1 := by
      refine ⟨⟨0, by rw [a, hs.time]; simp⟩, by rw [a, hs.time], fun _ => by rw [a, hs.time]; exact le_max_left _ _,
        fun t ht => ?_, fun t ht => ?_⟩
      · rw [b, hs.lastCmdTs] at ht; cases ht
      · rw [c, hs.firstColl] at ht; cases ht
    simp only [hg.loopR hdt hu ha hex hB fuel]

/-- **C134.** `Decimal`: with a time step and a time after collisions that have at most `-q` digits behind the point
(multiples of `10 ^ q`), and a simulation shorter than `10 ^ (28 + q)`, the rounding of `Decimal` changes nothing. -/
theorem C134_decimal (q : ℤ) (cfg : Cfg Wd) (hdt : 0 < cfg.dt)
    (hu : ∃ k : ℤ, cfg.dt = k * (10 : ℚ) ^ q) (ha : ∃ k : ℤ, cfg.afterCollision = k * (10 : ℚ) ^ q)
    (hB : max 0 cfg.maxSimTime + cfg.dt + |cfg.afterCollision| < (10 : ℚ) ^ (28 + q)) (s : St Wd) (hs : Fresh s)
    (fuel : Nat) (log : Dict N (PlayerLog Wd)) : runR decimal cfg fuel s log = run cfg fuel s log := by
  refine C134_exact decimal ((10 : ℚ) ^ q) _ (fun k hk => ?_) cfg hdt hu ha le_rfl s hs fuel log
  have hp : (0 : ℚ) < 10 ^ q := zpow_pos (by norm_num) q
  have h1 := hk.trans_lt hB
  rw [abs_mul, abs_of_pos hp, zpow_add₀ (by norm_num)] at h1
  have h2 := lt_of_mul_lt_mul_right h1 hp.le
  have := roundTo_exact (b := 10) (p := 28) (by norm_num) k q (by exact_mod_cast h2)
  exact_mod_cast this

/-- **C134.** Floats: the same for binary digits. -/
theorem C134_double (q : ℤ) (cfg : Cfg Wd) (hdt : 0 < cfg.dt)
    (hu : ∃ k : ℤ, cfg.dt = k * (2 : ℚ) ^ q) (ha : ∃ k : ℤ, cfg.afterCollision = k * (2 : ℚ) ^ q)
    (hB : max 0 cfg.maxSimTime + cfg.dt + |cfg.afterCollision| < (2 : ℚ) ^ (53 + q)) (s : St Wd) (hs : Fresh s)
    (fuel : Nat) (log : Dict N (PlayerLog Wd)) : runR double cfg fuel s log = run cfg fuel s log := by
  refine C134_exact double ((2 : ℚ) ^ q) _ (fun k hk => ?_) cfg hdt hu ha le_rfl s hs fuel log
  have hp : (0 : ℚ) < 2 ^ q := zpow_pos (by norm_num) q
  have h1 := hk.trans_lt hB
  rw [abs_mul, abs_of_pos hp, zpow_add₀ (by norm_num)] at h1
  have h2 := lt_of_mul_lt_mul_right h1 hp.le
  have := roundTo_exact (b := 2) (p := 53) (by norm_num) k q (by exact_mod_cast h2)
  exact_mod_cast this

/-- Executions with rounded times. -/
def ExecR (rnd : ℚ → ℚ) (cfg : Cfg Wd) (σ : Nat → St Wd) (j : Nat) : Prop :=
  ∀ i, i < j → (σ i).terminated = false ∧ Sim.stepR rnd cfg (σ i) = .ok (σ (i + 1))

theorem timeR {rnd : ℚ → ℚ} {s s' : St Wd} (h : Sim.stepR rnd cfg s = .ok s') :
    s'.time = rnd (s.time + cfg.dt) ∧ s'.lastCmdTs = (if needR rnd cfg s then some s.time else s.lastCmdTs) ∧
      (s'.terminated = false → s'.time ≤ cfg.maxSimTime) := by
  obtain ⟨a, b, -, d⟩ := @times_step _ _ _ _ _ (addR rnd) (subR rnd) cfg s s' h
  exact ⟨a, b, d⟩

theorem decimal_near (x : ℚ) : |decimal x - x| ≤ |x| / (2 * 10 ^ 27) := by
  have h := roundTo_near (b := 10) (p := 28) (by norm_num) x
  have e : ((10 : ℕ) : ℚ) ^ (1 - ((28 : ℕ) : ℤ)) = 1 / 10 ^ 27 := by norm_num [zpow_neg]
  rw [e] at h
  unfold decimal
  refine h.trans (le_of_eq ?_)
  ring

/-- **C134.** Whatever the digits of the time step: after `k` steps the clock differs from `k` time steps by at most
`k² / 10²⁷` of one, and it has advanced in every step. -/
theorem C134_drift (cfg : Cfg Wd) (hdt : 0 < cfg.dt) (σ : Nat → St Wd) (j : Nat) (h0 : (σ 0).time = 0)
    (hex : ExecR decimal cfg σ j) (hj : j ≤ 10 ^ 26) :
    (∀ k ≤ j, |(σ k).time - k * cfg.dt| ≤ (k : ℚ) ^ 2 * cfg.dt / 10 ^ 27) ∧
      ∀ k < j, (σ k).time < (σ (k + 1)).time := by
  have hstep : ∀ k < j, ∀ t : ℚ, (σ k).time = t → |t - k * cfg.dt| ≤ (k : ℚ) ^ 2 * cfg.dt / 10 ^ 27 →
      |(σ (k + 1)).time - (t + cfg.dt)| ≤ (k + 1) * cfg.dt / 10 ^ 27 := by
    intro k hk t ht he
    rw [(timeR (hex k hk).2).1, ht]
    refine (decimal_near _).trans ?_
    have hk' : (k : ℚ) ≤ 10 ^ 26 := by exact_mod_cast (by omega : k ≤ 10 ^ 26)
    have hk0 : (0 : ℚ) ≤ k := by positivity
    have hsq : (k : ℚ) ^ 2 * cfg.dt / 10 ^ 27 ≤ k * cfg.dt := by
      rw [div_le_iff₀ (by positivity)]
      have h1 : (k : ℚ) * k ≤ k * 10 ^ 27 := mul_le_mul_of_nonneg_left (by linarith) hk0
      have h2 := mul_le_mul_of_nonneg_right h1 hdt.le
      nlinarith
    obtain ⟨h1, h2⟩ := abs_le.mp (he.trans hsq)
    have h3 : |t + cfg.dt| ≤ 2 * ((k + 1) * cfg.dt) := by
      have : 0 ≤ (k : ℚ) * cfg.dt := by positivity
      rw [abs_le]
      constructor <;> linarith
    rw [div_le_div_iff₀ (by positivity) (by positivity)]
    linarith
  have hd : ∀ k ≤ j, |(σ k).time - k * cfg.dt| ≤ (k : ℚ) ^ 2 * cfg.dt / 10 ^ 27 := by
    intro k
    induction k with
    | zero => intro _; simp [h0]
    | succ k ih =>
      intro hk
      have h1 := ih (by omega)
      have h2 := hstep k (by omega) _ rfl h1
      have e : (σ (k + 1)).time - ((k + 1 : ℕ) : ℚ) * cfg.dt =
          ((σ (k + 1)).time - ((σ k).time + cfg.dt)) + ((σ k).time - k * cfg.dt) := by
        push_cast; ring
      rw [e]
      refine (abs_add_le _ _).trans ((add_le_add h2 h1).trans ?_)
      rw [← add_div, div_le_div_iff_of_pos_right (by positivity)]
      push_cast
      have : 0 ≤ (k : ℚ) * cfg.dt := by positivity
      nlinarith
  refine ⟨hd, fun k hk => ?_⟩
  have h2 := hstep k hk _ rfl (hd k hk.le)
  have h3 : ((k : ℚ) + 1) * cfg.dt / 10 ^ 27 < cfg.dt := by
    rw [div_lt_iff₀ (by positivity)]
    have hk' : (k : ℚ) + 1 ≤ 10 ^ 26 := by exact_mod_cast (by omega : k + 1 ≤ 10 ^ 26)
    have := mul_le_mul_of_nonneg_right hk' hdt.le
    nlinarith
  have := (abs_le.mp h2).1
  linarith

/-- **C134.** Runs with rounded times end: the number of steps is bounded nearly as with exact times. -/
theorem C134_ends (cfg : Cfg Wd) (hdt : 0 < cfg.dt) (σ : Nat → St Wd) (j : Nat) (h0 : (σ 0).time = 0)
    (hex : ExecR decimal cfg σ (j + 1)) (hj : j + 1 ≤ 10 ^ 26) :
    (j : ℚ) * cfg.dt * (1 - j / 10 ^ 27) ≤ max 0 cfg.maxSimTime := by
  rcases Nat.eq_zero_or_pos j with rfl | hpos
  · simp
  · obtain ⟨i, rfl⟩ : ∃ i, j = i + 1 := ⟨j - 1, by omega⟩
    have h1 := (timeR (hex i (by omega)).2).2.2 (hex (i + 1) (by omega)).1
    have h2 := (abs_le.mp ((C134_drift cfg hdt σ (i + 1 + 1) h0 hex hj).1 (i + 1) (by omega))).1
    have h3 := le_max_right 0 cfg.maxSimTime
    have e : ((i + 1 : ℕ) : ℚ) * cfg.dt * (1 - ((i + 1 : ℕ) : ℚ) / 10 ^ 27) =
        ((i + 1 : ℕ) : ℚ) * cfg.dt - ((i + 1 : ℕ) : ℚ) ^ 2 * cfg.dt / 10 ^ 27 := by ring
    rw [e]
    linarith

/-- The float nearest to 0.1, which is the value of `SimTime(0.1)`. -/
def floatTenth : ℚ := 3602879701896397 / 36028797018963968

/-- **C134, negative.** With `dt = dt_commands = SimTime(0.1)` the agents are to be asked in every step, and are with
exact times; with `Decimal` they are not asked in the second step, because the clock is rounded to less than
`dt_commands`. -/
theorem C134_false_float (cfg : Cfg Wd) (h1 : cfg.dt = floatTenth) (h2 : cfg.dtCommands = floatTenth) (s : St Wd)
    (hs : Fresh s) :
    (∀ σ : Nat → St Wd, σ 0 = s → ∀ j, Exec cfg σ j → ∀ k ≤ j, need cfg (σ k) = true) ∧
      (∀ s1, Sim.stepR decimal cfg s = .ok s1 → needR decimal cfg s1 = false) ∧
      (∀ s1 s2, Sim.stepR decimal cfg s = .ok s1 → Sim.stepR decimal cfg s1 = .ok s2 →
        needR decimal cfg s2 = true) := by
  have c1 : decimal (0 + floatTenth) = 1000000000000000055511151231 / 10 ^ 28 := by decide +kernel
  have hfresh : needR decimal cfg s = true := by unfold needR need; rw [hs.lastCmdTs]
  have hone : ∀ s1, Sim.stepR decimal cfg s = .ok s1 → s1.time = 1000000000000000055511151231 / 10 ^ 28 ∧
      s1.lastCmdTs = some 0 ∧ needR decimal cfg s1 = false := by
    intro s1 e1
    obtain ⟨a, b, -⟩ := timeR e1
    rw [hs.time, h1, c1] at a
    rw [hfresh, if_pos rfl, hs.time] at b
    refine ⟨a, b, ?_⟩
    unfold needR need
    rw [b, a, h2]
    decide +kernel
  refine ⟨?_, fun s1 e1 => (hone s1 e1).2.2, ?_⟩
  · intro σ h0 j hj k hk
    induction k with
    | zero => unfold need; rw [h0, hs.lastCmdTs]
    | succ k ih =>
      obtain ⟨a, b, -, -⟩ := times_step (hj k (by omega)).2
      rw [ih (by omega), if_pos rfl] at b
      unfold need
      rw [b, a, h1, h2]
      simp
  · intro s1 s2 e1 e2
    obtain ⟨t1, l1, n1⟩ := hone s1 e1
    obtain ⟨a, b, -⟩ := timeR e2
    rw [n1, if_neg (by simp), l1] at b
    rw [t1, h1] at a
    unfold needR need
    rw [b, a, h2]
    decide +kernel

end

/-- The steps of the default parameters (0.05 s and 0 s after a collision, six seconds). -/
example (s : St Toy.wd) (hs : Fresh s) (fuel : Nat) (log : Dict Nat (PlayerLog Toy.wd)) :
    runR decimal ⟨5 / 100, 1 / 10, 6, 0, []⟩ fuel s log = run ⟨5 / 100, 1 / 10, 6, 0, []⟩ fuel s log :=
  C134_decimal (-2) _ (by norm_num) ⟨5, by norm_num⟩ ⟨0, by norm_num⟩ (by norm_num) s hs fuel log
example (s : St Toy.wd) (hs : Fresh s) (fuel : Nat) (log : Dict Nat (PlayerLog Toy.wd)) :
    runR double ⟨1 / 16, 1 / 8, 6, 0, []⟩ fuel s log = run ⟨1 / 16, 1 / 8, 6, 0, []⟩ fuel s log :=
  C134_double (-4) _ (by norm_num) ⟨1, by norm_num⟩ ⟨0, by norm_num⟩ (by norm_num) s hs fuel log

/-- The small world with steps of `SimTime(0.1)`, in which agents are not asked in the second step. -/
def tenth : Cfg Toy.wd := ⟨floatTenth, floatTenth, 6, 0, []⟩

/-- Its states with rounded times. -/
def Toy.ρ : Nat → St Toy.wd
  | 0 => Toy.σ 0
  | j + 1 => Toy.orElse (Toy.ρ j) (stepR decimal tenth (Toy.ρ j))

theorem Toy.execR : ExecR decimal tenth Toy.ρ 4 := by
  intro i hi
  have h : ∀ i < 4, (Toy.ρ i).terminated = false ∧ Toy.isOk (stepR decimal tenth (Toy.ρ i)) = true := by
    decide +kernel
  exact ⟨(h i hi).1, Toy.eq_ok (Toy.ρ i) (h i hi).2⟩

example : needR decimal tenth (Toy.ρ 1) = false ∧ needR decimal tenth (Toy.ρ 2) = true :=
  ⟨(C134_false_float tenth rfl rfl (Toy.ρ 0) Toy.ready.fresh).2.1 _ (Toy.execR 0 (by norm_num)).2,
    (C134_false_float tenth rfl rfl (Toy.ρ 0) Toy.ready.fresh).2.2 _ _ (Toy.execR 0 (by norm_num)).2
      (Toy.execR 1 (by norm_num)).2⟩
example := C134_drift tenth (by decide +kernel) Toy.ρ 4 Toy.ready.fresh.time Toy.execR (by norm_num)
example := C134_ends tenth (by decide +kernel) Toy.ρ 3 Toy.ready.fresh.time Toy.execR (by norm_num)

end Sim
end Verif
