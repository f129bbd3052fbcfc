import Verif.Seq.Float
import Verif.Seq.InterpProps
import Verif.Sim.ClockProps
import Mathlib.Tactic.Linarith
import Mathlib.Tactic.LinearCombination
import Mathlib.Tactic.NormNum
import Mathlib.Tactic.Positivity

/-!
# Facts about rounding, used for C138 and C139
-/

namespace Verif

/-- Facts about a rounding `r` with relative error at most 2⁻⁵³. -/
structure RoundLaws (r : ℚ → ℚ) : Prop where
  mono : ∀ x y, x ≤ y → r x ≤ r y
  zero : r 0 = 0
  one : r 1 = 1
  idem : ∀ x, r (r x) = r x
  near : ∀ x, |r x - x| ≤ |x| * (1 / 9007199254740992)

theorem roundTo_laws {b p : ℕ} (hb : 1 < b) (hev : 2 ∣ b) (hp : 2 ≤ p)
    (hu : (b : ℚ) ^ (1 - (p : ℤ)) / 2 ≤ 1 / 9007199254740992) : RoundLaws (Sim.roundTo b p) := by
  have hfix : ∀ z, Sim.Digits b p z → Sim.roundTo b p z = z := by
    rintro z ⟨m, e, hm, rfl⟩
    exact Sim.roundTo_exact hb m e (by exact_mod_cast hm)
  refine ⟨?_, ?_, ?_, ?_, ?_⟩
  · intro x y hxy
    by_contra hc
    push Not at hc
    have hx := Sim.roundTo_rounded hb hev hp x
    have hy := Sim.roundTo_rounded hb hev hp y
    have h1 := hx.nearest _ hy.digits
    have h2 := hy.nearest _ hx.digits
    have a1 : 2 * x ≥ Sim.roundTo b p x + Sim.roundTo b p y := by
      rcases abs_cases (x - Sim.roundTo b p x) with h | h <;> rcases abs_cases (x - Sim.roundTo b p y) with h' | h' <;>
        linarith
    have a2 : 2 * y ≤ Sim.roundTo b p x + Sim.roundTo b p y := by
      rcases abs_cases (y - Sim.roundTo b p x) with h | h <;> rcases abs_cases (y - Sim.roundTo b p y) with h' | h' <;>
        linarith
    have : x = y := by linarith
    subst this
    exact lt_irrefl _ hc
  · simp [Sim.roundTo]
  · refine hfix 1 ⟨1, 0, ?_, by simp⟩
    rw [abs_one]
    exact_mod_cast one_lt_pow₀ (by exact_mod_cast hb : (1 : ℤ) < b) (by omega)
  · intro x
    exact hfix _ (Sim.roundTo_rounded hb hev hp x).digits
  · intro x
    refine (Sim.roundTo_near hb x).trans ?_
    rw [mul_div_assoc]
    exact mul_le_mul_of_nonneg_left hu (abs_nonneg x)

theorem double_laws : RoundLaws Sim.double :=
  roundTo_laws (by norm_num) (by norm_num) (by norm_num) (by norm_num)

theorem decimal_laws : RoundLaws Sim.decimal :=
  roundTo_laws (by norm_num) (by norm_num) (by norm_num) (by norm_num)

theorem id_laws : RoundLaws id :=
  ⟨fun _ _ h => h, rfl, rfl, fun _ => rfl, fun x => by simpa using abs_nonneg x⟩

namespace RoundLaws
variable {r : ℚ → ℚ} (h : RoundLaws r)
include h

theorem nonneg {x : ℚ} (hx : 0 ≤ x) : 0 ≤ r x := by
  have := h.mono 0 x hx
  rwa [h.zero] at this

theorem nonpos {x : ℚ} (hx : x ≤ 0) : r x ≤ 0 := by
  have := h.mono x 0 hx
  rwa [h.zero] at this

theorem le_one {x : ℚ} (hx : x ≤ 1) : r x ≤ 1 := by
  have := h.mono x 1 hx
  rwa [h.one] at this

theorem pos {x : ℚ} (hx : 0 < x) : 0 < r x := by
  have := h.near x
  rw [abs_of_pos hx, abs_le] at this
  linarith [this.1]

theorem nonpos_iff (x : ℚ) : r x ≤ 0 ↔ x ≤ 0 :=
  ⟨fun hx => by by_contra hc; push Not at hc; exact absurd (h.pos hc) (not_lt.mpr hx), h.nonpos⟩

end RoundLaws

/-- 2⁻⁵³ -/
local notation "𝕦" => (1 / 9007199254740992 : ℚ)

/-- A rounded product of two rounded quantities. -/
theorem mul_near {r : ℚ → ℚ} (hr : RoundLaws r) {a a' b b' A B α β : ℚ} (ha : |a| ≤ A) (hb : |b| ≤ B)
    (ha' : |a' - a| ≤ α * A) (hb' : |b' - b| ≤ β * B) (hα : 0 ≤ α) (hβ : 0 ≤ β) :
    |r (a' * b') - a * b| ≤ (α + β + α * β + (1 + α) * (1 + β) * 𝕦) * (A * B) := by
  have hA : 0 ≤ A := (abs_nonneg _).trans ha
  have hB : 0 ≤ B := (abs_nonneg _).trans hb
  have k1 : |a' * b' - a * b| ≤ (α + β + α * β) * (A * B) := by
    have e : a' * b' - a * b = (a' - a) * b + a * (b' - b) + (a' - a) * (b' - b) := by ring
    rw [e]
    refine (abs_add_three _ _ _).trans ?_
    rw [abs_mul, abs_mul, abs_mul]
    have h1 := mul_le_mul ha' hb (abs_nonneg _) (by positivity)
    have h2 := mul_le_mul ha hb' (abs_nonneg _) hA
    have h3 := mul_le_mul ha' hb' (abs_nonneg _) (by positivity)
    calc _ ≤ α * A * B + A * (β * B) + α * A * (β * B) := by linarith
      _ = _ := by ring
  have k2 : |a' * b'| ≤ (1 + α) * (1 + β) * (A * B) := by
    have : |a * b| ≤ A * B := by rw [abs_mul]; exact mul_le_mul ha hb (abs_nonneg _) hA
    have e : (1 + α) * (1 + β) * (A * B) = A * B + (α + β + α * β) * (A * B) := by ring
    rw [e]
    rw [abs_le] at this k1 ⊢
    constructor <;> linarith [this.1, this.2, k1.1, k1.2]
  have k3 := hr.near (a' * b')
  have k4 : |a' * b'| * 𝕦 ≤ (1 + α) * (1 + β) * (A * B) * 𝕦 := mul_le_mul_of_nonneg_right k2 (by norm_num)
  have e : (α + β + α * β + (1 + α) * (1 + β) * 𝕦) * (A * B) =
      (α + β + α * β) * (A * B) + (1 + α) * (1 + β) * (A * B) * 𝕦 := by ring
  rw [e]
  rw [abs_le] at k1 k3 ⊢
  constructor <;> linarith [k1.1, k1.2, k3.1, k3.2]

/-- A rounded quotient of two rounded quantities. -/
theorem div_near {r : ℚ → ℚ} (hr : RoundLaws r) {n n' d d' α β : ℚ} (hd : d ≠ 0) (hn : |n' - n| ≤ α * |n|)
    (hd' : |d' - d| ≤ β * |d|) (hα : 0 ≤ α) (hβ : 0 ≤ β) (hα' : α ≤ 10 * 𝕦) (hβ' : β ≤ 10 * 𝕦) :
    d' ≠ 0 ∧ |r (n' / d') - n / d| ≤ (α + β + 11 / 10 * 𝕦) * |n / d| := by
  have hd0 : 0 < |d| := abs_pos.mpr hd
  have hlow : (1 - β) * |d| ≤ |d'| := by
    have := abs_sub_abs_le_abs_sub d d'
    rw [abs_sub_comm d d'] at this
    linarith
  have hβ1 : (0 : ℚ) < 1 - β := by linarith
  have hd'0 : 0 < |d'| := lt_of_lt_of_le (mul_pos hβ1 hd0) hlow
  have hd'ne : d' ≠ 0 := abs_pos.mp hd'0
  refine ⟨hd'ne, ?_⟩
  obtain ⟨q, hq⟩ : ∃ q, q = n / d := ⟨_, rfl⟩
  have hqn : |n| = |q| * |d| := by rw [← abs_mul, hq]; congr 1; field_simp
  obtain ⟨Q, hQ⟩ : ∃ Q, Q = |q| := ⟨_, rfl⟩
  have hQ0 : 0 ≤ Q := by rw [hQ]; exact abs_nonneg _
  have hab : 0 ≤ α + β := by linarith
  have k1 : |n' / d' - q| ≤ (α + β + 1 / 100 * 𝕦) * Q := by
    have e1 : n' / d' - q = ((n' - n) - q * (d' - d)) / d' := by rw [hq]; field_simp; ring
    rw [e1, abs_div, div_le_iff₀ hd'0]
    refine (abs_sub _ _).trans ?_
    rw [abs_mul, ← hQ]
    have h1 : Q * |d' - d| ≤ Q * (β * |d|) := mul_le_mul_of_nonneg_left hd' hQ0
    have h2 : (α + β + 1 / 100 * 𝕦) * Q * ((1 - β) * |d|) ≤ (α + β + 1 / 100 * 𝕦) * Q * |d'| :=
      mul_le_mul_of_nonneg_left hlow (by positivity)
    rw [hqn, ← hQ] at hn
    have h3 : 0 ≤ Q * |d| := by positivity
    have h4 : α + β ≤ (α + β + 1 / 100 * 𝕦) * (1 - β) := by
      have : (α + β + 1 / 100 * 𝕦) * β ≤ (α + β + 1 / 100 * 𝕦) * (10 * 𝕦) :=
        mul_le_mul_of_nonneg_left hβ' (by positivity)
      linarith
    have h5 := mul_le_mul_of_nonneg_right h4 h3
    calc |n' - n| + Q * |d' - d| ≤ α * (Q * |d|) + Q * (β * |d|) := add_le_add hn h1
      _ = (α + β) * (Q * |d|) := by ring
      _ ≤ (α + β + 1 / 100 * 𝕦) * (1 - β) * (Q * |d|) := h5
      _ = (α + β + 1 / 100 * 𝕦) * Q * ((1 - β) * |d|) := by ring
      _ ≤ _ := h2
  have k2 := hr.near (n' / d')
  have k3 : |n' / d'| ≤ Q + (α + β + 1 / 100 * 𝕦) * Q := by
    have : |q| ≤ Q := hQ.ge
    rw [abs_le] at this k1 ⊢
    constructor <;> linarith [this.1, this.2, k1.1, k1.2]
  have k4 : (α + β + 1 / 100 * 𝕦) * Q ≤ 21 * 𝕦 * Q := mul_le_mul_of_nonneg_right (by linarith) hQ0
  rw [← hq, ← hQ]
  rw [abs_le] at k1 k2 ⊢
  constructor <;> linarith [k1.1, k1.2, k2.1, k2.2]

/-- Many roundings in a row. -/
theorem pow_near (n : ℕ) (hn : n ≤ 2 ^ 52) : (1 + 𝕦) ^ n - 1 ≤ n / 2 ^ 52 := by
  induction n with
  | zero => simp
  | succ n ih =>
    have h := ih (by omega)
    have hn' : (n : ℚ) ≤ 4503599627370496 := by exact_mod_cast (by omega : n ≤ 4503599627370496)
    rw [pow_succ]
    push_cast
    norm_num at h ⊢
    linarith

/-- The arithmetics of sequence.py. -/
structure Arith.Laws (A : Arith) : Prop where
  time : RoundLaws A.time
  num : RoundLaws A.num

theorem Arith.floats_laws : Arith.floats.Laws := ⟨double_laws, double_laws⟩
theorem Arith.decimals_laws : Arith.decimals.Laws := ⟨decimal_laws, double_laws⟩
theorem Arith.ints_laws : Arith.ints.Laws := ⟨id_laws, double_laws⟩

namespace Seq
variable {ι α : Type*} {A : Arith}

theorem increasingF_eq (hA : A.Laws) : ∀ ts, increasingF A ts = increasing ts
  | [] => rfl
  | [_] => rfl
  | a :: b :: rest => by
    unfold increasingF increasing
    rw [increasingF_eq hA (b :: rest)]
    by_cases h : a < b
    · rw [if_neg (by rw [hA.time.nonpos_iff]; linarith)]; simp [h]
    · rw [if_pos (by rw [hA.time.nonpos_iff]; linarith)]; simp [h]

theorem mkF_eq (hA : A.Laws) (ts : List ℚ) (vs : List α) : mkF A ts vs = mk? ts vs := by
  unfold mkF mk?
  rw [increasingF_eq hA]

theorem scaleF_ok (hA : A.Laws) {t u0 u1 : ℚ} (h : u0 < u1) :
    scaleF A t u0 u1 = .ok (A.num (A.num (A.num t - A.num u0) / A.num (A.time (u1 - u0)))) := by
  unfold scaleF
  simp only
  rw [if_neg (hA.num.pos (hA.time.pos (by linarith))).ne']

/-- The rounded weight against the exact one. `E` bounds the error of the conversion of the times to floats. -/
theorem scaleF_near (hA : A.Laws) {t u0 u1 E : ℚ} (h0 : u0 ≤ t) (h1 : t < u1) (hE0 : |A.num t - t| ≤ E)
    (hE1 : |A.num u0 - u0| ≤ E) {c : ℚ} (hc : scaleF A t u0 u1 = .ok c) :
    |c - (t - u0) / (u1 - u0)| ≤ 21 / 10 * (E / (u1 - u0)) + 41 / 10 * (1 / 9007199254740992) := by
  have hd : 0 < u1 - u0 := by linarith
  rw [scaleF_ok hA (by linarith)] at hc
  injection hc with hc
  obtain ⟨n, hn⟩ : ∃ n, n = t - u0 := ⟨_, rfl⟩
  obtain ⟨d, hd'⟩ : ∃ d, d = u1 - u0 := ⟨_, rfl⟩
  have hn0 : 0 ≤ n := by linarith
  have hnd : n ≤ d := by linarith
  rw [← hd'] at hd hc
  rw [← hn, ← hd']
  have hEnn : 0 ≤ E := (abs_nonneg _).trans hE0
  -- the numerator
  obtain ⟨n', hn'⟩ : ∃ n', n' = A.num (A.num t - A.num u0) := ⟨_, rfl⟩
  have b1 : |n' - n| ≤ 2 * E + (n + 2 * E) * (1 / 9007199254740992) := by
    have k := hA.num.near (A.num t - A.num u0)
    rw [← hn'] at k
    rw [abs_le] at hE0 hE1
    have k2 : |A.num t - A.num u0| ≤ n + 2 * E := by
      rw [abs_le]; constructor <;> linarith [hE0.1, hE0.2, hE1.1, hE1.2]
    rw [abs_le] at k ⊢
    constructor <;> linarith [k.1, k.2, hE0.1, hE0.2, hE1.1, hE1.2]
  -- the denominator
  obtain ⟨d', hdd⟩ : ∃ d', d' = A.num (A.time d) := ⟨_, rfl⟩
  have b2 : |d' - d| ≤ 201 / 100 * d * (1 / 9007199254740992) := by
    have k1 := hA.time.near d
    have k2 := hA.num.near (A.time d)
    rw [← hdd, abs_of_pos (hA.time.pos hd)] at k2
    rw [abs_of_pos hd] at k1
    rw [abs_le] at k1 k2 ⊢
    constructor <;> linarith [k1.1, k1.2, k2.1, k2.2]
  rw [← hn', ← hdd] at hc
  rw [abs_le] at b1 b2
  have hd'0 : 0 < d' := by linarith [b2.1]
  -- the quotient
  obtain ⟨s, hs⟩ : ∃ s, s = n / d := ⟨_, rfl⟩
  have hs0 : 0 ≤ s := by rw [hs]; positivity
  have hs1 : s ≤ 1 := by rw [hs]; exact (div_le_one hd).mpr hnd
  have hsd : s * d = n := by rw [hs]; field_simp
  obtain ⟨w, hw⟩ : ∃ w, w = E / d := ⟨_, rfl⟩
  have hw0 : 0 ≤ w := by rw [hw]; positivity
  have hwd : w * d = E := by rw [hw]; field_simp
  obtain ⟨q, hq⟩ : ∃ q, q = n' / d' := ⟨_, rfl⟩
  have hqd : q * d' = n' := by rw [hq]; field_simp
  have b3 : |q - s| ≤ 205 / 100 * w + 305 / 100 * (1 / 9007199254740992) := by
    have hB : 0 ≤ 205 / 100 * w + 305 / 100 * (1 / 9007199254740992) := by positivity
    have key : |(q - s) * d'| ≤ (205 / 100 * w + 305 / 100 * (1 / 9007199254740992)) * d' := by
      have e1 : (q - s) * d' = (n' - n) - s * (d' - d) := by linear_combination hqd - hsd
      have e2 : |s * (d' - d)| ≤ 201 / 100 * d * (1 / 9007199254740992) := by
        rw [abs_mul, abs_of_nonneg hs0]
        have : |d' - d| ≤ 201 / 100 * d * (1 / 9007199254740992) := abs_le.mpr b2
        calc s * |d' - d| ≤ 1 * |d' - d| := mul_le_mul_of_nonneg_right hs1 (abs_nonneg _)
          _ = |d' - d| := one_mul _
          _ ≤ _ := this
      have e3 : w * d' ≥ w * d - w * (201 / 100 * d * (1 / 9007199254740992)) := by
        have := mul_le_mul_of_nonneg_left b2.1 hw0
        linarith
      have e4 : w * (201 / 100 * d * (1 / 9007199254740992)) = 201 / 100 * E * (1 / 9007199254740992) := by
        rw [← hwd]; ring
      rw [e1]
      rw [abs_le] at e2 ⊢
      constructor <;> linarith [b1.1, b1.2, b2.1, b2.2, e2.1, e2.2]
    rw [abs_mul, abs_of_pos hd'0] at key
    exact le_of_mul_le_mul_right key hd'0
  have b4 := hA.num.near q
  rw [← hq] at hc
  rw [hc] at b4
  have b5 : |q| ≤ 1 + (205 / 100 * w + 305 / 100 * (1 / 9007199254740992)) := by
    rw [abs_le] at b3 ⊢
    constructor <;> linarith [b3.1, b3.2]
  rw [abs_le] at b3 b4 ⊢
  constructor <;> linarith [b3.1, b3.2, b4.1, b4.2]

/-- The rounded combination against the exact one. -/
theorem blend_near (hA : A.Laws) {c s δ M a b : ℚ} (hs0 : 0 ≤ s) (hs1 : s ≤ 1) (hc : |c - s| ≤ δ) (ha : |a| ≤ M)
    (hb : |b| ≤ M) :
    |A.num (A.num (a * A.num (1 - c)) + A.num (b * c)) - (a + s * (b - a))| ≤
      M * (201 / 100 * δ + 401 / 100 * (1 / 9007199254740992)) := by
  have hδ : 0 ≤ δ := (abs_nonneg _).trans hc
  have hM : 0 ≤ M := (abs_nonneg _).trans ha
  obtain ⟨k, hk⟩ : ∃ k, k = A.num (1 - c) := ⟨_, rfl⟩
  have b1 : |k - (1 - c)| ≤ (1 + δ) * (1 / 9007199254740992) := by
    have h := hA.num.near (1 - c)
    rw [← hk] at h
    have h2 : |1 - c| ≤ 1 + δ := by
      rw [abs_le] at hc ⊢
      constructor <;> linarith [hc.1, hc.2]
    linarith
  rw [← hk]
  have b2 : |k - (1 - s)| ≤ δ + (1 + δ) * (1 / 9007199254740992) := by
    rw [abs_le] at b1 hc ⊢
    constructor <;> linarith [b1.1, b1.2, hc.1, hc.2]
  have b3 : |k| ≤ 1 + (δ + (1 + δ) * (1 / 9007199254740992)) := by
    rw [abs_le] at b2 ⊢
    constructor <;> linarith [b2.1, b2.2]
  have b4 : |c| ≤ 1 + δ := by
    rw [abs_le] at hc ⊢
    constructor <;> linarith [hc.1, hc.2]
  obtain ⟨m, hm⟩ : ∃ m, m = M * δ := ⟨_, rfl⟩
  have hm0 : 0 ≤ m := by rw [hm]; positivity
  have p1 : |a * k - a * (1 - s)| ≤ m + (M + m) * (1 / 9007199254740992) := by
    rw [← mul_sub, abs_mul]
    calc |a| * |k - (1 - s)| ≤ M * (δ + (1 + δ) * (1 / 9007199254740992)) := mul_le_mul ha b2 (abs_nonneg _) hM
      _ = _ := by rw [hm]; ring
  have p2 : |a * k| ≤ M + (m + (M + m) * (1 / 9007199254740992)) := by
    rw [abs_mul]
    calc |a| * |k| ≤ M * (1 + (δ + (1 + δ) * (1 / 9007199254740992))) := mul_le_mul ha b3 (abs_nonneg _) hM
      _ = _ := by rw [hm]; ring
  have p3 : |b * c - b * s| ≤ m := by
    rw [← mul_sub, abs_mul, hm]
    exact mul_le_mul hb hc (abs_nonneg _) hM
  have p4 : |b * c| ≤ M + m := by
    rw [abs_mul]
    calc |b| * |c| ≤ M * (1 + δ) := mul_le_mul hb b4 (abs_nonneg _) hM
      _ = _ := by rw [hm]; ring
  have q1 := hA.num.near (a * k)
  have q2 := hA.num.near (b * c)
  have q3 := hA.num.near (A.num (a * k) + A.num (b * c))
  obtain ⟨x, hx⟩ : ∃ x, x = A.num (a * k) := ⟨_, rfl⟩
  obtain ⟨y, hy⟩ : ∃ y, y = A.num (b * c) := ⟨_, rfl⟩
  rw [← hx] at q1; rw [← hy] at q2; rw [← hx, ← hy] at q3
  rw [← hx, ← hy]
  have p5 : |a + s * (b - a)| ≤ M := by
    have e : a + s * (b - a) = (1 - s) * a + s * b := by ring
    rw [e, abs_le]
    rw [abs_le] at ha hb
    have h1 : 0 ≤ 1 - s := by linarith
    have i1 := mul_le_mul_of_nonneg_left ha.1 h1
    have i2 := mul_le_mul_of_nonneg_left ha.2 h1
    have i3 := mul_le_mul_of_nonneg_left hb.1 hs0
    have i4 := mul_le_mul_of_nonneg_left hb.2 hs0
    constructor <;> linarith
  have e : a + s * (b - a) = a * (1 - s) + b * s := by ring
  have p6 : |x + y - (a + s * (b - a))| ≤ 2 * m + (M + m) * (1 / 9007199254740992) +
      (2 * M + 3 * m + M * (1 / 1000)) * (1 / 9007199254740992) := by
    rw [abs_le] at p1 p3 q1 q2 ⊢
    constructor <;> linarith [p1.1, p1.2, p3.1, p3.2, q1.1, q1.2, q2.1, q2.2]
  have p7 : |x + y| ≤ M + (2 * m + (M + m) * (1 / 9007199254740992) +
      (2 * M + 3 * m + M * (1 / 1000)) * (1 / 9007199254740992)) := by
    rw [abs_le] at p5 p6 ⊢
    constructor <;> linarith [p5.1, p5.2, p6.1, p6.2]
  have goal : M * (201 / 100 * δ + 401 / 100 * (1 / 9007199254740992)) =
      201 / 100 * m + 401 / 100 * M * (1 / 9007199254740992) := by rw [hm]; ring
  rw [goal]
  rw [abs_le] at p6 q3 ⊢
  constructor <;> linarith [p6.1, p6.2, q3.1, q3.2]

end Seq
end Verif
