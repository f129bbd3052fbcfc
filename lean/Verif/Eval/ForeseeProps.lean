import Verif.Eval.SafetyProps
import Mathlib.Analysis.Convex.Basic
import Mathlib.Analysis.Real.Sqrt
import Mathlib.Tactic.FieldSimp

/-!
# C120: the foreseen time to collision is the true one
-/

namespace Verif
namespace Eval

/-- Specification: two regions that move on with constant velocities have a point in common at time `t`. -/
def Meet (A B : Set (ℝ × ℝ)) (s1 s2 : Kin) (t : ℝ) : Prop :=
  ∃ a ∈ A, ∃ b ∈ B, a.1 + t * (s1.vx * Real.cos s1.psi) = b.1 + t * (s2.vx * Real.cos s2.psi) ∧
    a.2 + t * (s1.vx * Real.sin s1.psi) = b.2 + t * (s2.vx * Real.sin s2.psi)

open Classical in
/-- `intersects` of shapely, for regions of the plane. -/
noncomputable def meetsB (A B : Set (ℝ × ℝ)) : Bool := decide (A ∩ B).Nonempty

/-- `translate` of shapely, for regions of the plane. -/
def movedBy (dx dy : ℝ) (A : Set (ℝ × ℝ)) : Set (ℝ × ℝ) := {q | (q.1 - dx, q.2 - dy) ∈ A}

theorem meetsB_moved (A B : Set (ℝ × ℝ)) (s1 s2 : Kin) (t : ℝ) :
    meetsB (movedBy (t * (s1.vx * Real.cos s1.psi)) (t * (s1.vx * Real.sin s1.psi)) A)
      (movedBy (t * (s2.vx * Real.cos s2.psi)) (t * (s2.vx * Real.sin s2.psi)) B) = true ↔ Meet A B s1 s2 t := by
  unfold meetsB Meet
  simp only [decide_eq_true_eq]
  unfold movedBy
  constructor
  · rintro ⟨q, hA, hB⟩
    exact ⟨_, hA, _, hB, by simp, by simp⟩
  · rintro ⟨a, hA, b, hB, h1, h2⟩
    refine ⟨(a.1 + t * (s1.vx * Real.cos s1.psi), a.2 + t * (s1.vx * Real.sin s1.psi)), ?_, ?_⟩
    · simpa using hA
    · simp only [Set.mem_setOf_eq, h1, h2]
      simpa using hB

/-- The search for regions: either the first of the times 0, 0.1, ..., 3.1 at which they meet, or none of these. -/
theorem ttc_regions (A B : Set (ℝ × ℝ)) (s1 s2 : Kin) (fuel : Nat) (hf : 32 ≤ fuel) :
    (∃ k : Nat, k ≤ 31 ∧ Meet A B s1 s2 ((k : ℝ) / 10) ∧ (∀ j : Nat, j < k → ¬ Meet A B s1 s2 ((j : ℝ) / 10)) ∧
      getTtc meetsB movedBy A B s1 s2 fuel =
        some (some ((k : ℝ) / 10, s1.vx * ((k : ℝ) / 10), s2.vx * ((k : ℝ) / 10)))) ∨
    ((∀ k : Nat, k ≤ 31 → ¬ Meet A B s1 s2 ((k : ℝ) / 10)) ∧ getTtc meetsB movedBy A B s1 s2 fuel = some none) := by
  have h := C64_motion meetsB movedBy (fun A => by simp [movedBy])
    (fun a b c d A => by ext q; simp [movedBy]; ring_nf) (fun a b A B => by
      unfold meetsB movedBy
      congr 1
      apply propext
      constructor
      · rintro ⟨q, h1, h2⟩; exact ⟨_, h1, h2⟩
      · rintro ⟨q, h1, h2⟩; exact ⟨(q.1 + a, q.2 + b), by simpa using h1, by simpa using h2⟩) A B s1 s2 fuel hf
  simp only at h
  rcases h with ⟨k, h1, h2, h3, h4⟩ | ⟨h1, h2⟩
  · refine Or.inl ⟨k, h1, (meetsB_moved ..).mp h2, fun j hj hm => ?_, h4⟩
    have := h3 j hj
    rw [(meetsB_moved ..).mpr hm] at this
    cases this
  · refine Or.inr ⟨fun k hk hm => ?_, h2⟩
    have := h1 k hk
    rw [(meetsB_moved ..).mpr hm] at this
    cases this

/-- Convex regions meet during an interval. -/
theorem meet_between {A B : Set (ℝ × ℝ)} (hA : Convex ℝ A) (hB : Convex ℝ B) {s1 s2 : Kin} {t0 t1 t : ℝ}
    (h0 : Meet A B s1 s2 t0) (h1 : Meet A B s1 s2 t1) (ht : t0 ≤ t ∧ t ≤ t1) : Meet A B s1 s2 t := by
  rcases eq_or_lt_of_le (ht.1.trans ht.2) with he | hlt
  · have : t = t0 := by linarith [ht.1, ht.2]
    rw [this]; exact h0
  · obtain ⟨a, ha, b, hb, e1, e2⟩ := h0
    obtain ⟨c, hc, d, hd, e3, e4⟩ := h1
    set l := (t - t0) / (t1 - t0) with hl
    have hpos : 0 < t1 - t0 := by linarith
    have hl0 : 0 ≤ l := div_nonneg (by linarith [ht.1]) hpos.le
    have hl1 : l ≤ 1 := by rw [hl, div_le_one hpos]; linarith [ht.2]
    have htl : t = (1 - l) * t0 + l * t1 := by
      have : l * (t1 - t0) = t - t0 := by rw [hl]; field_simp
      linarith
    refine ⟨(1 - l) • a + l • c, hA ha hc (by linarith) hl0 (by ring), (1 - l) • b + l • d,
      hB hb hd (by linarith) hl0 (by ring), ?_, ?_⟩
    · simp only [Prod.fst_add, Prod.smul_fst, smul_eq_mul, htl]
      linear_combination (1 - l) * e1 + l * e3
    · simp only [Prod.snd_add, Prod.smul_snd, smul_eq_mul, htl]
      linear_combination (1 - l) * e2 + l * e4

/-- **C120.** A foreseen collision happens, at the time that is returned and after the distances that are returned, if
both go on as they do; and for convex shapes their first contact is less than 0.1 s earlier. -/
theorem C120_foreseen {A B : Set (ℝ × ℝ)} {s1 s2 : Kin} {fuel : Nat} (hf : 32 ≤ fuel) {t d1 d2 : ℝ}
    (h : getTtc meetsB movedBy A B s1 s2 fuel = some (some (t, d1, d2))) :
    0 ≤ t ∧ t ≤ 3.1 ∧ Meet A B s1 s2 t ∧ d1 = s1.vx * t ∧ d2 = s2.vx * t ∧
      (Convex ℝ A → Convex ℝ B → ∀ τ, 0 ≤ τ → τ ≤ t - 1 / 10 → ¬ Meet A B s1 s2 τ) := by
  rcases ttc_regions A B s1 s2 fuel hf with ⟨k, h1, h2, h3, h4⟩ | ⟨-, h2⟩
  · rw [h4] at h
    simp only [Option.some.injEq, Prod.mk.injEq] at h
    obtain ⟨rfl, rfl, rfl⟩ := h
    have hk : (k : ℝ) ≤ 31 := by exact_mod_cast h1
    refine ⟨by positivity, by norm_num; linarith, h2, rfl, rfl, fun hA hB τ h0 hτ hm => ?_⟩
    cases k with
    | zero => norm_num at hτ; linarith
    | succ k =>
      refine h3 k (by omega) (meet_between hA hB hm h2 ⟨?_, ?_⟩)
      · push_cast at hτ; linarith
      · push_cast; linarith
  · rw [h2] at h; cases h

/-- **C120.** Contacts of convex shapes that last for at least 0.1 s of the next 3.1 s are foreseen, at most 0.1 s
after they begin. Shorter ones may be missed, see `C120_false_short`. -/
theorem C120_long_partial {A B : Set (ℝ × ℝ)} (hA : Convex ℝ A) (hB : Convex ℝ B) {s1 s2 : Kin} {fuel : Nat}
    (hf : 32 ≤ fuel) {t0 t1 : ℝ} (h0 : 0 ≤ t0) (h1 : t0 + 1 / 10 ≤ t1) (h2 : t1 ≤ 3.1) (hm0 : Meet A B s1 s2 t0)
    (hm1 : Meet A B s1 s2 t1) :
    ∃ t, getTtc meetsB movedBy A B s1 s2 fuel = some (some (t, s1.vx * t, s2.vx * t)) ∧ t < t0 + 1 / 10 := by
  have hex : ∃ n : ℕ, t0 ≤ (n : ℝ) / 10 ∧ (n : ℝ) / 10 < t0 + 1 / 10 := by
    refine ⟨⌈10 * t0⌉₊, ?_, ?_⟩
    · have := Nat.le_ceil (10 * t0)
      linarith
    · have := Nat.ceil_lt_add_one (by linarith : 0 ≤ 10 * t0)
      linarith
  obtain ⟨n, hn1, hn2⟩ := hex
  have hmn : Meet A B s1 s2 ((n : ℝ) / 10) := meet_between hA hB hm0 hm1 ⟨hn1, by linarith⟩
  have hn31 : n ≤ 31 := by
    have : (n : ℝ) < 32 := by norm_num at h2; linarith
    have : n < 32 := by exact_mod_cast this
    omega
  rcases ttc_regions A B s1 s2 fuel hf with ⟨k, h3, h4, h5, h6⟩ | ⟨h3, -⟩
  · refine ⟨_, h6, ?_⟩
    have hkn : k ≤ n := by
      by_contra hlt
      exact h5 n (by omega) hmn
    have : (k : ℝ) ≤ n := by exact_mod_cast hkn
    linarith
  · exact absurd hmn (h3 n hn31)

/-- A rectangle with the axes. -/
def box (x y l w : ℝ) : Set (ℝ × ℝ) := {q | |q.1 - x| ≤ l ∧ |q.2 - y| ≤ w}

theorem box_convex (x y l w : ℝ) : Convex ℝ (box x y l w) := by
  intro p hp q hq a b ha hb hab
  simp only [box, Set.mem_setOf_eq, abs_le, Prod.fst_add, Prod.smul_fst, Prod.snd_add, Prod.smul_snd, smul_eq_mul]
    at hp hq ⊢
  obtain ⟨⟨p1, p2⟩, p3, p4⟩ := hp
  obtain ⟨⟨q1, q2⟩, q3, q4⟩ := hq
  have hb' : b = 1 - a := by linarith
  subst hb'
  refine ⟨⟨?_, ?_⟩, ?_, ?_⟩ <;> nlinarith

theorem meet_box {x y l w x' y' l' w' : ℝ} (hl : 0 ≤ l) (hw : 0 ≤ w) (hl' : 0 ≤ l') (hw' : 0 ≤ w') (s1 s2 : Kin)
    (t : ℝ) : Meet (box x y l w) (box x' y' l' w') s1 s2 t ↔
      |x' + t * (s2.vx * Real.cos s2.psi) - (x + t * (s1.vx * Real.cos s1.psi))| ≤ l + l' ∧
      |y' + t * (s2.vx * Real.sin s2.psi) - (y + t * (s1.vx * Real.sin s1.psi))| ≤ w + w' := by
  have one : ∀ {x x' l l' d d' : ℝ}, 0 ≤ l → 0 ≤ l' → |x' + d' - (x + d)| ≤ l + l' →
      ∃ a b, |a - x| ≤ l ∧ |b - x'| ≤ l' ∧ a + d = b + d' := by
    intro x x' l l' d d' hl hl' h
    obtain ⟨h1, h2⟩ := abs_le.mp h
    rcases le_total (x + d + l) (x' + d') with h3 | h3
    · exact ⟨x + l, x + l + d - d', by simp [abs_of_nonneg hl], abs_le.mpr ⟨by linarith, by linarith⟩, by ring⟩
    · rcases le_total (x + d - l) (x' + d') with h4 | h4
      · exact ⟨x' + d' - d, x', abs_le.mpr ⟨by linarith, by linarith⟩, by simpa using hl', by ring⟩
      · exact ⟨x - l, x - l + d - d', by simp [abs_of_nonneg hl], abs_le.mpr ⟨by linarith, by linarith⟩, by ring⟩
  constructor
  · rintro ⟨a, ⟨a1, a2⟩, b, ⟨b1, b2⟩, h1, h2⟩
    rw [abs_le] at a1 a2 b1 b2
    exact ⟨abs_le.mpr ⟨by linarith [a1.1, a1.2, b1.1, b1.2], by linarith [a1.1, a1.2, b1.1, b1.2]⟩,
      abs_le.mpr ⟨by linarith [a2.1, a2.2, b2.1, b2.2], by linarith [a2.1, a2.2, b2.1, b2.2]⟩⟩
  · rintro ⟨h1, h2⟩
    obtain ⟨a, b, h3, h4, h5⟩ := one hl hl' h1
    obtain ⟨c, d, h6, h7, h8⟩ := one hw hw' h2
    exact ⟨(a, c), ⟨h3, h6⟩, (b, d), ⟨h4, h7⟩, h5, h8⟩

/-- The car of the examples: 4 m long, 2 m wide, at the origin, at 20 m/s. -/
def exEgo : Kin := ⟨0, 0, 0, 20⟩

-- a standing car in front, seen 1.3 s ahead
example : ∃ t, getTtc meetsB movedBy (box 0 0 2 1) (box 30 0 2 1) exEgo ⟨30, 0, 0, 0⟩ 32 =
    some (some (t, 20 * t, 0 * t)) ∧ t < 1.3 + 1 / 10 := by
  have h := C120_long_partial (box_convex 0 0 2 1) (box_convex 30 0 2 1) (s1 := exEgo) (s2 := ⟨30, 0, 0, 0⟩) (fuel := 32)
    le_rfl (t0 := 1.3) (t1 := 1.7) (by norm_num) (by norm_num) (by norm_num)
    ((meet_box (by norm_num) (by norm_num) (by norm_num) (by norm_num) _ _ _).mpr (by
      norm_num [exEgo]))
    ((meet_box (by norm_num) (by norm_num) (by norm_num) (by norm_num) _ _ _).mpr (by
      norm_num [exEgo]))
  exact h

/-- **C120 fails for short contacts.** Two cars, 4 m long and 2 m wide, cross at 15 m/s. Their corners touch from
0.77 s to 0.79 s, and no collision is foreseen. -/
theorem C120_false_short :
    let A := box 0 0 2 1
    let B := box 8.9 (-14.55) 1 2
    let s1 : Kin := ⟨0, 0, 0, 15⟩
    let s2 : Kin := ⟨8.9, -14.55, Real.pi / 2, 15⟩
    (∀ t, 0.77 ≤ t → t ≤ 0.79 → Meet A B s1 s2 t) ∧ getTtc meetsB movedBy A B s1 s2 32 = some none := by
  intro A B s1 s2
  have key : ∀ t, Meet A B s1 s2 t ↔ |8.9 - 15 * t| ≤ 3 ∧ |-14.55 + 15 * t| ≤ 3 := by
    intro t
    rw [meet_box (by norm_num) (by norm_num) (by norm_num) (by norm_num)]
    simp only [s1, s2, Real.cos_pi_div_two, Real.sin_pi_div_two, Real.cos_zero, Real.sin_zero]
    rw [show (8.9 : ℝ) + t * (15 * 0) - (0 + t * (15 * 1)) = 8.9 - 15 * t by ring,
      show (-14.55 : ℝ) + t * (15 * 1) - (0 + t * (15 * 0)) = -14.55 + 15 * t by ring]
    norm_num
  refine ⟨fun t h1 h2 => (key t).mpr ⟨abs_le.mpr ⟨?_, ?_⟩, abs_le.mpr ⟨?_, ?_⟩⟩, ?_⟩
  · norm_num at h1 h2 ⊢; linarith
  · norm_num at h1 h2 ⊢; linarith
  · norm_num at h1 h2 ⊢; linarith
  · norm_num at h1 h2 ⊢; linarith
  rcases ttc_regions A B s1 s2 32 le_rfl with ⟨k, -, h2, -, -⟩ | ⟨-, h2⟩
  · exfalso
    obtain ⟨h3, h4⟩ := (key _).mp h2
    have h5 := (abs_le.mp h3).1
    have h6 := (abs_le.mp h4).1
    norm_num at h5 h6
    have h7 : (k : ℝ) < 8 := by linarith
    have h8 : (7 : ℝ) < k := by linarith
    have h7 : k < 8 := by exact_mod_cast h7
    have h8 : 7 < k := by exact_mod_cast h8
    omega
  · exact h2

/-- **C120 fails for long shapes.** A pedestrian walks into the side of a standing bus of 20 m after one second. The
search would find this, but it is not made, since the pedestrian moves away from the center of the bus. -/
theorem C120_false_skipped :
    let bus : Kin := ⟨0, 0, 0, 0⟩
    let ped : Kin := ⟨3, 2.2, -(Real.pi / 4), Real.sqrt 2⟩
    skipAgent bus ped = true ∧ Meet (box 0 0 10 1) (box 3 2.2 0.2 0.2) bus ped 1 ∧
      getTtc meetsB movedBy (box 0 0 10 1) (box 3 2.2 0.2 0.2) bus ped 32 = some (some (1, 0 * 1, Real.sqrt 2 * 1)) := by
  intro bus ped
  have h2 : Real.sqrt 2 * (Real.sqrt 2 / 2) = 1 := by
    have := Real.mul_self_sqrt (by norm_num : (0 : ℝ) ≤ 2)
    linarith
  have hc : Real.sqrt 2 * Real.cos (-(Real.pi / 4)) = 1 := by rw [Real.cos_neg, Real.cos_pi_div_four, h2]
  have hs : Real.sqrt 2 * Real.sin (-(Real.pi / 4)) = -1 := by
    rw [Real.sin_neg, Real.sin_pi_div_four, mul_neg, h2]
  have key : ∀ t, Meet (box 0 0 10 1) (box 3 2.2 0.2 0.2) bus ped t ↔ |3 + t| ≤ 10.2 ∧ |2.2 - t| ≤ 1.2 := by
    intro t
    rw [meet_box (by norm_num) (by norm_num) (by norm_num) (by norm_num)]
    simp only [bus, ped, hc, hs]
    norm_num [sub_eq_add_neg]
  have hm : Meet (box 0 0 10 1) (box 3 2.2 0.2 0.2) bus ped 1 := (key 1).mpr (by norm_num)
  refine ⟨?_, hm, ?_⟩
  · have hn : 0 < Maps.norm2 (3 : ℝ) 2.2 := by
      refine lt_of_le_of_ne (Maps.norm2_nonneg _ _) fun h0 => ?_
      have := ((Maps.norm2_eq_zero _ _).mp h0.symm).1
      norm_num at this
    unfold skipAgent closing
    simp only [bus, ped, hc, hs, sub_zero, zero_mul]
    rw [if_neg hn.ne', decide_eq_true_eq]
    left
    have : (1 : ℝ) * (3 / Maps.norm2 3 2.2) + -1 * (2.2 / Maps.norm2 3 2.2) = 0.8 / Maps.norm2 3 2.2 := by
      field_simp; norm_num
    rw [this]
    positivity
  · rcases ttc_regions (box 0 0 10 1) (box 3 2.2 0.2 0.2) bus ped 32 le_rfl with ⟨k, h1, h2, h3, h4⟩ | ⟨h1, -⟩
    · have hk : k = 10 := by
        have h5 : 10 ≤ k := by
          have := (abs_le.mp ((key _).mp h2).2).2
          have : (10 : ℝ) ≤ k := by norm_num at this; linarith
          exact_mod_cast this
        by_contra hne
        refine h3 10 (by omega) ?_
        rw [show ((10 : ℕ) : ℝ) / 10 = 1 by norm_num]
        exact hm
      rw [h4, hk]
      norm_num [bus, ped]
    · exfalso
      refine h1 10 (by norm_num) ?_
      rw [show ((10 : ℕ) : ℝ) / 10 = 1 by norm_num]
      exact hm

end Eval
end Verif
