import Verif.Eval.DistProps

/-!
# C120: the time to collision of two players, and their distance (src/dg_commons/eval/safety.py:197-211)
-/

namespace Verif
namespace Eval
open Maps (norm2)

/-- `_get_ttc`, safety.py:197-211, with at most `fuel` turns of the loop: the outlines of the models at the poses of the
states, and the search on them. -/
noncomputable def bodiesTtc {X M : Type} (kin : X → Kin) (outline : M → Set (ℝ × ℝ)) (x1 x2 : X) (m1 m2 : M)
    (fuel : Nat) : Option (Option (ℝ × ℝ × ℝ)) :=
  let poly1 := placed (kin x1) (outline m1)
  let poly2 := placed (kin x2) (outline m2)
  getTtc meetsB movedBy poly1 poly2 (kin x1) (kin x2) fuel

/-- Specification: the pose after a time `t` of going straight on at constant speed. -/
noncomputable def ahead (s : Kin) (t : ℝ) : Kin :=
  { s with x := s.x + t * (s.vx * Real.cos s.psi), y := s.y + t * (s.vx * Real.sin s.psi) }

theorem meet_ahead (s1 s2 : Kin) (A B : Set (ℝ × ℝ)) (t : ℝ) :
    Meet (placed s1 A) (placed s2 B) s1 s2 t ↔ Touch (ahead s1 t) (ahead s2 t) A B := by
  have e : ∀ s p, bodyPoint (ahead s t) p = ((bodyPoint s p).1 + t * (s.vx * Real.cos s.psi),
      (bodyPoint s p).2 + t * (s.vx * Real.sin s.psi)) := by
    intro s p
    simp only [bodyPoint, ahead, Prod.mk.injEq]
    constructor <;> ring
  rw [placed_eq, placed_eq]
  unfold Meet Touch
  simp only [e, Prod.mk.injEq, Set.exists_mem_image]

theorem ahead_moves (s : Kin) {t : ℝ} (ht : 0 ≤ t) : norm2 (s.x - (ahead s t).x) (s.y - (ahead s t).y) = t * |s.vx| := by
  unfold norm2 ahead
  have : (s.x - (s.x + t * (s.vx * Real.cos s.psi))) ^ 2 + (s.y - (s.y + t * (s.vx * Real.sin s.psi))) ^ 2 =
      (t * |s.vx|) ^ 2 := by
    rw [mul_pow, sq_abs]
    linear_combination (t * s.vx) ^ 2 * Real.sin_sq_add_cos_sq s.psi
  rw [this, Real.sqrt_sq (by positivity)]

variable {X M : Type} (kin : X → Kin) (outline : M → Set (ℝ × ℝ))

/-- **C120.** The time to collision of two players is a time at which their bodies touch if both go straight on at their
speeds, the returned distances are those covered until then, and bodies with convex outlines do not touch more than
0.1 s earlier. -/
theorem C120_bodies (x1 x2 : X) (m1 m2 : M) {fuel : Nat} (hf : 32 ≤ fuel) {t d1 d2 : ℝ}
    (h : bodiesTtc kin outline x1 x2 m1 m2 fuel = some (some (t, d1, d2))) :
    0 ≤ t ∧ t ≤ 3.1 ∧ Touch (ahead (kin x1) t) (ahead (kin x2) t) (outline m1) (outline m2) ∧
      d1 = (kin x1).vx * t ∧ d2 = (kin x2).vx * t ∧
      (Convex ℝ (outline m1) → Convex ℝ (outline m2) → ∀ τ, 0 ≤ τ → τ ≤ t - 1 / 10 →
        ¬ Touch (ahead (kin x1) τ) (ahead (kin x2) τ) (outline m1) (outline m2)) := by
  obtain ⟨h1, h2, h3, h4, h5, h6⟩ := C120_foreseen hf h
  refine ⟨h1, h2, (meet_ahead ..).mp h3, h4, h5, fun c1 c2 τ a b hm => ?_⟩
  refine h6 ?_ ?_ τ a b ((meet_ahead ..).mpr hm)
  all_goals
    rw [placed_eq]
    intro p hp q hq a b ha hb hab
    obtain ⟨p, hp, rfl⟩ := hp
    obtain ⟨q, hq, rfl⟩ := hq
    refine ⟨a • p + b • q, by first | exact c1 hp hq ha hb hab | exact c2 hp hq ha hb hab, ?_⟩
    have hb' : b = 1 - a := by linarith
    subst hb'
    simp only [bodyPoint, Prod.fst_add, Prod.snd_add, Prod.smul_fst, Prod.smul_snd, smul_eq_mul]
    ext <;> simp only [Prod.fst_add, Prod.snd_add, Prod.smul_fst, Prod.smul_snd, smul_eq_mul] <;> ring

variable {nearest : Set (ℝ × ℝ) → Set (ℝ × ℝ) → (ℝ × ℝ) × (ℝ × ℝ)} (law : NearestLaw nearest)
include law

theorem touch_ahead_dist (x1 x2 : X) (m1 m2 : M) (h1 : Solid (outline m1)) (h2 : Solid (outline m2)) {t : ℝ} (ht : 0 ≤ t)
    (h : Touch (ahead (kin x1) t) (ahead (kin x2) t) (outline m1) (outline m2)) :
    (getDist nearest kin outline x1 x2 m1 m2).1 ≤ t * (|(kin x1).vx| + |(kin x2).vx|) := by
  obtain ⟨a, ha, b, hb, hab⟩ := h
  obtain ⟨-, -, hmin⟩ := C135_distance law kin outline x1 x2 m1 m2 h1 h2
  refine (hmin a ha b hb).trans ?_
  have e1 : ∀ s p, (bodyPoint (ahead s t) p).1 = (bodyPoint s p).1 - (s.x - (ahead s t).x) := by
    intro s p; simp only [bodyPoint, ahead]; ring
  have e2 : ∀ s p, (bodyPoint (ahead s t) p).2 = (bodyPoint s p).2 - (s.y - (ahead s t).y) := by
    intro s p; simp only [bodyPoint, ahead]; ring
  have f1 := congrArg Prod.fst hab
  have f2 := congrArg Prod.snd hab
  rw [e1, e1] at f1
  rw [e2, e2] at f2
  have := norm2_add_le ((kin x1).x - (ahead (kin x1) t).x) ((kin x1).y - (ahead (kin x1) t).y)
    (-((kin x2).x - (ahead (kin x2) t).x)) (-((kin x2).y - (ahead (kin x2) t).y))
  rw [norm2_neg, ahead_moves _ ht, ahead_moves _ ht] at this
  rw [show (bodyPoint (kin x1) a).1 - (bodyPoint (kin x2) b).1 =
      (kin x1).x - (ahead (kin x1) t).x + -((kin x2).x - (ahead (kin x2) t).x) by linarith,
    show (bodyPoint (kin x1) a).2 - (bodyPoint (kin x2) b).2 =
      (kin x1).y - (ahead (kin x1) t).y + -((kin x2).y - (ahead (kin x2) t).y) by linarith]
  linarith

/-- **C120.** The time to collision is never less than the distance of the players over the sum of their speeds. -/
theorem C120_distance (x1 x2 : X) (m1 m2 : M) (h1 : Solid (outline m1)) (h2 : Solid (outline m2)) {fuel : Nat}
    (hf : 32 ≤ fuel) {t d1 d2 : ℝ} (h : bodiesTtc kin outline x1 x2 m1 m2 fuel = some (some (t, d1, d2))) :
    (getDist nearest kin outline x1 x2 m1 m2).1 ≤ t * (|(kin x1).vx| + |(kin x2).vx|) := by
  obtain ⟨h0, -, ht, -⟩ := C120_bodies kin outline x1 x2 m1 m2 hf h
  exact touch_ahead_dist kin outline law x1 x2 m1 m2 h1 h2 h0 ht

/-- **C120.** It is zero exactly if the players touch, and infinite if they are further from each other than they can go
in 3.1 s. -/
theorem C120_extremes (x1 x2 : X) (m1 m2 : M) (h1 : Solid (outline m1)) (h2 : Solid (outline m2)) {fuel : Nat}
    (hf : 32 ≤ fuel) :
    (bodiesTtc kin outline x1 x2 m1 m2 fuel = some (some (0, 0, 0)) ↔
      (getDist nearest kin outline x1 x2 m1 m2).1 = 0) ∧
    (3.1 * (|(kin x1).vx| + |(kin x2).vx|) < (getDist nearest kin outline x1 x2 m1 m2).1 →
      bodiesTtc kin outline x1 x2 m1 m2 fuel = some none) := by
  have a0 : ∀ s, ahead s 0 = s := by intro s; simp [ahead]
  have hreg := ttc_regions (placed (kin x1) (outline m1)) (placed (kin x2) (outline m2)) (kin x1) (kin x2) fuel hf
  constructor
  · rw [C135_zero law kin outline x1 x2 m1 m2 h1 h2]
    constructor
    · intro h
      have := (C120_bodies kin outline x1 x2 m1 m2 hf h).2.2.1
      rwa [a0, a0] at this
    · intro h
      have hm : Meet (placed (kin x1) (outline m1)) (placed (kin x2) (outline m2)) (kin x1) (kin x2) (((0 : ℕ) : ℝ) / 10) := by
        rw [meet_ahead]
        simpa [a0] using h
      rcases hreg with ⟨k, -, -, hj, e⟩ | ⟨hn, -⟩
      · rcases Nat.eq_zero_or_pos k with rfl | hk
        · unfold bodiesTtc
          rw [e]
          simp
        · exact absurd hm (hj 0 hk)
      · exact absurd hm (hn 0 (by omega))
  · intro h
    rcases hreg with ⟨k, hk, -, -, e⟩ | ⟨-, e⟩
    · have hd := C120_distance kin outline law x1 x2 m1 m2 h1 h2 hf e
      have hk' : (k : ℝ) / 10 ≤ 3.1 := by
        have : (k : ℝ) ≤ 31 := by exact_mod_cast hk
        norm_num
        linarith
      have := mul_le_mul_of_nonneg_right hk' (by positivity : 0 ≤ |(kin x1).vx| + |(kin x2).vx|)
      linarith
    · exact e

omit law in
theorem placed_box (x y v l w : ℝ) : placed ⟨x, y, 0, v⟩ (box 0 0 l w) = box x y l w := by
  rw [placed_eq]
  ext q
  simp only [bodyPoint, Real.cos_zero, Real.sin_zero, box, Set.mem_image, Set.mem_setOf_eq]
  constructor
  · rintro ⟨p, ⟨a, b⟩, rfl⟩
    constructor
    · simpa using a
    · simpa using b
  · rintro ⟨a, b⟩
    exact ⟨(q.1 - x, q.2 - y), ⟨by simpa using a, by simpa using b⟩, by ext <;> simp⟩

end Eval

section
open Eval

-- a car at 10 m/s, 5 m behind a standing one: found after half a second, and the distance is at most what it then covered
example : ∃ t, bodiesTtc (fun s : Kin => s) (fun _ : Unit => box 0 0 2.5 1) ⟨0, 0, 0, 10⟩ ⟨10, 0, 0, 0⟩ () () 32 =
      some (some (t, 10 * t, 0 * t)) ∧ t < 0.5 + 1 / 10 ∧
    (getDist someNearest (fun s : Kin => s) (fun _ : Unit => box 0 0 2.5 1) ⟨0, 0, 0, 10⟩ ⟨10, 0, 0, 0⟩ () ()).1 ≤
      t * 10 := by
  have h := C120_long_partial (box_convex 0 0 2.5 1) (box_convex 10 0 2.5 1) (s1 := ⟨0, 0, 0, 10⟩) (s2 := ⟨10, 0, 0, 0⟩)
    (fuel := 32) le_rfl (t0 := 0.5) (t1 := 1) (by norm_num) (by norm_num) (by norm_num)
    ((meet_box (by norm_num) (by norm_num) (by norm_num) (by norm_num) _ _ _).mpr (by norm_num))
    ((meet_box (by norm_num) (by norm_num) (by norm_num) (by norm_num) _ _ _).mpr (by norm_num))
  obtain ⟨t, h1, h2⟩ := h
  have h3 : bodiesTtc (fun s : Kin => s) (fun _ : Unit => box 0 0 2.5 1) ⟨0, 0, 0, 10⟩ ⟨10, 0, 0, 0⟩ () () 32 =
      some (some (t, 10 * t, 0 * t)) := by
    unfold bodiesTtc
    simp only [placed_box]
    exact h1
  refine ⟨t, h3, h2, ?_⟩
  have := C120_distance (fun s : Kin => s) (fun _ : Unit => box 0 0 2.5 1) someNearest_law ⟨0, 0, 0, 10⟩ ⟨10, 0, 0, 0⟩ () ()
    (box_solid (by norm_num) (by norm_num)) (box_solid (by norm_num) (by norm_num)) le_rfl h3
  refine this.trans (le_of_eq ?_)
  norm_num

-- standing cars: no collision is foreseen unless they touch
example : bodiesTtc (fun s : Kin => s) (fun _ : Unit => box 0 0 2.5 1) ⟨0, 0, 0, 0⟩ ⟨9, 1, 0, 0⟩ () () 32 = some none := by
  have hs : Solid (box 0 0 2.5 1) := box_solid (by norm_num) (by norm_num)
  refine (C120_extremes (fun s : Kin => s) (fun _ : Unit => box 0 0 2.5 1) someNearest_law ⟨0, 0, 0, 0⟩ ⟨9, 1, 0, 0⟩ () ()
    hs hs le_rfl).2 ?_
  have h0 := Maps.norm2_nonneg
  have hd := (C135_distance someNearest_law (fun s : Kin => s) (fun _ : Unit => box 0 0 2.5 1) ⟨0, 0, 0, 0⟩ ⟨9, 1, 0, 0⟩ () ()
    hs hs).2.1
  have hz := (C135_zero someNearest_law (fun s : Kin => s) (fun _ : Unit => box 0 0 2.5 1) ⟨0, 0, 0, 0⟩ ⟨9, 1, 0, 0⟩ () ()
    hs hs).not.mpr (by
      rintro ⟨a, ⟨ha, -⟩, b, ⟨hb, -⟩, hab⟩
      have := congrArg Prod.fst hab
      simp [bodyPoint] at this
      rw [sub_zero, abs_le] at ha hb
      linarith [ha.2, hb.1])
  simp only [abs_zero, add_zero, mul_zero]
  refine lt_of_le_of_ne ?_ (Ne.symm hz)
  rw [hd]
  exact h0 _ _

end
end Verif
