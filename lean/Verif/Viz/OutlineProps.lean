import Verif.Viz.Model
import Verif.Coll.MeshProps
import Mathlib.Tactic.Linarith
import Mathlib.Tactic.Ring
import Mathlib.Tactic.FieldSimp
import Mathlib.Tactic.NormNum

/-!
# Players as drawn (C102)
-/

namespace Verif
namespace Viz

open Maps Coll

theorem poseOf_motion (x y psi : ℝ) : IsMotion (poseOf x y psi) :=
  ⟨_, _, _, _, Real.cos_sq_add_sin_sq psi, rfl⟩

/-- **C102.** What is drawn of a player is its footprint, the polygon that collides, with its name at its
position. -/
theorem C102_drawn (outline : List (ℝ × ℝ)) (hne : outline ≠ []) (x y psi : ℝ) :
    drawBody outline x y psi = .ok (footprintRing outline (poseOf x y psi), (x, y)) ∧
      drawObstacle outline x y psi = footprintRing outline (poseOf x y psi) := by
  refine ⟨?_, rfl⟩
  unfold drawBody transformXY footprintRing affine
  dsimp only
  rw [if_neg hne, if_neg (by simp)]
  simp only [bind, Except.bind, List.map_cons, List.map_nil, poseOf, rigid, mul_zero, mul_one, zero_add]

/-- **C102.** The drawing does not deform: a point of the plane is inside the drawn polygon if and only if the
point of the outline at the same place of the player, seen from its position and heading, is. -/
theorem C102_pose (outline : List (ℝ × ℝ)) (hne : outline ≠ []) (x y psi u v : ℝ) :
    ∃ ring, drawBody outline x y psi = .ok (ring, (x, y)) ∧
      ((x + (u * Real.cos psi - v * Real.sin psi), y + (u * Real.sin psi + v * Real.cos psi)) ∈ region ring ↔
        (u, v) ∈ region outline) := by
  refine ⟨_, (C102_drawn outline hne x y psi).1, ?_⟩
  rw [footprintRing_eq, ← mem_region_map (poseOf_motion x y psi) outline (u, v)]
  have : applyT2 (poseOf x y psi) (u, v) =
      (x + (u * Real.cos psi - v * Real.sin psi), y + (u * Real.sin psi + v * Real.cos psi)) := by
    simp only [applyT2, poseOf, rigid]
    ext <;> dsimp only <;> ring
  rw [this]

theorem region_congr {o o' : List (ℝ × ℝ)} (h : ∀ p, p ∈ o ↔ p ∈ o') : region o = region o' := by
  unfold region
  congr 1
  ext p
  exact h p

theorem mem_hull (lr lb w : ℝ) (hl : 0 < lr + lb) (hw : 0 < w) (p : ℝ × ℝ) :
    p ∈ region (hullRing lr lb w) ↔ -lr ≤ p.1 ∧ p.1 ≤ lb ∧ |p.2| ≤ w := by
  have e1 : (lb - lr) / 2 - (lb + lr) / 2 = -lr := by ring
  have e2 : (lb - lr) / 2 + (lb + lr) / 2 = lb := by ring
  have : region (hullRing lr lb w) = region (rectRing ((lb - lr) / 2) ((lb + lr) / 2) w) := by
    refine region_congr fun q => ?_
    simp only [hullRing, rectRing, e1, e2, List.mem_cons, List.not_mem_nil, or_false]
    tauto
  rw [this, (mem_rect _ _ _ (by linarith) hw p).1, abs_le]
  constructor
  · rintro ⟨⟨h1, h2⟩, h3⟩
    exact ⟨by linarith, by linarith, h3⟩
  · rintro ⟨h1, h2, h3⟩
    exact ⟨⟨by linarith, by linarith⟩, h3⟩

theorem mem_nose (lb lc w : ℝ) (hc : 0 < lc) (hw : 0 < w) (p : ℝ × ℝ) :
    p ∈ region (coneRing lb lc w) ↔ lb ≤ p.1 ∧ lc * |p.2| ≤ w * (lb + lc - p.1) := by
  unfold coneRing
  rw [mem_triangle]
  have key : lc * |p.2| ≤ w * (lb + lc - p.1) ↔
      lc * p.2 ≤ w * (lb + lc - p.1) ∧ lc * -p.2 ≤ w * (lb + lc - p.1) := by
    rcases abs_cases p.2 with ⟨h, h'⟩ | ⟨h, h'⟩ <;> rw [h]
    · refine ⟨fun H => ⟨H, ?_⟩, fun H => H.1⟩
      nlinarith
    · refine ⟨fun H => ⟨?_, H⟩, fun H => H.2⟩
      nlinarith
  rw [key]
  constructor
  · rintro ⟨α, β, h1, h2, h3, rfl⟩
    simp only [Prod.fst_add, Prod.snd_add, Prod.smul_fst, Prod.smul_snd, Prod.fst_sub, Prod.snd_sub, smul_eq_mul]
    have q1 : 0 ≤ lc * α := by positivity
    have q2 : 0 ≤ lc * w * β := by positivity
    have q3 : 0 ≤ lc * w * (1 - α - β) := mul_nonneg (by positivity) (by linarith)
    refine ⟨by nlinarith, by nlinarith, by nlinarith⟩
  · rintro ⟨h1, h2, h3⟩
    refine ⟨(p.1 - lb) / lc, (w * (lb + lc - p.1) - lc * p.2) / (2 * lc * w), ?_, ?_, ?_, ?_⟩
    · exact div_nonneg (by linarith) hc.le
    · exact div_nonneg (by linarith) (by positivity)
    · have e : (p.1 - lb) / lc + (w * (lb + lc - p.1) - lc * p.2) / (2 * lc * w) =
          1 - (w * (lb + lc - p.1) - lc * -p.2) / (2 * lc * w) := by
        field_simp
        ring
      rw [e]
      have : 0 ≤ (w * (lb + lc - p.1) - lc * -p.2) / (2 * lc * w) := div_nonneg (by linarith) (by positivity)
      linarith
    · ext
      · simp only [Prod.fst_add, Prod.smul_fst, Prod.fst_sub, smul_eq_mul]
        field_simp
        ring
      · simp only [Prod.snd_add, Prod.smul_snd, Prod.snd_sub, smul_eq_mul]
        field_simp
        ring

/-- **C102.** The outline of a spaceship or rocket, in its own frame: from `l_r` behind to the tip of the nose,
`2 * w_half` wide, narrowing linearly to the tip over the length of the nose. -/
theorem C102_ship (lr lb lc w : ℝ) (hl : 0 < lr + lb) (hc : 0 < lc) (hw : 0 < w) (p : ℝ × ℝ) :
    p ∈ shipRegion lr lb lc w ↔
      -lr ≤ p.1 ∧ p.1 ≤ lb + lc ∧ |p.2| ≤ w ∧ lc * |p.2| ≤ w * (lb + lc - p.1) := by
  unfold shipRegion
  rw [Set.mem_union, mem_hull _ _ _ hl hw, mem_nose _ _ _ hc hw]
  have ha := abs_nonneg p.2
  constructor
  · rintro (⟨h1, h2, h3⟩ | ⟨h1, h2⟩)
    · refine ⟨h1, by linarith, h3, ?_⟩
      calc lc * |p.2| ≤ lc * w := mul_le_mul_of_nonneg_left h3 hc.le
        _ ≤ w * (lb + lc - p.1) := by nlinarith
    · refine ⟨by linarith, ?_, ?_, h2⟩
      · have : 0 ≤ w * (lb + lc - p.1) := le_trans (mul_nonneg hc.le ha) h2
        have := nonneg_of_mul_nonneg_right this hw
        linarith
      · have : lc * |p.2| ≤ lc * w := le_trans h2 (by nlinarith)
        exact le_of_mul_le_mul_left this hc
  · rintro ⟨h1, h2, h3, h4⟩
    rcases le_total p.1 lb with h | h
    · exact .inl ⟨h1, h, h3⟩
    · exact .inr ⟨h, h4⟩

/-- A spaceship of the default size: the tip, a rear corner and a point beside the nose. -/
example : ((2 : ℝ), (0 : ℝ)) ∈ shipRegion 1 (3 / 2) (1 / 2) (1 / 2) ∧ ((-1 : ℝ), (1 / 2 : ℝ)) ∈ shipRegion 1 (3 / 2) (1 / 2) (1 / 2) ∧
    ((19 / 10 : ℝ), (1 / 4 : ℝ)) ∉ shipRegion 1 (3 / 2) (1 / 2) (1 / 2) := by
  have h := C102_ship 1 (3 / 2) (1 / 2) (1 / 2) (by norm_num) (by norm_num) (by norm_num)
  refine ⟨(h _).mpr ?_, (h _).mpr ?_, fun hm => ?_⟩
  · norm_num
  · norm_num [abs_of_pos]
  · have := ((h _).mp hm).2.2.2
    norm_num [abs_of_pos] at this

/-! ## Ellipses -/

theorem scale_circle_mem (fx fy r : ℝ) (p : ℝ × ℝ) (hp : p ∈ scaleRing fx fy (circleRing r)) :
    ∃ k : Nat, p = (fx * (r * Real.cos (k * (Real.pi / 32))), fy * -(r * Real.sin (k * (Real.pi / 32)))) := by
  unfold scaleRing circleRing at hp
  obtain ⟨q, hq, rfl⟩ := List.mem_map.mp hp
  obtain ⟨k, -, rfl⟩ := List.mem_map.mp hq
  exact ⟨k, rfl⟩

theorem scale_circle_corner (fx fy r : ℝ) (k : Nat) (hk : k < 65) :
    (fx * (r * Real.cos (k * (Real.pi / 32))), fy * -(r * Real.sin (k * (Real.pi / 32)))) ∈
      region (scaleRing fx fy (circleRing r)) := by
  refine subset_convexHull ℝ _ ?_
  exact List.mem_map.mpr ⟨_, List.mem_map.mpr ⟨k, List.mem_range.mpr hk, rfl⟩, rfl⟩

theorem ellipse_convex (a b : ℝ) : Convex ℝ {p : ℝ × ℝ | (p.1 / a) ^ 2 + (p.2 / b) ^ 2 ≤ 1} := by
  rintro u hu v hv s t hs ht hst
  simp only [Set.mem_setOf_eq] at hu hv
  simp only [Set.mem_setOf_eq, Prod.fst_add, Prod.snd_add, Prod.smul_fst, Prod.smul_snd, smul_eq_mul]
  have sq : ∀ x y : ℝ, (s * x + t * y) ^ 2 ≤ s * x ^ 2 + t * y ^ 2 := by
    intro x y
    have e : t = 1 - s := by linarith
    have : s * x ^ 2 + t * y ^ 2 - (s * x + t * y) ^ 2 = s * t * (x - y) ^ 2 := by subst e; ring
    have : 0 ≤ s * t * (x - y) ^ 2 := by positivity
    linarith
  have e1 : (s * u.1 + t * v.1) / a = s * (u.1 / a) + t * (v.1 / a) := by ring
  have e2 : (s * u.2 + t * v.2) / b = s * (u.2 / b) + t * (v.2 / b) := by ring
  rw [e1, e2]
  have h1 := sq (u.1 / a) (v.1 / a)
  have h2 := sq (u.2 / b) (v.2 / b)
  have h3 := mul_le_mul_of_nonneg_left hu hs
  have h4 := mul_le_mul_of_nonneg_left hv ht
  nlinarith

theorem scaled_circle (fx fy r : ℝ) (hx : fx ≠ 0) (hy : fy ≠ 0) (hr : r ≠ 0) (p : ℝ × ℝ)
    (hp : p ∈ region (scaleRing fx fy (circleRing r))) : (p.1 / (fx * r)) ^ 2 + (p.2 / (fy * r)) ^ 2 ≤ 1 := by
  refine convexHull_min ?_ (ellipse_convex (fx * r) (fy * r)) hp
  intro q hq
  obtain ⟨k, rfl⟩ := scale_circle_mem fx fy r q hq
  simp only [Set.mem_setOf_eq]
  have e1 : fx * (r * Real.cos (k * (Real.pi / 32))) / (fx * r) = Real.cos (k * (Real.pi / 32)) := by field_simp
  have e2 : fy * -(r * Real.sin (k * (Real.pi / 32))) / (fy * r) = -Real.sin (k * (Real.pi / 32)) := by field_simp
  rw [e1, e2, neg_sq, Real.cos_sq_add_sin_sq]

theorem quarter_angle (k : Nat) (j : Nat) (h : k = 16 * j) : (k : ℝ) * (Real.pi / 32) = j * (Real.pi / 2) := by
  subst h; push_cast; ring

/-- **C102.** The outline of a pedestrian is within an ellipse one metre long and a metre and a half wide, and
reaches its ends. -/
theorem C102_pedestrian (p : ℝ × ℝ) :
    (p ∈ region pedestrianRing → (p.1 / (1 / 2)) ^ 2 + (p.2 / (3 / 4)) ^ 2 ≤ 1) ∧
      ((1 / 2 : ℝ), (0 : ℝ)) ∈ region pedestrianRing ∧ ((-1 / 2 : ℝ), (0 : ℝ)) ∈ region pedestrianRing ∧
      ((0 : ℝ), (3 / 4 : ℝ)) ∈ region pedestrianRing ∧ ((0 : ℝ), (-3 / 4 : ℝ)) ∈ region pedestrianRing := by
  have c := fun k hk => scale_circle_corner 1 (3 / 2) (1 / 2) k hk
  have c0 := c 0 (by norm_num)
  have c1 := c 16 (by norm_num)
  have c2 := c 32 (by norm_num)
  have c3 := c 48 (by norm_num)
  rw [quarter_angle 16 1 (by norm_num)] at c1
  rw [quarter_angle 32 2 (by norm_num)] at c2
  rw [quarter_angle 48 3 (by norm_num)] at c3
  have e2 : ((2 : ℕ) : ℝ) * (Real.pi / 2) = Real.pi := by push_cast; ring
  have e3 : ((3 : ℕ) : ℝ) * (Real.pi / 2) = Real.pi / 2 + Real.pi := by push_cast; ring
  rw [e2] at c2
  rw [e3, Real.cos_add_pi, Real.sin_add_pi] at c3
  refine ⟨fun hp => ?_, ?_, ?_, ?_, ?_⟩
  · have := scaled_circle 1 (3 / 2) (1 / 2) (by norm_num) (by norm_num) (by norm_num) p hp
    norm_num at this ⊢
    exact this
  · norm_num at c0
    unfold pedestrianRing
    norm_num
    exact c0
  · norm_num at c2
    unfold pedestrianRing
    norm_num
    exact c2
  · norm_num at c3
    unfold pedestrianRing
    norm_num
    exact c3
  · norm_num at c1
    unfold pedestrianRing
    norm_num
    exact c1

/-- **C102.** The outline of a spacecraft: `l_r` behind and `l_f` before its position and `2 * w_half` wide, and
it reaches that far; everything behind the position is a full rectangle, everything more than a millimetre before
it is within the ellipse. -/
theorem C102_craft (lf lr w : ℝ) (hw : 0 < w) (hf : 1 / 1000 ≤ lf) (hi : craftInit lf lr = .ok ()) (p : ℝ × ℝ) :
    (p ∈ craftRegion lf lr w → -lr ≤ p.1 ∧ p.1 ≤ lf ∧ |p.2| ≤ w) ∧
      (p ∈ craftRegion lf lr w → 1 / 1000 < p.1 → (p.1 / lf) ^ 2 + (p.2 / w) ^ 2 ≤ 1) ∧
      (-lr ≤ p.1 → p.1 ≤ 0 → |p.2| ≤ w → p ∈ craftRegion lf lr w) ∧ (lf, 0) ∈ craftRegion lf lr w := by
  have hlr : lf < lr := by
    unfold craftInit at hi
    by_contra h
    rw [if_neg h] at hi
    exact absurd hi (by simp)
  have hrect : ∀ q, q ∈ region (craftRect lr w) ↔ -lr ≤ q.1 ∧ q.1 ≤ 1 / 1000 ∧ |q.2| ≤ w := by
    intro q
    rw [← mem_hull lr (1 / 1000) w (by linarith) hw]
    have : region (craftRect lr w) = region (hullRing lr (1 / 1000) w) := by
      refine region_congr fun q => ?_
      simp only [hullRing, craftRect, List.mem_cons, List.not_mem_nil, or_false]
      tauto
    rw [this]
  have hlf : 0 < lf := by linarith
  have hell : ∀ q, q ∈ region (scaleRing (lf / w) 1 (circleRing w)) → (q.1 / lf) ^ 2 + (q.2 / w) ^ 2 ≤ 1 := by
    intro q hq
    have := scaled_circle (lf / w) 1 w (div_pos hlf hw).ne' one_ne_zero hw.ne' q hq
    rwa [div_mul_cancel₀ _ hw.ne', one_mul] at this
  have hbox : ∀ q : ℝ × ℝ, (q.1 / lf) ^ 2 + (q.2 / w) ^ 2 ≤ 1 → |q.1| ≤ lf ∧ |q.2| ≤ w := by
    intro q h
    have h1 : (q.1 / lf) ^ 2 ≤ 1 := by nlinarith [sq_nonneg (q.2 / w)]
    have h2 : (q.2 / w) ^ 2 ≤ 1 := by nlinarith [sq_nonneg (q.1 / lf)]
    rw [sq_le_one_iff_abs_le_one, abs_div, abs_of_pos hlf, div_le_one hlf] at h1
    rw [sq_le_one_iff_abs_le_one, abs_div, abs_of_pos hw, div_le_one hw] at h2
    exact ⟨h1, h2⟩
  unfold craftRegion
  refine ⟨?_, ?_, ?_, ?_⟩
  · rintro (h | h)
    · obtain ⟨h1, h2⟩ := hbox p (hell p h)
      rw [abs_le] at h1
      exact ⟨by linarith, h1.2, h2⟩
    · obtain ⟨h1, h2, h3⟩ := (hrect p).mp h
      exact ⟨h1, by linarith, h3⟩
  · rintro (h | h) hp
    · exact hell p h
    · exact absurd ((hrect p).mp h).2.1 (not_le.mpr hp)
  · intro h1 h2 h3
    exact .inr ((hrect p).mpr ⟨h1, by linarith, h3⟩)
  · refine .inl ?_
    have := scale_circle_corner (lf / w) 1 w 0 (by norm_num)
    simpa [div_mul_cancel₀ _ hw.ne'] using this

/-- The default spacecraft. -/
example : ((2 : ℝ), (0 : ℝ)) ∈ craftRegion 2 3 1 ∧ ((3 / 2 : ℝ), (9 / 10 : ℝ)) ∉ craftRegion 2 3 1 := by
  have h := C102_craft 2 3 1 (by norm_num) (by norm_num) (if_pos (by norm_num))
  refine ⟨(h (0, 0)).2.2.2, fun hm => ?_⟩
  have := (h _).2.1 hm (by norm_num)
  norm_num at this

example : drawBody (hullRing 1 2 1) 5 6 0 =
    .ok (footprintRing (hullRing 1 2 1) (poseOf 5 6 0), (5, 6)) := (C102_drawn _ (by simp [hullRing]) 5 6 0).1

example := C102_pose (hullRing 1 2 1) (by simp [hullRing]) 5 6 0 1 2

end Viz
end Verif
