import Verif.Coll.Mesh
import Verif.Coll.Resolve
import Verif.Phys.OutlineProps
import Mathlib.Analysis.Convex.Join
import Mathlib.LinearAlgebra.AffineSpace.AffineMap
import Mathlib.Tactic.FieldSimp
import Mathlib.Tactic.Ring
import Mathlib.Tactic.Linarith

/-!
# Where a model was hit (C101)
-/

namespace Verif
namespace Coll

open Maps

/-! ## Specification -/

/-- The quarter of a rectangle of half length `a` and half width `b` in which the point at `d` from its middle
lies; the first axis points forwards, the second to the left. -/
def Quarter (a b : ℝ) : Side → ℝ × ℝ → Prop
  | .front, d => a * |d.2| ≤ b * d.1 ∧ d.1 ≤ a
  | .back, d => a * |d.2| ≤ b * -d.1 ∧ -d.1 ≤ a
  | .left, d => b * |d.1| ≤ a * d.2 ∧ d.2 ≤ b
  | .right, d => b * |d.1| ≤ a * -d.2 ∧ -d.2 ≤ b
  | .everywhere, _ => False

/-! ## Triangles -/

theorem mem_triangle (c u v p : ℝ × ℝ) : p ∈ region [c, u, v, c] ↔
    ∃ α β : ℝ, 0 ≤ α ∧ 0 ≤ β ∧ α + β ≤ 1 ∧ p = c + α • (u - c) + β • (v - c) := by
  have hset : {q | q ∈ [c, u, v, c]} = insert c {u, v} := by
    ext q; simp; tauto
  unfold region
  rw [hset, convexHull_insert (by simp), convexHull_pair, mem_convexJoin]
  constructor
  · rintro ⟨a, ha, w, ⟨s, t, hs, ht, hst, rfl⟩, ⟨x, y, hx, hy, hxy, rfl⟩⟩
    rw [Set.mem_singleton_iff] at ha
    subst ha
    refine ⟨y * s, y * t, mul_nonneg hy hs, mul_nonneg hy ht, ?_, ?_⟩
    · rw [← mul_add, hst, mul_one]; linarith
    · ext
      · simp only [Prod.fst_add, Prod.smul_fst, Prod.fst_sub, smul_eq_mul]
        linear_combination a.1 * hxy + y * a.1 * hst
      · simp only [Prod.snd_add, Prod.smul_snd, Prod.snd_sub, smul_eq_mul]
        linear_combination a.2 * hxy + y * a.2 * hst
  · rintro ⟨α, β, hα, hβ, h1, rfl⟩
    refine ⟨c, rfl, ?_⟩
    by_cases h0 : α + β = 0
    · have h2 : α = 0 := by linarith
      have h3 : β = 0 := by linarith
      refine ⟨u, left_mem_segment _ _ _, ?_⟩
      simp [h2, h3, left_mem_segment]
    · have hp : 0 < α + β := lt_of_le_of_ne (by linarith) (Ne.symm h0)
      refine ⟨(α / (α + β)) • u + (β / (α + β)) • v,
        ⟨_, _, div_nonneg hα hp.le, div_nonneg hβ hp.le, by rw [← add_div]; exact div_self h0, rfl⟩,
        1 - (α + β), α + β, by linarith, hp.le, by ring, ?_⟩
      ext
      · simp only [Prod.fst_add, Prod.smul_fst, Prod.fst_sub, smul_eq_mul]
        field_simp
        ring
      · simp only [Prod.snd_add, Prod.smul_snd, Prod.snd_sub, smul_eq_mul]
        field_simp
        ring

/-! ## Moving polygons -/

/-- The motion of `affine_transform` as a map of the plane. -/
noncomputable def motion (q : Mat3 ℝ) : (ℝ × ℝ) →ᵃ[ℝ] (ℝ × ℝ) where
  toFun := affine q.a00 q.a01 q.a10 q.a11 q.a02 q.a12
  linear :=
    { toFun := fun p => (q.a00 * p.1 + q.a01 * p.2, q.a10 * p.1 + q.a11 * p.2)
      map_add' := fun x y => by ext <;> simp <;> ring
      map_smul' := fun k x => by ext <;> simp <;> ring }
  map_vadd' p v := by
    ext <;> simp [affine] <;> ring

theorem motion_apply (q : Mat3 ℝ) (p : ℝ × ℝ) : motion q p = applyT2 q p := by
  change affine _ _ _ _ _ _ p = _
  simp [affine, applyT2]

theorem footprintRing_eq (o : List (ℝ × ℝ)) (q : Mat3 ℝ) : footprintRing o q = o.map (motion q) := rfl

theorem region_map (o : List (ℝ × ℝ)) (q : Mat3 ℝ) : region (o.map (motion q)) = motion q '' region o := by
  unfold region
  rw [AffineMap.image_convexHull]
  congr 1
  ext p
  simp

/-- A rotation and a translation. -/
def IsMotion (q : Mat3 ℝ) : Prop := ∃ c s x y, c ^ 2 + s ^ 2 = 1 ∧ q = rigid c s x y

theorem motion_injective {q : Mat3 ℝ} (hq : IsMotion q) : Function.Injective (motion q) := by
  obtain ⟨c, s, x, y, h, rfl⟩ := hq
  intro p p' e
  have e' : affine c (-s) s c x y p = affine c (-s) s c x y p' := e
  simp only [affine, Prod.mk.injEq] at e'
  obtain ⟨e1, e2⟩ := e'
  ext
  · linear_combination c * e1 + s * e2 - (p.1 - p'.1) * h
  · linear_combination c * e2 - s * e1 - (p.2 - p'.2) * h

theorem mem_region_map {q : Mat3 ℝ} (hq : IsMotion q) (o : List (ℝ × ℝ)) (p : ℝ × ℝ) :
    applyT2 q p ∈ region (o.map (motion q)) ↔ p ∈ region o := by
  rw [region_map, ← motion_apply]
  exact (motion_injective hq).mem_set_image

theorem twiceArea_map {q : Mat3 ℝ} (hq : IsMotion q) (a b c : ℝ × ℝ) :
    twiceArea (motion q a) (motion q b) (motion q c) = twiceArea a b c := by
  obtain ⟨k, s, x, y, h, rfl⟩ := hq
  simp only [motion_apply, applyT2, rigid, twiceArea]
  linear_combination ((b.1 - a.1) * (c.2 - a.2) - (c.1 - a.1) * (b.2 - a.2)) * h

theorem ringPoint_map (q : Mat3 ℝ) (o : List (ℝ × ℝ)) (i : Nat) (hi : i < o.length) :
    ringPoint (o.map (motion q)) i = motion q (ringPoint o i) := by
  simp [ringPoint, hi]

theorem ringArea_map {q : Mat3 ℝ} (hq : IsMotion q) (o : List (ℝ × ℝ)) :
    ringArea (o.map (motion q)) = ringArea o := by
  unfold ringArea
  rw [List.length_map]
  refine Finset.sum_congr rfl fun i hi => ?_
  have := Finset.mem_range.mp hi
  rw [ringPoint_map q o 0 (by omega), ringPoint_map q o i (by omega), ringPoint_map q o (i + 1) (by omega),
    twiceArea_map hq]

theorem centroid_map {q : Mat3 ℝ} (hq : IsMotion q) (o : List (ℝ × ℝ)) (ha : ringArea o ≠ 0) :
    centroid (o.map (motion q)) = motion q (centroid o) := by
  have hm : ringMoment (o.map (motion q)) =
      ((q.a00 * (ringMoment o).1 + q.a01 * (ringMoment o).2) + 3 * q.a02 * ringArea o,
       (q.a10 * (ringMoment o).1 + q.a11 * (ringMoment o).2) + 3 * q.a12 * ringArea o) := by
    unfold ringMoment ringArea
    rw [List.length_map]
    have : ∀ i ∈ Finset.range (o.length - 1),
        twiceArea (ringPoint (o.map (motion q)) 0) (ringPoint (o.map (motion q)) i)
          (ringPoint (o.map (motion q)) (i + 1)) • (ringPoint (o.map (motion q)) 0 +
            ringPoint (o.map (motion q)) i + ringPoint (o.map (motion q)) (i + 1)) =
        twiceArea (ringPoint o 0) (ringPoint o i) (ringPoint o (i + 1)) •
          (motion q (ringPoint o 0) + motion q (ringPoint o i) + motion q (ringPoint o (i + 1))) := by
      intro i hi
      have := Finset.mem_range.mp hi
      rw [ringPoint_map q o 0 (by omega), ringPoint_map q o i (by omega),
        ringPoint_map q o (i + 1) (by omega), twiceArea_map hq]
    rw [Finset.sum_congr rfl this]
    ext
    · simp only [Prod.fst_sum, Prod.snd_sum, Prod.smul_fst, Prod.smul_snd, Prod.fst_add, Prod.snd_add,
        motion_apply, applyT2, smul_eq_mul, Finset.mul_sum, ← Finset.sum_add_distrib]
      exact Finset.sum_congr rfl fun i _ => by ring
    · simp only [Prod.fst_sum, Prod.snd_sum, Prod.smul_fst, Prod.smul_snd, Prod.fst_add, Prod.snd_add,
        motion_apply, applyT2, smul_eq_mul, Finset.mul_sum, ← Finset.sum_add_distrib]
      exact Finset.sum_congr rfl fun i _ => by ring
  unfold centroid
  rw [ringArea_map hq, hm, motion_apply, applyT2]
  ext
  · simp only
    field_simp
  · simp only
    field_simp

theorem vertex_map (q : Mat3 ℝ) (o : List (ℝ × ℝ)) (i : Nat) :
    vertex (o.map (motion q)) i = (vertex o i).map (motion q) := by
  unfold vertex
  rw [← List.map_dropLast, List.getElem?_map]
  cases o.dropLast[i]? <;> rfl

theorem validTriangle_map {q : Mat3 ℝ} (hq : IsMotion q) (t : List (ℝ × ℝ)) :
    validTriangle (t.map (motion q)) = validTriangle t := by
  rcases t with _ | ⟨a, _ | ⟨b, _ | ⟨c, _ | ⟨d, _ | ⟨e, t⟩⟩⟩⟩⟩ <;> simp [validTriangle, twiceArea_map hq]

/-- A moved mesh. -/
noncomputable def moveMesh (q : Mat3 ℝ) (mesh : List (Side × List (ℝ × ℝ))) : List (Side × List (ℝ × ℝ)) :=
  mesh.map fun (l : Side × List (ℝ × ℝ)) => (l.1, l.2.map (motion q))

theorem checkMesh_map {q : Mat3 ℝ} (hq : IsMotion q) (mesh : List (Side × List (ℝ × ℝ))) :
    checkMesh (moveMesh q mesh) = (checkMesh mesh).map (moveMesh q) := by
  unfold checkMesh
  have : (moveMesh q mesh).all (fun l => validTriangle l.2) = mesh.all (fun l => validTriangle l.2) := by
    simp [moveMesh, List.all_map, Function.comp_def, validTriangle_map hq]
  rw [this]
  split <;> rfl

/-- The mesh of a moved polygon is the moved mesh. -/
theorem sideMesh_map {q : Mat3 ℝ} (hq : IsMotion q) (o : List (ℝ × ℝ)) (ha : ringArea o ≠ 0) :
    sideMesh (o.map (motion q)) = (sideMesh o).map (moveMesh q) := by
  unfold sideMesh
  rw [centroid_map hq o ha]
  simp only [vertex_map]
  cases h0 : vertex o 0 with
  | error e => rfl
  | ok v0 =>
    cases h1 : vertex o 1 with
    | error e => rfl
    | ok v1 =>
      cases h2 : vertex o 2 with
      | error e => rfl
      | ok v2 =>
        cases h3 : vertex o 3 with
        | error e => rfl
        | ok v3 =>
          exact checkMesh_map hq [(.right, [centroid o, v0, v3, centroid o]),
            (.left, [centroid o, v1, v2, centroid o]), (.back, [centroid o, v0, v1, centroid o]),
            (.front, [centroid o, v2, v3, centroid o])]

/-! ## Rectangles -/

/-- The ring of a rectangle with middle `(m, 0)`, as `outline` lists it. -/
def rectRing (m a b : ℝ) : List (ℝ × ℝ) := [(m - a, -b), (m - a, b), (m + a, b), (m + a, -b), (m - a, -b)]

theorem ringArea_rect (m a b : ℝ) : ringArea (rectRing m a b) = -8 * a * b := by
  simp [ringArea, rectRing, ringPoint, Finset.sum_range_succ, twiceArea]
  ring

theorem centroid_rect (m a b : ℝ) (ha : 0 < a) (hb : 0 < b) : centroid (rectRing m a b) = (m, 0) := by
  unfold centroid
  rw [ringArea_rect]
  have h1 : (ringMoment (rectRing m a b)).1 = -24 * a * b * m := by
    simp [ringMoment, rectRing, ringPoint, Finset.sum_range_succ, twiceArea]
    ring
  have h2 : (ringMoment (rectRing m a b)).2 = 0 := by
    simp [ringMoment, rectRing, ringPoint, Finset.sum_range_succ, twiceArea]
  rw [h1, h2]
  ext
  · simp only
    field_simp
    ring
  · simp

theorem sideMesh_rect (m a b : ℝ) (ha : 0 < a) (hb : 0 < b) : sideMesh (rectRing m a b) = .ok
    [(.right, [(m, 0), (m - a, -b), (m + a, -b), (m, 0)]), (.left, [(m, 0), (m - a, b), (m + a, b), (m, 0)]),
      (.back, [(m, 0), (m - a, -b), (m - a, b), (m, 0)]), (.front, [(m, 0), (m + a, b), (m + a, -b), (m, 0)])] := by
  unfold sideMesh
  rw [centroid_rect m a b ha hb]
  have hab : a * b ≠ 0 := (mul_pos ha hb).ne'
  have hv : ∀ u v : ℝ × ℝ, (u.1 - m) * v.2 - (v.1 - m) * u.2 ≠ 0 →
      validTriangle [(m, 0), u, v, (m, 0)] = true := by
    intro u v h
    simp only [validTriangle, twiceArea, sub_zero]
    exact decide_eq_true h
  have v1 := hv (m - a, -b) (m + a, -b) (by simp only; ring_nf; intro h; exact hab (by linarith))
  have v2 := hv (m - a, b) (m + a, b) (by simp only; ring_nf; intro h; exact hab (by linarith))
  have v3 := hv (m - a, -b) (m - a, b) (by simp only; ring_nf; intro h; exact hab (by linarith))
  have v4 := hv (m + a, b) (m + a, -b) (by simp only; ring_nf; intro h; exact hab (by linarith))
  simp [vertex, rectRing, bind, Except.bind, checkMesh, v1, v2, v3, v4]

theorem cone (a b X Y : ℝ) (ha : 0 < a) (hb : 0 < b) :
    (∃ α β : ℝ, 0 ≤ α ∧ 0 ≤ β ∧ α + β ≤ 1 ∧ X = (α + β) * a ∧ Y = (α - β) * b) ↔ a * |Y| ≤ b * X ∧ X ≤ a := by
  constructor
  · rintro ⟨α, β, h1, h2, h3, rfl, rfl⟩
    refine ⟨?_, by nlinarith⟩
    rw [abs_mul, abs_of_pos hb]
    have : |α - β| ≤ α + β := abs_le.mpr ⟨by linarith, by linarith⟩
    nlinarith [mul_le_mul_of_nonneg_left this (mul_pos ha hb).le]
  · rintro ⟨h1, h2⟩
    have h3 := abs_le.mp (show |Y| ≤ b * X / a by rw [le_div_iff₀ ha]; linarith)
    refine ⟨(X / a + Y / b) / 2, (X / a - Y / b) / 2, ?_, ?_, ?_, ?_, ?_⟩
    · have : 0 ≤ (b * X / a + Y) / b / 2 := by apply div_nonneg (div_nonneg (by linarith) hb.le); norm_num
      have e : (b * X / a + Y) / b / 2 = (X / a + Y / b) / 2 := by field_simp
      rwa [e] at this
    · have : 0 ≤ (b * X / a - Y) / b / 2 := by apply div_nonneg (div_nonneg (by linarith) hb.le); norm_num
      have e : (b * X / a - Y) / b / 2 = (X / a - Y / b) / 2 := by field_simp
      rwa [e] at this
    · have : X / a ≤ 1 := (div_le_one ha).mpr h2
      linarith
    · field_simp; ring
    · field_simp; ring

/-- The quarters are the triangles. -/
theorem mem_quarter (m a b : ℝ) (ha : 0 < a) (hb : 0 < b) (p : ℝ × ℝ) :
    (p ∈ region [(m, 0), (m + a, b), (m + a, -b), (m, 0)] ↔ Quarter a b .front (p - (m, 0))) ∧
    (p ∈ region [(m, 0), (m - a, -b), (m - a, b), (m, 0)] ↔ Quarter a b .back (p - (m, 0))) ∧
    (p ∈ region [(m, 0), (m - a, b), (m + a, b), (m, 0)] ↔ Quarter a b .left (p - (m, 0))) ∧
    (p ∈ region [(m, 0), (m - a, -b), (m + a, -b), (m, 0)] ↔ Quarter a b .right (p - (m, 0))) := by
  obtain ⟨x, y⟩ := p
  simp only [mem_triangle, Quarter, Prod.mk_sub_mk, sub_zero, Prod.smul_mk, smul_eq_mul, Prod.mk_add_mk,
    Prod.mk.injEq, zero_add]
  refine ⟨?_, ?_, ?_, ?_⟩
  · rw [← cone a b (x - m) y ha hb]
    refine exists_congr fun α => exists_congr fun β => and_congr_right fun _ => and_congr_right fun _ =>
      and_congr_right fun _ => ⟨fun ⟨h, k⟩ => ⟨?_, ?_⟩, fun ⟨h, k⟩ => ⟨?_, ?_⟩⟩ <;> linarith
  · rw [← abs_neg, ← cone a b (-(x - m)) (-y) ha hb]
    refine exists_congr fun α => exists_congr fun β => and_congr_right fun _ => and_congr_right fun _ =>
      and_congr_right fun _ => ⟨fun ⟨h, k⟩ => ⟨?_, ?_⟩, fun ⟨h, k⟩ => ⟨?_, ?_⟩⟩ <;> linarith
  · rw [← abs_neg, ← cone b a y (-(x - m)) hb ha]
    refine exists_congr fun α => exists_congr fun β => and_congr_right fun _ => and_congr_right fun _ =>
      and_congr_right fun _ => ⟨fun ⟨h, k⟩ => ⟨?_, ?_⟩, fun ⟨h, k⟩ => ⟨?_, ?_⟩⟩ <;> linarith
  · rw [← abs_neg, ← cone b a (-y) (-(x - m)) hb ha]
    refine exists_congr fun α => exists_congr fun β => and_congr_right fun _ => and_congr_right fun _ =>
      and_congr_right fun _ => ⟨fun ⟨h, k⟩ => ⟨?_, ?_⟩, fun ⟨h, k⟩ => ⟨?_, ?_⟩⟩ <;> linarith

/-- The points of the rectangle. -/
theorem mem_rect (m a b : ℝ) (ha : 0 < a) (hb : 0 < b) (p : ℝ × ℝ) :
    (p ∈ region (rectRing m a b) ↔ |p.1 - m| ≤ a ∧ |p.2| ≤ b) ∧
    (p ∈ region (rectRing m a b) ↔ ∃ s, Quarter a b s (p - (m, 0))) := by
  have h1 : p ∈ region (rectRing m a b) → |p.1 - m| ≤ a ∧ |p.2| ≤ b := by
    have hc : Convex ℝ {p : ℝ × ℝ | |p.1 - m| ≤ a ∧ |p.2| ≤ b} := by
      rintro u ⟨hu1, hu2⟩ v ⟨hv1, hv2⟩ s t hs ht hst
      rw [abs_le] at hu1 hu2 hv1 hv2
      simp only [Set.mem_setOf_eq, Prod.fst_add, Prod.snd_add, Prod.smul_fst, Prod.smul_snd, smul_eq_mul, abs_le]
      have e : t = 1 - s := by linarith
      subst e
      refine ⟨⟨?_, ?_⟩, ?_, ?_⟩ <;> nlinarith
    refine fun h => convexHull_min ?_ hc h
    intro q hq
    simp only [rectRing, List.mem_cons, List.not_mem_nil, or_false, Set.mem_setOf_eq] at hq
    rcases hq with rfl | rfl | rfl | rfl | rfl <;> simp [abs_of_pos ha, abs_of_pos hb]
  have h2 : (|p.1 - m| ≤ a ∧ |p.2| ≤ b) → ∃ s, Quarter a b s (p - (m, 0)) := by
    rintro ⟨hx, hy⟩
    rw [abs_le] at hx hy
    rcases le_total (a * |p.2|) (b * |p.1 - m|) with h | h
    · rcases abs_cases (p.1 - m) with ⟨e, _⟩ | ⟨e, _⟩
      · exact ⟨.front, by simp only [Quarter, Prod.fst_sub, Prod.snd_sub, sub_zero]; rw [e] at h; exact ⟨h, hx.2⟩⟩
      · exact ⟨.back, by
          simp only [Quarter, Prod.fst_sub, Prod.snd_sub, sub_zero]; rw [e] at h; exact ⟨h, by linarith⟩⟩
    · rcases abs_cases p.2 with ⟨e, _⟩ | ⟨e, _⟩
      · exact ⟨.left, by simp only [Quarter, Prod.fst_sub, Prod.snd_sub, sub_zero]; rw [e] at h; exact ⟨h, hy.2⟩⟩
      · exact ⟨.right, by
          simp only [Quarter, Prod.fst_sub, Prod.snd_sub, sub_zero]; rw [e] at h; exact ⟨h, by linarith⟩⟩
  have hsub : ∀ u v : ℝ × ℝ, u ∈ rectRing m a b → v ∈ rectRing m a b →
      region [(m, 0), u, v, (m, 0)] ⊆ region (rectRing m a b) := by
    intro u v hu hv
    refine convexHull_min ?_ (convex_convexHull ℝ _)
    have hm : ((m, 0) : ℝ × ℝ) ∈ region (rectRing m a b) := by
      have e : ((m, 0) : ℝ × ℝ) = (1 / 2 : ℝ) • (m - a, -b) + (1 / 2 : ℝ) • (m + a, b) := by
        ext <;> simp
        ring
      rw [e]
      exact convex_convexHull ℝ _ (subset_convexHull ℝ _ (by simp [rectRing]))
        (subset_convexHull ℝ _ (by simp [rectRing])) (by norm_num) (by norm_num) (by norm_num)
    intro q hq
    simp only [List.mem_cons, List.not_mem_nil, or_false, Set.mem_setOf_eq] at hq
    rcases hq with rfl | rfl | rfl | rfl
    · exact hm
    · exact subset_convexHull ℝ _ hu
    · exact subset_convexHull ℝ _ hv
    · exact hm
  have h3 : (∃ s, Quarter a b s (p - (m, 0))) → p ∈ region (rectRing m a b) := by
    obtain ⟨q1, q2, q3, q4⟩ := mem_quarter m a b ha hb p
    rintro ⟨s, hs⟩
    cases s with
    | front => exact hsub _ _ (by simp [rectRing]) (by simp [rectRing]) (q1.mpr hs)
    | back => exact hsub _ _ (by simp [rectRing]) (by simp [rectRing]) (q2.mpr hs)
    | left => exact hsub _ _ (by simp [rectRing]) (by simp [rectRing]) (q3.mpr hs)
    | right => exact hsub _ _ (by simp [rectRing]) (by simp [rectRing]) (q4.mpr hs)
    | everywhere => exact absurd hs id
  exact ⟨⟨h1, fun h => h3 (h2 h)⟩, fun h => h2 (h1 h), h3⟩

/-! ## Circles -/

/-- Corner `k` of the circle. -/
noncomputable def corner (r : ℝ) (k : Nat) : ℝ × ℝ :=
  (r * Real.cos (k * (Real.pi / 32)), -(r * Real.sin (k * (Real.pi / 32))))

theorem ringPoint_circle (r : ℝ) (k : Nat) (hk : k < 65) : ringPoint (circleRing r) k = corner r k := by
  simp [ringPoint, circleRing, corner, hk]

/-- Cross product of two points. -/
def cr (p q : ℝ × ℝ) : ℝ := p.1 * q.2 - p.2 * q.1

theorem cr_corner (r : ℝ) (k : Nat) : cr (corner r k) (corner r (k + 1)) = -(r ^ 2 * Real.sin (Real.pi / 32)) := by
  have h : Real.sin (Real.pi / 32) =
      Real.sin ((k + 1 : Nat) * (Real.pi / 32)) * Real.cos (k * (Real.pi / 32)) -
        Real.cos ((k + 1 : Nat) * (Real.pi / 32)) * Real.sin (k * (Real.pi / 32)) := by
    rw [← Real.sin_sub]
    congr 1
    push_cast
    ring
  rw [h]
  simp only [cr, corner]
  ring

theorem sum_antiperiodic (f : Nat → ℝ) (h : ∀ k, f (k + 32) = -f k) : ∑ k ∈ Finset.range 64, f k = 0 := by
  have : Finset.range 64 = Finset.range (32 + 32) := rfl
  rw [this, Finset.sum_range_add]
  have e : ∀ k ∈ Finset.range 32, f (32 + k) = -f k := fun k _ => by rw [add_comm, h]
  rw [Finset.sum_congr rfl e, Finset.sum_neg_distrib]
  ring

theorem corner_half (r : ℝ) (k : Nat) : corner r (k + 32) = -corner r k := by
  have e : ((k + 32 : Nat) : ℝ) * (Real.pi / 32) = k * (Real.pi / 32) + Real.pi := by push_cast; ring
  unfold corner
  rw [e, Real.cos_add_pi, Real.sin_add_pi]
  ext <;> simp

theorem sum_corner (r : ℝ) (k : Nat) : ∑ i ∈ Finset.range 64, corner r (i + k) = 0 := by
  ext
  · rw [Prod.fst_sum]
    exact sum_antiperiodic _ fun i => by
      have := corner_half r (i + k)
      rw [show i + 32 + k = i + k + 32 by ring, this]; rfl
  · rw [Prod.snd_sum]
    exact sum_antiperiodic _ fun i => by
      have := corner_half r (i + k)
      rw [show i + 32 + k = i + k + 32 by ring, this]; rfl

theorem corner_closed (r : ℝ) : corner r 64 = corner r 0 := by
  have h1 := corner_half r 0
  have h2 := corner_half r 32
  simp only [zero_add] at h1
  rw [h2, h1, neg_neg]

theorem ringArea_circle (r : ℝ) : ringArea (circleRing r) = -(64 * (r ^ 2 * Real.sin (Real.pi / 32))) := by
  have hl : (circleRing r).length - 1 = 64 := by simp [circleRing]
  unfold ringArea
  rw [hl]
  have h : ∀ i ∈ Finset.range 64, twiceArea (ringPoint (circleRing r) 0) (ringPoint (circleRing r) i)
      (ringPoint (circleRing r) (i + 1)) = -(r ^ 2 * Real.sin (Real.pi / 32)) +
        (cr (corner r 0) (corner r i) - cr (corner r 0) (corner r (i + 1))) := by
    intro i hi
    have := Finset.mem_range.mp hi
    rw [ringPoint_circle r 0 (by omega), ringPoint_circle r i (by omega), ringPoint_circle r (i + 1) (by omega),
      ← cr_corner r i]
    simp only [twiceArea, cr]
    ring
  rw [Finset.sum_congr rfl h, Finset.sum_add_distrib, Finset.sum_range_sub', corner_closed]
  simp

theorem ringMoment_circle (r : ℝ) : ringMoment (circleRing r) = 0 := by
  have hl : (circleRing r).length - 1 = 64 := by simp [circleRing]
  unfold ringMoment
  rw [hl]
  have h : ∀ i ∈ Finset.range 64, twiceArea (ringPoint (circleRing r) 0) (ringPoint (circleRing r) i)
      (ringPoint (circleRing r) (i + 1)) • (ringPoint (circleRing r) 0 + ringPoint (circleRing r) i +
        ringPoint (circleRing r) (i + 1)) =
      (-(r ^ 2 * Real.sin (Real.pi / 32))) • (corner r i + corner r (i + 1)) +
        (cr (corner r 0) (corner r i) • (corner r 0 + corner r i) -
          cr (corner r 0) (corner r (i + 1)) • (corner r 0 + corner r (i + 1))) := by
    intro i hi
    have := Finset.mem_range.mp hi
    rw [ringPoint_circle r 0 (by omega), ringPoint_circle r i (by omega), ringPoint_circle r (i + 1) (by omega),
      ← cr_corner r i]
    generalize corner r 0 = b
    generalize corner r i = p
    generalize corner r (i + 1) = q
    ext <;> simp [twiceArea, cr] <;> ring
  rw [Finset.sum_congr rfl h, Finset.sum_add_distrib,
    Finset.sum_range_sub' (fun i => cr (corner r 0) (corner r i) • (corner r 0 + corner r i)), corner_closed,
    ← Finset.smul_sum, Finset.sum_add_distrib, sum_corner r 1]
  have := sum_corner r 0
  simp only [add_zero] at this
  rw [this]
  simp

theorem centroid_circle (r : ℝ) : centroid (circleRing r) = (0, 0) := by
  simp [centroid, ringMoment_circle]

theorem corner_region (r : ℝ) (k : Nat) (hk : k < 65) : corner r k ∈ region (circleRing r) := by
  refine subset_convexHull ℝ _ ?_
  simp only [circleRing, List.mem_map, List.mem_range, Set.mem_setOf_eq]
  exact ⟨k, hk, rfl⟩

theorem sin_steps (k : Nat) (h0 : 0 < k) (h1 : k < 32) : 0 < Real.sin (k * (Real.pi / 32)) := by
  have hk : (0 : ℝ) < k := by exact_mod_cast h0
  have hk' : (k : ℝ) < 32 := by exact_mod_cast h1
  refine Real.sin_pos_of_pos_of_lt_pi (by positivity) ?_
  have := Real.pi_pos
  nlinarith

theorem cos_steps (k : Nat) (h1 : k ≤ 16) : 0 ≤ Real.cos (k * (Real.pi / 32)) := by
  have hk : (k : ℝ) ≤ 16 := by exact_mod_cast h1
  have := Real.pi_pos
  exact Real.cos_nonneg_of_mem_Icc ⟨by have : (0 : ℝ) ≤ k * (Real.pi / 32) := by positivity
                                       linarith, by nlinarith⟩

theorem area_corners (r : ℝ) (hr : 0 < r) (i j : Nat) (h : i < j) (hj : j < 32) :
    twiceArea (0, 0) (corner r i) (corner r j) ≠ 0 := by
  have e : twiceArea (0, 0) (corner r i) (corner r j) = -(r ^ 2 * Real.sin ((j - i : Nat) * (Real.pi / 32))) := by
    have h2 : Real.sin ((j - i : Nat) * (Real.pi / 32)) =
        Real.sin (j * (Real.pi / 32)) * Real.cos (i * (Real.pi / 32)) -
          Real.cos (j * (Real.pi / 32)) * Real.sin (i * (Real.pi / 32)) := by
      rw [← Real.sin_sub]
      congr 1
      push_cast [Nat.cast_sub h.le]
      ring
    rw [h2]
    simp only [twiceArea, corner]
    ring
  rw [e]
  have := sin_steps (j - i) (by omega) (by omega)
  have : 0 < r ^ 2 * Real.sin ((j - i : Nat) * (Real.pi / 32)) := by positivity
  linarith

theorem sideMesh_circle (r : ℝ) (hr : 0 < r) : sideMesh (circleRing r) = .ok
    [(.right, [(0, 0), corner r 0, corner r 3, (0, 0)]), (.left, [(0, 0), corner r 1, corner r 2, (0, 0)]),
      (.back, [(0, 0), corner r 0, corner r 1, (0, 0)]), (.front, [(0, 0), corner r 2, corner r 3, (0, 0)])] := by
  unfold sideMesh
  rw [centroid_circle]
  have hv : ∀ k < 64, vertex (circleRing r) k = .ok (corner r k) := by
    intro k hk
    have : (circleRing r).dropLast[k]? = some (corner r k) := by
      rw [List.getElem?_dropLast]
      simp [circleRing, corner, hk, Nat.lt_succ_of_lt hk]
    simp [vertex, this]
  rw [hv 0 (by norm_num), hv 1 (by norm_num), hv 2 (by norm_num), hv 3 (by norm_num)]
  have ht : ∀ i j, i < j → j < 32 → validTriangle [(0, 0), corner r i, corner r j, (0, 0)] = true := by
    intro i j h hj
    simp only [validTriangle]
    exact decide_eq_true (area_corners r hr i j h hj)
  simp [bind, Except.bind, checkMesh, ht 0 3 (by norm_num) (by norm_num), ht 1 2 (by norm_num) (by norm_num),
    ht 0 1 (by norm_num) (by norm_num), ht 2 3 (by norm_num) (by norm_num)]

/-! ## Properties -/

open Outline in
/-- **C101.** For every vehicle of positive dimensions and every pose: the footprint is the box of the length
and width of the vehicle, moved to the pose; `get_mesh` returns right, left, back and front, in this order, and
each is the quarter of the footprint on that side. -/
theorem C101_quarters (g : Geometry ℝ) (hk : IsVehicle g.kind) (hw : 0 < g.wHalf) (hf : 0 < g.lf)
    (hr : 0 < g.lr) : ∃ (pts : List (ℝ × ℝ)) (m a b tyre r : ℝ),
      outline g = .ok pts ∧ Tyre g.kind tyre r ∧ Outline.length g = .ok (2 * a) ∧ 2 * b = width g + 2 * tyre ∧
      m - a < -g.lr ∧ g.lf < m + a ∧ 0 < a ∧ 0 < b ∧ (m + a, b) ∈ pts ∧ (m - a, -b) ∈ pts ∧
      ∀ q, IsMotion q → ∃ mesh, sideMesh (footprintRing pts q) = .ok mesh ∧
        mesh.map Prod.fst = [.right, .left, .back, .front] ∧
        (∀ l ∈ mesh, ∀ p, applyT2 q p ∈ region l.2 ↔ Quarter a b l.1 (p - (m, 0))) ∧
        ∀ p, applyT2 q p ∈ region (footprintRing pts q) ↔ |p.1 - m| ≤ a ∧ |p.2| ≤ b := by
  obtain ⟨tyre, r, ht⟩ := tyre_exists (K := ℝ) g.kind hk
  obtain ⟨t1, t2, t3, t4⟩ := tyre_pos ht
  have hfp := front_pos ht hf
  obtain ⟨m, hm⟩ : ∃ m, m = (g.lf + front g r - g.lr - r * 2) / 2 := ⟨_, rfl⟩
  obtain ⟨a, ha⟩ : ∃ a, a = (g.lf + front g r + g.lr + r * 2) / 2 := ⟨_, rfl⟩
  have ha0 : 0 < a := by linarith
  have hb0 : 0 < g.wHalf + tyre := by linarith
  have he : outline g = .ok (rectRing m a (g.wHalf + tyre)) := by
    rw [outline_eq ht, rectRing]
    have e1 : m - a = -g.lr - r * 2 := by rw [hm, ha]; ring
    have e2 : m + a = g.lf + front g r := by rw [hm, ha]; ring
    have e3 : -(g.wHalf + tyre) = -g.wHalf - tyre := by ring
    rw [e1, e2, e3]
  refine ⟨rectRing m a (g.wHalf + tyre), m, a, g.wHalf + tyre, tyre, r, he, ht, ?_, ?_, by linarith, by linarith, ha0,
    hb0, by simp [rectRing], by simp [rectRing], ?_⟩
  · unfold Outline.length wheelbase
    rw [bumpers_eq ht]
    simp only [bind, Except.bind, pure, Except.pure]
    congr 1
    rw [ha]
    ring
  · simp only [width]; ring
  · intro q hq
    have harea : ringArea (rectRing m a (g.wHalf + tyre)) ≠ 0 := by
      rw [ringArea_rect]
      have := mul_pos ha0 hb0
      intro h
      linarith
    refine ⟨_, by rw [footprintRing_eq, sideMesh_map hq _ harea, sideMesh_rect m a _ ha0 hb0]; rfl, rfl, ?_, ?_⟩
    · intro l hl p
      obtain ⟨q1, q2, q3, q4⟩ := mem_quarter m a (g.wHalf + tyre) ha0 hb0 p
      simp only [moveMesh, List.map_cons, List.map_nil, List.mem_cons, List.not_mem_nil, or_false] at hl
      rcases hl with rfl | rfl | rfl | rfl
      · exact (mem_region_map hq _ p).trans q4
      · exact (mem_region_map hq _ p).trans q3
      · exact (mem_region_map hq _ p).trans q2
      · exact (mem_region_map hq _ p).trans q1
    · intro p
      rw [footprintRing_eq, mem_region_map hq]
      exact (mem_rect m a _ ha0 hb0 p).1

/-- **C101.** The quarters cover the box, and two of them share only points of its diagonals. -/
theorem C101_partition (a b : ℝ) (ha : 0 < a) (hb : 0 < b) (d : ℝ × ℝ) :
    (|d.1| ≤ a ∧ |d.2| ≤ b ↔ ∃ s, Quarter a b s d) ∧
    ∀ s s', s ≠ s' → Quarter a b s d → Quarter a b s' d → a * |d.2| = b * |d.1| := by
  constructor
  · have h := mem_rect 0 a b ha hb d
    rw [← Prod.zero_eq_mk, sub_zero, sub_zero] at h
    exact h.1.symm.trans h.2
  · intro s s' hs h h'
    have e1 : b * |d.1| = b * d.1 ∨ b * |d.1| = -(b * d.1) := by
      rcases abs_choice d.1 with e | e <;> rw [e] <;> simp
    have e2 : a * |d.2| = a * d.2 ∨ a * |d.2| = -(a * d.2) := by
      rcases abs_choice d.2 with e | e <;> rw [e] <;> simp
    have n1 : 0 ≤ b * |d.1| := by positivity
    have n2 : 0 ≤ a * |d.2| := by positivity
    cases s <;> cases s' <;> simp only [Quarter, mul_neg] at h h' <;>
      first
        | exact absurd rfl hs
        | (obtain ⟨h1, -⟩ := h
           obtain ⟨h2, -⟩ := h'
           rcases e1 with e1 | e1 <;> rcases e2 with e2 | e2 <;> linarith)

variable {N : Type} [DecidableEq N]

/-- What shapely's polygons mean: the points of a shape, and `intersects` is having a common point. -/
structure Shapes (F : Iface N ℝ) where
  points : F.S → Set (ℝ × ℝ)
  intersects : ∀ x y, F.intersects x y = true ↔ (points x ∩ points y).Nonempty

/-- **C101.** Locations found for a shape: all those, and only those, that have a common point with it; there is
one if the locations cover the footprint and the shape intersects the footprint. -/
theorem C101_located (F : Iface N ℝ) (H : Shapes F) (m : F.M) (shape : F.S)
    (hc : H.points (F.footprint m) ⊆ {p | ∃ l ∈ F.mesh m, p ∈ H.points l.2})
    (hi : F.intersects (F.footprint m) shape = true) :
    ∃ locs, impactLocations F m shape = .ok locs ∧ locs ≠ [] ∧
      ∀ l, l ∈ locs ↔ l ∈ F.mesh m ∧ ∃ p, p ∈ H.points shape ∧ p ∈ H.points l.2 := by
  obtain ⟨p, hp, hs⟩ := (H.intersects _ _).mp hi
  obtain ⟨l, hl, hpl⟩ := hc hp
  have hm : l ∈ (F.mesh m).filter (fun l => F.intersects shape l.2) :=
    List.mem_filter.mpr ⟨hl, (H.intersects _ _).mpr ⟨p, hs, hpl⟩⟩
  have hne : (F.mesh m).filter (fun l => F.intersects shape l.2) ≠ [] := List.ne_nil_of_mem hm
  refine ⟨_, ?_, hne, ?_⟩
  · unfold impactLocations
    simp [hne]
  · intro l
    rw [List.mem_filter, H.intersects]
    exact Iff.rfl

open Outline in
/-- **C101.** A vehicle is reported to have been hit at a side if and only if the other shape has a point in the
quarter of the vehicle on that side, and no hit is left without a side. -/
theorem C101_vehicle_partial (F : Iface N ℝ) (H : Shapes F) (label : F.L → Side) (m : F.M) (shape : F.S)
    (g : Geometry ℝ) (hk : IsVehicle g.kind) (hw : 0 < g.wHalf) (hf : 0 < g.lf) (hr : 0 < g.lr)
    (pts : List (ℝ × ℝ)) (hpts : outline g = .ok pts) (q : Mat3 ℝ) (hq : IsMotion q)
    (hfoot : H.points (F.footprint m) = region (footprintRing pts q))
    (mesh : List (Side × List (ℝ × ℝ))) (hmesh : sideMesh (footprintRing pts q) = .ok mesh)
    (hm : List.Forall₂ (fun l s => label l.1 = s.1 ∧ H.points l.2 = region s.2) (F.mesh m) mesh)
    (hi : F.intersects (F.footprint m) shape = true) :
    ∃ (locs : List (F.L × F.S)) (a b c : ℝ), Outline.length g = .ok (2 * a) ∧ width g < 2 * b ∧
      (c + a, b) ∈ pts ∧ (c - a, -b) ∈ pts ∧ 0 < a ∧ 0 < b ∧ impactLocations F m shape = .ok locs ∧ locs ≠ [] ∧
      (∀ s, s ∈ locs.map (fun l => label l.1) ↔
        ∃ p, applyT2 q p ∈ H.points shape ∧ Quarter a b s (p - (c, 0))) := by
  obtain ⟨pts', c, a, b, tyre, r, h1, ht, h2, h3, -, -, ha, hb, h4, h5, h6⟩ := C101_quarters g hk hw hf hr
  rw [hpts, Except.ok.injEq] at h1
  subst h1
  obtain ⟨mesh', e, hfst, hq1, hq2⟩ := h6 q hq
  rw [hmesh, Except.ok.injEq] at e
  subst e
  have hsurj : ∀ x ∈ region (footprintRing pts q), ∃ p, applyT2 q p = x := by
    intro x hx
    rw [footprintRing_eq, region_map] at hx
    obtain ⟨p, -, rfl⟩ := hx
    exact ⟨p, (motion_apply q p).symm⟩
  have hl2 : ∀ l ∈ F.mesh m, ∃ s ∈ mesh, label l.1 = s.1 ∧ H.points l.2 = region s.2 := by
    clear hq1 hfst hmesh
    generalize F.mesh m = ms at hm ⊢
    induction hm with
    | nil => simp
    | cons hd _ ih =>
      intro l hl
      rcases List.mem_cons.mp hl with rfl | hl
      · exact ⟨_, List.mem_cons_self, hd⟩
      · obtain ⟨s, hs, h⟩ := ih l hl
        exact ⟨s, List.mem_cons_of_mem _ hs, h⟩
  have hl1 : ∀ s ∈ mesh, ∃ l ∈ F.mesh m, label l.1 = s.1 ∧ H.points l.2 = region s.2 := by
    clear hq1 hfst hmesh hl2
    generalize F.mesh m = ms at hm ⊢
    induction hm with
    | nil => simp
    | cons hd _ ih =>
      intro l hl
      rcases List.mem_cons.mp hl with rfl | hl
      · exact ⟨_, List.mem_cons_self, hd⟩
      · obtain ⟨s, hs, h⟩ := ih l hl
        exact ⟨s, List.mem_cons_of_mem _ hs, h⟩
  have hall : ∀ s, s ≠ .everywhere → ∃ l ∈ mesh, l.1 = s := by
    intro s hs
    have : s ∈ mesh.map Prod.fst := by rw [hfst]; cases s <;> simp_all
    simpa using this
  have hcov : H.points (F.footprint m) ⊆ {p | ∃ l ∈ F.mesh m, p ∈ H.points l.2} := by
    intro x hx
    rw [hfoot] at hx
    obtain ⟨p, rfl⟩ := hsurj x hx
    have hbox := (hq2 p).mp hx
    obtain ⟨s, hs⟩ := (C101_partition a b ha hb (p - (c, 0))).1.mp (by simpa using hbox)
    have hse : s ≠ .everywhere := by rintro rfl; exact hs
    obtain ⟨l', hl', rfl⟩ := hall s hse
    obtain ⟨l, hl, -, hlr⟩ := hl1 l' hl'
    exact ⟨l, hl, by rw [hlr]; exact (hq1 l' hl' p).mpr hs⟩
  obtain ⟨locs, g1, g2, g3⟩ := C101_located F H m shape hcov hi
  refine ⟨locs, a, b, c, h2, ?_, h4, h5, ha, hb, g1, g2, fun s => ?_⟩
  · have := (tyre_pos ht).1
    linarith
  rw [List.mem_map]
  constructor
  · rintro ⟨l, hl, rfl⟩
    obtain ⟨hlm, x, hx1, hx2⟩ := (g3 l).mp hl
    obtain ⟨l', hl', e1, e2⟩ := hl2 l hlm
    rw [e2] at hx2
    have hxm : ∃ p, applyT2 q p = x := by
      obtain ⟨c', s', x0, y0, hcs, rfl⟩ := hq
      refine ⟨(c' * (x.1 - x0) + s' * (x.2 - y0), -s' * (x.1 - x0) + c' * (x.2 - y0)), ?_⟩
      ext
      · simp only [applyT2, rigid]
        linear_combination (x.1 - x0) * hcs
      · simp only [applyT2, rigid]
        linear_combination (x.2 - y0) * hcs
    obtain ⟨p, rfl⟩ := hxm
    exact ⟨p, hx1, by rw [e1]; exact (hq1 l' hl' p).mp hx2⟩
  · rintro ⟨p, hp, hqr⟩
    have hse : s ≠ .everywhere := by rintro rfl; exact hqr
    obtain ⟨l', hl', rfl⟩ := hall s hse
    obtain ⟨l, hl, e1, e2⟩ := hl1 l' hl'
    exact ⟨l, (g3 l).mpr ⟨hl, _, hp, by rw [e2]; exact (hq1 l' hl' p).mpr hqr⟩, e1⟩

/-- **C101 is false for differential drives.** Their `get_mesh` uses the first four of the 64 corners of the
circle: all locations lie in one quarter of the footprint, between the front and the right. The rearmost point
of the footprint is in none of them, wherever the robot is. -/
theorem C101_false_diffDrive (r : ℝ) (hr : 0 < r) (q : Mat3 ℝ) (hq : IsMotion q) :
    ∃ mesh, sideMesh (footprintRing (circleRing r) q) = .ok mesh ∧
      (∀ l ∈ mesh, ∀ p, applyT2 q p ∈ region l.2 → 0 ≤ p.1 ∧ p.2 ≤ 0) ∧
      applyT2 q (-r, 0) ∈ region (footprintRing (circleRing r) q) ∧
      ∀ l ∈ mesh, applyT2 q (-r, 0) ∉ region l.2 := by
  have harea : ringArea (circleRing r) ≠ 0 := by
    rw [ringArea_circle]
    have h1 := sin_steps 1 (by norm_num) (by norm_num)
    rw [Nat.cast_one, one_mul] at h1
    have : 0 < r ^ 2 * Real.sin (Real.pi / 32) := by positivity
    linarith
  have hin : ∀ i j, i ≤ 16 → j ≤ 16 → ∀ p, applyT2 q p ∈
      region (([(0, 0), corner r i, corner r j, (0, 0)] : List (ℝ × ℝ)).map (motion q)) → 0 ≤ p.1 ∧ p.2 ≤ 0 := by
    intro i j hi hj p hp
    rw [mem_region_map hq, mem_triangle] at hp
    obtain ⟨α, β, h1, h2, h3, rfl⟩ := hp
    have ci := mul_nonneg hr.le (cos_steps i hi)
    have cj := mul_nonneg hr.le (cos_steps j hj)
    have hs : ∀ k : Nat, k ≤ 16 → 0 ≤ r * Real.sin (k * (Real.pi / 32)) := by
      intro k hk
      rcases Nat.eq_zero_or_pos k with rfl | h0
      · simp
      · exact mul_nonneg hr.le (sin_steps k h0 (by omega)).le
    have si := hs i hi
    have sj := hs j hj
    simp only [corner, Prod.fst_add, Prod.snd_add, Prod.smul_fst, Prod.smul_snd, Prod.fst_sub, Prod.snd_sub,
      smul_eq_mul, sub_zero, zero_add]
    exact ⟨by positivity, by nlinarith [mul_nonneg h1 si, mul_nonneg h2 sj]⟩
  have hall : ∀ l ∈ moveMesh q [(.right, [(0, 0), corner r 0, corner r 3, (0, 0)]),
      (.left, [(0, 0), corner r 1, corner r 2, (0, 0)]), (.back, [(0, 0), corner r 0, corner r 1, (0, 0)]),
      (.front, [(0, 0), corner r 2, corner r 3, (0, 0)])], ∀ p, applyT2 q p ∈ region l.2 → 0 ≤ p.1 ∧ p.2 ≤ 0 := by
    intro l hl
    simp only [moveMesh, List.map_cons, List.map_nil, List.mem_cons, List.not_mem_nil, or_false] at hl
    rcases hl with rfl | rfl | rfl | rfl
    · exact hin 0 3 (by norm_num) (by norm_num)
    · exact hin 1 2 (by norm_num) (by norm_num)
    · exact hin 0 1 (by norm_num) (by norm_num)
    · exact hin 2 3 (by norm_num) (by norm_num)
  refine ⟨_, by rw [footprintRing_eq, sideMesh_map hq _ harea, sideMesh_circle r hr]; rfl, hall, ?_, ?_⟩
  · rw [footprintRing_eq, mem_region_map hq]
    have h := corner_region r 32 (by norm_num)
    have e : corner r 32 = (-r, 0) := by
      have := corner_half r 0
      simp only [zero_add] at this
      rw [this]
      ext <;> simp [corner]
    rwa [e] at h
  · intro l hl h
    have := (hall l hl _ h).1
    simp only at this
    linarith

/-- **C101 is false for differential drives.** A shape that meets the footprint only on its left or behind the
axle has no location, and the collision code raises `CollisionException`. -/
theorem C101_false_diffDrive_located (F : Iface N ℝ) (H : Shapes F) (m : F.M) (shape : F.S) (r : ℝ) (hr : 0 < r)
    (q : Mat3 ℝ) (hq : IsMotion q) (mesh : List (Side × List (ℝ × ℝ)))
    (hmesh : sideMesh (footprintRing (circleRing r) q) = .ok mesh)
    (hm : (F.mesh m).map (fun l => H.points l.2) = mesh.map (fun l => region l.2))
    (hs : ∀ x ∈ H.points shape, ∃ p : ℝ × ℝ, x = applyT2 q p ∧ (p.1 < 0 ∨ 0 < p.2)) :
    impactLocations F m shape = .error .collision := by
  obtain ⟨mesh', e, h1, -, -⟩ := C101_false_diffDrive r hr q hq
  rw [hmesh, Except.ok.injEq] at e
  subst e
  have : (F.mesh m).filter (fun l => F.intersects shape l.2) = [] := by
    rw [List.filter_eq_nil_iff]
    intro l hl hi
    obtain ⟨x, hx1, hx2⟩ := (H.intersects _ _).mp hi
    obtain ⟨p, rfl, hp⟩ := hs x hx1
    have : H.points l.2 ∈ mesh.map (fun l => region l.2) := by
      rw [← hm]
      exact List.mem_map.mpr ⟨l, hl, rfl⟩
    obtain ⟨l', hl', e⟩ := List.mem_map.mp this
    rw [← e] at hx2
    have := h1 l' hl' p hx2
    rcases hp with hp | hp <;> linarith
  simp [impactLocations, this]

/-- **C101.** Models with one location for the whole footprint are always located, everywhere on it. -/
theorem C101_whole (F : Iface N ℝ) (H : Shapes F) (side : F.L → Side) (m : F.M) (shape : F.S)
    (ring : List (ℝ × ℝ)) (hfoot : H.points (F.footprint m) = region ring)
    (hm : List.Forall₂ (fun l s => side l.1 = s.1 ∧ H.points l.2 = region s.2) (F.mesh m) (wholeMesh ring))
    (hi : F.intersects (F.footprint m) shape = true) :
    ∃ locs, impactLocations F m shape = .ok locs ∧ locs.map (fun l => side l.1) = [.everywhere] ∧
      ∀ l ∈ locs, H.points l.2 = H.points (F.footprint m) := by
  unfold wholeMesh at hm
  obtain ⟨l, t, ⟨h1, h2⟩, ht, e⟩ := List.forall₂_cons_right_iff.mp hm
  rw [List.forall₂_nil_right_iff] at ht
  subst ht
  have hp : H.points l.2 = H.points (F.footprint m) := h2.trans hfoot.symm
  have : F.intersects shape l.2 = true := by
    rw [H.intersects, Set.inter_comm, hp, ← H.intersects]
    exact hi
  refine ⟨[l], by simp [impactLocations, e, this], by simp [h1], ?_⟩
  intro l' hl'
  rw [List.mem_singleton.mp hl']
  exact hp

/-! ## Examples -/

/-- The default car (vehicle_structures.py:48-72). -/
noncomputable def realCar : Outline.Geometry ℝ := ⟨.car, 4 / 5, 6 / 5, 6 / 5⟩

theorem realCar_outline : Outline.outline realCar = .ok (rectRing 0 (9 / 5) (9 / 10)) := by
  norm_num [Outline.outline, Outline.bumpers, Outline.wheelShape, Outline.fourWheels, realCar, bind,
    Except.bind, pure, Except.pure, rectRing]

/-- Turned to the left and moved. -/
noncomputable def turned : Mat3 ℝ := rigid 0 1 5 2

theorem turned_motion : IsMotion turned := ⟨0, 1, 5, 2, by norm_num, rfl⟩

example : ∃ pts mesh, Outline.outline realCar = .ok pts ∧ sideMesh (footprintRing pts turned) = .ok mesh ∧
    mesh.map Prod.fst = [.right, .left, .back, .front] := by
  obtain ⟨pts, m, a, b, tyre, r, h1, -, -, -, -, -, -, -, -, -, h⟩ :=
    C101_quarters realCar trivial (by norm_num [realCar]) (by norm_num [realCar]) (by norm_num [realCar])
  obtain ⟨mesh, h2, h3, -, -⟩ := h turned turned_motion
  exact ⟨pts, mesh, h1, h2, h3⟩

/-- Sets of points as shapes, for a model with this footprint and these locations. -/
noncomputable def setIface (foot : Set (ℝ × ℝ)) (mesh : List (Side × Set (ℝ × ℝ))) : Iface Unit ℝ where
  M := Unit
  S := Set (ℝ × ℝ)
  L := Side
  Q := Unit
  Lane := Unit
  footprint _ := foot
  pose _ := ()
  translation _ := (0, 0)
  velocity _ := ((0, 0), 0)
  setVelocity m _ _ := m
  geom _ := ⟨some 1, some 1, 0⟩
  hasCollided _ := false
  mark m := m
  mesh _ := mesh
  intersects x y := open Classical in decide (x ∩ y).Nonempty
  impactGeometry _ _ := .error .assertion
  lanesAt _ := []
  lanePose _ _ := (false, false)
  toPolygon s := .ok s
  everywhere := .everywhere
  envPlayer := ()

/-- Sets mean themselves. -/
noncomputable def setShapes (foot : Set (ℝ × ℝ)) (mesh : List (Side × Set (ℝ × ℝ))) : Shapes (setIface foot mesh) where
  points x := x
  intersects x y := by
    simp [setIface]

/-- The locations as sets. -/
def asSets (mesh : List (Side × List (ℝ × ℝ))) : List (Side × Set (ℝ × ℝ)) :=
  mesh.map fun (l : Side × List (ℝ × ℝ)) => (l.1, region l.2)

/-- A point obstacle on the front bumper of the turned car is reported at the front and nowhere else. -/
example : ∃ mesh locs, sideMesh (footprintRing (rectRing 0 (9 / 5) (9 / 10)) turned) = .ok mesh ∧
    impactLocations (setIface (region (footprintRing (rectRing 0 (9 / 5) (9 / 10)) turned)) (asSets mesh)) ()
      ({applyT2 turned (9 / 5, 0)} : Set (ℝ × ℝ)) = .ok locs ∧
    ∀ s : Side, s ∈ locs.map (fun l => (l.1 : Side)) ↔ s = .front := by
  have harea : ringArea (rectRing 0 (9 / 5) (9 / 10)) ≠ 0 := by rw [ringArea_rect]; norm_num
  have hm := sideMesh_rect 0 (9 / 5) (9 / 10) (by norm_num) (by norm_num)
  have hmesh := sideMesh_map turned_motion _ harea
  rw [hm] at hmesh
  have hin : applyT2 turned (9 / 5, 0) ∈ region (footprintRing (rectRing 0 (9 / 5) (9 / 10)) turned) := by
    rw [footprintRing_eq, mem_region_map turned_motion]
    exact (mem_rect 0 _ _ (by norm_num) (by norm_num) _).1.mpr (by norm_num [abs_le])
  obtain ⟨mesh, hmesh⟩ : ∃ mesh, sideMesh (footprintRing (rectRing 0 (9 / 5) (9 / 10)) turned) = .ok mesh :=
    ⟨_, hmesh⟩
  obtain ⟨locs, a, b, c, -, -, h1, h2, ha, hb, h3, -, h4⟩ := C101_vehicle_partial
    (setIface (region (footprintRing (rectRing 0 (9 / 5) (9 / 10)) turned)) (asSets mesh))
    (setShapes _ _) (fun (s : Side) => s) () ({applyT2 turned (9 / 5, 0)} : Set (ℝ × ℝ)) realCar trivial
    (by norm_num [realCar])
    (by norm_num [realCar]) (by norm_num [realCar]) _ realCar_outline turned turned_motion rfl mesh hmesh
    (by
      change List.Forall₂ (fun (l : Side × Set (ℝ × ℝ)) (s : Side × List (ℝ × ℝ)) => l.1 = s.1 ∧ l.2 = region s.2)
        (asSets mesh) mesh
      unfold asSets
      rw [List.forall₂_map_left_iff]
      exact List.forall₂_same.mpr fun x _ => ⟨rfl, rfl⟩)
    ((setShapes _ _).intersects _ _ |>.mpr ⟨_, hin, rfl⟩)
  refine ⟨mesh, locs, hmesh, h3, fun s => ?_⟩
  have hab : a = 9 / 5 ∧ b = 9 / 10 ∧ c = 0 := by
    simp only [rectRing, List.mem_cons, Prod.mk.injEq, List.not_mem_nil, or_false] at h1 h2
    rcases h1 with ⟨x, y⟩ | ⟨x, y⟩ | ⟨x, y⟩ | ⟨x, y⟩ | ⟨x, y⟩ <;>
      rcases h2 with ⟨z, w⟩ | ⟨z, w⟩ | ⟨z, w⟩ | ⟨z, w⟩ | ⟨z, w⟩ <;>
      exact ⟨by linarith, by linarith, by linarith⟩
  obtain ⟨rfl, rfl, rfl⟩ := hab
  refine (h4 s).trans ⟨?_, ?_⟩
  · rintro ⟨p, hp, hq⟩
    have e : p = (9 / 5, 0) := by
      have hp' : applyT2 turned p = applyT2 turned (9 / 5, 0) := hp
      rw [← motion_apply, ← motion_apply] at hp'
      exact motion_injective turned_motion hp'
    subst e
    cases s
    · rfl
    all_goals norm_num [Quarter, abs_of_pos] at hq
  · rintro rfl
    exact ⟨(9 / 5, 0), rfl, by norm_num [Quarter]⟩

/-- An obstacle behind a robot of radius 1/2 is not located. -/
example : ∃ mesh, sideMesh (footprintRing (circleRing (1 / 2)) turned) = .ok mesh ∧
    impactLocations (setIface (region (footprintRing (circleRing (1 / 2)) turned)) (asSets mesh)) ()
      ({applyT2 turned (-1 / 2, 0)} : Set (ℝ × ℝ)) = .error .collision := by
  obtain ⟨mesh, h, -, -, -⟩ := C101_false_diffDrive (1 / 2) (by norm_num) turned turned_motion
  refine ⟨mesh, h, C101_false_diffDrive_located _ (setShapes _ _) () _ (1 / 2) (by norm_num) turned turned_motion mesh h
    ?_ ?_⟩
  · change (asSets mesh).map (fun l => l.2) = _
    simp [asSets]
  · intro x hx
    exact ⟨_, hx, Or.inl (by norm_num)⟩

/-- A pedestrian is located. -/
example : ∃ locs, impactLocations (setIface (region [(1, 1)]) (asSets (wholeMesh [(1, 1)]))) ()
      ({p | p.1 = 1} : Set (ℝ × ℝ)) = .ok locs ∧
    locs.map (fun (l : Side × Set (ℝ × ℝ)) => l.1) = [.everywhere] := by
  obtain ⟨locs, h1, h2, -⟩ := C101_whole (setIface (region [(1, 1)]) (asSets (wholeMesh [(1, 1)]))) (setShapes _ _)
    (fun (s : Side) => s) () ({p | p.1 = 1} : Set (ℝ × ℝ)) [(1, 1)] rfl
    (.cons ⟨rfl, rfl⟩ .nil)
    ((setShapes _ _).intersects _ _ |>.mpr ⟨(1, 1), subset_convexHull ℝ _ (by simp), rfl⟩)
  exact ⟨locs, h1, h2⟩

end Coll
end Verif
