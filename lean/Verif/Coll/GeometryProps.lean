import Verif.Coll.Geometry
import Mathlib.Tactic.Linarith
import Mathlib.Tactic.Ring
import Mathlib.Tactic.FieldSimp

/-!
# C73: normal and point of an impact
-/

namespace Verif
namespace Coll

theorem norm2_sq (v : ℝ × ℝ) : norm2 v ^ 2 = v.1 ^ 2 + v.2 ^ 2 :=
  Real.sq_sqrt (by positivity)

theorem norm2_eq_zero (v : ℝ × ℝ) : norm2 v = 0 ↔ v = (0, 0) := by
  constructor
  · intro h
    have := norm2_sq v
    rw [h] at this
    have h1 : v.1 = 0 := by nlinarith [sq_nonneg v.1, sq_nonneg v.2]
    have h2 : v.2 = 0 := by nlinarith [sq_nonneg v.1, sq_nonneg v.2]
    exact Prod.ext h1 h2
  · rintro rfl; simp [norm2]

theorem norm2_nonneg (v : ℝ × ℝ) : 0 ≤ norm2 v := Real.sqrt_nonneg _

/-- A unit vector along the line of `v` that does not point against `r`. -/
structure IsNormal (n v r : ℝ × ℝ) : Prop where
  unit : n.1 ^ 2 + n.2 ^ 2 = 1
  parallel : n.1 * v.2 = n.2 * v.1
  outward : 0 ≤ r.1 * n.1 + r.2 * n.2

theorem orient_normalize (r v n : ℝ × ℝ) (h : orient r (normalize v) = some n) :
    v ≠ (0, 0) ∧ IsNormal n v r := by
  unfold normalize at h
  split at h
  · cases h
  · rename_i h0
    have hv : v ≠ (0, 0) := fun hv => h0 ((norm2_eq_zero v).mpr hv)
    refine ⟨hv, ?_⟩
    have hsq := norm2_sq v
    have hunit : (v.1 / norm2 v) ^ 2 + (v.2 / norm2 v) ^ 2 = 1 := by
      rw [div_pow, div_pow, ← add_div, ← hsq, div_self (pow_ne_zero 2 h0)]
    unfold orient at h
    simp only at h
    split at h
    · rename_i hneg
      injection h with h; subst h
      exact ⟨by simp only; linear_combination hunit, by simp only; field_simp, by simp only; linarith⟩
    · rename_i hneg
      injection h with h; subst h
      exact ⟨hunit, by simp only; field_simp, not_lt.mp hneg⟩

theorem orient_normalize_none (r v : ℝ × ℝ) : orient r (normalize v) = none ↔ v = (0, 0) := by
  unfold normalize
  rw [← norm2_eq_zero]
  split
  · rename_i h; simp [orient, h]
  · rename_i h
    simp only [h, iff_false, orient]
    split <;> simp

/-- The corners of the overlap that lie on the boundary of both shapes. -/
def contactPoints (G : ShapeOps) (a b : G.S) (coords : List (ℝ × ℝ)) : List (ℝ × ℝ) :=
  coords.filter (fun p => !(G.inside a p || G.inside b p))

/-- **C73.** A computed impact: either `b` is inside `a`, then the point is the centre of `b` and the
normal is the direction from the centre of `a` to it; or exactly two contact points remain, the point
is their midpoint and the normal is perpendicular to their connection. In both cases the normal has
length one and does not point back from the impact point to the centre of `a`. -/
theorem C73_normal (G : ShapeOps) (a b : G.S) (n p : ℝ × ℝ)
    (h : impactGeometry G a b = .ok (some n, p)) :
    let r := (p.1 - (G.centroid a).1, p.2 - (G.centroid a).2)
    n.1 ^ 2 + n.2 ^ 2 = 1 ∧ 0 ≤ r.1 * n.1 + r.2 * n.2 ∧ G.touches a b = false ∧
      ((G.contains a b = true ∧ p = G.centroid b ∧ n.1 * r.2 = n.2 * r.1) ∨
       (G.contains a b = false ∧ ∃ coords f s,
          candidates (G.intersection a b) = .ok coords ∧ contactPoints G a b coords = [f, s] ∧
          f ≠ s ∧ p = ((f.1 + s.1) / 2, (f.2 + s.2) / 2) ∧
          n.1 * (s.1 - f.1) + n.2 * (s.2 - f.2) = 0)) := by
  intro r
  unfold impactGeometry at h
  split at h
  · cases h
  · rename_i ht
    have ht : G.touches a b = false := by simpa using ht
    split at h
    · rename_i hc
      simp only [Except.ok.injEq, Prod.mk.injEq] at h
      obtain ⟨h1, rfl⟩ := h
      obtain ⟨_, hn⟩ := orient_normalize _ _ _ h1
      exact ⟨hn.unit, hn.outward, ht, Or.inl ⟨hc, rfl, hn.parallel⟩⟩
    · rename_i hc
      have hc : G.contains a b = false := by simpa using hc
      cases hcand : candidates (G.intersection a b) with
      | error e => simp only [findIntersectionPoints, hcand] at h; cases h
      | ok coords =>
        simp only [findIntersectionPoints, hcand] at h
        split at h
        · cases h
        · rename_i f s heq
          split at heq
          · injection heq with heq
            simp only [Except.ok.injEq, Prod.mk.injEq] at h
            obtain ⟨h1, rfl⟩ := h
            obtain ⟨h0, hn⟩ := orient_normalize _ _ _ h1
            refine ⟨hn.unit, hn.outward, ht, Or.inr ⟨hc, coords, f, s, rfl, heq, ?_, rfl, ?_⟩⟩
            · rintro rfl; exact h0 (by simp)
            · have := hn.parallel; simp only at this; linear_combination this
          · cases heq
        · cases h

/-- **C73.** When the geometry raises: an `AssertionError` if the shapes only touch; otherwise (`b`
not inside `a`) a `CollisionException` unless exactly two contact points remain, or an
`AttributeError` if the rectangle around a scattered overlap is degenerate. -/
theorem C73_errors (G : ShapeOps) (a b : G.S) (e : Err) :
    impactGeometry G a b = .error e ↔
      (G.touches a b = true ∧ e = .assertion) ∨
      (G.touches a b = false ∧ G.contains a b = false ∧
        ((G.intersection a b = .other ∧ e = .collision) ∨
          (G.intersection a b = .multi none ∧ e = .attribute) ∨
          (∃ coords, candidates (G.intersection a b) = .ok coords ∧
            (contactPoints G a b coords).length ≠ 2 ∧ e = .collision))) := by
  unfold impactGeometry
  cases ht : G.touches a b
  · cases hc : G.contains a b
    · simp only [Bool.false_eq_true, if_false, false_and, false_or, true_and, findIntersectionPoints]
      cases hI : G.intersection a b with
      | other => simp [candidates, eq_comm]
      | multi rect =>
        cases rect with
        | none => simp [candidates, eq_comm]
        | some c =>
          simp only [candidates, reduceCtorEq, false_and, IntShape.multi.injEq, false_or,
            Except.ok.injEq, exists_eq_left']
          exact aux G a b c e
      | polygon c =>
        simp only [candidates, reduceCtorEq, false_and, false_or, Except.ok.injEq, exists_eq_left']
        exact aux G a b c e
      | line c =>
        simp only [candidates, reduceCtorEq, false_and, false_or, Except.ok.injEq, exists_eq_left']
        exact aux G a b c e
    · simp
  · simp only [if_true, true_and, Except.error.injEq, Bool.true_eq_false, false_and, or_false]
    exact eq_comm
where
  aux (G : ShapeOps) (a b : G.S) (c : List (ℝ × ℝ)) (e : Err) :
      (match (if (c.filter (fun p => !(G.inside a p || G.inside b p))).length = 2 then
          Except.ok (c.filter (fun p => !(G.inside a p || G.inside b p))) else .error .collision :
            Except Err (List (ℝ × ℝ))) with
        | .error e => .error e
        | .ok [first, second] =>
          .ok (orient (((first.1 + second.1) / 2, (first.2 + second.2) / 2).1 - (G.centroid a).1,
            ((first.1 + second.1) / 2, (first.2 + second.2) / 2).2 - (G.centroid a).2)
            (normalize (-(second.1 - first.1, second.2 - first.2).2,
              (second.1 - first.1, second.2 - first.2).1)),
            ((first.1 + second.1) / 2, (first.2 + second.2) / 2))
        | .ok _ => .error .value : Except Err (Option (ℝ × ℝ) × (ℝ × ℝ))) = .error e ↔
      (contactPoints G a b c).length ≠ 2 ∧ e = .collision := by
    unfold contactPoints
    generalize c.filter (fun p => !(G.inside a p || G.inside b p)) = l
    by_cases hl : l.length = 2
    · simp only [hl, if_true, ne_eq, not_true_eq_false, false_and, iff_false]
      obtain ⟨u, v, rfl⟩ := List.length_eq_two.mp hl
      simp
    · simp only [hl, if_false, ne_eq, not_false_eq_true, true_and, Except.error.injEq]
      exact eq_comm

/-- **C73.** The normal is undefined (NaN) only if the centres of an enclosing and an enclosed shape
coincide or the two contact points do. -/
theorem C73_defined (G : ShapeOps) (a b : G.S) (p : ℝ × ℝ)
    (h : impactGeometry G a b = .ok (none, p)) :
    (G.contains a b = true ∧ G.centroid a = G.centroid b) ∨
      (∃ coords f, candidates (G.intersection a b) = .ok coords ∧
        contactPoints G a b coords = [f, f]) := by
  unfold impactGeometry at h
  split at h
  · cases h
  · split at h
    · rename_i hc
      simp only [Except.ok.injEq, Prod.mk.injEq] at h
      obtain ⟨h1, rfl⟩ := h
      have := (orient_normalize_none _ _).mp h1
      simp only [Prod.mk.injEq] at this
      exact Or.inl ⟨hc, Prod.ext (by linarith) (by linarith)⟩
    · cases hcand : candidates (G.intersection a b) with
      | error e => simp only [findIntersectionPoints, hcand] at h; cases h
      | ok coords =>
        simp only [findIntersectionPoints, hcand] at h
        split at h
        · cases h
        · rename_i f s heq
          split at heq
          · injection heq with heq
            simp only [Except.ok.injEq, Prod.mk.injEq] at h
            obtain ⟨h1, rfl⟩ := h
            have := (orient_normalize_none _ _).mp h1
            simp only [Prod.mk.injEq] at this
            have hfs : f = s := Prod.ext (by linarith) (by linarith)
            subst hfs
            exact Or.inr ⟨coords, f, rfl, heq⟩
          · cases heq
        · cases h

/-- Two unit squares, the second shifted by (1/2, 1/2): the contact points are (1/2, 1) and
(1, 1/2). -/
noncomputable def squares : ShapeOps where
  S := Bool
  intersection _ _ := .polygon [(1 / 2, 1 / 2), (1, 1 / 2), (1, 1), (1 / 2, 1)]
  touches _ _ := false
  contains _ _ := false
  centroid s := if s then (1, 1) else (1 / 2, 1 / 2)
  inside s p := open Classical in
    if s then decide (1 / 2 < p.1 ∧ 1 / 2 < p.2) else decide (p.1 < 1 ∧ p.2 < 1)

example : ∃ n, impactGeometry squares false true = .ok (some n, (3 / 4, 3 / 4)) := by
  have hf : findIntersectionPoints squares false true = .ok [(1, 1 / 2), (1 / 2, 1)] := by
    simp only [findIntersectionPoints, squares, candidates]
    norm_num
  have : impactGeometry squares false true =
      .ok (orient (3 / 4 - 1 / 2, 3 / 4 - 1 / 2) (normalize (-(1 / 2), -(1 / 2))), (3 / 4, 3 / 4)) := by
    unfold impactGeometry
    rw [hf]
    simp only [squares]
    norm_num
  rw [this]
  cases h : orient (3 / 4 - 1 / 2, 3 / 4 - 1 / 2) (normalize (-(1 / 2), -(1 / 2))) with
  | none => rw [orient_normalize_none] at h; norm_num at h
  | some n => exact ⟨n, rfl⟩

/-- **C73.** The direction of an impact is measured from the heading: turning by it from the heading of the body and going
straight leads from its center to the impact point. It is not reduced to one turn. -/
theorem C73_direction (x y psi : ℝ) (p : ℝ × ℝ) (h : p ≠ (x, y)) :
    ∃ r, 0 < r ∧ p.1 = x + r * Real.cos (psi + impactDirection x y psi p) ∧
      p.2 = y + r * Real.sin (psi + impactDirection x y psi p) ∧
      -Real.pi < psi + impactDirection x y psi p ∧ psi + impactDirection x y psi p ≤ Real.pi := by
  set z : ℂ := ⟨p.1 - x, p.2 - y⟩ with hz
  have hz0 : z ≠ 0 := by
    intro h0
    apply h
    have h1 : z.re = 0 := by rw [h0]; rfl
    have h2 : z.im = 0 := by rw [h0]; rfl
    refine Prod.ext ?_ ?_
    · simp only [hz] at h1; simp only; linarith
    · simp only [hz] at h2; simp only; linarith
  have e : psi + impactDirection x y psi p = Complex.arg z := by unfold impactDirection; ring
  rw [e]
  have hn : 0 < ‖z‖ := norm_pos_iff.mpr hz0
  refine ⟨‖z‖, hn, ?_, ?_, Complex.neg_pi_lt_arg z, Complex.arg_le_pi z⟩
  · rw [Complex.cos_arg hz0, mul_div_cancel₀ _ hn.ne']; simp [hz]
  · rw [Complex.sin_arg, mul_div_cancel₀ _ hn.ne']; simp [hz]

example : ((3, 4) : ℝ × ℝ) ≠ (1, 2) := by norm_num

end Coll
end Verif
