import Verif.Eval.Safety
import Verif.Maps.Geo
import Mathlib.Topology.Compactness.Compact
import Mathlib.Topology.MetricSpace.Basic
import Mathlib.Topology.Order.Real

/-!
# Distance of two players (src/dg_commons/eval/safety.py:186-194)

Outlines are regions of the plane. shapely's `nearest_points` is a parameter with the contract `NearestLaw`.
-/

namespace Verif
namespace Eval

/-- The outline moved to the pose of a state: `SE2_from_xytheta([x, y, psi])` and `apply_SE2_to_shapely_geo`,
safety.py:188-191, on the points of the region. -/
noncomputable def placed (s : Kin) (O : Set (ℝ × ℝ)) : Set (ℝ × ℝ) :=
  Maps.applyT2 (Maps.rigid (Real.cos s.psi) (Real.sin s.psi) s.x s.y) '' O

/-- `_get_dist`, safety.py:186-194: distance and the pair of nearest points. `kin` reads the state, `outline` is
`vg.outline_as_polygon` of the model. -/
noncomputable def getDist {X M : Type} (nearest : Set (ℝ × ℝ) → Set (ℝ × ℝ) → (ℝ × ℝ) × (ℝ × ℝ)) (kin : X → Kin)
    (outline : M → Set (ℝ × ℝ)) (x1 x2 : X) (m1 m2 : M) : ℝ × ((ℝ × ℝ) × (ℝ × ℝ)) :=
  let poly1 := placed (kin x1) (outline m1)
  let poly2 := placed (kin x2) (outline m2)
  let pts := nearest poly1 poly2
  (Maps.norm2 (pts.1.1 - pts.2.1) (pts.1.2 - pts.2.2), pts)

/-- Contract of shapely's `nearest_points`: for regions that are not empty and closed and bounded, a point of each, in
the order of the arguments, whose distance no other pair undercuts. -/
def NearestLaw (nearest : Set (ℝ × ℝ) → Set (ℝ × ℝ) → (ℝ × ℝ) × (ℝ × ℝ)) : Prop :=
  ∀ A B : Set (ℝ × ℝ), A.Nonempty → B.Nonempty → IsCompact A → IsCompact B →
    (nearest A B).1 ∈ A ∧ (nearest A B).2 ∈ B ∧ ∀ a ∈ A, ∀ b ∈ B,
      Maps.norm2 ((nearest A B).1.1 - (nearest A B).2.1) ((nearest A B).1.2 - (nearest A B).2.2) ≤
        Maps.norm2 (a.1 - b.1) (a.2 - b.2)

end Eval
end Verif
