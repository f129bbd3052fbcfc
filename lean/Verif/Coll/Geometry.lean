import Verif.Basic
import Mathlib.Analysis.SpecialFunctions.Complex.Arg

/-!
# Geometry of an impact (src/dg_commons/sim/collision_utils.py:32-113)

Exact real arithmetic; the predicates and set operations of shapely are parameters.
-/

namespace Verif
namespace Coll

/-- The kinds of intersection shapes distinguished by collision_utils.py:35-50. -/
inductive IntShape where
  /-- coordinates of the exterior without the repeated last one -/
  | polygon (coords : List (ℝ × ℝ))
  | line (coords : List (ℝ × ℝ))
  /-- several parts: exterior of the minimum rotated rectangle, `none` if this is not a polygon -/
  | multi (rect : Option (List (ℝ × ℝ)))
  | other

/-- The shapely functions used. -/
structure ShapeOps where
  S : Type
  intersection : S → S → IntShape
  touches : S → S → Bool
  contains : S → S → Bool
  centroid : S → ℝ × ℝ
  /-- `shape.contains(Point(p).buffer(1e-9))`, collision_utils.py:54-55 -/
  inside : S → ℝ × ℝ → Bool

/-- Candidate points, collision_utils.py:34-50. -/
def candidates : IntShape → Except Err (List (ℝ × ℝ))
  | .polygon c => .ok c
  | .line c => .ok c
  | .multi (some c) => .ok c
  | .multi none => .error .attribute
  | .other => .error .collision

/-- `_find_intersection_points`, collision_utils.py:32-71 (without the debug plot). -/
def findIntersectionPoints (G : ShapeOps) (a b : G.S) : Except Err (List (ℝ × ℝ)) :=
  match candidates (G.intersection a b) with
  | .error e => .error e
  | .ok c =>
    let points := c.filter (fun p => !(G.inside a p || G.inside b p))
    if points.length = 2 then .ok points else .error .collision

/-- Length of a vector, `np.linalg.norm`. -/
noncomputable def norm2 (v : ℝ × ℝ) : ℝ := Real.sqrt (v.1 ^ 2 + v.2 ^ 2)

/-- `v / np.linalg.norm(v)`; the zero vector gives NaN components, here `none`. -/
noncomputable def normalize (v : ℝ × ℝ) : Option (ℝ × ℝ) :=
  open Classical in if norm2 v = 0 then none else some (v.1 / norm2 v, v.2 / norm2 v)

/-- The flip of collision_utils.py:110-112; comparisons with NaN are false. -/
noncomputable def orient (r : ℝ × ℝ) : Option (ℝ × ℝ) → Option (ℝ × ℝ)
  | none => none
  | some n =>
    open Classical in
    if r.1 * n.1 + r.2 * n.2 < 0 then some (n.1 * (-1), n.2 * (-1)) else some n

/-- `compute_impact_geometry`, collision_utils.py:82-113. The middle of the two-point line string
(101) is the midpoint. -/
noncomputable def impactGeometry (G : ShapeOps) (a b : G.S) :
    Except Err (Option (ℝ × ℝ) × (ℝ × ℝ)) :=
  if G.touches a b then .error .assertion
  else if G.contains a b then
    let p := G.centroid b
    let r := (p.1 - (G.centroid a).1, p.2 - (G.centroid a).2)
    .ok (orient r (normalize r), p)
  else
    match findIntersectionPoints G a b with
    | .error e => .error e
    | .ok [first, second] =>
      let p := ((first.1 + second.1) / 2, (first.2 + second.2) / 2)
      let d := (second.1 - first.1, second.2 - first.2)
      let r := (p.1 - (G.centroid a).1, p.2 - (G.centroid a).2)
      .ok (orient r (normalize (-d.2, d.1)), p)
    | .ok _ => .error .value

/-- `get_impact_point_direction`, collision_utils.py:74-79. -/
noncomputable def impactDirection (x y psi : ℝ) (p : ℝ × ℝ) : ℝ :=
  Complex.arg ⟨p.1 - x, p.2 - y⟩ - psi

end Coll
end Verif
