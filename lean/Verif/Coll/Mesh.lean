import Verif.Phys.Outline
import Verif.Maps.Geo
import Mathlib.Analysis.Convex.Hull
import Mathlib.Algebra.BigOperators.Ring.Finset

/-!
# Footprints and impact locations (get_footprint and get_mesh in sim/models/*.py)

Polygons are the coordinates of their exterior ring, the first one repeated at the end. The centroid is the
formula of shapely's library GEOS, in exact arithmetic.
-/

namespace Verif
namespace Coll

open Maps

/-- `IMPACT_FRONT` etc., collision_structures.py:23-27. -/
inductive Side where
  | front
  | back
  | left
  | right
  | everywhere
deriving DecidableEq, Repr

/-- Twice the signed area of a triangle. -/
def twiceArea (a b c : ℝ × ℝ) : ℝ := (b.1 - a.1) * (c.2 - a.2) - (c.1 - a.1) * (b.2 - a.2)

/-- Point `i` of a ring. -/
def ringPoint (ring : List (ℝ × ℝ)) (i : Nat) : ℝ × ℝ := ring.getD i (0, 0)

/-- Twice the area that GEOS (algorithm/Centroid.cpp) adds up over the triangles from the first point. -/
noncomputable def ringArea (ring : List (ℝ × ℝ)) : ℝ :=
  ∑ i ∈ Finset.range (ring.length - 1),
    twiceArea (ringPoint ring 0) (ringPoint ring i) (ringPoint ring (i + 1))

/-- The sum of the triangles' corners, weighted by the areas (same place). -/
noncomputable def ringMoment (ring : List (ℝ × ℝ)) : ℝ × ℝ :=
  ∑ i ∈ Finset.range (ring.length - 1),
    twiceArea (ringPoint ring 0) (ringPoint ring i) (ringPoint ring (i + 1)) •
      (ringPoint ring 0 + ringPoint ring i + ringPoint ring (i + 1))

/-- `polygon.centroid.coords[0]` for a polygon of non-zero area. -/
noncomputable def centroid (ring : List (ℝ × ℝ)) : ℝ × ℝ :=
  ((ringMoment ring).1 / (3 * ringArea ring), (ringMoment ring).2 / (3 * ringArea ring))

/-- `get_footprint`, vehicle.py:211-216, and the same lines of the other models: the outline moved to the
pose. -/
noncomputable def footprintRing (outline : List (ℝ × ℝ)) (q : Mat3 ℝ) : List (ℝ × ℝ) :=
  outline.map (affine q.a00 q.a01 q.a10 q.a11 q.a02 q.a12)

/-- `shape.is_valid` for the triangles of the mesh: not collinear. -/
noncomputable def validTriangle : List (ℝ × ℝ) → Bool
  | [a, b, c, _] => open Classical in decide (twiceArea a b c ≠ 0)
  | _ => false

/-- `vertices[i]`. -/
def vertex (ring : List (ℝ × ℝ)) (i : Nat) : Except Err (ℝ × ℝ) :=
  match ring.dropLast[i]? with
  | some v => .ok v
  | none => .error .index

/-- The assertion of vehicle.py:230-231. -/
noncomputable def checkMesh (mesh : List (Side × List (ℝ × ℝ))) : Except Err (List (Side × List (ℝ × ℝ))) :=
  if mesh.all (fun l => validTriangle l.2) then .ok mesh else .error .assertion

/-- `get_mesh` of vehicles (vehicle.py:218-232) and of differential drives (diff_drive.py:177-191), from
the ring of the footprint. -/
noncomputable def sideMesh (ring : List (ℝ × ℝ)) : Except Err (List (Side × List (ℝ × ℝ))) := do
  let c := centroid ring
  let v0 ← vertex ring 0
  let v1 ← vertex ring 1
  let v2 ← vertex ring 2
  let v3 ← vertex ring 3
  checkMesh
    [(.right, [c, v0, v3, c]), (.left, [c, v1, v2, c]), (.back, [c, v0, v1, c]), (.front, [c, v2, v3, c])]

/-- `get_mesh` of the other models (pedestrian.py:229-230, spacecraft.py:214-221, spaceship.py:251-258,
rocket.py:258-265, obstacles_dyn.py:230-235); `assert shape.is_valid` holds for the outlines they use. -/
def wholeMesh (ring : List (ℝ × ℝ)) : List (Side × List (ℝ × ℝ)) := [(.everywhere, ring)]

/-- `Point(0, 0).buffer(r)`, diff_drive_structures.py:69-70: shapely's circle has 16 edges per quarter and
runs clockwise from the positive `x` axis. -/
noncomputable def circleRing (r : ℝ) : List (ℝ × ℝ) :=
  (List.range 65).map fun (k : Nat) =>
    (r * Real.cos (k * (Real.pi / 32)), -(r * Real.sin (k * (Real.pi / 32))))

/-- The points of a polygon with a convex ring. -/
def region (ring : List (ℝ × ℝ)) : Set (ℝ × ℝ) := convexHull ℝ {p | p ∈ ring}

end Coll
end Verif
