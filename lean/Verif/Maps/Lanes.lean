import Verif.Maps.Geo
import Mathlib.Algebra.Order.Floor.Ring
import Mathlib.Algebra.BigOperators.Group.List.Basic

/-!
# Lanes (src/dg_commons/maps/lanes.py)

The functions that only use the segment lengths or the radii are stated for any ordered field with a
floor; those that need poses use `ℝ`. `scipy.optimize.minimize_scalar` is a parameter (the progress it
returns). The cache of `get_lane_lengths` is in `Misc/Cache.lean`: control points do not change here.
-/

namespace Verif
namespace Maps

section
variable {K : Type} [Field K] [LinearOrder K] [IsStrictOrderedRing K] [FloorRing K]

/-- `along_lane_from_beta`, lanes.py:211-223, on the segment lengths and the number of control points. -/
def alongFromBeta (lengths : List K) (n : Nat) (beta : K) : Except Err K :=
  if beta < 0 then .ok beta
  else if (n : K) - 1 ≤ beta then .ok (lengths.sum + (beta - ((n : K) - 1)))
  else
    let i := ⌊beta⌋
    match pyGet lengths i with
    | .error e => .error e
    | .ok l => .ok ((lengths.take i.toNat).sum + l * (beta - (i : K)))

/-- `math.isclose(a, b, abs_tol=1e-8)` (relative tolerance 1e-9 by default). -/
def isClose (a b : K) : Prop := |a - b| ≤ max (1 / 10 ^ 9 * max |a| |b|) (1 / 10 ^ 8)

instance (a b : K) : Decidable (isClose a b) := by unfold isClose; infer_instance

/-- The loop of `beta_from_along_lane`, lanes.py:243-249, over the remaining indices. -/
def segLoop (lengths : List K) (x : K) : List Nat → Except Err K
  | [] => .error .assertion
  | i :: is =>
    if (lengths.take i).sum ≤ x ∧ x < (lengths.take (i + 1)).sum then
      match pyGet lengths i with
      | .error e => .error e
      | .ok l => .ok ((i : K) + (x - (lengths.take i).sum) / l)
    else segLoop lengths x is

/-- `beta_from_along_lane`, lanes.py:225-249. -/
def betaFromAlong (lengths : List K) (n : Nat) (x : K) : Except Err K :=
  let s := lengths.sum
  if x < 0 then .ok x
  else if s < x then .ok (((n : K) - 1) + (x - s))
  else if isClose x s then .ok ((n : K) - 1)
  else if ¬ (0 ≤ x ∧ x < s) then .error .assertion
  else segLoop lengths x (List.range (n - 1))

/-- `radius`, lanes.py:251-262, on the radii of the control points. -/
def radius (rs : List K) (beta : K) : Except Err K :=
  let n := rs.length
  let i := ⌊beta⌋
  if i < 0 then pyGet rs 0
  else if (n : Int) - 1 ≤ i then pyGet rs (-1)
  else
    let alpha := beta - (i : K)
    match pyGet rs i with
    | .error e => .error e
    | .ok r0 => match pyGet rs (i + 1) with
      | .error e => .error e
      | .ok r1 => .ok (r0 * (1 - alpha) + r1 * alpha)

/-- The comparisons and distances of `lane_pose`, lanes.py:177-188. -/
structure LaneFlags (K : Type) where
  inside : Bool
  lateralInside : Bool
  outsideLeft : Bool
  outsideRight : Bool
  alongInside : Bool
  alongBefore : Bool
  alongAfter : Bool
  distLeft : K
  distRight : K
  distCenter : K

/-- lanes.py:177-188, for radius `r`, lane length `l`. -/
def laneFlags (r l along lateral : K) : LaneFlags K where
  lateralInside := decide (-r ≤ lateral ∧ lateral ≤ r)
  outsideRight := decide (lateral < -r)
  outsideLeft := decide (r < lateral)
  distLeft := |r - lateral|
  distRight := |-r - lateral|
  distCenter := |lateral|
  alongInside := decide (0 ≤ along ∧ along < l)
  alongBefore := decide (along < 0)
  alongAfter := decide (l < along)
  inside := decide (-r ≤ lateral ∧ lateral ≤ r) && decide (0 ≤ along ∧ along < l)

end

/-! ## Lanes with poses -/

/-- `LaneCtrPoint`, lanes.py:70-75. -/
structure CtrPoint where
  q : Transform
  r : ℝ

/-- `get_lane_lengths`, lanes.py:114-122. -/
noncomputable def laneLengths (cps : List CtrPoint) : List ℝ :=
  (cps.zip cps.tail).map fun c => distSE2 c.1.q.asSE2 c.2.q.asSE2

/-- `get_lane_length`, lanes.py:124-125. -/
noncomputable def laneLength (cps : List CtrPoint) : ℝ := (laneLengths cps).sum

/-- The pose 0.1 ahead (lanes.py:270, 274, 289, 294). -/
noncomputable def ahead (q : Transform) : Mat3 ℝ := q.asSE2.mul (rigid 1 0 (1 / 10) 0)

/-- `center_point`, lanes.py:264-281. -/
noncomputable def centerPoint (cps : List CtrPoint) (beta : ℝ) : Except Err (Mat3 ℝ) :=
  let n := cps.length
  let i := ⌊beta⌋
  if i < 0 then
    match pyGet cps 0 with
    | .error e => .error e
    | .ok c => .ok (interpSE2 c.q.asSE2 (ahead c.q) beta)
  else if (n : Int) - 1 ≤ i then
    match pyGet cps (-1) with
    | .error e => .error e
    | .ok c => .ok (interpSE2 c.q.asSE2 (ahead c.q) (beta - ((n : ℝ) - 1)))
  else
    match pyGet cps i with
    | .error e => .error e
    | .ok c0 => match pyGet cps (i + 1) with
      | .error e => .error e
      | .ok c1 => .ok (interpSE2 c0.q.asSE2 c1.q.asSE2 (beta - (i : ℝ)))

/-- The linear blend of lanes.py:301-303. -/
noncomputable def blend (q0 q1 : Transform) (a : ℝ) : Transform :=
  ⟨q0.x * (1 - a) + q1.x * a, q0.y * (1 - a) + q1.y * a, q0.theta * (1 - a) + q1.theta * a⟩

/-- `center_point_fast_SE2Transform`, lanes.py:283-303. -/
noncomputable def centerFast (cps : List CtrPoint) (beta : ℝ) : Except Err Transform :=
  let n := cps.length
  let i := ⌊beta⌋
  if i < 0 then
    match pyGet cps 0 with
    | .error e => .error e
    | .ok c => .ok (blend c.q (Transform.fromSE2 (ahead c.q)) beta)
  else if (n : Int) - 1 ≤ i then
    match pyGet cps (-1) with
    | .error e => .error e
    | .ok c => .ok (blend c.q (Transform.fromSE2 (ahead c.q)) (beta - ((n : ℝ) - 1)))
  else
    match pyGet cps i with
    | .error e => .error e
    | .ok c0 => match pyGet cps (i + 1) with
      | .error e => .error e
      | .ok c1 => .ok (blend c0.q c1.q (beta - (i : ℝ)))

/-- `DgLanePose`, lanes.py:29-67; the fields that are comparisons and distances are in `flags`. -/
structure LanePose where
  flags : LaneFlags ℝ
  lateral : ℝ
  along : ℝ
  relHeading : ℝ
  correctDirection : Bool
  lateralLeft : ℝ
  lateralRight : ℝ
  center : Transform

open Classical in
/-- `lane_pose`, lanes.py:173-209. -/
noncomputable def lanePose (cps : List CtrPoint) (along relHeading lateral : ℝ) : Except Err LanePose :=
  match betaFromAlong (laneLengths cps) cps.length along with
  | .error e => .error e
  | .ok beta => match centerPoint cps beta with
    | .error e => .error e
    | .ok c => match radius (cps.map (·.r)) beta with
      | .error e => .error e
      | .ok r => .ok
        { flags := laneFlags r (laneLength cps) along lateral
          lateral := lateral
          along := along
          relHeading := relHeading
          correctDirection := decide (|relHeading| ≤ Real.pi / 2)
          lateralLeft := r
          lateralRight := -r
          center := Transform.fromSE2 c }

/-- `lane_pose_from_SE2_generic`, lanes.py:130-141: `closest` is the progress that the local search of
`find_along_lane_closest_point` returns for the position. -/
noncomputable def lanePoseOf (closest : ℝ × ℝ → ℝ) (cps : List CtrPoint) (q : Mat3 ℝ) :
    Except Err LanePose :=
  let beta := closest (q.a02, q.a12)
  match centerPoint cps beta with
  | .error e => .error e
  | .ok q0 => match alongFromBeta (laneLengths cps) cps.length beta with
    | .error e => .error e
    | .ok along => match relativePose q0 q with
      | .error e => .error e
      | .ok rel => lanePose cps along (atan2 rel.a10 rel.a00) rel.a12

/-- `is_inside_from_T2value`, lanes.py:305-310, with the same search result. -/
noncomputable def isInside (closest : ℝ × ℝ → ℝ) (cps : List CtrPoint) (p : ℝ × ℝ) : Except Err Prop :=
  let beta := closest p
  match radius (cps.map (·.r)) beta with
  | .error e => .error e
  | .ok r => match centerFast cps beta with
    | .error e => .error e
    | .ok c => .ok (norm2 (c.x - p.1) (c.y - p.2) ≤ r ∧ 0 ≤ beta ∧ beta ≤ (cps.length : ℝ) - 1)

/-- One control point of `from_vertices`, lanes.py:100-105. -/
noncomputable def ctrPointOf (left right center : ℝ × ℝ) : CtrPoint :=
  let nx := right.1 - left.1
  let ny := right.2 - left.2
  -- `_rot90 @ normal`
  ⟨⟨center.1, center.2, atan2 nx (-ny)⟩, norm2 nx ny / 2⟩

/-- `from_vertices`, lanes.py:95-106: the loop runs over the center vertices; a missing left or right
vertex raises `IndexError` (right first). -/
noncomputable def fromVertices (left right center : List (ℝ × ℝ)) : Except Err (List CtrPoint) :=
  (List.range center.length).mapM fun i =>
    match center[i]?, right[i]?, left[i]? with
    | some c, some r, some l => .ok (ctrPointOf l r c)
    | _, _, _ => .error .index

/-- The bounds at one progress (lanes.py:330-335): right and left point. -/
noncomputable def boundsAt (cps : List CtrPoint) (beta : ℝ) : Except Err ((ℝ × ℝ) × (ℝ × ℝ)) :=
  match centerPoint cps beta with
  | .error e => .error e
  | .ok q => match radius (cps.map (·.r)) beta with
    | .error e => .error e
    | .ok r => .ok (applyT2 q (0, -r), applyT2 q (0, r))

end Maps
end Verif
