import Verif.Basic
import Mathlib.Analysis.SpecialFunctions.Trigonometric.Arctan
import Mathlib.Analysis.Complex.Norm

/-!
# Range sensors (src/dg_commons/perception/sensor.py)

Exact real arithmetic. `raytrace` of the collision checker is a parameter: from origin and end point
of a ray to a list of (entry point, exit point) pairs. The polygon is the list of its vertices.
-/

namespace Verif
namespace Perception

/-- `Sensor`, sensor.py:14-23; `res` is `angle_resolution`, computed on construction. -/
structure Sensor where
  p : ℝ × ℝ
  theta : ℝ
  range : ℝ
  fov : ℝ
  res : ℝ

/-- Construction, sensor.py:20-23: division by zero comes before the assertions. -/
noncomputable def Sensor.make (p : ℝ × ℝ) (theta range fov : ℝ) : Except Err Sensor :=
  if range = 0 then .error .zeroDiv
  else if fov ≤ 2 * Real.pi then
    if 0 ≤ range then .ok ⟨p, theta, range, fov, Real.arctan (1 / range)⟩ else .error .assertion
  else .error .assertion

/-- `is_omnidirectional`, sensor.py:29-30. -/
noncomputable def Sensor.isOmni (s : Sensor) : Bool :=
  open Classical in decide (2 * Real.pi - s.res < s.fov)

/-- `FullRangeSensor.fov_as_polygon`, sensor.py:34-46: centre and radius of the buffer. -/
noncomputable def Sensor.fullRange (s : Sensor) : Except Err ((ℝ × ℝ) × ℝ) :=
  if s.isOmni then .ok (s.p, s.range) else .error .notImplemented

/-- Python's `int` of a float: rounding towards zero. -/
noncomputable def truncR (x : ℝ) : Int := if 0 ≤ x then ⌊x⌋ else ⌈x⌉

/-- `np.linspace(a, b, n)`: `ValueError` for negative `n`, only `a` for `n = 1`. -/
noncomputable def linspace (a b : ℝ) (n : Int) : Except Err (List ℝ) :=
  if n < 0 then .error .value
  else if n = 1 then .ok [a]
  else .ok ((List.range n.toNat).map (fun i : Nat => a + (i : ℝ) * ((b - a) / ((n : ℝ) - 1))))

/-- The ray angles, sensor.py:56-57. -/
noncomputable def Sensor.rayAngles (s : Sensor) : Except Err (List ℝ) :=
  match linspace (-s.fov / 2) (s.fov / 2) (truncR (s.fov / s.res) + 1) with
  | .error e => .error e
  | .ok l => .ok (l.map (fun a => s.theta + a))

/-- `ray_end`, sensor.py:64. -/
noncomputable def Sensor.rayEnd (s : Sensor) (angle : ℝ) : ℝ × ℝ :=
  (s.p.1 + s.range * Real.cos angle, s.p.2 + s.range * Real.sin angle)

/-- Squared distance from the sensor, sensor.py:75-76. -/
def Sensor.sqDist (s : Sensor) (q : ℝ × ℝ) : ℝ := (q.1 - s.p.1) ^ 2 + (q.2 - s.p.2) ^ 2

/-- Body of the inner loop, sensor.py:72-82; the accumulator is
`(closest_hit, closest_hit_distance)`. -/
noncomputable def Sensor.closer (s : Sensor) (acc : (ℝ × ℝ) × ℝ) (hit : (ℝ × ℝ) × (ℝ × ℝ)) :
    (ℝ × ℝ) × ℝ :=
  let acc1 := if s.sqDist hit.1 < acc.2 then (hit.1, s.sqDist hit.1) else acc
  if s.sqDist hit.2 < acc1.2 then (hit.2, s.sqDist hit.2) else acc1

/-- The vertex contributed by one ray, sensor.py:63-83. -/
noncomputable def Sensor.rayVertex (s : Sensor)
    (raytrace : ℝ × ℝ → ℝ × ℝ → List ((ℝ × ℝ) × (ℝ × ℝ))) (angle : ℝ) : ℝ × ℝ :=
  let e := s.rayEnd angle
  let hits := raytrace s.p e
  if hits.isEmpty then e else (hits.foldl s.closer (e, s.range ^ 2)).1

/-- `VisRangeSensor.fov_as_polygon`, sensor.py:49-86: the vertices. `vertices[0]` raises
`IndexError` on an empty list. -/
noncomputable def Sensor.visRange (s : Sensor)
    (raytrace : ℝ × ℝ → ℝ × ℝ → List ((ℝ × ℝ) × (ℝ × ℝ))) : Except Err (List (ℝ × ℝ)) :=
  match s.rayAngles with
  | .error e => .error e
  | .ok angles =>
    let vs := (if s.isOmni then [] else [s.p]) ++ angles.map (s.rayVertex raytrace)
    match vs with
    | [] => .error .index
    | v :: rest => .ok (v :: rest ++ [v])

end Perception
end Verif
