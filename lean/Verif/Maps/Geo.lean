import Verif.Basic
import Mathlib.Analysis.SpecialFunctions.Complex.Arg
import Mathlib.Analysis.SpecialFunctions.Trigonometric.Basic

/-!
# Poses and planar geometry (src/dg_commons/geo.py)

Poses are the 3x3 arrays the code passes around. The external library `geometry` (PyGeometry) is
modelled by the exact mathematics it documents: `SE2.multiply` and `np.dot` are the matrix product,
`SE2.inverse` and `np.linalg.inv` the matrix inverse, `SE2.algebra_from_group` and
`SE2.group_from_algebra` the logarithm and exponential of rigid motions (their switch to the limit
formula for angles below 1e-8 is taken at angle 0 only). Square roots, angles and trigonometric
functions are real, so these parts use `ℝ`; what is algebraic is stated for any field.
-/

namespace Verif
namespace Maps

/-- A 3x3 array. -/
@[ext] structure Mat3 (K : Type) where
  a00 : K
  a01 : K
  a02 : K
  a10 : K
  a11 : K
  a12 : K
  a20 : K
  a21 : K
  a22 : K
deriving DecidableEq, Repr

namespace Mat3

variable {K : Type} [Field K]

/-- `np.dot` and `SE2.multiply` of two 3x3 arrays. -/
def mul (m n : Mat3 K) : Mat3 K where
  a00 := m.a00 * n.a00 + m.a01 * n.a10 + m.a02 * n.a20
  a01 := m.a00 * n.a01 + m.a01 * n.a11 + m.a02 * n.a21
  a02 := m.a00 * n.a02 + m.a01 * n.a12 + m.a02 * n.a22
  a10 := m.a10 * n.a00 + m.a11 * n.a10 + m.a12 * n.a20
  a11 := m.a10 * n.a01 + m.a11 * n.a11 + m.a12 * n.a21
  a12 := m.a10 * n.a02 + m.a11 * n.a12 + m.a12 * n.a22
  a20 := m.a20 * n.a00 + m.a21 * n.a10 + m.a22 * n.a20
  a21 := m.a20 * n.a01 + m.a21 * n.a11 + m.a22 * n.a21
  a22 := m.a20 * n.a02 + m.a21 * n.a12 + m.a22 * n.a22

/-- The identity array. -/
def one : Mat3 K := ⟨1, 0, 0, 0, 1, 0, 0, 0, 1⟩

/-- Determinant. -/
def det (m : Mat3 K) : K :=
  m.a00 * (m.a11 * m.a22 - m.a12 * m.a21) - m.a01 * (m.a10 * m.a22 - m.a12 * m.a20) +
    m.a02 * (m.a10 * m.a21 - m.a11 * m.a20)

/-- The inverse by cofactors (total; used when the determinant is not zero). -/
def cof (m : Mat3 K) : Mat3 K where
  a00 := (m.a11 * m.a22 - m.a12 * m.a21) / m.det
  a01 := (m.a02 * m.a21 - m.a01 * m.a22) / m.det
  a02 := (m.a01 * m.a12 - m.a02 * m.a11) / m.det
  a10 := (m.a12 * m.a20 - m.a10 * m.a22) / m.det
  a11 := (m.a00 * m.a22 - m.a02 * m.a20) / m.det
  a12 := (m.a02 * m.a10 - m.a00 * m.a12) / m.det
  a20 := (m.a10 * m.a21 - m.a11 * m.a20) / m.det
  a21 := (m.a01 * m.a20 - m.a00 * m.a21) / m.det
  a22 := (m.a00 * m.a11 - m.a01 * m.a10) / m.det

/-- `np.linalg.inv`: raises `LinAlgError` (a `ValueError`) for a singular array. -/
def inv [DecidableEq K] (m : Mat3 K) : Except Err (Mat3 K) :=
  if m.det = 0 then .error .value else .ok m.cof

end Mat3

section Alg
variable {K : Type} [Field K]

/-- The array of the rigid motion with rotation `(c, s)` and translation `(x, y)`;
`SE2_from_translation_angle` of PyGeometry with `c = cos θ`, `s = sin θ`. -/
def rigid (c s x y : K) : Mat3 K := ⟨c, -s, x, s, c, y, 0, 0, 1⟩

/-- `SE2_apply_T2`, geo.py:47-51. -/
def applyT2 (q : Mat3 K) (p : K × K) : K × K :=
  (q.a00 * p.1 + q.a01 * p.2 + q.a02 * 1, q.a10 * p.1 + q.a11 * p.2 + q.a12 * 1)

/-- `transform_xy`, geo.py:106-112. The array of an empty list of points has shape `(0,)`, so `q @ ...`
raises `ValueError`. -/
def transformXY (q : Mat3 K) (points : List (K × K)) : Except Err (List (K × K)) :=
  if points = [] then .error .value
  else .ok (points.map fun p =>
    (q.a00 * p.1 + q.a01 * p.2 + q.a02 * 1, q.a10 * p.1 + q.a11 * p.2 + q.a12 * 1))

/-- `relative_pose`, geo.py:54-57 (for 3x3 arrays; the assertions on the type hold). -/
def relativePose [DecidableEq K] (base pose : Mat3 K) : Except Err (Mat3 K) :=
  match base.inv with
  | .error e => .error e
  | .ok i => .ok (i.mul pose)

/-- Shapely geometries by their coordinates: only what geo.py uses. -/
inductive Geo (K : Type) where
  | point (p : K × K)
  | lineString (ps : List (K × K))
  | linearRing (ps : List (K × K))
  | polygon (exterior : List (K × K)) (holes : List (List (K × K)))
  | multi (parts : List (List (K × K)))

/-- shapely's `affine_transform(g, [a, b, d, e, xoff, yoff])`: every coordinate is mapped by
`x' = a x + b y + xoff`, `y' = d x + e y + yoff`. -/
def affine (a b d e xo yo : K) (p : K × K) : K × K := (a * p.1 + b * p.2 + xo, d * p.1 + e * p.2 + yo)

/-- Apply a function to every coordinate of a geometry. -/
def Geo.map (f : K × K → K × K) : Geo K → Geo K
  | .point p => .point (f p)
  | .lineString ps => .lineString (ps.map f)
  | .linearRing ps => .linearRing (ps.map f)
  | .polygon e hs => .polygon (e.map f) (hs.map (List.map f))
  | .multi ps => .multi (ps.map (List.map f))

/-- `apply_SE2_to_shapely_geo`, geo.py:100-103. -/
def applyGeo (g : Geo K) (q : Mat3 K) : Geo K :=
  g.map (affine q.a00 q.a01 q.a10 q.a11 q.a02 q.a12)

/-! ## Conversion to CommonRoad polygons -/

/-- `sPolygon2crPolygon`, geo.py:115-129, on the exterior coordinates: the polygon is represented by its
vertices. Inner rings are not used by the code. An empty polygon raises `IndexError`. -/
def sPolygon2cr [DecidableEq K] (exterior : List (K × K)) : Except Err (List (K × K)) :=
  match exterior.head?, exterior.getLast? with
  | some a, some b => .ok (if a = b then exterior.dropLast else exterior)
  | _, _ => .error .index

/-- `sLine2crPolygon`, geo.py:132-141: `buffer a b` is the exterior of
`LineString((a, b)).buffer(0.01)` (shapely). -/
def sLine2cr [DecidableEq K] (buffer : K × K → K × K → List (K × K)) (ps : List (K × K)) :
    Except Err (List (List (K × K))) :=
  (ps.dropLast.zip ps.tail).mapM fun s => sPolygon2cr (buffer s.1 s.2)

/-- `shapely2crPolygons`, geo.py:144-151. -/
def shapely2cr [DecidableEq K] (buffer : K × K → K × K → List (K × K)) :
    Geo K → Except Err (List (List (K × K)))
  | .polygon e _ => match sPolygon2cr e with
    | .error e => .error e
    | .ok p => .ok [p]
  | .lineString ps => sLine2cr buffer ps
  | .linearRing ps => sLine2cr buffer ps
  | .point _ => .error .value
  | .multi _ => .error .value

end Alg

/-! ## Angles, logarithm and distances -/

/-- `SE2Transform`, geo.py:68-71. -/
@[ext] structure Transform where
  x : ℝ
  y : ℝ
  theta : ℝ

/-- `SE2Transform.identity`, geo.py:77-79. -/
def Transform.identity : Transform := ⟨0, 0, 0⟩

/-- `SE2Transform.as_SE2`, geo.py:92-94. -/
noncomputable def Transform.asSE2 (t : Transform) : Mat3 ℝ :=
  rigid (Real.cos t.theta) (Real.sin t.theta) t.x t.y

/-- `atan2(y, x)`: the argument of `x + i y` in `(-π, π]`, 0 at the origin. -/
noncomputable def atan2 (y x : ℝ) : ℝ := Complex.arg ⟨x, y⟩

/-- `SE2Transform.from_SE2`, geo.py:81-85, with `translation_angle_from_SE2` of PyGeometry, which reads
the translation off the last column and the angle off the first column by `atan2`. -/
noncomputable def Transform.fromSE2 (q : Mat3 ℝ) : Transform := ⟨q.a02, q.a12, atan2 q.a10 q.a00⟩

/-- Euclidean norm, `np.linalg.norm` of a 2-vector. -/
noncomputable def norm2 (x y : ℝ) : ℝ := Real.sqrt (x ^ 2 + y ^ 2)

/-- `norm_between_SE2value` with the default `ord`, geo.py:32-35. -/
noncomputable def normBetween (p0 p1 : Mat3 ℝ) : ℝ := norm2 (p0.a02 - p1.a02) (p0.a12 - p1.a12)

/-- A rigid velocity: angular and linear part (element of se(2)). -/
@[ext] structure Twist where
  w : ℝ
  vx : ℝ
  vy : ℝ

/-- Scaling of a twist, `v * alpha`, geo.py:42. -/
def Twist.smul (a : ℝ) (t : Twist) : Twist := ⟨a * t.w, a * t.vx, a * t.vy⟩

/-- `SE2.group_from_algebra`: the rigid motion reached in unit time with a constant twist. -/
noncomputable def expSE2 (t : Twist) : Mat3 ℝ :=
  if t.w = 0 then rigid 1 0 t.vx t.vy
  else rigid (Real.cos t.w) (Real.sin t.w)
    ((Real.sin t.w * t.vx - (1 - Real.cos t.w) * t.vy) / t.w)
    (((1 - Real.cos t.w) * t.vx + Real.sin t.w * t.vy) / t.w)

/-- `SE2.algebra_from_group`: the twist with angle in `(-π, π]` whose exponential is the motion. The
linear part is `w / 2 * [[cot (w/2), 1], [-1, cot (w/2)]]` applied to the translation, with
`cot (w/2) = sin w / (1 - cos w)`. -/
noncomputable def logSE2 (g : Mat3 ℝ) : Twist :=
  let w := atan2 g.a10 g.a00
  if w = 0 then ⟨0, g.a02, g.a12⟩
  else
    let k := w / (2 * (1 - Real.cos w))
    ⟨w, k * (Real.sin w * g.a02 + (1 - Real.cos w) * g.a12),
      k * (Real.sin w * g.a12 - (1 - Real.cos w) * g.a02)⟩

/-- `get_distance_SE2`, geo.py:60-65 (arrays with an inverse). -/
noncomputable def distSE2 (q0 q1 : Mat3 ℝ) : ℝ :=
  let v := logSE2 (q0.cof.mul q1)
  norm2 v.vx v.vy

/-- `SE2_interpolate`, geo.py:38-44 (arrays with an inverse). -/
noncomputable def interpSE2 (q0 q1 : Mat3 ℝ) (alpha : ℝ) : Mat3 ℝ :=
  q0.mul (expSE2 ((logSE2 (q0.cof.mul q1)).smul alpha))

end Maps
end Verif
