import Verif.Basic
import Mathlib.Algebra.Order.Field.Basic
import Mathlib.Data.Rat.Floor

/-!
# Vehicle geometry (sim/models/vehicle_structures.py, sim/models/diff_drive_structures.py)

Points are pairs; the homogeneous third row of the arrays is left out. Rotations are given by cosine and
sine of the steering angle.
-/

namespace Verif
namespace Outline

/-- The model types, sim/models/model_structures.py; only the first four are vehicle types. -/
inductive ModelType where
  | car
  | truck
  | motorcycle
  | bicycle
  | pedestrian
  | spacecraft
  | spaceship
  | differentialDrive
  | rocket
  | dynamicObstacle
deriving DecidableEq, Repr

/-- `FourWheelsTypes`. -/
def fourWheels : ModelType → Bool
  | .car => true
  | .truck => true
  | _ => false

variable {K : Type} [Field K] [LinearOrder K] [IsStrictOrderedRing K]

/-- The fields of `VehicleGeometry` (vehicle_structures.py:25-47) used by its geometry. -/
structure Geometry (K : Type) where
  kind : ModelType
  wHalf : K
  lf : K
  lr : K
deriving DecidableEq, Repr

/-- `default_car`, vehicle_structures.py:48-72. -/
def defaultCar : Geometry ℚ := ⟨.car, 4 / 5, 6 / 5, 6 / 5⟩
/-- `default_bicycle`, vehicle_structures.py:73-94. -/
def defaultBicycle : Geometry ℚ := ⟨.bicycle, 1 / 4, 1, 1⟩
/-- `default_truck`, vehicle_structures.py:96-108. -/
def defaultTruck : Geometry ℚ := ⟨.truck, 6 / 5, 4, 4⟩

/-- `wheel_shape`, vehicle_structures.py:156-166: half width and radius. -/
def wheelShape (g : Geometry K) : Except Err (K × K) :=
  match g.kind with
  | .car => .ok (1 / 10, 3 / 10)
  | .truck => .ok (1 / 5, 2 / 5)
  | .motorcycle => .ok (1 / 20, 3 / 10)
  | .bicycle => .ok (1 / 20, 3 / 10)
  | _ => .error .zValue

/-- `bumpers_length`, vehicle_structures.py:137-146: front and back. -/
def bumpers (g : Geometry K) : Except Err (K × K) := do
  let (_, radius) ← wheelShape g
  pure (if fourWheels g.kind then g.lf / 2 else radius, radius * 2)

/-- `width`, vehicle_structures.py:110-112. -/
def width (g : Geometry K) : K := g.wHalf * 2

/-- `wheelbase`, vehicle_structures.py:118-121. -/
def wheelbase (g : Geometry K) : K := g.lf + g.lr

/-- `length`, vehicle_structures.py:114-116. -/
def length (g : Geometry K) : Except Err K := do
  let (f, b) ← bumpers g
  pure (wheelbase g + (f + b))

/-- `outline`, vehicle_structures.py:123-135. -/
def outline (g : Geometry K) : Except Err (List (K × K)) := do
  let (hw, _) ← wheelShape g
  let (f, b) ← bumpers g
  pure [(-g.lr - b, -g.wHalf - hw), (-g.lr - b, g.wHalf + hw), (g.lf + f, g.wHalf + hw),
    (g.lf + f, -g.wHalf - hw), (-g.lr - b, -g.wHalf - hw)]

/-- `wheel_outline`, vehicle_structures.py:168-178, and diff_drive_structures.py:82-92. -/
def wheelRect (hw radius : K) : List (K × K) :=
  [(radius, -hw), (-radius, -hw), (-radius, hw), (radius, hw), (radius, -hw)]

/-- `wheels_position`, vehicle_structures.py:180-194. -/
def wheels (g : Geometry K) : List (K × K) :=
  if fourWheels g.kind then
    [(g.lf, g.wHalf), (g.lf, -g.wHalf), (-g.lr, g.wHalf), (-g.lr, -g.wHalf)]
  else [(g.lf, 0), (-g.lr, 0)]

/-- `lights_position`, vehicle_structures.py:196-205, in the order back left, back right, front left,
front right. -/
def lights (g : Geometry K) : Except Err (List (K × K)) := do
  let (hw, _) ← wheelShape g
  let (f, b) ← bumpers g
  pure [(-g.lr - b, g.wHalf - hw), (-g.lr - b, -g.wHalf + hw), (g.lf + f, g.wHalf - hw),
    (g.lf + f, -g.wHalf + hw)]

/-- The matrix of `SE2_from_xytheta((x, y, delta))` applied to a point, with `c`, `s` the cosine and sine
of `delta`. -/
def place (c s : K) (pos p : K × K) : K × K := (c * p.1 - s * p.2 + pos.1, s * p.1 + c * p.2 + pos.2)

/-- The loop of vehicle_structures.py:219-225 over wheels `i, i+1, …` of `n`: `i < n / 2` is rotated. -/
def placeWheels (c s : K) (rect : List (K × K)) (n : Nat) : Nat → List (K × K) → List (List (K × K))
  | _, [] => []
  | i, pos :: rest =>
    (if 2 * i < n then rect.map (place c s pos) else rect.map (place 1 0 pos)) ::
      placeWheels c s rect n (i + 1) rest

/-- `get_rotated_wheels_outlines`, vehicle_structures.py:211-226. -/
def rotatedWheels (g : Geometry K) (c s : K) : Except Err (List (List (K × K))) := do
  let ps := wheels g
  if ps.length = 2 ∨ ps.length = 4 then
    let (hw, radius) ← wheelShape g
    pure (placeWheels c s (wheelRect hw radius) ps.length 0 ps)
  else .error .assertion

/-- `wheels_position` and `wheels_outlines` of the differential drive, diff_drive_structures.py:94-112,
with the `wheel_shape` of lines 76-80. -/
def diffDriveWheels (wheelbase wheelradius : K) : List (List (K × K)) :=
  placeWheels 1 0 (wheelRect (wheelradius / 3) wheelradius) 2 0 [(0, -wheelbase / 2), (0, wheelbase / 2)]

end Outline
end Verif
