import Mathlib.Algebra.Field.Basic
import Mathlib.Algebra.Module.Defs
import Verif.Basic

/-!
# States and commands (src/dg_commons/sim/models/*.py)

One structure per dataclass. `add`, `sub`, `mul` (`s * val`), `rmul` (`val * s`), `div`
follow the Python operators; adding an object of another class (`NotImplementedError`) is
excluded by typing. `idx`, `toArray`, `fromArray` follow `idx`, `as_ndarray`, `from_array`;
arrays are one-dimensional, so `z.size == z.shape[0]` always holds.
-/

namespace Verif

/-- `LightsCmd`, vehicle_ligths.py:23-38. -/
inductive LightsCmd where
  | none | headlights | turnLeft | turnRight | hazard
  deriving DecidableEq, Repr

/-- `z[cls.idx[key]]` as in the `from_array` methods: `KeyError` for a missing key,
`IndexError` for an index outside of the array. -/
def arrGet {K : Type*} (idx : List (String × Nat)) (z : List K) (key : String) : Except Err K :=
  match idx.lookup key with
  | Option.none => .error .key
  | Option.some i => match z[i]? with
    | Option.none => .error .index
    | Option.some v => .ok v

/-! ## VehicleState -/

/-- `VehicleState`, vehicle.py:68-137. -/
structure VehicleState (K : Type*) where
  x : K
  y : K
  psi : K
  vx : K
  delta : K
  deriving DecidableEq, Repr

namespace VehicleState
variable {K : Type*} [Field K]

/-- `__add__` (and `__radd__`), vehicle.py:89-100. -/
def add (a b : VehicleState K) : VehicleState K :=
  { a with x := a.x + b.x, y := a.y + b.y, psi := a.psi + b.psi, vx := a.vx + b.vx, delta := a.delta + b.delta }

/-- `__mul__` (`s * val`), vehicle.py:107-115. -/
def mul (a : VehicleState K) (k : K) : VehicleState K :=
  { a with x := a.x * k, y := a.y * k, psi := a.psi * k, vx := a.vx * k, delta := a.delta * k }

/-- `__rmul__ = __mul__` (`val * s`). -/
def rmul (k : K) (a : VehicleState K) : VehicleState K := a.mul k

/-- `__sub__`, vehicle.py:104-105. -/
def sub (a b : VehicleState K) : VehicleState K := a.add (b.mul (-1))

/-- `__truediv__`, vehicle.py:119-120. -/
def div [DecidableEq K] (a : VehicleState K) (k : K) : Except Err (VehicleState K) :=
  if k = 0 then .error .zeroDiv else .ok (a.mul (1 / k))

/-- `idx`, vehicle.py:68-137. -/
def idx : List (String × Nat) :=
  [("x", 0), ("y", 1), ("psi", 2), ("vx", 3), ("delta", 4)]

/-- `as_ndarray`, vehicle.py:125-126. -/
def toArray (a : VehicleState K) : List K := [a.x, a.y, a.psi, a.vx, a.delta]

/-- `from_array`, vehicle.py:128-137. -/
def fromArray (z : List K) : Except Err (VehicleState K) :=
  if idx.length ≠ z.length then .error .assertion
  else do
    let x ← arrGet idx z "x"
    let y ← arrGet idx z "y"
    let psi ← arrGet idx z "psi"
    let vx ← arrGet idx z "vx"
    let delta ← arrGet idx z "delta"
    return { x := x, y := y, psi := psi, vx := vx, delta := delta }

end VehicleState

/-! ## VehicleStateDyn -/

/-- `VehicleStateDyn`, vehicle_dynamic.py:18-71. -/
structure VehicleStateDyn (K : Type*) where
  x : K
  y : K
  psi : K
  vx : K
  delta : K
  vy : K
  dpsi : K
  deriving DecidableEq, Repr

namespace VehicleStateDyn
variable {K : Type*} [Field K]

/-- `__add__` (and `__radd__`), vehicle_dynamic.py:27-40. -/
def add (a b : VehicleStateDyn K) : VehicleStateDyn K :=
  { a with x := a.x + b.x, y := a.y + b.y, psi := a.psi + b.psi, vx := a.vx + b.vx, delta := a.delta + b.delta, vy := a.vy + b.vy, dpsi := a.dpsi + b.dpsi }

/-- `__mul__` (`s * val`), vehicle_dynamic.py:42-52. -/
def mul (a : VehicleStateDyn K) (k : K) : VehicleStateDyn K :=
  { a with x := a.x * k, y := a.y * k, psi := a.psi * k, vx := a.vx * k, delta := a.delta * k, vy := a.vy * k, dpsi := a.dpsi * k }

/-- `__rmul__` (`val * s`): inherited from `VehicleState` (vehicle.py:117), where it is bound to
`VehicleState.__mul__` (vehicle.py:107-115); `vy` and `dpsi` are left as they are. -/
def rmul (k : K) (a : VehicleStateDyn K) : VehicleStateDyn K :=
  { a with x := a.x * k, y := a.y * k, psi := a.psi * k, vx := a.vx * k, delta := a.delta * k }

/-- `__sub__`, inherited, vehicle.py:104-105, with the overridden `__add__` and `__mul__`. -/
def sub (a b : VehicleStateDyn K) : VehicleStateDyn K := a.add (b.mul (-1))

/-- `__truediv__`, inherited, vehicle.py:119-120, with the overridden `__mul__`. -/
def div [DecidableEq K] (a : VehicleStateDyn K) (k : K) : Except Err (VehicleStateDyn K) :=
  if k = 0 then .error .zeroDiv else .ok (a.mul (1 / k))

/-- `idx`, vehicle_dynamic.py:18-71. -/
def idx : List (String × Nat) :=
  [("x", 0), ("y", 1), ("psi", 2), ("vx", 3), ("vy", 4), ("dpsi", 5), ("delta", 6)]

/-- `as_ndarray`, vehicle_dynamic.py:54-55. -/
def toArray (a : VehicleStateDyn K) : List K := [a.x, a.y, a.psi, a.vx, a.vy, a.dpsi, a.delta]

/-- `from_array`, vehicle_dynamic.py:57-68. -/
def fromArray (z : List K) : Except Err (VehicleStateDyn K) :=
  if idx.length ≠ z.length then .error .assertion
  else do
    let x ← arrGet idx z "x"
    let y ← arrGet idx z "y"
    let psi ← arrGet idx z "psi"
    let vx ← arrGet idx z "vx"
    let delta ← arrGet idx z "delta"
    let vy ← arrGet idx z "vy"
    let dpsi ← arrGet idx z "dpsi"
    return { x := x, y := y, psi := psi, vx := vx, delta := delta, vy := vy, dpsi := dpsi }

end VehicleStateDyn

/-! ## PedestrianState -/

/-- `PedestrianState`, pedestrian.py:80-152. -/
structure PedestrianState (K : Type*) where
  x : K
  y : K
  psi : K
  vx : K
  vy : K
  dpsi : K
  deriving DecidableEq, Repr

namespace PedestrianState
variable {K : Type*} [Field K]

/-- `__add__` (and `__radd__`), pedestrian.py:101-113. -/
def add (a b : PedestrianState K) : PedestrianState K :=
  { a with x := a.x + b.x, y := a.y + b.y, psi := a.psi + b.psi, vx := a.vx + b.vx, vy := a.vy + b.vy, dpsi := a.dpsi + b.dpsi }

/-- `__mul__` (`s * val`), pedestrian.py:120-129. -/
def mul (a : PedestrianState K) (k : K) : PedestrianState K :=
  { a with x := a.x * k, y := a.y * k, psi := a.psi * k, vx := a.vx * k, vy := a.vy * k, dpsi := a.dpsi * k }

/-- `__rmul__ = __mul__` (`val * s`). -/
def rmul (k : K) (a : PedestrianState K) : PedestrianState K := a.mul k

/-- `__sub__`, pedestrian.py:117-118. -/
def sub (a b : PedestrianState K) : PedestrianState K := a.add (b.mul (-1))

/-- `__truediv__`, pedestrian.py:133-134. -/
def div [DecidableEq K] (a : PedestrianState K) (k : K) : Except Err (PedestrianState K) :=
  if k = 0 then .error .zeroDiv else .ok (a.mul (1 / k))

/-- `idx`, pedestrian.py:80-152. -/
def idx : List (String × Nat) :=
  [("x", 0), ("y", 1), ("psi", 2), ("vx", 3), ("vy", 4), ("dpsi", 5)]

/-- `as_ndarray`, pedestrian.py:139-140. -/
def toArray (a : PedestrianState K) : List K := [a.x, a.y, a.psi, a.vx, a.vy, a.dpsi]

/-- `from_array`, pedestrian.py:142-152. -/
def fromArray (z : List K) : Except Err (PedestrianState K) :=
  if idx.length ≠ z.length then .error .assertion
  else do
    let x ← arrGet idx z "x"
    let y ← arrGet idx z "y"
    let psi ← arrGet idx z "psi"
    let vx ← arrGet idx z "vx"
    let vy ← arrGet idx z "vy"
    let dpsi ← arrGet idx z "dpsi"
    return { x := x, y := y, psi := psi, vx := vx, vy := vy, dpsi := dpsi }

end PedestrianState

/-! ## DiffDriveState -/

/-- `DiffDriveState`, diff_drive.py:60-105. -/
structure DiffDriveState (K : Type*) where
  x : K
  y : K
  psi : K
  deriving DecidableEq, Repr

namespace DiffDriveState
variable {K : Type*} [Field K]

/-- `__add__` (and `__radd__`), diff_drive.py:77-81. -/
def add (a b : DiffDriveState K) : DiffDriveState K :=
  { a with x := a.x + b.x, y := a.y + b.y, psi := a.psi + b.psi }

/-- `__mul__` (`s * val`), diff_drive.py:88-89. -/
def mul (a : DiffDriveState K) (k : K) : DiffDriveState K :=
  { a with x := a.x * k, y := a.y * k, psi := a.psi * k }

/-- `__rmul__ = __mul__` (`val * s`). -/
def rmul (k : K) (a : DiffDriveState K) : DiffDriveState K := a.mul k

/-- `__sub__`, diff_drive.py:85-86. -/
def sub (a b : DiffDriveState K) : DiffDriveState K := a.add (b.mul (-1))

/-- `__truediv__`, diff_drive.py:93-94. -/
def div [DecidableEq K] (a : DiffDriveState K) (k : K) : Except Err (DiffDriveState K) :=
  if k = 0 then .error .zeroDiv else .ok (a.mul (1 / k))

/-- `idx`, diff_drive.py:60-105. -/
def idx : List (String × Nat) :=
  [("x", 0), ("y", 1), ("psi", 2)]

/-- `as_ndarray`, diff_drive.py:99-100. -/
def toArray (a : DiffDriveState K) : List K := [a.x, a.y, a.psi]

/-- `from_array`, diff_drive.py:102-105. -/
def fromArray (z : List K) : Except Err (DiffDriveState K) :=
  if idx.length ≠ z.length then .error .assertion
  else do
    let x ← arrGet idx z "x"
    let y ← arrGet idx z "y"
    let psi ← arrGet idx z "psi"
    return { x := x, y := y, psi := psi }

end DiffDriveState

/-! ## SpacecraftState -/

/-- `SpacecraftState`, spacecraft.py:61-133. -/
structure SpacecraftState (K : Type*) where
  x : K
  y : K
  psi : K
  vx : K
  vy : K
  dpsi : K
  deriving DecidableEq, Repr

namespace SpacecraftState
variable {K : Type*} [Field K]

/-- `__add__` (and `__radd__`), spacecraft.py:82-94. -/
def add (a b : SpacecraftState K) : SpacecraftState K :=
  { a with x := a.x + b.x, y := a.y + b.y, psi := a.psi + b.psi, vx := a.vx + b.vx, vy := a.vy + b.vy, dpsi := a.dpsi + b.dpsi }

/-- `__mul__` (`s * val`), spacecraft.py:101-110. -/
def mul (a : SpacecraftState K) (k : K) : SpacecraftState K :=
  { a with x := a.x * k, y := a.y * k, psi := a.psi * k, vx := a.vx * k, vy := a.vy * k, dpsi := a.dpsi * k }

/-- `__rmul__ = __mul__` (`val * s`). -/
def rmul (k : K) (a : SpacecraftState K) : SpacecraftState K := a.mul k

/-- `__sub__`, spacecraft.py:98-99. -/
def sub (a b : SpacecraftState K) : SpacecraftState K := a.add (b.mul (-1))

/-- `__truediv__`, spacecraft.py:114-115. -/
def div [DecidableEq K] (a : SpacecraftState K) (k : K) : Except Err (SpacecraftState K) :=
  if k = 0 then .error .zeroDiv else .ok (a.mul (1 / k))

/-- `idx`, spacecraft.py:61-133. -/
def idx : List (String × Nat) :=
  [("x", 0), ("y", 1), ("psi", 2), ("vx", 3), ("vy", 4), ("dpsi", 5)]

/-- `as_ndarray`, spacecraft.py:120-121. -/
def toArray (a : SpacecraftState K) : List K := [a.x, a.y, a.psi, a.vx, a.vy, a.dpsi]

/-- `from_array`, spacecraft.py:123-133. -/
def fromArray (z : List K) : Except Err (SpacecraftState K) :=
  if idx.length ≠ z.length then .error .assertion
  else do
    let x ← arrGet idx z "x"
    let y ← arrGet idx z "y"
    let psi ← arrGet idx z "psi"
    let vx ← arrGet idx z "vx"
    let vy ← arrGet idx z "vy"
    let dpsi ← arrGet idx z "dpsi"
    return { x := x, y := y, psi := psi, vx := vx, vy := vy, dpsi := dpsi }

end SpacecraftState

/-! ## SpaceshipState -/

/-- `SpaceshipState`, spaceship.py:68-150. -/
structure SpaceshipState (K : Type*) where
  x : K
  y : K
  psi : K
  vx : K
  vy : K
  dpsi : K
  delta : K
  m : K
  deriving DecidableEq, Repr

namespace SpaceshipState
variable {K : Type*} [Field K]

/-- `__add__` (and `__radd__`), spaceship.py:93-107. -/
def add (a b : SpaceshipState K) : SpaceshipState K :=
  { a with x := a.x + b.x, y := a.y + b.y, psi := a.psi + b.psi, vx := a.vx + b.vx, vy := a.vy + b.vy, dpsi := a.dpsi + b.dpsi, delta := a.delta + b.delta, m := a.m + b.m }

/-- `__mul__` (`s * val`), spaceship.py:114-125. -/
def mul (a : SpaceshipState K) (k : K) : SpaceshipState K :=
  { a with x := a.x * k, y := a.y * k, psi := a.psi * k, vx := a.vx * k, vy := a.vy * k, dpsi := a.dpsi * k, delta := a.delta * k, m := a.m * k }

/-- `__rmul__ = __mul__` (`val * s`). -/
def rmul (k : K) (a : SpaceshipState K) : SpaceshipState K := a.mul k

/-- `__sub__`, spaceship.py:111-112. -/
def sub (a b : SpaceshipState K) : SpaceshipState K := a.add (b.mul (-1))

/-- `__truediv__`, spaceship.py:129-130. -/
def div [DecidableEq K] (a : SpaceshipState K) (k : K) : Except Err (SpaceshipState K) :=
  if k = 0 then .error .zeroDiv else .ok (a.mul (1 / k))

/-- `idx`, spaceship.py:68-150. -/
def idx : List (String × Nat) :=
  [("x", 0), ("y", 1), ("psi", 2), ("vx", 3), ("vy", 4), ("dpsi", 5), ("delta", 6), ("m", 7)]

/-- `as_ndarray`, spaceship.py:135-136. -/
def toArray (a : SpaceshipState K) : List K := [a.x, a.y, a.psi, a.vx, a.vy, a.dpsi, a.delta, a.m]

/-- `from_array`, spaceship.py:138-150. -/
def fromArray (z : List K) : Except Err (SpaceshipState K) :=
  if idx.length ≠ z.length then .error .assertion
  else do
    let x ← arrGet idx z "x"
    let y ← arrGet idx z "y"
    let psi ← arrGet idx z "psi"
    let vx ← arrGet idx z "vx"
    let vy ← arrGet idx z "vy"
    let dpsi ← arrGet idx z "dpsi"
    let delta ← arrGet idx z "delta"
    let m ← arrGet idx z "m"
    return { x := x, y := y, psi := psi, vx := vx, vy := vy, dpsi := dpsi, delta := delta, m := m }

end SpaceshipState

/-! ## RocketState -/

/-- `RocketState`, rocket.py:71-153. -/
structure RocketState (K : Type*) where
  x : K
  y : K
  psi : K
  vx : K
  vy : K
  dpsi : K
  phi : K
  m : K
  deriving DecidableEq, Repr

namespace RocketState
variable {K : Type*} [Field K]

/-- `__add__` (and `__radd__`), rocket.py:96-110. -/
def add (a b : RocketState K) : RocketState K :=
  { a with x := a.x + b.x, y := a.y + b.y, psi := a.psi + b.psi, vx := a.vx + b.vx, vy := a.vy + b.vy, dpsi := a.dpsi + b.dpsi, phi := a.phi + b.phi, m := a.m + b.m }

/-- `__mul__` (`s * val`), rocket.py:117-128. -/
def mul (a : RocketState K) (k : K) : RocketState K :=
  { a with x := a.x * k, y := a.y * k, psi := a.psi * k, vx := a.vx * k, vy := a.vy * k, dpsi := a.dpsi * k, phi := a.phi * k, m := a.m * k }

/-- `__rmul__ = __mul__` (`val * s`). -/
def rmul (k : K) (a : RocketState K) : RocketState K := a.mul k

/-- `__sub__`, rocket.py:114-115. -/
def sub (a b : RocketState K) : RocketState K := a.add (b.mul (-1))

/-- `__truediv__`, rocket.py:132-133. -/
def div [DecidableEq K] (a : RocketState K) (k : K) : Except Err (RocketState K) :=
  if k = 0 then .error .zeroDiv else .ok (a.mul (1 / k))

/-- `idx`, rocket.py:71-153. -/
def idx : List (String × Nat) :=
  [("x", 0), ("y", 1), ("psi", 2), ("vx", 3), ("vy", 4), ("dpsi", 5), ("phi", 6), ("m", 7)]

/-- `as_ndarray`, rocket.py:138-139. -/
def toArray (a : RocketState K) : List K := [a.x, a.y, a.psi, a.vx, a.vy, a.dpsi, a.phi, a.m]

/-- `from_array`, rocket.py:141-153. -/
def fromArray (z : List K) : Except Err (RocketState K) :=
  if idx.length ≠ z.length then .error .assertion
  else do
    let x ← arrGet idx z "x"
    let y ← arrGet idx z "y"
    let psi ← arrGet idx z "psi"
    let vx ← arrGet idx z "vx"
    let vy ← arrGet idx z "vy"
    let dpsi ← arrGet idx z "dpsi"
    let phi ← arrGet idx z "phi"
    let m ← arrGet idx z "m"
    return { x := x, y := y, psi := psi, vx := vx, vy := vy, dpsi := dpsi, phi := phi, m := m }

end RocketState

/-! ## DynObstacleState -/

/-- `DynObstacleState`, obstacles_dyn.py:68-140. -/
structure DynObstacleState (K : Type*) where
  x : K
  y : K
  psi : K
  vx : K
  vy : K
  dpsi : K
  deriving DecidableEq, Repr

namespace DynObstacleState
variable {K : Type*} [Field K]

/-- `__add__` (and `__radd__`), obstacles_dyn.py:89-101. -/
def add (a b : DynObstacleState K) : DynObstacleState K :=
  { a with x := a.x + b.x, y := a.y + b.y, psi := a.psi + b.psi, vx := a.vx + b.vx, vy := a.vy + b.vy, dpsi := a.dpsi + b.dpsi }

/-- `__mul__` (`s * val`), obstacles_dyn.py:108-117. -/
def mul (a : DynObstacleState K) (k : K) : DynObstacleState K :=
  { a with x := a.x * k, y := a.y * k, psi := a.psi * k, vx := a.vx * k, vy := a.vy * k, dpsi := a.dpsi * k }

/-- `__rmul__ = __mul__` (`val * s`). -/
def rmul (k : K) (a : DynObstacleState K) : DynObstacleState K := a.mul k

/-- `__sub__`, obstacles_dyn.py:105-106. -/
def sub (a b : DynObstacleState K) : DynObstacleState K := a.add (b.mul (-1))

/-- `__truediv__`, obstacles_dyn.py:121-122. -/
def div [DecidableEq K] (a : DynObstacleState K) (k : K) : Except Err (DynObstacleState K) :=
  if k = 0 then .error .zeroDiv else .ok (a.mul (1 / k))

/-- `idx`, obstacles_dyn.py:68-140. -/
def idx : List (String × Nat) :=
  [("x", 0), ("y", 1), ("psi", 2), ("vx", 3), ("vy", 4), ("dpsi", 5)]

/-- `as_ndarray`, obstacles_dyn.py:127-128. -/
def toArray (a : DynObstacleState K) : List K := [a.x, a.y, a.psi, a.vx, a.vy, a.dpsi]

/-- `from_array`, obstacles_dyn.py:130-140. -/
def fromArray (z : List K) : Except Err (DynObstacleState K) :=
  if idx.length ≠ z.length then .error .assertion
  else do
    let x ← arrGet idx z "x"
    let y ← arrGet idx z "y"
    let psi ← arrGet idx z "psi"
    let vx ← arrGet idx z "vx"
    let vy ← arrGet idx z "vy"
    let dpsi ← arrGet idx z "dpsi"
    return { x := x, y := y, psi := psi, vx := vx, vy := vy, dpsi := dpsi }

end DynObstacleState

/-! ## VehicleCommands -/

/-- `VehicleCommands`, vehicle.py:22-62. -/
structure VehicleCommands (K : Type*) where
  acc : K
  ddelta : K
  lights : LightsCmd := .none
  deriving DecidableEq, Repr

namespace VehicleCommands
variable {K : Type*} [Field K]

/-- `__add__` (and `__radd__`), vehicle.py:37-41. `replace(self, ...)` keeps the lights of the
left operand. -/
def add (a b : VehicleCommands K) : VehicleCommands K :=
  { a with acc := a.acc + b.acc, ddelta := a.ddelta + b.ddelta }

/-- `__mul__` (`s * val`), vehicle.py:48-49. -/
def mul (a : VehicleCommands K) (k : K) : VehicleCommands K :=
  { a with acc := a.acc * k, ddelta := a.ddelta * k }

/-- `__rmul__ = __mul__` (`val * s`). -/
def rmul (k : K) (a : VehicleCommands K) : VehicleCommands K := a.mul k

/-- `__sub__`, vehicle.py:45-46. -/
def sub (a b : VehicleCommands K) : VehicleCommands K := a.add (b.mul (-1))

/-- `__truediv__`, vehicle.py:53-54. -/
def div [DecidableEq K] (a : VehicleCommands K) (k : K) : Except Err (VehicleCommands K) :=
  if k = 0 then .error .zeroDiv else .ok (a.mul (1 / k))

/-- `idx`, vehicle.py:22-62. -/
def idx : List (String × Nat) :=
  [("acc", 0), ("ddelta", 1)]

/-- `as_ndarray`, vehicle.py:56-57. -/
def toArray (a : VehicleCommands K) : List K := [a.acc, a.ddelta]

/-- `from_array`, vehicle.py:59-62. The lights get their default value. -/
def fromArray (z : List K) : Except Err (VehicleCommands K) :=
  if idx.length ≠ z.length then .error .assertion
  else do
    let acc ← arrGet idx z "acc"
    let ddelta ← arrGet idx z "ddelta"
    return { acc := acc, ddelta := ddelta }

end VehicleCommands

/-! ## PedestrianCommands -/

/-- `PedestrianCommands`, pedestrian.py:39-77. -/
structure PedestrianCommands (K : Type*) where
  acc : K
  dpsi : K
  deriving DecidableEq, Repr

namespace PedestrianCommands
variable {K : Type*} [Field K]

/-- `__add__` (and `__radd__`), pedestrian.py:52-56. -/
def add (a b : PedestrianCommands K) : PedestrianCommands K :=
  { a with acc := a.acc + b.acc, dpsi := a.dpsi + b.dpsi }

/-- `__mul__` (`s * val`), pedestrian.py:63-64. -/
def mul (a : PedestrianCommands K) (k : K) : PedestrianCommands K :=
  { a with acc := a.acc * k, dpsi := a.dpsi * k }

/-- `__rmul__ = __mul__` (`val * s`). -/
def rmul (k : K) (a : PedestrianCommands K) : PedestrianCommands K := a.mul k

/-- `__sub__`, pedestrian.py:60-61. -/
def sub (a b : PedestrianCommands K) : PedestrianCommands K := a.add (b.mul (-1))

/-- `__truediv__`, pedestrian.py:68-69. -/
def div [DecidableEq K] (a : PedestrianCommands K) (k : K) : Except Err (PedestrianCommands K) :=
  if k = 0 then .error .zeroDiv else .ok (a.mul (1 / k))

/-- `idx`, pedestrian.py:39-77. -/
def idx : List (String × Nat) :=
  [("acc", 0), ("dpsi", 1)]

/-- `as_ndarray`, pedestrian.py:71-72. -/
def toArray (a : PedestrianCommands K) : List K := [a.acc, a.dpsi]

/-- `from_array`, pedestrian.py:74-77. -/
def fromArray (z : List K) : Except Err (PedestrianCommands K) :=
  if idx.length ≠ z.length then .error .assertion
  else do
    let acc ← arrGet idx z "acc"
    let dpsi ← arrGet idx z "dpsi"
    return { acc := acc, dpsi := dpsi }

end PedestrianCommands

/-! ## DiffDriveCommands -/

/-- `DiffDriveCommands`, diff_drive.py:19-57. -/
structure DiffDriveCommands (K : Type*) where
  omega_l : K
  omega_r : K
  deriving DecidableEq, Repr

namespace DiffDriveCommands
variable {K : Type*} [Field K]

/-- `__add__` (and `__radd__`), diff_drive.py:32-36. -/
def add (a b : DiffDriveCommands K) : DiffDriveCommands K :=
  { a with omega_l := a.omega_l + b.omega_l, omega_r := a.omega_r + b.omega_r }

/-- `__mul__` (`s * val`), diff_drive.py:43-44. -/
def mul (a : DiffDriveCommands K) (k : K) : DiffDriveCommands K :=
  { a with omega_l := a.omega_l * k, omega_r := a.omega_r * k }

/-- `__rmul__ = __mul__` (`val * s`). -/
def rmul (k : K) (a : DiffDriveCommands K) : DiffDriveCommands K := a.mul k

/-- `__sub__`, diff_drive.py:40-41. -/
def sub (a b : DiffDriveCommands K) : DiffDriveCommands K := a.add (b.mul (-1))

/-- `__truediv__`, diff_drive.py:48-49. -/
def div [DecidableEq K] (a : DiffDriveCommands K) (k : K) : Except Err (DiffDriveCommands K) :=
  if k = 0 then .error .zeroDiv else .ok (a.mul (1 / k))

/-- `idx`, diff_drive.py:19-57. -/
def idx : List (String × Nat) :=
  [("omega_l", 0), ("omega_r", 1)]

/-- `as_ndarray`, diff_drive.py:51-52. -/
def toArray (a : DiffDriveCommands K) : List K := [a.omega_l, a.omega_r]

/-- `from_array`, diff_drive.py:54-57. -/
def fromArray (z : List K) : Except Err (DiffDriveCommands K) :=
  if idx.length ≠ z.length then .error .assertion
  else do
    let omega_l ← arrGet idx z "omega_l"
    let omega_r ← arrGet idx z "omega_r"
    return { omega_l := omega_l, omega_r := omega_r }

end DiffDriveCommands

/-! ## SpacecraftCommands -/

/-- `SpacecraftCommands`, spacecraft.py:20-58. -/
structure SpacecraftCommands (K : Type*) where
  acc_left : K
  acc_right : K
  deriving DecidableEq, Repr

namespace SpacecraftCommands
variable {K : Type*} [Field K]

/-- `__add__` (and `__radd__`), spacecraft.py:33-37. -/
def add (a b : SpacecraftCommands K) : SpacecraftCommands K :=
  { a with acc_left := a.acc_left + b.acc_left, acc_right := a.acc_right + b.acc_right }

/-- `__mul__` (`s * val`), spacecraft.py:44-45. -/
def mul (a : SpacecraftCommands K) (k : K) : SpacecraftCommands K :=
  { a with acc_left := a.acc_left * k, acc_right := a.acc_right * k }

/-- `__rmul__ = __mul__` (`val * s`). -/
def rmul (k : K) (a : SpacecraftCommands K) : SpacecraftCommands K := a.mul k

/-- `__sub__`, spacecraft.py:41-42. -/
def sub (a b : SpacecraftCommands K) : SpacecraftCommands K := a.add (b.mul (-1))

/-- `__truediv__`, spacecraft.py:49-50. -/
def div [DecidableEq K] (a : SpacecraftCommands K) (k : K) : Except Err (SpacecraftCommands K) :=
  if k = 0 then .error .zeroDiv else .ok (a.mul (1 / k))

/-- `idx`, spacecraft.py:20-58. -/
def idx : List (String × Nat) :=
  [("acc_left", 0), ("acc_right", 1)]

/-- `as_ndarray`, spacecraft.py:52-53. -/
def toArray (a : SpacecraftCommands K) : List K := [a.acc_left, a.acc_right]

/-- `from_array`, spacecraft.py:55-58. The key `"acc_left "` (with a space) is the one in the code. -/
def fromArray (z : List K) : Except Err (SpacecraftCommands K) :=
  if idx.length ≠ z.length then .error .assertion
  else do
    let acc_left ← arrGet idx z "acc_left "
    let acc_right ← arrGet idx z "acc_right"
    return { acc_left := acc_left, acc_right := acc_right }

end SpacecraftCommands

/-! ## SpaceshipCommands -/

/-- `SpaceshipCommands`, spaceship.py:22-65. -/
structure SpaceshipCommands (K : Type*) where
  thrust : K
  ddelta : K
  deriving DecidableEq, Repr

namespace SpaceshipCommands
variable {K : Type*} [Field K]

/-- `__add__` (and `__radd__`), spaceship.py:36-44. -/
def add (a b : SpaceshipCommands K) : SpaceshipCommands K :=
  { a with thrust := a.thrust + b.thrust, ddelta := a.ddelta + b.ddelta }

/-- `__mul__` (`s * val`), spaceship.py:51-52. -/
def mul (a : SpaceshipCommands K) (k : K) : SpaceshipCommands K :=
  { a with thrust := a.thrust * k, ddelta := a.ddelta * k }

/-- `__rmul__ = __mul__` (`val * s`). -/
def rmul (k : K) (a : SpaceshipCommands K) : SpaceshipCommands K := a.mul k

/-- `__sub__`, spaceship.py:48-49. -/
def sub (a b : SpaceshipCommands K) : SpaceshipCommands K := a.add (b.mul (-1))

/-- `__truediv__`, spaceship.py:56-57. -/
def div [DecidableEq K] (a : SpaceshipCommands K) (k : K) : Except Err (SpaceshipCommands K) :=
  if k = 0 then .error .zeroDiv else .ok (a.mul (1 / k))

/-- `idx`, spaceship.py:22-65. -/
def idx : List (String × Nat) :=
  [("thrust", 0), ("ddelta", 1)]

/-- `as_ndarray`, spaceship.py:59-60. -/
def toArray (a : SpaceshipCommands K) : List K := [a.thrust, a.ddelta]

/-- `from_array`, spaceship.py:62-65. -/
def fromArray (z : List K) : Except Err (SpaceshipCommands K) :=
  if idx.length ≠ z.length then .error .assertion
  else do
    let thrust ← arrGet idx z "thrust"
    let ddelta ← arrGet idx z "ddelta"
    return { thrust := thrust, ddelta := ddelta }

end SpaceshipCommands

/-! ## RocketCommands -/

/-- `RocketCommands`, rocket.py:22-68. -/
structure RocketCommands (K : Type*) where
  F_left : K
  F_right : K
  dphi : K
  deriving DecidableEq, Repr

namespace RocketCommands
variable {K : Type*} [Field K]

/-- `__add__` (and `__radd__`), rocket.py:38-47. -/
def add (a b : RocketCommands K) : RocketCommands K :=
  { a with F_left := a.F_left + b.F_left, F_right := a.F_right + b.F_right, dphi := a.dphi + b.dphi }

/-- `__mul__` (`s * val`), rocket.py:54-55. -/
def mul (a : RocketCommands K) (k : K) : RocketCommands K :=
  { a with F_left := a.F_left * k, F_right := a.F_right * k, dphi := a.dphi * k }

/-- `__rmul__ = __mul__` (`val * s`). -/
def rmul (k : K) (a : RocketCommands K) : RocketCommands K := a.mul k

/-- `__sub__`, rocket.py:51-52. -/
def sub (a b : RocketCommands K) : RocketCommands K := a.add (b.mul (-1))

/-- `__truediv__`, rocket.py:59-60. -/
def div [DecidableEq K] (a : RocketCommands K) (k : K) : Except Err (RocketCommands K) :=
  if k = 0 then .error .zeroDiv else .ok (a.mul (1 / k))

/-- `idx`, rocket.py:22-68. -/
def idx : List (String × Nat) :=
  [("F_left", 0), ("F_right", 1), ("dphi", 2)]

/-- `as_ndarray`, rocket.py:62-63. -/
def toArray (a : RocketCommands K) : List K := [a.F_left, a.F_right, a.dphi]

/-- `from_array`, rocket.py:65-68. -/
def fromArray (z : List K) : Except Err (RocketCommands K) :=
  if idx.length ≠ z.length then .error .assertion
  else do
    let F_left ← arrGet idx z "F_left"
    let F_right ← arrGet idx z "F_right"
    let dphi ← arrGet idx z "dphi"
    return { F_left := F_left, F_right := F_right, dphi := dphi }

end RocketCommands

/-! ## DynObstacleCommands -/

/-- `DynObstacleCommands`, obstacles_dyn.py:20-65. -/
structure DynObstacleCommands (K : Type*) where
  acc_x : K
  acc_y : K
  acc_psi : K
  deriving DecidableEq, Repr

namespace DynObstacleCommands
variable {K : Type*} [Field K]

/-- `__add__` (and `__radd__`), obstacles_dyn.py:35-44. -/
def add (a b : DynObstacleCommands K) : DynObstacleCommands K :=
  { a with acc_x := a.acc_x + b.acc_x, acc_y := a.acc_y + b.acc_y, acc_psi := a.acc_psi + b.acc_psi }

/-- `__mul__` (`s * val`), obstacles_dyn.py:51-52. -/
def mul (a : DynObstacleCommands K) (k : K) : DynObstacleCommands K :=
  { a with acc_x := a.acc_x * k, acc_y := a.acc_y * k, acc_psi := a.acc_psi * k }

/-- `__rmul__ = __mul__` (`val * s`). -/
def rmul (k : K) (a : DynObstacleCommands K) : DynObstacleCommands K := a.mul k

/-- `__sub__`, obstacles_dyn.py:48-49. -/
def sub (a b : DynObstacleCommands K) : DynObstacleCommands K := a.add (b.mul (-1))

/-- `__truediv__`, obstacles_dyn.py:56-57. -/
def div [DecidableEq K] (a : DynObstacleCommands K) (k : K) : Except Err (DynObstacleCommands K) :=
  if k = 0 then .error .zeroDiv else .ok (a.mul (1 / k))

/-- `idx`, obstacles_dyn.py:20-65. -/
def idx : List (String × Nat) :=
  [("acc_x", 0), ("acc_y", 1), ("acc_psi", 2)]

/-- `as_ndarray`, obstacles_dyn.py:59-60. -/
def toArray (a : DynObstacleCommands K) : List K := [a.acc_x, a.acc_y, a.acc_psi]

/-- `from_array`, obstacles_dyn.py:62-65. -/
def fromArray (z : List K) : Except Err (DynObstacleCommands K) :=
  if idx.length ≠ z.length then .error .assertion
  else do
    let acc_x ← arrGet idx z "acc_x"
    let acc_y ← arrGet idx z "acc_y"
    let acc_psi ← arrGet idx z "acc_psi"
    return { acc_x := acc_x, acc_y := acc_y, acc_psi := acc_psi }

end DynObstacleCommands

end Verif
