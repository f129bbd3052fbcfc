import Verif.Phys.Models

/-!
# The `update` methods of the models (src/dg_commons/sim/models/*.py)

Every `update` packs the state and the commands into one array, hands a right-hand side on such arrays
to `scipy.integrate.solve_ivp`, and unpacks the state from the last column. The right-hand side is
modelled here; `solve_ivp` is not: the theorems are about exact solutions of the initial value problem.
-/

namespace Verif
namespace Phys

noncomputable section

/-- `y[U.idx[key] + n_states]`, as in vehicle.py:175-177. -/
def cmdAt (idx : List (String × Nat)) (n : Nat) (y : List ℝ) (key : String) : Except Err ℝ :=
  match idx.lookup key with
  | none => .error .key
  | some i => match y[i + n]? with
    | none => .error .index
    | some v => .ok v

/-- What `update` uses of a model: the sizes of the arrays, `as_ndarray`, `from_array`, the reading of
the commands from the packed array, and `dynamics`. -/
structure UpdateOf (S U : Type) where
  nS : Nat
  nU : Nat
  toS : S → List ℝ
  fromS : List ℝ → Except Err S
  toU : U → List ℝ
  read : List ℝ → Except Err U
  rate : S → U → Except Err S

/-- `_stateactions_from_array`, vehicle.py:169-180. -/
def UpdateOf.unpack {S U : Type} (m : UpdateOf S U) (y : List ℝ) : Except Err (S × U) := do
  let s ← m.fromS (y.take m.nS)
  let u ← m.read y
  return (s, u)

/-- `_dynamics`, vehicle.py:182-186, and the same function in the other models. -/
def UpdateOf.rhs {S U : Type} (m : UpdateOf S U) (y : List ℝ) : Except Err (List ℝ) := do
  let su ← m.unpack y
  let dx ← m.rate su.1 su.2
  return m.toS dx ++ List.replicate m.nU 0

/-- `y0`, vehicle.py:188-190. -/
def UpdateOf.pack {S U : Type} (m : UpdateOf S U) (s : S) (u : U) : List ℝ := m.toS s ++ m.toU u

/-- `VehicleModel.update`, vehicle.py:163-197: commands are dropped after a collision, except for
cars. -/
def vehicleUpdate (wb lr : ℝ) (p : VehicleParams ℝ) (hasCollided isCar : Bool) :
    UpdateOf (VehicleState ℝ) (VehicleCommands ℝ) where
  nS := VehicleState.idx.length
  nU := VehicleCommands.idx.length
  toS := VehicleState.toArray
  fromS := VehicleState.fromArray
  toU := VehicleCommands.toArray
  read y :=
    if hasCollided && !isCar then .ok { acc := 0, ddelta := 0 }
    else do
      let acc ← cmdAt VehicleCommands.idx VehicleState.idx.length y "acc"
      let ddelta ← cmdAt VehicleCommands.idx VehicleState.idx.length y "ddelta"
      return { acc := acc, ddelta := ddelta }
  rate x u := .ok (vehicleRate realTrig wb lr p x (u.acc, u.ddelta))

/-- `VehicleModel.update` as inherited by `VehicleModelDyn` (vehicle_dynamic.py:74), with the larger
state; `held` is `self._state`, which stays the state at the start during the integration. -/
def vehicleDynUpdate (g : VehicleGeom) (p : VehicleParams ℝ) (front rear : Pacejka)
    (hasCollided isCar : Bool) (held : VehicleStateDyn ℝ) :
    UpdateOf (VehicleStateDyn ℝ) (VehicleCommands ℝ) where
  nS := VehicleStateDyn.idx.length
  nU := VehicleCommands.idx.length
  toS := VehicleStateDyn.toArray
  fromS := VehicleStateDyn.fromArray
  toU := VehicleCommands.toArray
  read y :=
    if hasCollided && !isCar then .ok { acc := 0, ddelta := 0 }
    else do
      let acc ← cmdAt VehicleCommands.idx VehicleStateDyn.idx.length y "acc"
      let ddelta ← cmdAt VehicleCommands.idx VehicleStateDyn.idx.length y "ddelta"
      return { acc := acc, ddelta := ddelta }
  rate x u := vehicleDynRate g p front rear hasCollided held x u

/-- `PedestrianModel.update`, pedestrian.py:171-205; `held` is `self._state`. -/
def pedestrianUpdate (p : ModelParams ℝ) (dpsiMax : ℝ) (hasCollided : Bool) (held : PedestrianState ℝ) :
    UpdateOf (PedestrianState ℝ) (PedestrianCommands ℝ) where
  nS := PedestrianState.idx.length
  nU := PedestrianCommands.idx.length
  toS := PedestrianState.toArray
  fromS := PedestrianState.fromArray
  toU := PedestrianCommands.toArray
  read y :=
    if hasCollided then .ok { acc := 0, dpsi := 0 }
    else do
      let acc ← cmdAt PedestrianCommands.idx PedestrianState.idx.length y "acc"
      let dpsi ← cmdAt PedestrianCommands.idx PedestrianState.idx.length y "dpsi"
      return { acc := acc, dpsi := dpsi }
  rate x u := .ok (pedestrianRate p dpsiMax hasCollided held x u)

/-- `DiffDriveModel.update`, diff_drive.py:123-153. -/
def diffDriveUpdate (wheelbase wheelradius omegaMin omegaMax : ℝ) (hasCollided : Bool) :
    UpdateOf (DiffDriveState ℝ) (DiffDriveCommands ℝ) where
  nS := DiffDriveState.idx.length
  nU := DiffDriveCommands.idx.length
  toS := DiffDriveState.toArray
  fromS := DiffDriveState.fromArray
  toU := DiffDriveCommands.toArray
  read y :=
    if hasCollided then .ok { omega_l := 0, omega_r := 0 } else DiffDriveCommands.fromArray (y.drop DiffDriveState.idx.length)
  rate x u := .ok (diffDriveRate wheelbase wheelradius omegaMin omegaMax x u)

/-- `SpacecraftModel.update`, spacecraft.py:151-184. -/
def spacecraftUpdate (p : ModelParams ℝ) (dpsiMin dpsiMax wHalf m iz : ℝ) (hasCollided : Bool) :
    UpdateOf (SpacecraftState ℝ) (SpacecraftCommands ℝ) where
  nS := SpacecraftState.idx.length
  nU := SpacecraftCommands.idx.length
  toS := SpacecraftState.toArray
  fromS := SpacecraftState.fromArray
  toU := SpacecraftCommands.toArray
  read y :=
    if hasCollided then .ok { acc_left := 0, acc_right := 0 }
    else do
      let l ← cmdAt SpacecraftCommands.idx SpacecraftState.idx.length y "acc_left"
      let r ← cmdAt SpacecraftCommands.idx SpacecraftState.idx.length y "acc_right"
      return { acc_left := l, acc_right := r }
  rate x u := .ok (spacecraftRate p dpsiMin dpsiMax wHalf m iz x u)

/-- `SpaceshipModel.update`, spaceship.py:168-201. -/
def spaceshipUpdate (p : ThrustParams) (hasCollided : Bool) :
    UpdateOf (SpaceshipState ℝ) (SpaceshipCommands ℝ) where
  nS := SpaceshipState.idx.length
  nU := SpaceshipCommands.idx.length
  toS := SpaceshipState.toArray
  fromS := SpaceshipState.fromArray
  toU := SpaceshipCommands.toArray
  read y :=
    if hasCollided then .ok { thrust := 0, ddelta := 0 }
    else do
      let f ← cmdAt SpaceshipCommands.idx SpaceshipState.idx.length y "thrust"
      let d ← cmdAt SpaceshipCommands.idx SpaceshipState.idx.length y "ddelta"
      return { thrust := f, ddelta := d }
  rate x u := spaceshipRate p x u

/-- `RocketModel.update`, rocket.py:171-205. -/
def rocketUpdate (p : ThrustParams) (hasCollided : Bool) :
    UpdateOf (RocketState ℝ) (RocketCommands ℝ) where
  nS := RocketState.idx.length
  nU := RocketCommands.idx.length
  toS := RocketState.toArray
  fromS := RocketState.fromArray
  toU := RocketCommands.toArray
  read y :=
    if hasCollided then .ok { F_left := 0, F_right := 0, dphi := 0 }
    else do
      let l ← cmdAt RocketCommands.idx RocketState.idx.length y "F_left"
      let r ← cmdAt RocketCommands.idx RocketState.idx.length y "F_right"
      let d ← cmdAt RocketCommands.idx RocketState.idx.length y "dphi"
      return { F_left := l, F_right := r, dphi := d }
  rate x u := rocketRate p x u

/-- `DynObstacleModel.update`, obstacles_dyn.py:156-187: no case for collisions. -/
def dynObstacleUpdate (p : ModelParams ℝ) (dpsiMin dpsiMax : ℝ) :
    UpdateOf (DynObstacleState ℝ) (DynObstacleCommands ℝ) where
  nS := DynObstacleState.idx.length
  nU := DynObstacleCommands.idx.length
  toS := DynObstacleState.toArray
  fromS := DynObstacleState.fromArray
  toU := DynObstacleCommands.toArray
  read y := do
    let a ← cmdAt DynObstacleCommands.idx DynObstacleState.idx.length y "acc_x"
    let b ← cmdAt DynObstacleCommands.idx DynObstacleState.idx.length y "acc_y"
    let c ← cmdAt DynObstacleCommands.idx DynObstacleState.idx.length y "acc_psi"
    return { acc_x := a, acc_y := b, acc_psi := c }
  rate x u := .ok (dynObstacleRate p dpsiMin dpsiMax x u)

end

end Phys
end Verif
