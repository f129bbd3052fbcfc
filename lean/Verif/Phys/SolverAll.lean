import Verif.Phys.Update
import Verif.Phys.ThrustSolver
import Mathlib.Algebra.Module.Pi

/-!
# The `update` of every model with the solver that is really used

As `Verif.Phys.Solver` and `Verif.Phys.ThrustSolver`, for all models and on the packed arrays themselves: the
solver works on `y0 = np.concatenate([state_np, action_np])` and knows nothing of states and commands. The sizes
of the accepted steps are given. The library chooses them by an estimate of the error, which depends on the
coordinates; that choice is not modelled. Rounding is not modelled here.
-/

namespace Verif
namespace Phys

noncomputable section

/-- An array of known length as a vector. -/
def toVec (n : Nat) (y : List ℝ) : Fin n → ℝ := fun i => y.getD i 0

variable {S U : Type}

/-- `_dynamics` (vehicle.py:182-186 and the same function in the other models) as the solver sees it. -/
def UpdateOf.field (m : UpdateOf S U) (y : Fin (m.nS + m.nU) → ℝ) : Except Err (Fin (m.nS + m.nU) → ℝ) := do
  let d ← m.rhs (List.ofFn y)
  return toVec _ d

/-- `update`, vehicle.py:163-195 and the same function in the other models: pack, take the accepted steps `hs`,
unpack `result.y[:, -1]`. -/
def UpdateOf.solve (m : UpdateOf S U) (tab : Tableau ℝ) (u : U) (hs : List ℝ) (x : S) : Except Err S := do
  let y ← rkRunE m.field tab hs (toVec _ (m.pack x u))
  let su ← m.unpack (List.ofFn y)
  return su.1

/-- One call of `update`: the commands, whether the model has collided by then, and the steps the solver takes. -/
structure Call (U : Type) where
  cmd : U
  collided : Bool
  steps : List ℝ

/-- Calls of `update` one after the other. -/
def calls (step : Call U → S → Except Err S) (cs : List (Call U)) (x : S) : Except Err S :=
  cs.foldlM (fun x c => step c x) x

/-- `VehicleModel.update`, vehicle.py:163-195. -/
def vehicleCall (wb lr : ℝ) (p : VehicleParams ℝ) (isCar : Bool) (tab : Tableau ℝ) (c : Call (VehicleCommands ℝ))
    (x : VehicleState ℝ) : Except Err (VehicleState ℝ) :=
  (vehicleUpdate wb lr p c.collided isCar).solve tab c.cmd c.steps x

/-- `VehicleModel.update` as inherited by `VehicleModelDyn` (vehicle_dynamic.py:74); during the integration
`self._state` is the state at the start. -/
def vehicleDynCall (g : VehicleGeom) (p : VehicleParams ℝ) (front rear : Pacejka) (isCar : Bool) (tab : Tableau ℝ)
    (c : Call (VehicleCommands ℝ)) (x : VehicleStateDyn ℝ) : Except Err (VehicleStateDyn ℝ) :=
  (vehicleDynUpdate g p front rear c.collided isCar x).solve tab c.cmd c.steps x

/-- `PedestrianModel.update`, pedestrian.py:171-204; `self._state` as above. -/
def pedestrianCall (p : ModelParams ℝ) (dpsiMax : ℝ) (tab : Tableau ℝ) (c : Call (PedestrianCommands ℝ))
    (x : PedestrianState ℝ) : Except Err (PedestrianState ℝ) :=
  (pedestrianUpdate p dpsiMax c.collided x).solve tab c.cmd c.steps x

/-- `DiffDriveModel.update`, diff_drive.py:123-153. -/
def diffDriveCall (wb R lo hi : ℝ) (tab : Tableau ℝ) (c : Call (DiffDriveCommands ℝ)) (x : DiffDriveState ℝ) :
    Except Err (DiffDriveState ℝ) :=
  (diffDriveUpdate wb R lo hi c.collided).solve tab c.cmd c.steps x

/-- `SpacecraftModel.update`, spacecraft.py:151-184. -/
def spacecraftCall (p : ModelParams ℝ) (lo hi w m iz : ℝ) (tab : Tableau ℝ) (c : Call (SpacecraftCommands ℝ))
    (x : SpacecraftState ℝ) : Except Err (SpacecraftState ℝ) :=
  (spacecraftUpdate p lo hi w m iz c.collided).solve tab c.cmd c.steps x

/-- `SpaceshipModel.update`, spaceship.py:168-201. -/
def spaceshipCall (p : ThrustParams) (tab : Tableau ℝ) (c : Call (SpaceshipCommands ℝ)) (x : SpaceshipState ℝ) :
    Except Err (SpaceshipState ℝ) :=
  (spaceshipUpdate p c.collided).solve tab c.cmd c.steps x

/-- `RocketModel.update`, rocket.py:171-205. -/
def rocketCall (p : ThrustParams) (tab : Tableau ℝ) (c : Call (RocketCommands ℝ)) (x : RocketState ℝ) :
    Except Err (RocketState ℝ) :=
  (rocketUpdate p c.collided).solve tab c.cmd c.steps x

/-- `DynObstacleModel.update`, obstacles_dyn.py:156-187. -/
def dynObstacleCall (p : ModelParams ℝ) (lo hi : ℝ) (tab : Tableau ℝ) (c : Call (DynObstacleCommands ℝ))
    (x : DynObstacleState ℝ) : Except Err (DynObstacleState ℝ) :=
  (dynObstacleUpdate p lo hi).solve tab c.cmd c.steps x

end

end Phys
end Verif
