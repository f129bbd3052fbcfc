import Verif.Phys.Update

/-!
# The propagation of the discrete bicycle by an integrator
-/

namespace Verif
namespace Phys

noncomputable section

/-- `BicycleDynamics.successor_ivp`, bicycle_dynamic.py:54-82: nothing is clipped; `_dynamics` uses `dynamics`,
bicycle_dynamic.py:84-95. `solve_ivp` is not modelled, see `Update.lean`. -/
def bicycleIvp (wb lr : ℝ) : UpdateOf (VehicleState ℝ) (VehicleCommands ℝ) where
  nS := VehicleState.idx.length
  nU := VehicleCommands.idx.length
  toS := VehicleState.toArray
  fromS := VehicleState.fromArray
  toU := VehicleCommands.toArray
  read y := do
    let acc ← cmdAt VehicleCommands.idx VehicleState.idx.length y "acc"
    let ddelta ← cmdAt VehicleCommands.idx VehicleState.idx.length y "ddelta"
    return { acc := acc, ddelta := ddelta }
  rate x u := .ok (bicycleRate realTrig wb lr x u.acc u.ddelta)

end

end Phys
end Verif
