import Verif.Phys.Limits
import Verif.Phys.StateModule

/-!
# The `update` of kinematic vehicles with the solver that is really used

`update` calls `scipy.integrate.solve_ivp` without `method` (vehicle.py:191), which then is `RK45`, an
explicit Runge-Kutta method. The step below is that of any explicit Runge-Kutta method; how the library
chooses the sizes of the steps is not modelled: any list of positive sizes with the right sum may occur.
Rounding is not modelled here.
-/

namespace Verif
namespace Phys

/-- The coefficients of an explicit Runge-Kutta method: `rows` are the rows of the matrix without the
first (empty) one, `weights` those of the result. -/
structure Tableau (K : Type) where
  rows : List (List K)
  weights : List K

variable {K : Type} [Field K] [LinearOrder K] {V : Type} [AddCommGroup V] [Module K V]

/-- `np.dot(K[:s].T, a[:s])`: the weighted sum of the slopes found so far. -/
def weighted (a : List K) (ks : List V) : V := (List.zipWith (· • ·) a ks).sum

/-- The slopes of the stages: every row adds the slope at the point its weighted sum leads to. -/
def slopes (f : V → V) (y : V) (h : K) : List (List K) → List V → List V
  | [], ks => ks
  | a :: rows, ks => slopes f y h rows (ks ++ [f (y + h • weighted a ks)])

/-- One accepted step of size `h`. The right-hand sides of the models do not use the time. -/
def rkStep (f : V → V) (m : Tableau K) (h : K) (y : V) : V :=
  y + h • weighted m.weights (slopes f y h m.rows [f y])

/-- The accepted steps of one call of `solve_ivp`; the value is `result.y[:, -1]`. Rejected steps leave no
trace. -/
def rkRun (f : V → V) (m : Tableau K) (hs : List K) (y : V) : V :=
  hs.foldl (fun y h => rkStep f m h y) y

/-- The method of Dormand and Prince, which `solve_ivp` calls `RK45`. The last row of its matrix, used
for the estimate of the error only, is left out. -/
def dormandPrince : Tableau K where
  rows := [[1 / 5], [3 / 40, 9 / 40], [44 / 45, -56 / 15, 32 / 9],
    [19372 / 6561, -25360 / 2187, 64448 / 6561, -212 / 729],
    [9017 / 3168, -355 / 33, 46732 / 5247, 49 / 176, -5103 / 18656]]
  weights := [35 / 384, 0, 500 / 1113, 125 / 192, -2187 / 6784, 11 / 84]

/-- `_dynamics`, vehicle.py:182-186, on the packed state and commands; `drops` tells that the vehicle has
collided and is not a car (vehicle.py:172-178). The array is represented by the pair of its parts. -/
def packedRate (T : Trig K) (wheelbase lr : K) (p : VehicleParams K) (drops : Bool)
    (y : VehicleState K × K × K) : VehicleState K × K × K :=
  (vehicleRate T wheelbase lr p y.1 (if drops then (0, 0) else y.2), (0, 0))

/-- `VehicleModel.update`, vehicle.py:163-195: the state after the accepted steps `hs`. -/
def vehicleSolve (T : Trig K) (wheelbase lr : K) (p : VehicleParams K) (m : Tableau K) (drops : Bool)
    (u : K × K) (hs : List K) (x : VehicleState K) : VehicleState K :=
  (rkRun (packedRate T wheelbase lr p drops) m hs (x, u)).1

/-- What one update is called with, and the steps the solver takes in it. -/
structure Solved (K : Type) where
  cmd : K × K
  drops : Bool
  steps : List K

/-- Any number of updates one after the other. -/
def vehicleSolves (T : Trig K) (wheelbase lr : K) (p : VehicleParams K) (m : Tableau K)
    (us : List (Solved K)) (x : VehicleState K) : VehicleState K :=
  us.foldl (fun x u => vehicleSolve T wheelbase lr p m u.drops u.cmd u.steps x) x

end Phys
end Verif
