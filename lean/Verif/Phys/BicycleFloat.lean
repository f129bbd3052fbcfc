import Verif.Phys.Limits
import Verif.Sim.Clock

/-!
# The discrete bicycle model with rounded arithmetic

src/dg_commons/dynamics/bicycle_dynamic.py with every operation of floats rounded by `r` (`Sim.double` for floats:
exponents are not limited, no overflow, no underflow, no signed zero). `math.sin`, `math.cos` and `math.tan` are given
functions `T`: what the C library returns, of which nothing is assumed here. Comparisons (`np.clip`) and negations are exact.
-/

namespace Verif
namespace Phys

/-- `BicycleDynamics.dynamics`, bicycle_dynamic.py:84-95, rounded. -/
def bicycleRateF (r : ℚ → ℚ) (T : Trig ℚ) (wheelbase lr : ℚ) (x : VehicleState ℚ) (acc ddelta : ℚ) : VehicleState ℚ :=
  let dtheta := r (r (x.vx * T.tan x.delta) / wheelbase)
  let dy := r (dtheta * lr)
  ⟨r (r (x.vx * T.cos x.psi) - r (dy * T.sin x.psi)), r (r (x.vx * T.sin x.psi) + r (dy * T.cos x.psi)),
    dtheta, acc, ddelta⟩

/-- `VehicleState.__mul__`, vehicle.py:107-115, rounded. -/
def mulF (r : ℚ → ℚ) (a : VehicleState ℚ) (k : ℚ) : VehicleState ℚ :=
  ⟨r (a.x * k), r (a.y * k), r (a.psi * k), r (a.vx * k), r (a.delta * k)⟩

/-- `VehicleState.__add__`, vehicle.py:89-100, rounded. -/
def addF (r : ℚ → ℚ) (a b : VehicleState ℚ) : VehicleState ℚ :=
  ⟨r (a.x + b.x), r (a.y + b.y), r (a.psi + b.psi), r (a.vx + b.vx), r (a.delta + b.delta)⟩

/-- `BicycleDynamics.successor`, bicycle_dynamic.py:36-52, rounded; `dt = float(dt)` rounds a `Decimal`. -/
def bicycleStepF (r : ℚ → ℚ) (T : Trig ℚ) (wheelbase lr : ℚ) (p : VehicleParams ℚ) (x0 : VehicleState ℚ) (u : ℚ × ℚ)
    (dt : ℚ) : VehicleState ℚ :=
  let dt := r dt
  let acc := clip u.1 p.accMin p.accMax
  let ddelta := clip u.2 (-p.ddeltaMax) p.ddeltaMax
  let x := addF r x0 (mulF r (bicycleRateF r T wheelbase lr x0 acc ddelta) dt)
  { x with vx := clip x.vx p.vxMin p.vxMax, delta := clip x.delta (-p.deltaMax) p.deltaMax }

end Phys
end Verif
