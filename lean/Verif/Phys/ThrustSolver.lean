import Verif.Phys.Solver
import Verif.Phys.Models

/-!
# The `update` of rockets and spaceships with the solver that is really used

As `Verif.Phys.Solver`, for right-hand sides that can fail: `dynamics` divides by the mass. An exception
in any stage ends the update.
-/

namespace Verif
namespace Phys

section
variable {K : Type} [Field K] [LinearOrder K] {V : Type} [AddCommGroup V] [Module K V]

/-- The slopes of the stages, each of which can fail. -/
def slopesE (f : V → Except Err V) (y : V) (h : K) : List (List K) → List V → Except Err (List V)
  | [], ks => .ok ks
  | a :: rows, ks => do
    let k ← f (y + h • weighted a ks)
    slopesE f y h rows (ks ++ [k])

/-- One accepted step of size `h`. -/
def rkStepE (f : V → Except Err V) (m : Tableau K) (h : K) (y : V) : Except Err V := do
  let k ← f y
  let ks ← slopesE f y h m.rows [k]
  return y + h • weighted m.weights ks

/-- The accepted steps of one call of `solve_ivp`. Rejected steps leave no trace unless they fail, which
is not modelled. -/
def rkRunE (f : V → Except Err V) (m : Tableau K) (hs : List K) (y : V) : Except Err V :=
  hs.foldlM (fun y h => rkStepE f m h y) y

end

noncomputable section

/-- `_dynamics`, rocket.py:190-194, on the packed state and commands `F_left`, `F_right`, `dphi`, which are
dropped after a collision (rocket.py:180-187). -/
def rocketPacked (p : ThrustParams) (collided : Bool) (y : RocketState ℝ × ℝ × ℝ × ℝ) :
    Except Err (RocketState ℝ × ℝ × ℝ × ℝ) := do
  let u : ℝ × ℝ × ℝ := if collided then (0, 0, 0) else y.2
  let dx ← rocketRate p y.1 ⟨u.1, u.2.1, u.2.2⟩
  return (dx, (0, 0, 0))

/-- `RocketModel.update`, rocket.py:171-205. -/
def rocketSolve (p : ThrustParams) (m : Tableau ℝ) (collided : Bool) (u : RocketCommands ℝ) (hs : List ℝ)
    (x : RocketState ℝ) : Except Err (RocketState ℝ) := do
  let y ← rkRunE (rocketPacked p collided) m hs (x, (u.F_left, u.F_right, u.dphi))
  return y.1

/-- `_dynamics`, spaceship.py:186-190, with the commands `thrust`, `ddelta`. -/
def spaceshipPacked (p : ThrustParams) (collided : Bool) (y : SpaceshipState ℝ × ℝ × ℝ) :
    Except Err (SpaceshipState ℝ × ℝ × ℝ) := do
  let u : ℝ × ℝ := if collided then (0, 0) else y.2
  let dx ← spaceshipRate p y.1 ⟨u.1, u.2⟩
  return (dx, (0, 0))

/-- `SpaceshipModel.update`, spaceship.py:168-201. -/
def spaceshipSolve (p : ThrustParams) (m : Tableau ℝ) (collided : Bool) (u : SpaceshipCommands ℝ) (hs : List ℝ)
    (x : SpaceshipState ℝ) : Except Err (SpaceshipState ℝ) := do
  let y ← rkRunE (spaceshipPacked p collided) m hs (x, (u.thrust, u.ddelta))
  return y.1

/-- Updates one after the other: commands, whether the rocket has collided, and the steps of the solver. -/
def rocketSolves (p : ThrustParams) (m : Tableau ℝ) (us : List (RocketCommands ℝ × Bool × List ℝ))
    (x : RocketState ℝ) : Except Err (RocketState ℝ) :=
  us.foldlM (fun x u => rocketSolve p m u.2.1 u.1 u.2.2 x) x

/-- The same for spaceships. -/
def spaceshipSolves (p : ThrustParams) (m : Tableau ℝ) (us : List (SpaceshipCommands ℝ × Bool × List ℝ))
    (x : SpaceshipState ℝ) : Except Err (SpaceshipState ℝ) :=
  us.foldlM (fun x u => spaceshipSolve p m u.2.1 u.1 u.2.2 x) x

end

end Phys
end Verif
