import Verif.Basic
import Mathlib.Algebra.Order.Field.Basic
import Mathlib.Tactic.Linarith
import Mathlib.Tactic.Ring
import Mathlib.Tactic.LinearCombination
import Mathlib.Tactic.FieldSimp
import Mathlib.Tactic.Positivity

/-!
# Impulse response (src/dg_commons/sim/collision_utils.py)

Exact field arithmetic; planar vectors are pairs. A mass or inertia is `none` if infinite. The code
divides by masses and inertias without checks; a zero mass (`ZeroDivisionError` or an infinite
impulse) is outside the model, all theorems about the response assume positive ones.
-/

namespace Verif
namespace Coll

variable {K : Type} [Field K] [LinearOrder K]

/-- Dot product, `np.dot`. -/
def dot (u v : K × K) : K := u.1 * v.1 + u.2 * v.2

/-- Planar cross product, `np.cross`. -/
def cross (u v : K × K) : K := u.1 * v.2 - u.2 * v.1

/-- Mass, inertia and restitution coefficient of `ModelGeometry`, model_structures.py:32-45. -/
structure Geom (K : Type) where
  m : Option K
  Iz : Option K
  e : K

/-- `1 / x`, zero for an infinite `x`. -/
def recip : Option K → K
  | none => 0
  | some x => 1 / x

/-- `velocity_of_P_given_A`, collision_utils.py:26-29; the rotation by `pi/2` is taken as exact. -/
def velocityOfP (vel : K × K) (omega : K) (r : K × K) : K × K :=
  (vel.1 + omega * (-r.2), vel.2 + omega * r.1)

/-- `compute_impulse_response`, collision_utils.py:116-138. -/
def impulse (n velAB rAP rBP : K × K) (ga gb : Geom K) : K :=
  let e := min ga.e gb.e
  let j := -(1 + e) * dot velAB n
  let rot := cross rAP n ^ 2 * recip ga.Iz + cross rBP n ^ 2 * recip gb.Iz
  j / (recip ga.m + recip gb.m + rot)

/-- `velocity_after_collision`, collision_utils.py:141-150. -/
def velocityAfter (n vel : K × K) (m : Option K) (j : K) : K × K :=
  (vel.1 + j * n.1 * recip m, vel.2 + j * n.2 * recip m)

/-- `rot_velocity_after_collision`, collision_utils.py:153-163. -/
def omegaAfter (r n : K × K) (omega : K) (Iz : Option K) (j : K) : K :=
  omega + cross r (j * n.1, j * n.2) * recip Iz

/-- `kinetic_energy`, collision_utils.py:166-175, for a finite mass; an infinite mass at rest has
energy `inf * 0 = nan` in the code, which never asks for it. -/
def kineticEnergy (vel : K × K) (m : Option K) : K :=
  match m with
  | none => 0
  | some m => 1 / 2 * m * (vel.1 ^ 2 + vel.2 ^ 2)

end Coll
end Verif
