import Verif.Coll.Impulse
import Verif.Sim.Clock

/-!
# Impulse response with rounded arithmetic

src/dg_commons/sim/collision_utils.py with every operation of floats rounded by `r` (`Sim.double` for floats: exponents are
not limited, no overflow, no underflow, no signed zero). The normal, the arms and the relative velocity at the point of
impact are given. `np.dot` is a given function `D`, because the library may fuse multiplications and additions. A mass or
inertia is `none` if infinite; dividing by it gives zero.
-/

namespace Verif
namespace Coll

/-- `np.cross` of planar vectors, rounded. -/
def crossF (r : ℚ → ℚ) (u v : ℚ × ℚ) : ℚ := r (r (u.1 * v.2) - r (u.2 * v.1))

/-- `x / m`, rounded. -/
def divF (r : ℚ → ℚ) (x : ℚ) : Option ℚ → ℚ
  | none => 0
  | some m => r (x / m)

/-- The denominator of the impulse, collision_utils.py:136-137, rounded. -/
def impulseDenF (r : ℚ → ℚ) (n rAP rBP : ℚ × ℚ) (ga gb : Geom ℚ) : ℚ :=
  let rot := r (divF r (r (crossF r rAP n ^ 2)) ga.Iz + divF r (r (crossF r rBP n ^ 2)) gb.Iz)
  r (r (divF r 1 ga.m + divF r 1 gb.m) + rot)

/-- `compute_impulse_response`, collision_utils.py:116-138, rounded. -/
def impulseF (r : ℚ → ℚ) (D : ℚ × ℚ → ℚ × ℚ → ℚ) (n velAB rAP rBP : ℚ × ℚ) (ga gb : Geom ℚ) : ℚ :=
  let e := min ga.e gb.e
  let j := r (-r (1 + e) * D velAB n)
  r (j / impulseDenF r n rAP rBP ga gb)

/-- `j * n`, rounded (collision_utils.py:150, 163). -/
def push (r : ℚ → ℚ) (j : ℚ) (n : ℚ × ℚ) : ℚ × ℚ := (r (j * n.1), r (j * n.2))

/-- `velocity_after_collision`, collision_utils.py:141-150, rounded. -/
def velocityAfterF (r : ℚ → ℚ) (n vel : ℚ × ℚ) (m : Option ℚ) (j : ℚ) : ℚ × ℚ :=
  (r (vel.1 + divF r (push r j n).1 m), r (vel.2 + divF r (push r j n).2 m))

/-- `rot_velocity_after_collision`, collision_utils.py:153-163, rounded. -/
def omegaAfterF (r : ℚ → ℚ) (arm n : ℚ × ℚ) (omega : ℚ) (Iz : Option ℚ) (j : ℚ) : ℚ :=
  r (omega + divF r (crossF r arm (push r j n)) Iz)

end Coll
end Verif
