import Verif.Sim.Model
import Mathlib.Data.Int.Log
import Mathlib.Data.Rat.Floor

/-!
# The clock of the simulator with rounded arithmetic

`SimTime` is `decimal.Decimal` (sim_types.py:8). A `Decimal` is represented by its value; sums and differences
are those of the default context of the module `decimal`: the exact result rounded to 28 significant digits, half
to even. Comparisons are exact. Numbers are built exactly (`SimTime(0.1)` is the float nearest to 0.1 with all its
55 digits). Exponents are not limited, so there is no overflow and no underflow, and signals and
signed zeros are not modelled. `roundTo 2 53` is the arithmetic of floats in the same sense.
-/

namespace Verif
namespace Sim

/-- The nearest integer, the even one of two (`ROUND_HALF_EVEN`). -/
def roundEven (x : ℚ) : ℤ :=
  let f := ⌊x⌋
  if x - f < 1 / 2 then f else if 1 / 2 < x - f then f + 1 else if f % 2 = 0 then f else f + 1

/-- The nearest number with `p` digits in base `b`. -/
def roundTo (b p : ℕ) (x : ℚ) : ℚ :=
  if x = 0 then 0
  else
    let e : ℤ := Int.log b |x| - ((p : ℤ) - 1)
    (roundEven (x / (b : ℚ) ^ e) : ℚ) * (b : ℚ) ^ e

/-- Results of `Decimal` operations. -/
def decimal : ℚ → ℚ := roundTo 10 28

/-- Results of float operations. -/
def double : ℚ → ℚ := roundTo 2 53

/-- `a + b` rounded. -/
@[reducible] def addR (rnd : ℚ → ℚ) : Add ℚ := ⟨fun a b => rnd (Rat.add a b)⟩

/-- `a - b` rounded. -/
@[reducible] def subR (rnd : ℚ → ℚ) : Sub ℚ := ⟨fun a b => rnd (Rat.sub a b)⟩

variable {N : Type} [DecidableEq N] {Wd : World N ℚ}

/-- `need` (simulator.py:267-269) with rounded differences of times. -/
def needR (rnd : ℚ → ℚ) (cfg : Cfg Wd) (s : St Wd) : Bool := @need _ _ _ _ (subR rnd) cfg s

/-- The body of the loop of the simulator (simulator.py:99-102) with rounded sums and differences of times. -/
def stepR (rnd : ℚ → ℚ) (cfg : Cfg Wd) (s : St Wd) : Except SimErr (St Wd) := @step _ _ _ _ _ (addR rnd) (subR rnd) cfg s

/-- `run` (simulator.py:82-106) with rounded sums and differences of times. -/
def runR (rnd : ℚ → ℚ) (cfg : Cfg Wd) (fuel : Nat) (s : St Wd) (log : Dict N (PlayerLog Wd)) :
    Option (Except SimErr (St Wd × Dict N (PlayerLog Wd))) :=
  @run _ _ _ _ _ (addR rnd) (subR rnd) cfg fuel s log

end Sim
end Verif
