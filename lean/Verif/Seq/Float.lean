import Verif.Seq.Model
import Verif.Sim.Clock

/-!
# Sampled sequences with rounded arithmetic

`Seq/Model` computes with exact numbers. Here the operations of sequence.py that compute are repeated with the rounding
of the arithmetic in use (`Sim/Clock`: floats are `roundTo 2 53`, `Decimal` numbers are `roundTo 10 28`; exponents are not
limited, there is no overflow, no underflow, no signed zero). Values are states with components that are floats
(`x * number` and `x + y` of the states in sim/models work component by component).
-/

namespace Verif

/-- The rounding of sums and differences of timestamps, and of `float(...)` and operations on floats. -/
structure Arith where
  time : ℚ → ℚ
  num : ℚ → ℚ

/-- Timestamps that are floats. -/
def Arith.floats : Arith := ⟨Sim.double, Sim.double⟩

/-- Timestamps that are `Decimal` numbers (`SimTime`). -/
def Arith.decimals : Arith := ⟨Sim.decimal, Sim.double⟩

/-- Timestamps that are integers. -/
def Arith.ints : Arith := ⟨id, Sim.double⟩

namespace Seq
variable {ι α : Type*}

/-- The order check of the constructor with rounded differences, sequence.py:54-57. -/
def increasingF (A : Arith) : List ℚ → Bool
  | a :: b :: rest => if A.time (b - a) ≤ 0 then false else increasingF A (b :: rest)
  | _ => true

/-- The constructor (sequence.py:46-64) with rounded differences, for timestamps of one finite kind and checks on. -/
def mkF (A : Arith) (ts : List ℚ) (vs : List α) : Except Err (Seq ℚ α) :=
  if ts.length ≠ vs.length then .error .zValue
  else if increasingF A ts then .ok ⟨ts, vs⟩
  else .error .zValue

/-- `(float(t) - float(u0)) / float(u1 - u0)`, sequence.py:119. -/
def scaleF (A : Arith) (t u0 u1 : ℚ) : Except Err ℚ :=
  let n := A.num (A.num t - A.num u0)
  let d := A.num (A.time (u1 - u0))
  if d = 0 then .error .zeroDiv else .ok (A.num (n / d))

/-- `v0 * (1 - scale) + v1 * scale`, sequence.py:120, component by component. -/
def blendF (A : Arith) (scale : ℚ) (v0 v1 : ι → ℚ) : ι → ℚ :=
  fun j => A.num (A.num (v0 j * A.num (1 - scale)) + A.num (v1 j * scale))

/-- `at_interp`, sequence.py:109-120, rounded. -/
def atInterpF (A : Arith) (s : Seq ℚ (ι → ℚ)) (t : ℚ) : Except Err (ι → ℚ) :=
  match s.getStart with
  | .error e => .error e
  | .ok t0 =>
    if t ≤ t0 then pyGet s.vs 0
    else match s.getEnd with
      | .error e => .error e
      | .ok t1 =>
        if t1 ≤ t then pyGet s.vs (-1)
        else
          let i : Int := bisectRight s.ts t
          match pyGet s.ts (i - 1), pyGet s.ts i, pyGet s.vs (i - 1), pyGet s.vs i with
          | .ok u0, .ok u1, .ok v0, .ok v1 =>
            match scaleF A t u0 u1 with
            | .error e => .error e
            | .ok c => .ok (blendF A c v0 v1)
          | _, _, _, _ => .error .index

/-- `shift_timestamps`, sequence.py:166-172, rounded. -/
def shiftF (A : Arith) (s : Seq ℚ α) (dt : ℚ) : Except Err (Seq ℚ α) :=
  mkF A (s.ts.map (fun t => A.time (t + dt))) s.vs

end Seq
end Verif
