import Mathlib.Tactic.TypeStar

/-!
# Shared conventions

Exceptions of the Python code are values of `Err`; Python list indexing (with negative
indices and `IndexError`) is `pyGet`.
-/

namespace Verif

/-- One constructor per Python exception class that the modelled code can raise. -/
inductive Err where
  | zValue            -- zuper_commons ZValueError
  | undefinedAtTime   -- dg_commons.seq.sequence.UndefinedAtTime (sequence.py:24-25)
  | assertion         -- AssertionError
  | type              -- TypeError
  | value             -- ValueError
  | index             -- IndexError
  | key               -- KeyError
  | runtime           -- RuntimeError
  | zeroDiv           -- ZeroDivisionError
  | invalidOp         -- decimal.InvalidOperation
  | attribute         -- AttributeError
  | notImplemented    -- NotImplementedError
  | collision         -- dg_commons.sim.collision_utils.CollisionException
  deriving DecidableEq, Repr

/-- Python's `xs[i]` for an `int` index: negative indices count from the end, out of range
raises `IndexError`. -/
def pyGet {α : Type*} (xs : List α) (i : Int) : Except Err α :=
  let j := if i < 0 then i + xs.length else i
  if j < 0 then .error .index
  else match xs[j.toNat]? with
    | some a => .ok a
    | none => .error .index

/-- Python's `xs[a:b]` for non-negative `a`, `b`. -/
def pySlice {α : Type*} (xs : List α) (a b : Nat) : List α := (xs.take b).drop a

end Verif
