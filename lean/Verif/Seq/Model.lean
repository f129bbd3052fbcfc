import Mathlib.Algebra.Order.Field.Basic
import Mathlib.Algebra.Module.Defs
import Mathlib.Data.Rat.Defs
import Mathlib.Algebra.Order.Ring.Rat
import Verif.Basic

/-!
# Sampled sequences (src/dg_commons/seq/sequence.py)

Timestamps and values are tuples in the code and lists here. Two layers:

* `RawTs`/`construct`: the constructor with the numeric kinds of Python and non-finite
  numbers (used for C01, C72);
* `Seq K α`: a sequence whose timestamps are finite numbers of one kind, as elements of an
  ordered field `K` (exact arithmetic, a simplification of `float`/`Decimal`).
-/

namespace Verif

/-! ## The constructor with numeric kinds -/

/-- Python type of an object passed as a timestamp. `other` is anything that is not an
instance of `Decimal`, `float` or `int` (`bool` is a subclass of `int`). -/
inductive Kind where
  | int | bool | float | dec | other
  deriving DecidableEq, Repr

/-- Numeric value of a timestamp, including the non-finite ones. -/
inductive XNum where
  | fin (q : ℚ) | pinf | ninf | nan
  deriving DecidableEq, Repr

/-- A timestamp as passed to the constructor. -/
structure RawTs where
  kind : Kind
  val : XNum
  deriving DecidableEq, Repr

/-- `isinstance(t, get_args(Timestamp))`, sequence.py:21,52. -/
def RawTs.isReal (t : RawTs) : Bool := t.kind ≠ .other

/-- Subtraction of extended numbers as in IEEE 754 (exact on finite numbers). -/
def XNum.sub : XNum → XNum → XNum
  | .fin a, .fin b => .fin (a - b)
  | .nan, _ => .nan
  | _, .nan => .nan
  | .pinf, .pinf => .nan
  | .ninf, .ninf => .nan
  | .pinf, _ => .pinf
  | .ninf, _ => .ninf
  | .fin _, .pinf => .ninf
  | .fin _, .ninf => .pinf

/-- `dt <= 0` for floats: false for not-a-number. -/
def XNum.leZero : XNum → Bool
  | .fin q => decide (q ≤ 0)
  | .pinf => false
  | .ninf => true
  | .nan => false

/-- `(b - a) <= 0` with the exceptions of Python's mixed arithmetic (sequence.py:55-56):
float with Decimal raises `TypeError`; a Decimal infinity minus itself and an ordering
comparison with a Decimal not-a-number raise `InvalidOperation`. -/
def dtNotPositive (a b : RawTs) : Except Err Bool :=
  let hasDec := a.kind = .dec ∨ b.kind = .dec
  if hasDec ∧ (a.kind = .float ∨ b.kind = .float) then .error .type
  else
    let d := XNum.sub b.val a.val
    if hasDec ∧ d = .nan then .error .invalidOp
    else .ok d.leZero

/-- The loop over consecutive timestamps, sequence.py:54-57. -/
def checkDts : List RawTs → Except Err Unit
  | a :: b :: rest =>
    match dtNotPositive a b with
    | .error e => .error e
    | .ok true => .error .zValue
    | .ok false => checkDts (b :: rest)
  | _ => .ok ()

/-- A constructed sequence: the two stored tuples, sequence.py:63-64. -/
structure RawSeq (α : Type*) where
  ts : List RawTs
  vs : List α
  deriving DecidableEq, Repr

/-- `DgSampledSequence.__post_init__`, sequence.py:46-64. `checks` is
`DgCommonsConstants.checks` (dg_commons/__init__.py:17, default `True`). -/
def construct {α : Type*} (checks : Bool) (ts : List RawTs) (vs : List α) :
    Except Err (RawSeq α) :=
  if checks then
    if ts.length ≠ vs.length then .error .zValue
    else if !(ts.all RawTs.isReal) then .error .zValue
    else match checkDts ts with
      | .error e => .error e
      | .ok () =>
        if (ts.any (·.kind = .dec)) && (ts.any (·.kind = .int) || ts.any (·.kind = .float))
        then .error .zValue
        else .ok ⟨ts, vs⟩
  else .ok ⟨ts, vs⟩

/-! ## Binary search as in CPython's `bisect` -/

section
variable {K : Type*} [LinearOrder K]

/-- `bisect.bisect_right(a, x, lo, hi)` of the standard library (used at
sequence.py:106,118,163): `while lo < hi: mid = (lo+hi)//2; if x < a[mid]: hi = mid else: lo = mid+1`.
An index outside the list cannot occur for `hi ≤ len a`; the model then stops. -/
def bisectRightFrom (a : List K) (x : K) (lo hi : Nat) : Nat :=
  if _h : lo < hi then
    let mid := (lo + hi) / 2
    match a[mid]? with
    | none => lo
    | some y => if x < y then bisectRightFrom a x lo mid else bisectRightFrom a x (mid + 1) hi
  else lo
termination_by hi - lo
decreasing_by all_goals omega

/-- `bisect.bisect_right(a, x)`. -/
def bisectRight (a : List K) (x : K) : Nat := bisectRightFrom a x 0 a.length

/-- `bisect.bisect_left(a, x, lo, hi)` (sequence.py:162, sim_perception.py:115):
`if a[mid] < x: lo = mid+1 else: hi = mid`. -/
def bisectLeftFrom (a : List K) (x : K) (lo hi : Nat) : Nat :=
  if _h : lo < hi then
    let mid := (lo + hi) / 2
    match a[mid]? with
    | none => lo
    | some y => if y < x then bisectLeftFrom a x (mid + 1) hi else bisectLeftFrom a x lo mid
  else lo
termination_by hi - lo
decreasing_by all_goals omega

/-- `bisect.bisect_left(a, x)`. -/
def bisectLeft (a : List K) (x : K) : Nat := bisectLeftFrom a x 0 a.length

/-! ## Sequences with timestamps of one finite kind -/

/-- The stored tuples `_timestamps`, `_values` (sequence.py:43-44). -/
structure Seq (K : Type*) (α : Type*) where
  ts : List K
  vs : List α
  deriving DecidableEq, Repr

namespace Seq
variable {α β : Type*}

/-- The order check of the constructor on consecutive timestamps, sequence.py:54-57, for
timestamps of one finite kind. (`t1 - t0 <= 0` is `t1 ≤ t0`.) -/
def increasing : List K → Bool
  | a :: b :: rest => decide (a < b) && increasing (b :: rest)
  | _ => true

/-- The constructor for timestamps of one finite kind with checks on, sequence.py:46-64.
`construct_eq_mk` in `Seq/Lemmas.lean` relates it to `construct`. -/
def mk? (ts : List K) (vs : List α) : Except Err (Seq K α) :=
  if ts.length ≠ vs.length then .error .zValue
  else if increasing ts then .ok ⟨ts, vs⟩
  else .error .zValue

/-- `get_start`, sequence.py:122-128. -/
def getStart (s : Seq K α) : Except Err K :=
  match s.ts with
  | [] => .error .zValue
  | t :: _ => .ok t

/-- `get_end`, sequence.py:130-136. -/
def getEnd (s : Seq K α) : Except Err K :=
  match s.ts.getLast? with
  | none => .error .zValue
  | some t => .ok t

/-- `at`, sequence.py:86-93: first index of `t`, then the value there. -/
def at' (s : Seq K α) (t : K) : Except Err α :=
  match s.ts.findIdx? (fun u => u == t) with
  | none => .error .undefinedAtTime
  | some i => pyGet s.vs i

/-- `at_or_previous`, sequence.py:95-107. -/
def atOrPrevious (s : Seq K α) (t : K) : Except Err α :=
  match s.getStart with
  | .error e => .error e
  | .ok t0 =>
    if t < t0 then .error .undefinedAtTime
    else match s.at' t with
      | .ok v => .ok v
      | .error .undefinedAtTime => pyGet s.vs ((bisectRight s.ts t : Int) - 1)
      | .error e => .error e

/-- `__iter__`, sequence.py:174-175. -/
def samples (s : Seq K α) : List (K × α) := s.ts.zip s.vs

/-- `get_subsequence`, sequence.py:155-164. -/
def getSubsequence (s : Seq K α) (a b : K) : Except Err (Seq K α) :=
  if a ≤ b then
    let i := bisectLeft s.ts a
    let j := bisectRight s.ts b
    mk? (pySlice s.ts i j) (pySlice s.vs i j)
  else .error .assertion

/-- `transform_values`, sequence.py:145-153; `f` returning `None` drops the sample. -/
def transformValues (s : Seq K α) (f : α → Option β) : Except Err (Seq K β) :=
  let kept := s.samples.filterMap (fun p => (f p.2).map (fun y => (p.1, y)))
  mk? (kept.map Prod.fst) (kept.map Prod.snd)

end Seq
end

section
variable {K : Type*} [Field K] [LinearOrder K]
namespace Seq
variable {α : Type*}

/-- `at_interp`, sequence.py:109-120. Conversions to `float` are the identity here. A zero
denominator would raise `ZeroDivisionError`. -/
def atInterp [AddCommGroup α] [Module K α] (s : Seq K α) (t : K) : Except Err α :=
  match s.getStart with
  | .error e => .error e
  | .ok t0 =>
    if t ≤ t0 then pyGet s.vs 0
    else match s.getEnd with
      | .error e => .error e
      | .ok t1 =>
        if t1 ≤ t then pyGet s.vs (-1)
        else
          let i : Int := bisectRight s.ts t
          match pyGet s.ts (i - 1), pyGet s.ts i, pyGet s.vs (i - 1), pyGet s.vs i with
          | .ok u0, .ok u1, .ok v0, .ok v1 =>
            if u1 - u0 = 0 then .error .zeroDiv
            else
              let scale := (t - u0) / (u1 - u0)
              .ok ((1 - scale) • v0 + scale • v1)
          | _, _, _, _ => .error .index

/-- `shift_timestamps`, sequence.py:166-172. -/
def shiftTimestamps (s : Seq K α) (dt : K) : Except Err (Seq K α) :=
  mk? (s.ts.map (· + dt)) s.vs

end Seq

/-! ## Iteration with time differences -/

/-- `IterateDT`, sequence.py:181-187. -/
structure IterateDT (K α : Type*) where
  t0 : K
  t1 : K
  dt : K
  v0 : α
  v1 : α
  deriving DecidableEq, Repr

/-- `iterate_with_dt`, sequence.py:190-202, as the list of yielded items. The code indexes
`timestamps[i+1]`, `values[i+1]` for `i < len(timestamps)-1`; a too short value tuple
(possible only with checks off) would raise `IndexError`. -/
def iterateWithDt {α : Type*} : List K → List α → Except Err (List (IterateDT K α))
  | t0 :: t1 :: ts, v0 :: v1 :: vs =>
    match iterateWithDt (t1 :: ts) (v1 :: vs) with
    | .error e => .error e
    | .ok rest => .ok (⟨t0, t1, t1 - t0, v0, v1⟩ :: rest)
  | _ :: _ :: _, _ => .error .index
  | _, _ => .ok []

end

/-! ## The builder -/

section
variable {K : Type*} [LinearOrder K] {α : Type*}

/-- `DgSampledSequenceBuilder`, sequence.py:208-212. -/
structure Builder (K α : Type*) where
  ts : List K := []
  vs : List α := []
  deriving DecidableEq, Repr

namespace Builder

/-- `add`, sequence.py:214-220: the state of the builder after the call and the outcome of
the call. -/
def add (b : Builder K α) (t : K) (v : α) : Builder K α × Except Err Unit :=
  match b.ts.getLast? with
  | some t' =>
    if t ≤ t' then (b, .error .zValue) else (⟨b.ts ++ [t], b.vs ++ [v]⟩, .ok ())
  | none => (⟨b.ts ++ [t], b.vs ++ [v]⟩, .ok ())

/-- A call of `add` by a caller that catches the exception. -/
def addCatch (b : Builder K α) (p : K × α) : Builder K α := (b.add p.1 p.2).1

/-- `as_sequence`, sequence.py:229-230. -/
def asSequence (b : Builder K α) : Except Err (Seq K α) := Seq.mk? b.ts b.vs

end Builder
end

end Verif
