import Verif.Seq.Model

/-!
# Operations on sequences of numbers (src/dg_commons/seq/seq_op.py)
-/

namespace Verif

section
variable {K : Type*} [Field K] [LinearOrder K] {α : Type*}

/-- The loop of `seq_integrate`, seq_op.py:22-29, as the list of appended samples. Values
may be vectors: `/ 2.0` and `* it.dt` are multiplications by a scalar. -/
def integrateLoop [AddCommGroup α] [Module K α] (total : α) : List (IterateDT K α) → List (K × α)
  | [] => []
  | it :: rest =>
    let vAvg := (2 : K)⁻¹ • (it.v0 + it.v1)
    let total' := total + it.dt • vAvg
    (it.t1, total') :: integrateLoop total' rest

/-- `seq_integrate`, seq_op.py:14-31. -/
def seqIntegrate [AddCommGroup α] [Module K α] (s : Seq K α) : Except Err (Seq K α) :=
  if s.ts.length = 0 then .error .value
  else if s.vs.length = 1 then .ok s
  else match iterateWithDt s.ts s.vs with
    | .error e => .error e
    | .ok items =>
      let out := integrateLoop 0 items
      Seq.mk? (out.map Prod.fst) (out.map Prod.snd)

/-- The loop of `seq_differentiate`, seq_op.py:39-44. A zero time difference would raise
`ZeroDivisionError`. -/
def differentiateLoop : List (IterateDT K K) → Except Err (List (K × K))
  | [] => .ok []
  | it :: rest =>
    if it.dt = 0 then .error .zeroDiv
    else match differentiateLoop rest with
      | .error e => .error e
      | .ok out => .ok ((it.t0 + it.dt / 2, (it.v1 - it.v0) / it.dt) :: out)

/-- `seq_differentiate`, seq_op.py:34-45. -/
def seqDifferentiate (s : Seq K K) : Except Err (Seq K K) :=
  if s.ts.length = 0 then .error .value
  else match iterateWithDt s.ts s.vs with
    | .error e => .error e
    | .ok items => match differentiateLoop items with
      | .error e => .error e
      | .ok out => Seq.mk? (out.map Prod.fst) (out.map Prod.snd)

/-- `toolz.accumulate(add, seq)` after the first element. -/
def accumulateFrom [Add α] (total : α) : List α → List α
  | [] => [total]
  | v :: vs => total :: accumulateFrom (total + v) vs

/-- `toolz.accumulate(add, seq)` without initial value: nothing for an empty sequence (the
code of toolz returns when the first `next` raises `StopIteration`). -/
def accumulate [Add α] : List α → List α
  | [] => []
  | v :: vs => accumulateFrom v vs

/-- `seq_accumulate`, seq_op.py:48-50. -/
def seqAccumulate [Add α] (s : Seq K α) : Except Err (Seq K α) :=
  Seq.mk? s.ts (accumulate s.vs)

/-- `find_crossings`, seq_op.py:53-66: one instant for every index where the sign bit of
`value - threshold` changes. `dec` says whether the timestamps are `Decimal`s; then the
product of a numpy float with a `Decimal` raises `TypeError`. -/
def findCrossings (dec : Bool) (thr : K) : List K → List K → Except Err (List K)
  | t0 :: t1 :: ts, v0 :: v1 :: vs =>
    let a := v0 - thr
    let b := v1 - thr
    if decide (a < 0) ≠ decide (b < 0) then
      if dec then .error .type
      else match findCrossings dec thr (t1 :: ts) (v1 :: vs) with
        | .error e => .error e
        | .ok cs => .ok ((t0 + (a / (a - b)) * (t1 - t0)) :: cs)
    else findCrossings dec thr (t1 :: ts) (v1 :: vs)
  | _, _ => .ok []

end
end Verif
