import Verif.Seq.OpModel
import Verif.Seq.Float

/-!
# Operations on sequences of numbers with rounded arithmetic (src/dg_commons/seq/seq_op.py)

`r` is the rounding of floats (`Sim.double`; no overflow, no underflow, no signed zero). `float(t)` of a timestamp is
`r t`, so `Decimal` timestamps and large integers are covered where the code converts them.
-/

namespace Verif

/-- `iterate_with_dt`, sequence.py:190-203, rounded: the times are converted to floats, then subtracted. -/
def iterateF {α : Type*} (r : ℚ → ℚ) (ts : List ℚ) (vs : List α) : Except Err (List (IterateDT ℚ α)) :=
  match iterateWithDt (ts.map r) vs with
  | .error e => .error e
  | .ok items => .ok (items.map (fun it => { it with dt := r it.dt }))

/-- The loop of `seq_integrate`, seq_op.py:22-29, rounded. -/
def integrateLoopF (r : ℚ → ℚ) (total : ℚ) : List (IterateDT ℚ ℚ) → List (ℚ × ℚ)
  | [] => []
  | it :: rest =>
    let vAvg := r (r (it.v0 + it.v1) / 2)
    let total' := r (total + r (vAvg * it.dt))
    (it.t1, total') :: integrateLoopF r total' rest

/-- `seq_integrate`, seq_op.py:14-31, rounded. -/
def seqIntegrateF (r : ℚ → ℚ) (s : Seq ℚ ℚ) : Except Err (Seq ℚ ℚ) :=
  if s.ts.length = 0 then .error .value
  else if s.vs.length = 1 then .ok s
  else match iterateF r s.ts s.vs with
    | .error e => .error e
    | .ok items =>
      let out := integrateLoopF r 0 items
      Seq.mkF ⟨r, r⟩ (out.map Prod.fst) (out.map Prod.snd)

/-- The loop of `seq_differentiate`, seq_op.py:39-44, rounded. -/
def differentiateLoopF (r : ℚ → ℚ) : List (IterateDT ℚ ℚ) → Except Err (List (ℚ × ℚ))
  | [] => .ok []
  | it :: rest =>
    if it.dt = 0 then .error .zeroDiv
    else match differentiateLoopF r rest with
      | .error e => .error e
      | .ok out => .ok ((r (it.t0 + r (it.dt / 2)), r (r (it.v1 - it.v0) / it.dt)) :: out)

/-- `seq_differentiate`, seq_op.py:34-45, rounded. -/
def seqDifferentiateF (r : ℚ → ℚ) (s : Seq ℚ ℚ) : Except Err (Seq ℚ ℚ) :=
  if s.ts.length = 0 then .error .value
  else match iterateF r s.ts s.vs with
    | .error e => .error e
    | .ok items => match differentiateLoopF r items with
      | .error e => .error e
      | .ok out => Seq.mkF ⟨r, r⟩ (out.map Prod.fst) (out.map Prod.snd)

/-- `toolz.accumulate(add, seq)` after the first element (seq_op.py:49), rounded. -/
def accumulateFromF (r : ℚ → ℚ) (total : ℚ) : List ℚ → List ℚ
  | [] => [total]
  | v :: vs => total :: accumulateFromF r (r (total + v)) vs

/-- `seq_accumulate`, seq_op.py:48-50, rounded. The timestamps are kept; `A` is their arithmetic. -/
def seqAccumulateF (A : Arith) (s : Seq ℚ ℚ) : Except Err (Seq ℚ ℚ) :=
  Seq.mkF A s.ts (match s.vs with | [] => [] | v :: vs => accumulateFromF A.num v vs)

/-- `find_crossings`, seq_op.py:53-66, rounded, for timestamps that are floats (or integers). -/
def findCrossingsF (r : ℚ → ℚ) (thr : ℚ) : List ℚ → List ℚ → List ℚ
  | t0 :: t1 :: ts, v0 :: v1 :: vs =>
    let a := r (v0 - thr)
    let b := r (v1 - thr)
    if decide (a < 0) ≠ decide (b < 0) then
      r (t0 + r (r (a / r (a - b)) * r (t1 - t0))) :: findCrossingsF r thr (t1 :: ts) (v1 :: vs)
    else findCrossingsF r thr (t1 :: ts) (v1 :: vs)
  | _, _ => []

end Verif
