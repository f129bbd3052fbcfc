import Verif.Seq.Float
import Verif.Plan.TrajModel

/-!
# Upsampling a trajectory with rounded arithmetic

`Plan/TrajModel` computes `upsample` with exact numbers. Here it is repeated with the rounding of the timestamps (`A.time`)
and of the interpolated values (`Seq/Float`). Timestamps are floats or `Decimal` numbers (`SimTime`): with integers the
division `dt` makes floats of the new timestamps only; that mixture is not modelled. `n + 1` and `i` are exact (as floats
they are, below 2⁵³). The values are states with components that are floats.
-/

namespace Verif
variable {ι : Type*}

/-- `dt = (t_next - t_previous) / (n + 1)`, trajectory.py:122: two rounded operations. -/
def upsampleDt (A : Arith) (n : Nat) (tp tn : ℚ) : ℚ := A.time (A.time (tn - tp) / ((n : ℚ) + 1))

/-- `ts = i * dt + t_previous`, trajectory.py:124: two rounded operations. -/
def upsampleTime (A : Arith) (n : Nat) (tp tn : ℚ) (i : Nat) : ℚ :=
  A.time (A.time ((i : ℚ) * upsampleDt A n tp tn) + tp)

/-- One pass of the outer loop of `upsample`, trajectory.py:119-126, rounded (negative `n` is not modelled). -/
def upsampleSegmentF (A : Arith) (s : Seq ℚ (ι → ℚ)) (n : Nat) (tp tn : ℚ) : Except Err (List (ℚ × (ι → ℚ))) :=
  match s.at' tp with
  | .error e => .error e
  | .ok v =>
    match mapE (fun i : Nat =>
        let t := upsampleTime A n tp tn (i + 1)
        match s.atInterpF A t with
        | .error e => .error e
        | .ok w => .ok (t, w)) (List.range n) with
    | .error e => .error e
    | .ok inner => .ok ((tp, v) :: inner)

/-- The outer loop of `upsample` over `zip(timestamps, timestamps[1:])`, trajectory.py:119, rounded. -/
def upsampleLoopF (A : Arith) (s : Seq ℚ (ι → ℚ)) (n : Nat) : List ℚ → Except Err (List (ℚ × (ι → ℚ)))
  | tp :: tn :: rest => match upsampleSegmentF A s n tp tn with
    | .error e => .error e
    | .ok seg => match upsampleLoopF A s n (tn :: rest) with
      | .error e => .error e
      | .ok out => .ok (seg ++ out)
  | _ => .ok []

/-- `Trajectory.upsample`, trajectory.py:109-132, rounded. `timestamps[-1]` raises `IndexError` on an empty trajectory,
and the constructor at the end raises when the timestamps do not increase. -/
def upsampleF (A : Arith) (s : Seq ℚ (ι → ℚ)) (n : Nat) : Except Err (Seq ℚ (ι → ℚ)) :=
  match upsampleLoopF A s n s.ts with
  | .error e => .error e
  | .ok out => match s.ts.getLast? with
    | none => .error .index
    | some tl => match s.at' tl with
      | .error e => .error e
      | .ok vl =>
        let all := out ++ [(tl, vl)]
        Seq.mkF A (all.map Prod.fst) (all.map Prod.snd)

end Verif
