import Verif.Seq.Model
import Verif.Phys.StateModule

/-!
# Trajectories (src/dg_commons/planning/trajectory.py)

A `Trajectory` is a sampled sequence of `VehicleState`s. `upsample` works for values in any
vector space and is modelled that way.
-/

namespace Verif

section
variable {K : Type*} [Field K] [LinearOrder K] {α : Type*}

/-- Run a function over a list, stopping at the first exception (a Python loop that appends
to a list). -/
def mapE {β γ : Type*} (f : β → Except Err γ) : List β → Except Err (List γ)
  | [] => .ok []
  | x :: xs => match f x with
    | .error e => .error e
    | .ok y => match mapE f xs with
      | .error e => .error e
      | .ok ys => .ok (y :: ys)

/-- One pass of the outer loop of `upsample`, trajectory.py:119-125: the samples appended for
the pair `t_previous`, `t_next`. `n + 1` is not zero because `n` is a natural number here
(negative `n` is not modelled). -/
def upsampleSegment [AddCommGroup α] [Module K α] (s : Seq K α) (n : Nat) (tp tn : K) :
    Except Err (List (K × α)) :=
  match s.at' tp with
  | .error e => .error e
  | .ok v =>
    let dt := (tn - tp) / ((n : K) + 1)
    match mapE (fun i : Nat =>
        let t := ((i : K) + 1) * dt + tp
        match s.atInterp t with
        | .error e => .error e
        | .ok w => .ok (t, w)) (List.range n) with
    | .error e => .error e
    | .ok inner => .ok ((tp, v) :: inner)

/-- The outer loop of `upsample` over `zip(timestamps, timestamps[1:])`. -/
def upsampleLoop [AddCommGroup α] [Module K α] (s : Seq K α) (n : Nat) :
    List K → Except Err (List (K × α))
  | tp :: tn :: rest => match upsampleSegment s n tp tn with
    | .error e => .error e
    | .ok seg => match upsampleLoop s n (tn :: rest) with
      | .error e => .error e
      | .ok out => .ok (seg ++ out)
  | _ => .ok []

/-- `Trajectory.upsample`, trajectory.py:109-131. `timestamps[-1]` raises `IndexError` on an
empty trajectory. -/
def upsample [AddCommGroup α] [Module K α] (s : Seq K α) (n : Nat) : Except Err (Seq K α) :=
  match upsampleLoop s n s.ts with
  | .error e => .error e
  | .ok out => match s.ts.getLast? with
    | none => .error .index
    | some tl => match s.at' tl with
      | .error e => .error e
      | .ok vl =>
        let all := out ++ [(tl, vl)]
        Seq.mk? (all.map Prod.fst) (all.map Prod.snd)

/-- `is_empty`, trajectory.py:48-49. -/
def Seq.isEmpty (s : Seq K α) : Bool := s.ts.length = 0 ∧ s.vs.length = 0

/-- A trajectory. -/
abbrev Traj (K : Type*) := Seq K (VehicleState K)

/-- `is_connectable`, trajectory.py:38-46. -/
def isConnectable (s o : Traj K) (tol : K) : Except Err Bool :=
  if s.isEmpty ∨ o.isEmpty then .ok true
  else match s.getEnd with
    | .error e => .error e
    | .ok te => match s.at' te with
      | .error e => .error e
      | .ok a => match o.getStart with
        | .error e => .error e
        | .ok ts => match o.at' ts with
          | .error e => .error e
          | .ok b =>
            let diff := a.sub b
            .ok (decide (|diff.vx| < tol) && decide (|diff.delta| < tol))

/-- The concatenation at the end of `merge` (trajectory.py:55-65) and `merge_unsafe`
(trajectory.py:98-107). -/
def mergeTail (s o : Traj K) : Except Err (Traj K) :=
  if s.isEmpty then Seq.mk? (s.ts ++ o.ts) (s.vs ++ o.vs)
  else Seq.mk? (s.ts ++ o.ts.tail) (s.vs ++ o.vs.tail)

/-- `merge`, trajectory.py:51-65; the default tolerance is 1e-3. -/
def merge (s o : Traj K) (tol : K := 1 / 1000) : Except Err (Traj K) :=
  match isConnectable s o tol with
  | .error e => .error e
  | .ok false => .error .assertion
  | .ok true => mergeTail s o

/-- `merge_unsafe`, trajectory.py:92-107. -/
def mergeUnsafe (s o : Traj K) (tol : K := 1 / 1000) : Except Err (Traj K) :=
  if s.isEmpty then mergeTail s o
  else match s.ts.getLast?, o.ts with
    | some te, t0 :: _ => if |te - t0| ≤ tol then mergeTail s o else .error .assertion
    | _, _ => .error .index

/-! ## Commands plan -/

/-- The loop of `commands_plan_from_trajectory`, trajectory.py:155-157. `unpack` is what
Python does for `for t0, _, dt, v0, v1 in ...` with the yielded object. -/
def planLoop (unpack : IterateDT K (VehicleState K) →
      Except Err (K × K × K × VehicleState K × VehicleState K)) :
    List (IterateDT K (VehicleState K)) → Except Err (List (K × VehicleCommands K))
  | [] => .ok []
  | it :: rest => match unpack it with
    | .error e => .error e
    | .ok (t0, _, dt, v0, v1) =>
      if dt = 0 then .error .zeroDiv
      else match planLoop unpack rest with
        | .error e => .error e
        | .ok out =>
          .ok ((t0, { acc := (v1.vx - v0.vx) / dt, ddelta := (v1.delta - v0.delta) / dt }) :: out)

/-- `commands_plan_from_trajectory` for a given unpacking, trajectory.py:152-158. -/
def commandsPlanWith (unpack : IterateDT K (VehicleState K) →
      Except Err (K × K × K × VehicleState K × VehicleState K)) (s : Traj K) :
    Except Err (Seq K (VehicleCommands K)) :=
  match iterateWithDt s.ts s.vs with
  | .error e => .error e
  | .ok items => match planLoop unpack items with
    | .error e => .error e
    | .ok out => Seq.mk? (out.map Prod.fst) (out.map Prod.snd)

/-- Unpacking an `IterateDT` (sequence.py:181-187): a plain dataclass is not iterable, so
Python raises `TypeError`. -/
def unpackCode (_ : IterateDT K (VehicleState K)) :
    Except Err (K × K × K × VehicleState K × VehicleState K) := .error .type

/-- Unpacking as the loop header intends it: the fields in order. Not what Python does. -/
def unpackFields (it : IterateDT K (VehicleState K)) :
    Except Err (K × K × K × VehicleState K × VehicleState K) :=
  .ok (it.t0, it.t1, it.dt, it.v0, it.v1)

/-- `commands_plan_from_trajectory`, trajectory.py:152-158. -/
def commandsPlan (s : Traj K) : Except Err (Seq K (VehicleCommands K)) :=
  commandsPlanWith unpackCode s

end
end Verif
