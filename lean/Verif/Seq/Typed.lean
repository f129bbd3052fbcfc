import Verif.Plan.TrajModel
import Verif.Seq.OpModel
import Verif.Seq.BuilderProps
import Verif.Seq.OpProps

/-!
# Type arguments and classes of sequences (sequence.py:28-69, 145-172, 190-230, seq_op.py, trajectory.py:17-22): model and C131

`DgSampledSequence[float](...)` records the alias in `__orig_class__` after the construction, `DgSampledSequence(...)` does
not. The property `XT` reads the type argument from there; `iterate_with_dt` and `seq_accumulate` need it.
-/

namespace Verif
namespace Typed

open Seq

/-- What can be between the brackets: a type, or the type variable `X` itself (sequence.py:19, 164, 172). -/
inductive Arg (Ty : Type)
  | type (t : Ty)
  | var
  deriving DecidableEq, Repr

/-- The class of the object: `DgSampledSequence` with the recorded alias, if any, or `Trajectory`, trajectory.py:17. -/
inductive Cls (Ty : Type)
  | sequence (orig : Option (Arg Ty))
  | trajectory
  deriving DecidableEq, Repr

/-- A sequence object. -/
structure Obj (Ty K α : Type) where
  cls : Cls Ty
  seq : Seq K α
  deriving DecidableEq, Repr

/-- The types that the code names: `float` (seq_op.py), `object` (the default of `YT`, sequence.py:145) and `VehicleState`
(trajectory.py:22, 36). -/
structure Names (Ty : Type) where
  float : Ty
  object : Ty
  state : Ty

section
variable {Ty K α β : Type} (N : Names Ty)

/-- `XT`, sequence.py:66-68 and trajectory.py:20-22. -/
def Obj.xt (o : Obj Ty K α) : Except Err (Arg Ty) :=
  match o.cls with
  | .trajectory => .ok (.type N.state)
  | .sequence none => .error .attribute
  | .sequence (some a) => .ok a

/-- `a == b` of the dataclass, sequence.py:28: `NotImplemented`, hence `False`, for objects of different classes. The fields are
the two tuples (sequence.py:43-44); the alias is no field. -/
def Obj.eq [DecidableEq K] [DecidableEq α] (a b : Obj Ty K α) : Bool :=
  match a.cls, b.cls with
  | .sequence _, .sequence _ => decide (a.seq.ts = b.seq.ts) && decide (a.seq.vs = b.seq.vs)
  | .trajectory, .trajectory => decide (a.seq.ts = b.seq.ts) && decide (a.seq.vs = b.seq.vs)
  | _, _ => false

/-- Wrap the sequence that a function constructs. -/
def wrap (c : Cls Ty) (r : Except Err (Seq K α)) : Except Err (Obj Ty K α) :=
  match r with
  | .error e => .error e
  | .ok s => .ok ⟨c, s⟩

section
variable [LinearOrder K]

/-- `transform_values`, sequence.py:145-153; `yt` is `None` if the caller leaves the default. -/
def transformValues (o : Obj Ty K α) (f : α → Option β) (yt : Option Ty) : Except Err (Obj Ty K β) :=
  wrap (.sequence (some (.type (yt.getD N.object)))) (o.seq.transformValues f)

/-- `get_subsequence`, sequence.py:155-164: the alias is `DgSampledSequence[X]` with the type variable. -/
def getSubsequence (o : Obj Ty K α) (a b : K) : Except Err (Obj Ty K α) :=
  wrap (.sequence (some .var)) (o.seq.getSubsequence a b)
end

section
variable [Field K] [LinearOrder K]

/-- `shift_timestamps`, sequence.py:166-172. -/
def shiftTimestamps (o : Obj Ty K α) (dt : K) : Except Err (Obj Ty K α) :=
  wrap (.sequence (some .var)) (o.seq.shiftTimestamps dt)

/-- `iterate_with_dt`, sequence.py:190-202: the type is read for each pair, so not at all if there is none. -/
def iterateWithDt (o : Obj Ty K α) : Except Err (List (IterateDT K α)) :=
  match o.seq.ts, o.xt N with
  | _ :: _ :: _, .error e => .error e
  | _, _ => Verif.iterateWithDt o.seq.ts o.seq.vs

/-- `seq_integrate`, seq_op.py:14-31: a single sample is handed back as it is. -/
def seqIntegrate [AddCommGroup α] [Module K α] (o : Obj Ty K α) : Except Err (Obj Ty K α) :=
  if o.seq.ts.length = 0 then .error .value
  else if o.seq.vs.length = 1 then .ok o
  else match iterateWithDt N o with
    | .error e => .error e
    | .ok _ => wrap (.sequence (some (.type N.float))) (Verif.seqIntegrate o.seq)

/-- `seq_differentiate`, seq_op.py:34-45. -/
def seqDifferentiate (o : Obj Ty K K) : Except Err (Obj Ty K K) :=
  if o.seq.ts.length = 0 then .error .value
  else match iterateWithDt N o with
    | .error e => .error e
    | .ok _ => wrap (.sequence (some (.type N.float))) (Verif.seqDifferentiate o.seq)

/-- `seq_accumulate`, seq_op.py:48-50. -/
def seqAccumulate [Add α] (o : Obj Ty K α) : Except Err (Obj Ty K α) :=
  match o.xt N with
  | .error e => .error e
  | .ok a => wrap (.sequence (some a)) (Verif.seqAccumulate o.seq)

/-- `Trajectory.upsample`, trajectory.py:109-131, which only trajectories have. -/
def upsample (o : Obj Ty K (VehicleState K)) [AddCommGroup (VehicleState K)] [Module K (VehicleState K)] (n : Nat) :
    Except Err (Obj Ty K (VehicleState K)) :=
  match o.cls with
  | .sequence _ => .error .attribute
  | .trajectory => wrap .trajectory (Verif.upsample o.seq n)

/-- `Trajectory.merge`, trajectory.py:51-65. `other.is_empty()` is called unless the trajectory itself is empty. -/
def merge (o p : Obj Ty K (VehicleState K)) : Except Err (Obj Ty K (VehicleState K)) :=
  match o.cls, p.cls with
  | .sequence _, _ => .error .attribute
  | .trajectory, .trajectory => wrap .trajectory (Verif.merge o.seq p.seq)
  | .trajectory, .sequence _ => if o.seq.isEmpty then wrap .trajectory (Verif.merge o.seq p.seq) else .error .attribute

/-- `Trajectory.merge_unsafe`, trajectory.py:92-107: the other sequence need not be a trajectory. -/
def mergeUnsafe (o p : Obj Ty K (VehicleState K)) : Except Err (Obj Ty K (VehicleState K)) :=
  match o.cls with
  | .sequence _ => .error .attribute
  | .trajectory => wrap .trajectory (Verif.mergeUnsafe o.seq p.seq)

end

/-- The classes that a builder can be told to construct, `sampled_sequence_type`, sequence.py:212. -/
inductive Target
  | sequence
  | trajectory
  deriving DecidableEq, Repr

/-- A builder object with its recorded alias, sequence.py:208-212. -/
structure BObj (Ty K α : Type) where
  orig : Option (Arg Ty)
  target : Target := .sequence
  builder : Builder K α := {}

/-- `as_sequence`, sequence.py:225-230: the type is read first (`AttributeError` if the builder has none); then the class is
subscripted, which Python refuses with `TypeError` for `Trajectory`, whose base has no type variable left. -/
def BObj.asSequence [LinearOrder K] (b : BObj Ty K α) : Except Err (Obj Ty K α) :=
  match b.orig, b.target with
  | none, _ => .error .attribute
  | some _, .trajectory => .error .type
  | some a, .sequence => wrap (.sequence (some a)) b.builder.asSequence

/-! ## Specification -/

variable [Field K] [LinearOrder K]

/-- Specification: sequences as programs get them: constructed with a type argument or as trajectories, or from such sequences
by the operations of the library, in any order and number. -/
inductive Made : {α : Type} → Obj Ty K α → Prop
  | construct {α : Type} (t : Ty) (ts : List K) (vs : List α) (s : Seq K α) (h : Seq.mk? ts vs = .ok s) :
      Made ⟨.sequence (some (.type t)), s⟩
  | trajectory (ts : List K) (vs : List (VehicleState K)) (s : Seq K (VehicleState K)) (h : Seq.mk? ts vs = .ok s) :
      Made ⟨.trajectory, s⟩
  | build {α : Type} (a : Arg Ty) (tgt : Target) (adds : List (K × α)) (o : Obj Ty K α)
      (h : BObj.asSequence ⟨some a, tgt, adds.foldl Builder.addCatch {}⟩ = .ok o) : Made o
  | transform {α β : Type} (o : Obj Ty K α) (f : α → Option β) (yt : Option Ty) (r : Obj Ty K β)
      (ho : Made o) (h : transformValues N o f yt = .ok r) : Made r
  | cut {α : Type} (o : Obj Ty K α) (a b : K) (r : Obj Ty K α) (ho : Made o) (h : getSubsequence o a b = .ok r) : Made r
  | shift {α : Type} (o : Obj Ty K α) (dt : K) (r : Obj Ty K α) (ho : Made o) (h : shiftTimestamps o dt = .ok r) : Made r
  | integrate {α : Type} [AddCommGroup α] [Module K α] (o r : Obj Ty K α) (ho : Made o) (h : seqIntegrate N o = .ok r) : Made r
  | differentiate (o r : Obj Ty K K) (ho : Made o) (h : seqDifferentiate N o = .ok r) : Made r
  | accumulate {α : Type} [Add α] (o r : Obj Ty K α) (ho : Made o) (h : seqAccumulate N o = .ok r) : Made r
  | upsample [AddCommGroup (VehicleState K)] [Module K (VehicleState K)] (o : Obj Ty K (VehicleState K)) (n : Nat)
      (r : Obj Ty K (VehicleState K)) (ho : Made o) (h : upsample o n = .ok r) : Made r
  | merge (o p r : Obj Ty K (VehicleState K)) (ho : Made o) (hp : Made p) (h : merge o p = .ok r) : Made r
  | mergeUnsafe (o p r : Obj Ty K (VehicleState K)) (ho : Made o) (hp : Made p) (h : mergeUnsafe o p = .ok r) : Made r

variable {N}

theorem wrap_ok {c : Cls Ty} {r : Except Err (Seq K α)} {o : Obj Ty K α} (h : wrap c r = .ok o) :
    ∃ s, r = .ok s ∧ o = ⟨c, s⟩ := by
  unfold wrap at h
  cases r with
  | error e => simp at h
  | ok s => injection h with h; exact ⟨s, rfl, h.symm⟩

theorem wrap_valid {c : Cls Ty} {ts : List K} {vs : List α} {o : Obj Ty K α} (h : wrap c (Seq.mk? ts vs) = .ok o) :
    o.seq.Valid ∧ o.cls = c := by
  obtain ⟨s, h1, h2⟩ := wrap_ok h
  obtain ⟨a, b, e⟩ := (Seq.mk?_ok_iff ts vs s).mp h1
  subst h2 e
  exact ⟨⟨a, b⟩, rfl⟩

theorem mergeTail_valid {c : Cls Ty} {s p : Traj K} {o : Obj Ty K (VehicleState K)} (h : wrap c (mergeTail s p) = .ok o) :
    o.seq.Valid ∧ o.cls = c := by
  unfold mergeTail at h
  split at h <;> exact wrap_valid h

theorem merge_valid {c : Cls Ty} {s p : Traj K} {o : Obj Ty K (VehicleState K)} (h : wrap c (Verif.merge s p) = .ok o) :
    o.seq.Valid ∧ o.cls = c := by
  unfold Verif.merge at h
  split at h
  · simp [wrap] at h
  · simp [wrap] at h
  · exact mergeTail_valid h

theorem mergeUnsafe_valid {c : Cls Ty} {s p : Traj K} {o : Obj Ty K (VehicleState K)}
    (h : wrap c (Verif.mergeUnsafe s p) = .ok o) : o.seq.Valid ∧ o.cls = c := by
  unfold Verif.mergeUnsafe at h
  split at h
  · exact mergeTail_valid h
  · split at h
    · split at h
      · exact mergeTail_valid h
      · simp [wrap] at h
    · simp [wrap] at h

theorem upsample_valid [AddCommGroup α] [Module K α] {c : Cls Ty} {s : Seq K α} {n : Nat} {o : Obj Ty K α}
    (h : wrap c (Verif.upsample s n) = .ok o) : o.seq.Valid ∧ o.cls = c := by
  unfold Verif.upsample at h
  split at h
  · simp [wrap] at h
  · split at h
    · simp [wrap] at h
    · split at h
      · simp [wrap] at h
      · exact wrap_valid h

theorem iterate_ok [IsStrictOrderedRing K] (o : Obj Ty K α) (hv : o.seq.Valid) (a : Arg Ty) (ha : o.xt N = .ok a) :
    ∃ l, iterateWithDt N o = .ok l := by
  obtain ⟨l, hl, -⟩ := C08_items o.seq hv
  refine ⟨l, ?_⟩
  unfold iterateWithDt
  rw [ha]
  split
  · simp_all
  · exact hl

/-- **C131.** Whatever a program does with the operations of the library, starting from sequences that were constructed with a
type argument and from trajectories: all its sequences are valid, have an `XT`, and can be iterated with time differences. -/
theorem C131_made [IsStrictOrderedRing K] {α : Type} (o : Obj Ty K α) (h : Made N o) :
    o.seq.Valid ∧ (∃ a, o.xt N = .ok a) ∧ ∃ l, iterateWithDt N o = .ok l := by
  have hc : ∀ {γ : Type} (o : Obj Ty K γ) (a : Arg Ty), o.cls = .sequence (some a) → ∃ a, o.xt N = .ok a :=
    fun o a h => ⟨a, by unfold Obj.xt; rw [h]⟩
  have ht : ∀ {γ : Type} (o : Obj Ty K γ), o.cls = .trajectory → ∃ a, o.xt N = .ok a :=
    fun o h => ⟨.type N.state, by unfold Obj.xt; rw [h]⟩
  have key : o.seq.Valid ∧ ∃ a, o.xt N = .ok a := by
    induction h with
    | construct t ts vs s h =>
      obtain ⟨a, b, e⟩ := (Seq.mk?_ok_iff ts vs s).mp h
      subst e
      exact ⟨⟨a, b⟩, hc _ _ rfl⟩
    | trajectory ts vs s h =>
      obtain ⟨a, b, e⟩ := (Seq.mk?_ok_iff ts vs s).mp h
      subst e
      exact ⟨⟨a, b⟩, ht _ rfl⟩
    | build a tgt adds o h =>
      cases tgt with
      | trajectory => simp [BObj.asSequence] at h
      | sequence =>
        obtain ⟨h1, h2⟩ := wrap_valid (show wrap (.sequence (some a)) (Seq.mk? _ _) = _ from h)
        exact ⟨h1, hc _ _ h2⟩
    | transform o f yt r ho h ih =>
      obtain ⟨h1, h2⟩ := wrap_valid (show wrap _ (Seq.mk? _ _) = _ from h)
      exact ⟨h1, hc _ _ h2⟩
    | cut o a b r ho h ih =>
      unfold getSubsequence Seq.getSubsequence at h
      split at h
      · obtain ⟨h1, h2⟩ := wrap_valid h
        exact ⟨h1, hc _ _ h2⟩
      · simp [wrap] at h
    | shift o dt r ho h ih =>
      obtain ⟨h1, h2⟩ := wrap_valid (show wrap _ (Seq.mk? _ _) = _ from h)
      exact ⟨h1, hc _ _ h2⟩
    | integrate o r ho h ih =>
      unfold seqIntegrate at h
      split at h
      · simp at h
      · split at h
        · injection h with h
          subst h
          exact ih
        · split at h
          · simp at h
          · unfold Verif.seqIntegrate at h
            split at h
            · simp [wrap] at h
            · split at h
              · simp [wrap] at h
              · obtain ⟨h1, h2⟩ := wrap_valid (show wrap _ (Seq.mk? _ _) = _ from h)
                exact ⟨h1, hc _ _ h2⟩
    | differentiate o r ho h ih =>
      unfold seqDifferentiate at h
      split at h
      · simp at h
      · split at h
        · simp at h
        · unfold Verif.seqDifferentiate at h
          split at h
          · simp [wrap] at h
          · split at h
            · simp [wrap] at h
            · split at h
              · simp [wrap] at h
              · obtain ⟨h1, h2⟩ := wrap_valid h
                exact ⟨h1, hc _ _ h2⟩
    | accumulate o r ho h ih =>
      unfold seqAccumulate at h
      split at h
      · simp at h
      · obtain ⟨h1, h2⟩ := wrap_valid (show wrap _ (Seq.mk? _ _) = _ from h)
        exact ⟨h1, hc _ _ h2⟩
    | upsample o n r ho h ih =>
      unfold upsample at h
      split at h
      · simp at h
      · obtain ⟨h1, h2⟩ := upsample_valid h
        exact ⟨h1, ht _ h2⟩
    | merge o p r ho hp h iho ihp =>
      unfold merge at h
      split at h
      · simp at h
      · obtain ⟨h1, h2⟩ := merge_valid h
        exact ⟨h1, ht _ h2⟩
      · split at h
        · obtain ⟨h1, h2⟩ := merge_valid h
          exact ⟨h1, ht _ h2⟩
        · simp at h
    | mergeUnsafe o p r ho hp h iho ihp =>
      unfold mergeUnsafe at h
      split at h
      · simp at h
      · obtain ⟨h1, h2⟩ := mergeUnsafe_valid h
        exact ⟨h1, ht _ h2⟩
  obtain ⟨hv, a, ha⟩ := key
  exact ⟨hv, ⟨a, ha⟩, iterate_ok o hv a ha⟩

/-- C131: the iteration with time differences raises exactly for sequences that were constructed without a type argument and
have at least two samples, and then an `AttributeError`. -/
theorem C131_iterate [IsStrictOrderedRing K] (o : Obj Ty K α) (hv : o.seq.Valid) :
    ((∃ l, iterateWithDt N o = .ok l) ↔ (o.cls ≠ .sequence none ∨ o.seq.ts.length < 2)) ∧
      (∀ e, iterateWithDt N o = .error e → e = .attribute) := by
  obtain ⟨l, hl, -⟩ := C08_items o.seq hv
  obtain ⟨c, ⟨ts, vs⟩⟩ := o
  rcases c with (_ | a) | _
  · rcases ts with _ | ⟨t0, _ | ⟨t1, ts⟩⟩
    · simp_all [iterateWithDt]
    · simp_all [iterateWithDt]
    · simp [iterateWithDt, Obj.xt]
  · rcases ts with _ | ⟨t0, _ | ⟨t1, ts⟩⟩ <;> simp_all [iterateWithDt, Obj.xt]
  · rcases ts with _ | ⟨t0, _ | ⟨t1, ts⟩⟩ <;> simp_all [iterateWithDt, Obj.xt]

/-- C131: a builder with a type argument that builds plain sequences succeeds, whatever was added, and its sequence has the
type of the builder. -/
theorem C131_builder (a : Arg Ty) (adds : List (K × α)) :
    ∃ o : Obj Ty K α, BObj.asSequence ⟨some a, .sequence, adds.foldl Builder.addCatch {}⟩ = .ok o ∧ o.xt N = .ok a := by
  obtain ⟨s, hs, -⟩ := C07_history adds
  refine ⟨⟨.sequence (some a), s⟩, ?_, rfl⟩
  simp only [BObj.asSequence, wrap, hs]

/-- C131: `==` is an equivalence relation. It compares the samples and whether the objects are trajectories, and nothing
else; in particular not the type arguments. -/
theorem C131_equal [DecidableEq α] (o p : Obj Ty K α) :
    (o.eq p = true ↔ (o.cls = .trajectory ↔ p.cls = .trajectory) ∧ o.seq.ts = p.seq.ts ∧ o.seq.vs = p.seq.vs) := by
  obtain ⟨c, s⟩ := o
  obtain ⟨d, q⟩ := p
  rcases c with a | _ <;> rcases d with b | _ <;> simp [Obj.eq]

/-- C131: transforming values gives a sequence of the type that is asked for, by default `object`. -/
theorem C131_transform (o : Obj Ty K α) (f : α → Option β) (yt : Option Ty) (r : Obj Ty K β)
    (h : transformValues N o f yt = .ok r) :
    (∀ t, yt = some t → r.xt N = .ok (.type t)) ∧ (yt = none → r.xt N = .ok (.type N.object)) := by
  obtain ⟨s, -, rfl⟩ := wrap_ok h
  constructor
  · rintro t rfl; rfl
  · rintro rfl; rfl

/-- C131, the part that holds for trajectories: the methods of their own class keep the class. -/
theorem C131_trajectory_partial [AddCommGroup (VehicleState K)] [Module K (VehicleState K)]
    (o p r : Obj Ty K (VehicleState K)) (n : Nat)
    (h : merge o p = .ok r ∨ mergeUnsafe o p = .ok r ∨ upsample o n = .ok r) :
    o.cls = .trajectory ∧ r.cls = .trajectory := by
  rcases h with h | h | h
  · unfold merge at h
    split at h
    · simp at h
    · exact ⟨by assumption, (merge_valid h).2⟩
    · split at h
      · exact ⟨by assumption, (merge_valid h).2⟩
      · simp at h
  · unfold mergeUnsafe at h
    split at h
    · simp at h
    · exact ⟨by assumption, (mergeUnsafe_valid h).2⟩
  · unfold upsample at h
    split at h
    · simp at h
    · exact ⟨by assumption, (upsample_valid h).2⟩

/-- C131 does not hold of the type: cutting and shifting a sequence of a type leave the type variable in its place, whatever
the samples are. -/
theorem C131_false_type (o r : Obj Ty K α) (t : Ty) (a b d : K) (_ho : o.xt N = .ok (.type t))
    (h : getSubsequence o a b = .ok r ∨ shiftTimestamps o d = .ok r) : r.xt N ≠ o.xt N := by
  have hr : r.cls = .sequence (some .var) := by
    rcases h with h | h
    · obtain ⟨s, -, e⟩ := wrap_ok h
      rw [e]
    · obtain ⟨s, -, e⟩ := wrap_ok h
      rw [e]
  rw [_ho]
  simp [Obj.xt, hr]

/-- C131 does not hold of trajectories: cutting, shifting and transforming a trajectory never give a trajectory; the
result is not even equal to a trajectory with the same samples, as for a shift by zero. -/
theorem C131_false_trajectory [DecidableEq α] (o r p : Obj Ty K α) (a b d : K) (f : α → Option α) (yt : Option Ty)
    (hp : p.cls = .trajectory)
    (h : getSubsequence o a b = .ok r ∨ shiftTimestamps o d = .ok r ∨ transformValues N o f yt = .ok r) :
    r.eq p = false ∧ p.eq r = false := by
  have hr : ∃ a, r.cls = .sequence a := by
    rcases h with h | h | h
    · obtain ⟨s, -, e⟩ := wrap_ok h
      exact ⟨_, by rw [e]⟩
    · obtain ⟨s, -, e⟩ := wrap_ok h
      exact ⟨_, by rw [e]⟩
    · obtain ⟨s, -, e⟩ := wrap_ok h
      exact ⟨_, by rw [e]⟩
  obtain ⟨a, hr⟩ := hr
  simp [Obj.eq, hr, hp]

/-- C131 does not hold of builders: none that is told to build trajectories can. -/
theorem C131_false_builder (b : BObj Ty K α) (h : b.target = .trajectory) : ∀ o, b.asSequence ≠ .ok o := by
  intro o
  unfold BObj.asSequence
  rw [h]
  cases b.orig <;> simp

/-- C131 does not hold of equal sequences: a sequence of at least two samples that was constructed without a type argument
cannot be iterated, integrated, differentiated or accumulated, but the one shifted by zero, which is equal to it, can. -/
theorem C131_false_untyped [IsStrictOrderedRing K] [DecidableEq K] (s : Seq K K) (hv : s.Valid) (h2 : 2 ≤ s.ts.length) :
    let o : Obj Ty K K := ⟨.sequence none, s⟩
    o.xt N = .error .attribute ∧ iterateWithDt N o = .error .attribute ∧ seqIntegrate N o = .error .attribute ∧
      seqDifferentiate N o = .error .attribute ∧ seqAccumulate N o = .error .attribute ∧
      ∃ r, shiftTimestamps o 0 = .ok r ∧ r.eq o = true ∧ (∃ l, iterateWithDt N r = .ok l) ∧
        (∃ i, seqIntegrate N r = .ok i) ∧ (∃ i, seqDifferentiate N r = .ok i) ∧ ∃ i, seqAccumulate N r = .ok i := by
  intro o
  obtain ⟨ts, vs⟩ := s
  have hx : o.xt N = .error .attribute := rfl
  have hi : iterateWithDt N o = .error .attribute := by
    rcases ts with _ | ⟨t0, _ | ⟨t1, ts⟩⟩
    · simp at h2
    · simp at h2
    · rfl
  have hl : vs.length = ts.length := hv.1.symm
  have hne : o.seq.ts.length ≠ 0 := by show ts.length ≠ 0; simp only at h2; omega
  have hne1 : o.seq.vs.length ≠ 1 := by show vs.length ≠ 1; simp only at h2; omega
  let r : Obj Ty K K := ⟨.sequence (some .var), ⟨ts, vs⟩⟩
  have hr : shiftTimestamps o 0 = .ok r := by
    show wrap _ (Seq.mk? (ts.map (· + 0)) vs) = _
    have : ts.map (· + (0 : K)) = ts := by simp
    rw [this, Seq.mk?_of_valid ts vs hv.1 hv.2]
    rfl
  obtain ⟨l, hli⟩ := iterate_ok (N := N) r hv .var rfl
  obtain ⟨i1, e1, -⟩ := C09_integrate (⟨ts, vs⟩ : Seq K K) hv h2
  obtain ⟨i2, e2, -⟩ := C10_differentiate (⟨ts, vs⟩ : Seq K K) hv (by omega)
  obtain ⟨i3, e3, -⟩ := C11_accumulate (⟨ts, vs⟩ : Seq K K) hv
  refine ⟨hx, hi, ?_, ?_, ?_, r, hr, ?_, ⟨l, hli⟩, ⟨⟨.sequence (some (.type N.float)), i1⟩, ?_⟩,
    ⟨⟨.sequence (some (.type N.float)), i2⟩, ?_⟩, ⟨⟨.sequence (some .var), i3⟩, ?_⟩⟩
  · unfold seqIntegrate
    rw [if_neg hne, if_neg hne1, hi]
  · unfold seqDifferentiate
    rw [if_neg hne, hi]
  · unfold seqAccumulate
    rw [hx]
  · simp [Obj.eq, r, o]
  · unfold seqIntegrate
    rw [if_neg hne, if_neg hne1, hli]
    simp only [r, e1, wrap]
  · unfold seqDifferentiate
    rw [if_neg hne, hli]
    simp only [r, e2, wrap]
  · show wrap _ _ = _
    simp only [r, e3, wrap]

/-! ## Examples -/

/-- Three types for the examples. -/
inductive ExTy
  | float
  | object
  | state
  deriving DecidableEq, Repr

/-- The names of the examples. -/
def exNames : Names ExTy := ⟨.float, .object, .state⟩

/-- A sequence of numbers for the examples. -/
def exObj : Obj ExTy ℚ ℚ := ⟨.sequence (some (.type .float)), ⟨[0, 1, 3], [2, 4, 8]⟩⟩

-- its integral, cut and shifted, is a sequence that programs get (C131_made)
example : Made exNames (⟨.sequence (some .var), ⟨[6], [15]⟩⟩ : Obj ExTy ℚ ℚ) := by
  have h1 : Made exNames exObj :=
    Made.construct (N := exNames) (K := ℚ) ExTy.float [0, 1, 3] [2, 4, 8] exObj.seq (by decide +kernel)
  have h2 : Made exNames (⟨.sequence (some (.type .float)), ⟨[1, 3], [3, 15]⟩⟩ : Obj ExTy ℚ ℚ) :=
    .integrate exObj _ h1 (by decide +kernel)
  have h3 : Made exNames (⟨.sequence (some .var), ⟨[3], [15]⟩⟩ : Obj ExTy ℚ ℚ) := .cut _ 2 9 _ h2 (by decide +kernel)
  exact .shift _ 3 _ h3 (by decide +kernel)

-- the hypotheses of C131_iterate and C131_false_untyped; C131_false_type for a cut of everything
example : ∃ r, transformValues exNames exObj (fun v => some (v + 1)) none = .ok r ∧ r.xt exNames = .ok (.type exNames.object) :=
  ⟨_, rfl, rfl⟩

example : exObj.seq.Valid ∧ 2 ≤ exObj.seq.ts.length := by
  refine ⟨⟨rfl, by simp [exObj]⟩, by simp [exObj]⟩

example : ∃ r, getSubsequence exObj 0 3 = .ok r ∧ r.eq exObj = true ∧ r.xt exNames = .ok .var ∧
    exObj.xt exNames = .ok (.type .float) := ⟨⟨.sequence (some .var), exObj.seq⟩, by decide +kernel⟩

-- a trajectory of numbers shifted by zero (C131_false_trajectory)
example : ∃ r, shiftTimestamps (⟨.trajectory, exObj.seq⟩ : Obj ExTy ℚ ℚ) 0 = .ok r ∧ r.seq = exObj.seq ∧
    r.eq ⟨.trajectory, exObj.seq⟩ = false := ⟨⟨.sequence (some .var), exObj.seq⟩, by decide +kernel⟩

-- a trajectory is merged with itself shifted unsafely, but with it as a plain sequence `merge` raises (C131_trajectory_partial)
example :
    let a : VehicleState ℚ := ⟨0, 0, 0, 1, 0⟩
    let o : Obj ExTy ℚ (VehicleState ℚ) := ⟨.trajectory, ⟨[0, 1], [a, a]⟩⟩
    let p : Obj ExTy ℚ (VehicleState ℚ) := ⟨.sequence (some .var), ⟨[1, 2], [a, a]⟩⟩
    mergeUnsafe o p = .ok ⟨.trajectory, ⟨[0, 1, 2], [a, a, a]⟩⟩ ∧ merge o p = .error .attribute ∧
      merge o { p with cls := .trajectory } = .ok ⟨.trajectory, ⟨[0, 1, 2], [a, a, a]⟩⟩ := by decide +kernel

-- builders with and without type, and one for trajectories (C131_builder, C131_false_builder)
example : BObj.asSequence (⟨some (.type .float), .sequence, ⟨[1, 2], [5, 6]⟩⟩ : BObj ExTy ℚ ℚ) =
      .ok ⟨.sequence (some (.type .float)), ⟨[1, 2], [5, 6]⟩⟩ ∧
    BObj.asSequence (⟨none, .sequence, ⟨[1, 2], [5, 6]⟩⟩ : BObj ExTy ℚ ℚ) = .error .attribute ∧
    BObj.asSequence (⟨some (.type .state), .trajectory, ⟨[1, 2], [5, 6]⟩⟩ : BObj ExTy ℚ ℚ) = .error .type := by
  decide +kernel

end
end Typed
end Verif
