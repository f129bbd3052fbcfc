import Verif.Basic
import Mathlib.Logic.Function.Iterate
import Mathlib.Algebra.Order.Group.Unbundled.Basic

/-!
# Timing decorator (src/dg_commons/time.py) and C71

A Python call is modelled as a function from the world to an outcome (value or exception) and a new
world. The world has a part the program can observe and two parts that only the decorator uses: the
readings of `process_time` still to come and the log.
-/

namespace Verif
namespace TimeFn

/-- One line in the log of the decorator (time.py:19): qualified name, module and elapsed time. The text
of the message is represented by its three arguments. -/
structure LogLine (T : Type) where
  qualname : String
  module : String
  delta : T
deriving DecidableEq, Repr

/-- The world. `clock n` is the value the `n`-th call of `process_time` returns. -/
structure World (ω T : Type) where
  user : ω
  clock : Nat → T
  reads : Nat
  log : List (LogLine T)

/-- An exception: its class and an arbitrary payload. -/
structure Exn where
  cls : String
  msg : String
deriving DecidableEq, Repr

/-- A call with its arguments fixed. -/
abbrev Call (ω T α : Type) := World ω T → Except Exn α × World ω T

/-- A callable object: its body for all arguments, and the attributes `__qualname__` and `__module__`,
which functions and methods have but, e.g., `functools.partial` objects do not (`__qualname__`). -/
structure Callable (ω T A α : Type) where
  body : A → Call ω T α
  qualname : Option String
  module : Option String

variable {ω T A α : Type}

/-- `process_time()` (time.py:12, 16). -/
def processTime (w : World ω T) : T × World ω T := (w.clock w.reads, { w with reads := w.reads + 1 })

/-- The `finally` block (time.py:16-18): reads the clock, builds the message, which needs both names,
and logs it. Returns the exception it raises, if any. -/
def finallyBlock [Sub T] (f : Callable ω T A α) (start : T) (w : World ω T) :
    Option Exn × World ω T :=
  let (now, w) := processTime w
  match f.qualname, f.module with
  | some q, some m => (none, { w with log := w.log ++ [⟨q, m, now - start⟩] })
  | none, _ => (some ⟨"AttributeError", "__qualname__"⟩, w)
  | some _, none => (some ⟨"AttributeError", "__module__"⟩, w)

/-- `time_function(func)` (time.py:8-21). The exception of a `finally` block replaces the outcome of the
`try` block; otherwise that outcome is kept. `functools.wraps` copies the names if they are present. -/
def timeFunction [Sub T] (f : Callable ω T A α) : Callable ω T A α where
  body := fun args w =>
    let (start, w) := processTime w
    let (out, w) := f.body args w
    match finallyBlock f start w with
    | (none, w) => (out, w)
    | (some e, w) => (.error e, w)
  qualname := f.qualname
  module := f.module

/-- Specification: the function does not look at the log or at the process clock. -/
def Callable.Blind (f : Callable ω T A α) : Prop :=
  ∀ args w w', w.user = w'.user →
    (f.body args w).1 = (f.body args w').1 ∧ (f.body args w).2.user = (f.body args w').2.user

/-- Specification: two callables cannot be told apart by outcome and effect. -/
def Same (f g : Callable ω T A α) : Prop :=
  ∀ args w, (f.body args w).1 = (g.body args w).1 ∧ (f.body args w).2.user = (g.body args w).2.user

/-- Specification: the function has both names. -/
def Callable.Named (f : Callable ω T A α) : Prop := ∃ q m, f.qualname = some q ∧ f.module = some m

theorem timeFunction_body [Sub T] (f : Callable ω T A α) (q m : String) (hq : f.qualname = some q)
    (hm : f.module = some m) (args : A) (w : World ω T) :
    (timeFunction f).body args w =
      let r := f.body args { w with reads := w.reads + 1 }
      (r.1, { r.2 with
        reads := r.2.reads + 1
        log := r.2.log ++ [⟨q, m, r.2.clock r.2.reads - w.clock w.reads⟩] }) := by
  simp only [timeFunction, processTime, finallyBlock, hq, hm]

/-- **C71.** The decorated function returns the same value or raises the same exception, with the same
effect on the rest of the program, for all arguments and worlds. -/
theorem C71_transparent [Sub T] (f : Callable ω T A α) (hn : f.Named) (hb : f.Blind) :
    Same (timeFunction f) f := by
  obtain ⟨q, m, hq, hm⟩ := hn
  intro args w
  rw [timeFunction_body f q m hq hm]
  exact hb args _ _ rfl

/-- **C71.** Decorating any number of times is transparent as well. -/
theorem C71_repeated [Sub T] (f : Callable ω T A α) (hn : f.Named) (hb : f.Blind) (n : Nat) :
    (timeFunction^[n] f).Named ∧ (timeFunction^[n] f).Blind ∧ Same (timeFunction^[n] f) f := by
  induction n with
  | zero => exact ⟨hn, hb, fun _ _ => ⟨rfl, rfl⟩⟩
  | succ n ih =>
    obtain ⟨h1, h2, h3⟩ := ih
    rw [Function.iterate_succ_apply']
    have hs := C71_transparent _ h1 h2
    refine ⟨h1, ?_, ?_⟩
    · intro args w w' hw
      have a := hs args w
      have b := hs args w'
      have c := h2 args w w' hw
      exact ⟨a.1.trans (c.1.trans b.1.symm), a.2.trans (c.2.trans b.2.symm)⟩
    · intro args w
      exact ⟨(hs args w).1.trans (h3 args w).1, (hs args w).2.trans (h3 args w).2⟩

/-- **C71.** Each call logs exactly one line after those of the function itself, also when the function
raises, and the time logged is the difference of the two readings of the clock, so it is not negative
when the clock does not run backwards. -/
theorem C71_log [AddGroup T] [LE T] [AddRightMono T] (f : Callable ω T A α) (q m : String)
    (hq : f.qualname = some q) (hm : f.module = some m)
    (hreads : ∀ args w, w.reads ≤ (f.body args w).2.reads ∧ (f.body args w).2.clock = w.clock)
    (args : A) (w : World ω T) (hmono : ∀ i j, i ≤ j → w.clock i ≤ w.clock j) :
    ∃ d, 0 ≤ d ∧ ((timeFunction f).body args w).2.log =
      (f.body args { w with reads := w.reads + 1 }).2.log ++ [⟨q, m, d⟩] := by
  rw [timeFunction_body f q m hq hm]
  refine ⟨_, ?_, rfl⟩
  obtain ⟨h1, h2⟩ := hreads args { w with reads := w.reads + 1 }
  rw [h2, sub_nonneg]
  exact hmono _ _ (le_trans (Nat.le_succ _) h1)

/-- A function that increments a counter and raises at even arguments. -/
def sample : Callable Nat Int Nat Nat where
  body := fun n w =>
    (if n % 2 = 0 then .error ⟨"ValueError", "even"⟩ else .ok (n + w.user),
      { w with user := w.user + 1 })
  qualname := some "sample"
  module := some "m"

example : sample.Named ∧ sample.Blind := by
  refine ⟨⟨_, _, rfl, rfl⟩, fun args w w' h => ?_⟩
  simp [sample, h]

example : ((timeFunction sample).body 2 ⟨0, fun n => 5 * n, 0, []⟩).2.log = [⟨"sample", "m", 5⟩] := by
  decide +kernel

/-- **C71 fails for callables that are not functions**: without `__qualname__` (e.g. a
`functools.partial` object, which the annotation `Callable` admits) the decorated callable always raises
`AttributeError`, even though the original returns a value, and its effects have happened. -/
theorem C71_false_unnamed [Sub T] (f : Callable ω T A α) (h : f.qualname = none) (args : A)
    (w : World ω T) :
    ((timeFunction f).body args w).1 = .error ⟨"AttributeError", "__qualname__"⟩ ∧
    ((timeFunction f).body args w).2.user = (f.body args { w with reads := w.reads + 1 }).2.user := by
  simp [timeFunction, processTime, finallyBlock, h]

example : ({ sample with qualname := none } : Callable Nat Int Nat Nat).qualname = none ∧
    (({ sample with qualname := none } : Callable Nat Int Nat Nat).body 1 ⟨0, fun _ => 0, 0, []⟩).1
      = .ok 1 := ⟨rfl, rfl⟩

end TimeFn
end Verif
