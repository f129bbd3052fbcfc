import Verif.Sim.Model

/-!
# Reading the log (src/dg_commons/sim/simulator_structures.py:68-145)

A `SimLog` is a dictionary from player names to `PlayerLog`s.
-/

namespace Verif
namespace Sim

variable {N K : Type} [DecidableEq N] [Field K] [LinearOrder K] {Wd : World N K}

/-- `LogEntry`, simulator_structures.py:68-79; `none` is `None`. -/
structure LogEntry (Wd : World N K) where
  state : Wd.X
  commands : Wd.C
  extra : Option Wd.E
  info : Wd.I

/-- The `try` block of `PlayerLog.at_interp`, simulator_structures.py:93-96: only `UndefinedAtTime`
and `ZValueError` are caught. -/
def extraAt (s : Seq K Wd.E) (t : K) : Except Err (Option Wd.E) :=
  match s.atOrPrevious t with
  | .ok e => .ok (some e)
  | .error .undefinedAtTime => .ok none
  | .error .zValue => .ok none
  | .error e => .error e

/-- `PlayerLog.at_interp`, simulator_structures.py:91-103. -/
def PlayerLog.atInterp [AddCommGroup Wd.X] [Module K Wd.X] (l : PlayerLog Wd) (t : K) :
    Except Err (LogEntry Wd) := do
  let extra ← extraAt l.extra t
  let state ← l.states.atInterp t
  let commands ← l.commands.atOrPrevious t
  let info ← l.info.atOrPrevious t
  return ⟨state, commands, extra, info⟩

/-- `SimLog.at_interp`, simulator_structures.py:135-139 (iteration over the keys of a dictionary;
the entries come out in the same order). -/
def SimLog.atInterp [AddCommGroup Wd.X] [Module K Wd.X] : Dict N (PlayerLog Wd) → K →
    Except Err (Dict N (LogEntry Wd))
  | [], _ => .ok []
  | (n, l) :: rest, t => do
    let e ← l.atInterp t
    let es ← SimLog.atInterp rest t
    return (n, e) :: es

/-- The value assigned to a key of a `SimLog`: a player log or something else. -/
inductive LogValue (Wd : World N K) where
  | log (l : PlayerLog Wd)
  | other

/-- `SimLog.__setitem__`, simulator_structures.py:130-133: the dictionary after the call and the
outcome. -/
def SimLog.setItem (d : Dict N (PlayerLog Wd)) (k : N) : LogValue Wd →
    Dict N (PlayerLog Wd) × Except Err Unit
  | .log l => (Dict.set d k l, .ok ())
  | .other => (d, .error .zValue)

/-- The list comprehensions of `get_init_time` and `get_last_time`. -/
def collect (f : PlayerLog Wd → Except Err K) : Dict N (PlayerLog Wd) → Except Err (List K)
  | [] => .ok []
  | (_, l) :: rest => do
    let t ← f l
    let ts ← collect f rest
    return t :: ts

/-- Python's `min` of a list. -/
def pyMin : List K → Except Err K
  | [] => .error .value
  | a :: l => .ok (l.foldl (fun m x => if x < m then x else m) a)

/-- Python's `max` of a list. -/
def pyMax : List K → Except Err K
  | [] => .error .value
  | a :: l => .ok (l.foldl (fun m x => if m < x then x else m) a)

/-- `SimLog.get_init_time`, simulator_structures.py:141-142. -/
def SimLog.getInitTime (d : Dict N (PlayerLog Wd)) : Except Err K :=
  collect (fun l => l.states.getStart) d >>= pyMin

/-- `SimLog.get_last_time`, simulator_structures.py:144-145. -/
def SimLog.getLastTime (d : Dict N (PlayerLog Wd)) : Except Err K :=
  collect (fun l => l.states.getEnd) d >>= pyMax

end Sim
end Verif
