import Verif.Basic
import Verif.Maps.Profile

/-!
# Cached lane quantities (src/dg_commons/maps/lanes.py:108-123, 321-337)

`@cached(LRUCache(maxsize=128))` of the library cachetools, on a method of a mutable object. The library is modelled
from its documentation: the cache is a dictionary in order of use, its keys are tuples of the arguments, an object of
class `DgLanelet` is compared by identity (the class defines no `__eq__`), and a key keeps the object alive.
-/

namespace Verif
namespace Cache

variable {κ ν : Type} [DecidableEq κ]

/-- `LRUCache`: the least recently used entry first. -/
abbrev Lru (κ ν : Type) := List (κ × ν)

/-- Keys in order of use. -/
def Lru.names (c : Lru κ ν) : List κ := c.map Prod.fst

/-- `cache[k]`: a hit moves the entry to the end. -/
def Lru.get (c : Lru κ ν) (k : κ) : Option (ν × Lru κ ν) :=
  match c.find? (fun e => decide (e.1 = k)) with
  | none => none
  | some e => some (e.2, c.filter (fun e => decide (e.1 ≠ k)) ++ [e])

/-- `cache[k] = v` for a new key: entries are dropped from the front while there is no room. -/
def Lru.put (size : Nat) (c : Lru κ ν) (k : κ) (v : ν) : Lru κ ν := c.drop (c.length + 1 - size) ++ [(k, v)]

/-- The function made by the decorator `cached`: the cache after the call and the outcome. An exception of the
function is passed on and nothing is stored. -/
def call (size : Nat) (f : κ → Except Err ν) (c : Lru κ ν) (k : κ) : Lru κ ν × Except Err ν :=
  match Lru.get c k with
  | some (v, c') => (c', .ok v)
  | none => match f k with
    | .error e => (c, .error e)
    | .ok v => (Lru.put size c k v, .ok v)

/-- A history of calls. -/
def calls (size : Nat) (f : κ → Except Err ν) : Lru κ ν → List κ → Lru κ ν × List (Except Err ν)
  | c, [] => (c, [])
  | c, k :: ks =>
    let r := call size f c k
    let q := calls size f r.1 ks
    (q.1, r.2 :: q.2)

/-! ## Objects that change -/

/-- The objects of a program (`O` are identities, `S` contents) and the cache of one method. -/
structure Mem (O S A ν : Type) where
  heap : O → S
  cache : Lru (O × A) ν

/-- What a program does: call the method, change an object (`lane.control_points.append(...)`), or change in place
a value that the method has returned (`lane.get_lane_lengths().append(...)`), which is the cached one. -/
inductive Op (O S A ν : Type) where
  | call (o : O) (a : A)
  | change (o : O) (s : S)
  | alter (o : O) (a : A) (g : ν → ν)

variable {O S A : Type} [DecidableEq O] [DecidableEq A]

/-- The outcome of a call of the cached method in a given memory. -/
def Mem.ask (size : Nat) (f : S → A → Except Err ν) (m : Mem O S A ν) (o : O) (a : A) :
    Lru (O × A) ν × Except Err ν :=
  Cache.call size (fun k => f (m.heap k.1) k.2) m.cache (o, a)

/-- One operation. -/
def Mem.step (size : Nat) (f : S → A → Except Err ν) (m : Mem O S A ν) : Op O S A ν → Mem O S A ν
  | .call o a => { m with cache := (m.ask size f o a).1 }
  | .change o s => { m with heap := fun x => if x = o then s else m.heap x }
  | .alter o a g => { m with cache := m.cache.map fun e => if e.1 = (o, a) then (e.1, g e.2) else e }

/-- A history of operations. -/
def Mem.run (size : Nat) (f : S → A → Except Err ν) (m : Mem O S A ν) (ops : List (Op O S A ν)) : Mem O S A ν :=
  ops.foldl (Mem.step size f) m

open Maps

/-- `get_lane_lengths`, lanes.py:114-122, as a method without arguments. -/
noncomputable def lengthsOf (cps : List CtrPoint) (_ : Unit) : Except Err (List ℝ) := .ok (laneLengths cps)

/-- `lane_profile`, lanes.py:321-337: without an argument there are 5 points per segment. -/
noncomputable def profileOf (cps : List CtrPoint) (points : Option Nat) : Except Err (List (ℝ × ℝ)) :=
  laneProfile cps (points.getD 5)

/-- An argument as seen by the cache: hashable or not. -/
inductive Arg (H L : Type) where
  | value (h : H)
  | list (l : L)

/-- `hash((network, points))`: a list raises `TypeError`. -/
def keyOf {H L : Type} (network : H) : Arg H L → Except Err (H × H)
  | .value h => .ok (network, h)
  | .list _ => .error .type

/-- `get_lanelets`, lanes.py:108-112, with the cache: the key is made and hashed first. -/
def getLanelets {H L R : Type} [DecidableEq H] (size : Nat) (f : H × H → Except Err R) (c : Lru (H × H) R)
    (network : H) (points : Arg H L) : Lru (H × H) R × Except Err R :=
  match keyOf network points with
  | .error e => (c, .error e)
  | .ok k => call size f c k

end Cache
end Verif
