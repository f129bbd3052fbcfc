import Verif.Sim.LogModel
import Verif.Coll.Resolve

/-!
# Drawing of a collision and of logs (src/dg_commons/sim/collision_visualisation.py, log_visualisation.py)

The result is the list of what is drawn; layers, widths and the legend are left out.
-/

namespace Verif
namespace Viz

open Sim Coll

variable {N K : Type} [DecidableEq N] [Field K] [LinearOrder K]

/-- What the drawing of a collision asks of shapes and of states. -/
structure Pen (K S X : Type) where
  /-- `shape.exterior.xy`; shapes other than polygons have no `exterior` -/
  exterior : S → Except Err (List (K × K))
  /-- `shape.centroid.coords[0]` -/
  centroid : S → K × K
  /-- `state.x, state.y` -/
  pos : X → K × K

/-- What is drawn for one player. -/
structure PlayerPicture (K L : Type) where
  /-- index of the colour -/
  colour : Nat
  outline : List (K × K)
  /-- where the name is written and where the two arrows of the centre start -/
  name : K × K
  before : K × K
  after : K × K
  rateBefore : K
  rateAfter : K
  /-- the arrow that starts at the impact point -/
  atPoint : K × K
  /-- label, outline and place of the label -/
  locations : List (L × List (K × K) × (K × K))
  deriving DecidableEq

/-- What is drawn for a collision. -/
structure Picture (N K L : Type) where
  point : K × K
  normal : K × K
  players : List (N × PlayerPicture K L)
  deriving DecidableEq

/-- `s * v` -/
def scaled (s : K) (v : K × K) : K × K := (s * v.1, s * v.2)

/-- The loop over the impact locations, collision_visualisation.py:130-141. -/
def drawLocations {L S X : Type} (D : Pen K S X) : List (L × S) →
    Except Err (List (L × List (K × K) × (K × K)))
  | [] => .ok []
  | (l, s) :: rest => do
    let o ← D.exterior s
    let ls ← drawLocations D rest
    return (l, o, D.centroid s) :: ls

/-- Where a player is, collision_visualisation.py:49-53: its logged position, or the centroid of the
footprint if it is not in the log. -/
def placeOf {Wd : World N K} {S : Type} (D : Pen K S Wd.X) (entries : Dict N (LogEntry Wd)) (n : N)
    (footprint : S) : K × K :=
  match Dict.get? entries n with
  | some e => D.pos e.state
  | none => D.centroid footprint

/-- The body of the loop over the players, collision_visualisation.py:44-141. `Dark2` has 8 colours. The
rates are printed with three decimals in the code. -/
def drawPlayer {Wd : World N K} {L S : Type} (D : Pen K S Wd.X) (entries : Dict N (LogEntry Wd))
    (point : K × K) (i : Nat) (n : N) (r : Option (ReportPlayer K L S)) :
    Except Err (PlayerPicture K L) :=
  if i < 8 then
    match r with
    | none => .error .attribute
    | some r => do
      let outline ← D.exterior r.footprint
      let c := placeOf D entries n r.footprint
      let s : K := 3 / 10
      let vel := scaled s r.velocity.1
      let velAfter := scaled s r.velocityAfter.1
      let ap := armTo point c
      let atP := scaled s (velocityOfP (scaled (1 / s) vel) r.velocity.2 ap)
      let locs ← drawLocations D r.locations
      return ⟨i, outline, c, vel, velAfter, r.velocity.2, r.velocityAfter.2, atP, locs⟩
  else .error .index

/-- The loop over the players, collision_visualisation.py:43. -/
def drawPlayers {Wd : World N K} {L S : Type} (D : Pen K S Wd.X) (entries : Dict N (LogEntry Wd))
    (point : K × K) : Nat → Dict N (Option (ReportPlayer K L S)) →
    Except Err (List (N × PlayerPicture K L))
  | _, [] => .ok []
  | i, (n, r) :: rest => do
    let p ← drawPlayer D entries point i n r
    let ps ← drawPlayers D entries point (i + 1) rest
    return (n, p) :: ps

/-- `plot_collision`, collision_visualisation.py:28-151: `None` has no `coords` (line 33) and cannot be
multiplied (line 34). -/
def plotCollision {Wd : World N K} [AddCommGroup Wd.X] [Module K Wd.X] {L S : Type} (D : Pen K S Wd.X)
    (r : CollisionReport N K L S) (log : Dict N (PlayerLog Wd)) : Except Err (Picture N K L) := do
  let entries ← SimLog.atInterp log r.atTime
  match r.point with
  | none => .error .attribute
  | some p =>
    match r.normal with
    | none => .error .type
    | some n =>
      let ps ← drawPlayers D entries p 0 r.players
      return ⟨p, scaled (1 / 5) n, ps⟩

/-! ## Logs -/

/-- One of the diagrams, one above the other: its number from the top, the times, the values, and whether
the line has steps. -/
structure Diagram (K F : Type) where
  number : Nat
  of : Nat
  label : F
  ts : List K
  vs : List K
  steps : Bool
  deriving DecidableEq

/-- Dataclasses: `fields(value)` and `getattr(value, field.name)`; the values of one log are taken to be of
one class. -/
structure Fields (K X F : Type) where
  names : X → List F
  get : X → F → K

/-- One of the two loops of `plot_player_log`, log_visualisation.py:33-39 and 41-47; `enumerate` counts
from `i`. -/
def drawFields {X F : Type} (R : Fields K X F) (s : Seq K X) (of shift : Nat) (steps : Bool) :
    Nat → List F → List (Diagram K F)
  | _, [] => []
  | i, f :: rest => ⟨shift + i + 1, of, f, s.ts, s.vs.map (fun v => R.get v f), steps⟩ ::
      drawFields R s of shift steps (i + 1) rest

/-- `plot_player_log`, log_visualisation.py:24-49; both logs need a first value (lines 27, 29). -/
def plotPlayerLog {Wd : World N K} {F : Type} (RX : Fields K Wd.X F) (RC : Fields K Wd.C F)
    (l : PlayerLog Wd) : Except Err (List (Diagram K F)) :=
  match l.states.vs, l.commands.vs with
  | [], _ => .error .index
  | _ :: _, [] => .error .index
  | x :: _, c :: _ =>
    let n := (RX.names x).length
    let rows := n + (RC.names c).length
    .ok (drawFields RX l.states rows 0 false 0 (RX.names x) ++
      drawFields RC l.commands rows n true 0 (RC.names c))

/-- `plot_players_logs`, log_visualisation.py:13-21; `only` is `None` or a set of players. -/
def plotPlayersLogs {Wd : World N K} {F : Type} (RX : Fields K Wd.X F) (RC : Fields K Wd.C F)
    (only : Option (List N)) : Dict N (PlayerLog Wd) → Except Err (List (N × List (Diagram K F)))
  | [] => .ok []
  | (n, l) :: rest =>
    if (match only with | some ps => decide (n ∉ ps) | none => false) then plotPlayersLogs RX RC only rest
    else do
      let d ← plotPlayerLog RX RC l
      let ds ← plotPlayersLogs RX RC only rest
      return (n, d) :: ds

end Viz
end Verif
