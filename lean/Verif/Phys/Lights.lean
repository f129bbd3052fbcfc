import Verif.Basic
import Mathlib.Algebra.Order.Floor.Ring
import Mathlib.Data.Rat.Floor

/-!
# Vehicle lights (sim/models/vehicle_ligths.py, sim/simulator_animation.py:223-241)

The table `phase2colors` is shared and its entries are mutable: displaying the lights of a braking
vehicle changes the entry. The model therefore threads the table through.
-/

namespace Verif
namespace Lights

/-- The lights commands, vehicle_ligths.py:25-37; any other string is `other`. -/
inductive Cmd where
  | noLights
  | headlights
  | turnLeft
  | turnRight
  | hazard
  | other (s : String)
deriving DecidableEq, Repr

/-- The colors that occur, vehicle_ligths.py:49-54. -/
inductive Color where
  | white
  | yellow
  | red
  | redMore
  | orange
deriving DecidableEq, Repr

/-- `LightsColors`, vehicle_ligths.py:41-46. -/
structure Colors where
  frontLeft : Color
  frontRight : Color
  backLeft : Color
  backRight : Color
deriving DecidableEq, Repr

/-- The table `phase2colors` (the five known commands are its keys). -/
abbrev Table := Cmd → Colors

/-- The initial table, vehicle_ligths.py:56-79 (the value for `other` is never used). -/
def fresh : Table
  | .noLights => ⟨.white, .white, .red, .red⟩
  | .headlights => ⟨.yellow, .yellow, .red, .red⟩
  | .turnLeft => ⟨.orange, .white, .orange, .red⟩
  | .turnRight => ⟨.white, .orange, .red, .orange⟩
  | .hazard => ⟨.orange, .orange, .orange, .orange⟩
  | .other _ => ⟨.white, .white, .red, .red⟩

/-- `lightscmd2phases`, vehicle_ligths.py:81-89; an unknown command raises `KeyError`. -/
def phases : Cmd → Except Err (List Cmd)
  | .noLights => .ok [.noLights]
  | .headlights => .ok [.headlights]
  | .turnLeft => .ok [.turnLeft, .noLights]
  | .turnRight => .ok [.turnRight, .noLights]
  | .hazard => .ok [.hazard, .noLights]
  | .other _ => .error .key

variable {K : Type} [Field K] [LinearOrder K] [IsStrictOrderedRing K] [FloorRing K]

/-- `np.round`: to the nearest integer, ties to the even one. -/
def npRound (x : K) : Int :=
  if x - (⌊x⌋ : K) < 1 / 2 then ⌊x⌋
  else if 1 / 2 < x - (⌊x⌋ : K) then ⌊x⌋ + 1
  else if ⌊x⌋ % 2 = 0 then ⌊x⌋ else ⌊x⌋ + 1

/-- The phase chosen by `get_phased_lights`, vehicle_ligths.py:94-98, for the period 0.4 of
vehicle_ligths.py:91. -/
def phaseAt (ps : List Cmd) (t : K) : Except Err Cmd :=
  pyGet ps (npRound (t / (2 / 5)) % (ps.length : Int))

/-- Brightening of simulator_animation.py:236-240. -/
def brighten (c : Colors) : Colors :=
  { c with
    backLeft := if c.backLeft = .red then .redMore else c.backLeft
    backRight := if c.backRight = .red then .redMore else c.backRight }

/-- Replace one entry of the table. -/
def Table.set (tb : Table) (p : Cmd) (c : Colors) : Table := fun q => if q = p then c else tb q

/-- `lights_colors_from_lights_cmd`, simulator_animation.py:233-241: the colors displayed and the table
afterwards. -/
def display (tb : Table) (cmd : Cmd) (acc t : K) : Except Err (Colors × Table) :=
  match phases cmd with
  | .error e => .error e
  | .ok ps => match phaseAt ps t with
    | .error e => .error e
    | .ok p =>
      if acc < 0 then .ok (brighten (tb p), tb.set p (brighten (tb p)))
      else .ok (tb p, tb)

/-- A history of displays `(cmd, acc, t)`: the table afterwards (a failing display changes nothing). -/
def run : Table → List (Cmd × K × K) → Table
  | tb, [] => tb
  | tb, (c, a, t) :: h => match display tb c a t with
    | .error _ => run tb h
    | .ok (_, tb') => run tb' h

end Lights
end Verif
