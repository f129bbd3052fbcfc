import Verif.Basic
import Mathlib.Data.Set.Basic

/-!
# Drawing of shapes (maps/shapely_viz.py) and of the arena

Colours are opaque: `alpha` is not modelled.
-/

namespace Verif
namespace Viz

/-- Shapely geometries. Polygons are their exterior ring and the rings of their holes, with the first point
repeated at the end. Of a collection only matters whether it is empty. `other` is any other type. -/
inductive Geom (Pt : Type) where
  | point (p : Option Pt)
  | multiPoint (ps : List Pt)
  | line (ps : List Pt)
  | multiLine (ls : List (List Pt))
  | polygon (ext : List Pt) (holes : List (List Pt))
  | multiPolygon (parts : List (List Pt × List (List Pt)))
  | collection (empty : Bool)
  | other

variable {Pt C : Type}

/-- `shape.is_empty`. The parts of composed shapes are taken to be non-empty. -/
def Geom.isEmpty : Geom Pt → Bool
  | .point p => p.isNone
  | .multiPoint ps => ps.isEmpty
  | .line ps => ps.isEmpty
  | .multiLine ls => ls.isEmpty
  | .polygon ext _ => ext.isEmpty
  | .multiPolygon parts => parts.isEmpty
  | .collection e => e
  | .other => false

/-- What is added to the axes: filled polygons, in the colour of the background if `colour` is `none`, lines and
circles; with their `zorder`. -/
inductive Artist (Pt C : Type) where
  | fill (ring : List Pt) (colour : Option C) (z : Nat)
  | line (ps : List Pt) (colour : C) (z : Nat)
  | circle (p : Pt) (colour : C) (z : Nat)

/-- `_get_poly_coordinates` of a polygon, shapely_viz.py:135-145. -/
def polyRings (p : List Pt × List (List Pt)) : List (List Pt) := p.1.dropLast :: p.2.map List.dropLast

/-- The loop of `_plot_polys`, shapely_viz.py:113-120: the first ring in the given style, all others in the colour
of the background with the default `zorder` of patches, 1. -/
def plotRings (c : C) (z : Nat) : List (List Pt) → List (Artist Pt C)
  | [] => []
  | r :: rs => .fill r (some c) z :: rs.map fun (h : List Pt) => .fill h none 1

/-- `ShapelyViz.add_shape` with `_plot_points`, `_plot_lines` and `_plot_polys`, shapely_viz.py:31-147. The shapes
of shapely 2, which the project asks for, that have parts cannot be iterated over: `for point in shape` raises
`TypeError`; `_get_poly_coordinates` (shapely_viz.py:128-133) uses `shape.geoms`. -/
def addShape (c : C) (z : Nat) (g : Geom Pt) : Except Err (List (Artist Pt C)) :=
  if g.isEmpty then .ok []
  else match g with
    | .point none => .ok []
    | .point (some p) => .ok [.circle p c z]
    | .multiPoint _ => .error .type
    | .line ps => .ok [.line ps c z]
    | .multiLine _ => .error .type
    | .polygon ext holes => .ok (plotRings c z (polyRings (ext, holes)))
    | .multiPolygon parts => .ok (plotRings c z (parts.flatMap polyRings))
    | .collection _ => .error .type
    | .other => .error .notImplemented

/-- What `plot_arena` uses of a goal: whether it is static and what `get_plottable_geometry` returns, goals.py:28-30,
56-57, 96-97. `PoseGoal` has `raise self.goal_pose_poly` (goals.py:110-111), which raises a `TypeError` as a polygon
is no exception. -/
inductive PlotGoal (Pt : Type) where
  | moving
  | shape (g : Geom Pt)
  | pose
  | notImplemented

/-- `goal.get_plottable_geometry()`. -/
def PlotGoal.geometry : PlotGoal Pt → Except Err (Geom Pt)
  | .moving => .error .notImplemented
  | .shape g => .ok g
  | .pose => .error .type
  | .notImplemented => .error .notImplemented

/-- The loop over the obstacles, simulator_visualisation.py:94-95, `ZOrders.ENV_OBSTACLE = 32`. -/
def plotObstacles : List (Geom Pt × C) → Except Err (List (Artist Pt C))
  | [] => .ok []
  | (g, c) :: rest => match addShape c 32 g with
    | .error e => .error e
    | .ok a => match plotObstacles rest with
      | .error e => .error e
      | .ok as => .ok (a ++ as)

/-- The body of the loop over the goals, simulator_visualisation.py:97-105, `ZOrders.GOAL = 30`. -/
def plotGoal (g : PlotGoal Pt) (c : C) : Except Err (List (Artist Pt C)) :=
  match g with
  | .moving => .ok []
  | g => match g.geometry with
    | .error .notImplemented => .ok []
    | .error e => .error e
    | .ok s => match addShape c 30 s with
      | .error .notImplemented => .ok []
      | .error e => .error e
      | .ok a => .ok a

/-- The loop over the goals. -/
def plotGoals : List (PlotGoal Pt × C) → Except Err (List (Artist Pt C))
  | [] => .ok []
  | (g, c) :: rest => match plotGoal g c with
    | .error e => .error e
    | .ok a => match plotGoals rest with
      | .error e => .error e
      | .ok as => .ok (a ++ as)

/-- `plot_arena` without the lanelet network, simulator_visualisation.py:94-106. -/
def plotArena (obstacles : List (Geom Pt × C)) (goals : List (PlotGoal Pt × C)) : Except Err (List (Artist Pt C)) :=
  match plotObstacles obstacles with
  | .error e => .error e
  | .ok a => match plotGoals goals with
    | .error e => .error e
    | .ok b => .ok (a ++ b)

end Viz
end Verif
