import Verif.Dict
import Verif.Plan.TrajModel

/-!
# `TrajectoryGraph` (src/dg_commons/planning/trajectory.py:164-286)

A networkx `DiGraph` as two insertion-ordered dictionaries: nodes with their `gen` attribute
and edges with their attributes `transition` and `commands`. Other attributes are not modelled.
`has_path`/`shortest_path` of networkx are a parameter (`PathFinder`).
-/

namespace Verif

variable {K : Type*} [Field K] [LinearOrder K]

/-- `TimedVehicleState`, trajectory.py:161. -/
abbrev TNode (K : Type*) := K × VehicleState K

/-- Attributes of an edge (trajectory.py:178, 241). -/
structure EdgeData (K γ : Type*) where
  transition : Traj K
  commands : Option γ

/-- The graph: nodes with optional attribute `gen`, edges with their attributes. -/
structure TGraph (K γ : Type*) where
  nodes : Dict (TNode K) (Option Int) := []
  edges : Dict (TNode K × TNode K) (EdgeData K γ) := []

namespace TGraph
variable {γ : Type*}

/-- `add_node`, trajectory.py:167-168; an attribute that is not given keeps its value. -/
def addNode (g : TGraph K γ) (n : TNode K) (gen : Option Int) : TGraph K γ :=
  let old : Option Int := (Dict.get? g.nodes n).getD none
  { g with nodes := Dict.set g.nodes n (gen.orElse fun _ => old) }

/-- `check_node`, trajectory.py:170-172. -/
def checkNode (g : TGraph K γ) (n : TNode K) : Except Err Unit :=
  match Dict.get? g.nodes n with
  | some _ => .ok ()
  | none => .error .value

/-- `DiGraph.add_edge` of networkx: adds missing end nodes and updates the attributes. -/
def nxAddEdge (g : TGraph K γ) (u v : TNode K) (tr : Traj K) (cmd : Option γ) : TGraph K γ :=
  let g1 := if (Dict.get? g.nodes u).isSome then g else g.addNode u none
  let g2 := if (Dict.get? g1.nodes v).isSome then g1 else g1.addNode v none
  let old : Option γ := match Dict.get? g2.edges (u, v) with
    | some e => e.commands
    | none => none
  { g2 with edges := Dict.set g2.edges (u, v) ⟨tr, cmd.orElse fun _ => old⟩ }

/-- `add_edge`, trajectory.py:174-183, as (graph after the call, outcome). The test
`target not in self.nodes` (line 179) compares a bare state with (time, state) pairs and is
always true, so the target node is always (re)written. A source without `gen` raises
`KeyError`. -/
def addEdge (g : TGraph K γ) (states transition : Traj K) (cmd : Option γ) :
    TGraph K γ × Except Err Unit :=
  match states.getStart, states.getEnd with
  | .error e, _ => (g, .error e)
  | _, .error e => (g, .error e)
  | .ok t0, .ok t1 =>
    match states.at' t0, states.at' t1 with
    | .error e, _ => (g, .error e)
    | _, .error e => (g, .error e)
    | .ok source, .ok target =>
      match Dict.get? g.nodes (t0, source) with
      | none => (g, .error .value)
      | some none => (g, .error .key)
      | some (some gen) =>
        let g1 := g.addNode (t1, target) (some (gen + 1))
        (g1.nxAddEdge (t0, source) (t1, target) transition cmd, .ok ())

/-- The result of `has_path` + `shortest_path` of networkx: `none` when there is no path. -/
abbrev PathFinder (K γ : Type*) := TGraph K γ → TNode K → TNode K → Option (List (TNode K))

/-- The common prefix of the three reading functions, trajectory.py:232-237, 254-259, 270-275. -/
def findPath (sp : PathFinder K γ) (g : TGraph K γ) (source target : TNode K) :
    Except Err (List (TNode K)) :=
  match g.checkNode source with
  | .error e => .error e
  | .ok () =>
    match g.checkNode target with
    | .error e => .error e
    | .ok () =>
      match sp g source target with
      | none => .error .value
      | some nodes => .ok nodes

/-- `get_trajectory`, trajectory.py:264-281. -/
def getTrajectory (sp : PathFinder K γ) (g : TGraph K γ) (source target : TNode K) :
    Except Err (Traj K) :=
  match findPath sp g source target with
  | .error e => .error e
  | .ok nodes => Seq.mk? (nodes.map Prod.fst) (nodes.map Prod.snd)

/-- Loop of `get_transition`, trajectory.py:260-261, over consecutive nodes. -/
def transitionLoop (g : TGraph K γ) (tol : K) : Traj K → List (TNode K) → Except Err (Traj K)
  | acc, u :: v :: rest =>
    match Dict.get? g.edges (u, v) with
    | none => .error .type
    | some e =>
      match mergeUnsafe acc e.transition tol with
      | .error err => .error err
      | .ok acc' => transitionLoop g tol acc' (v :: rest)
  | acc, _ => .ok acc

/-- `get_transition`, trajectory.py:245-262. -/
def getTransition (sp : PathFinder K γ) (g : TGraph K γ) (source target : TNode K)
    (tol : K := 1 / 1000) : Except Err (Traj K) :=
  match findPath sp g source target with
  | .error e => .error e
  | .ok nodes => transitionLoop g tol ⟨[], []⟩ nodes

/-- Loop of `commands_on_trajectory`, trajectory.py:240-242. -/
def commandsLoop (g : TGraph K γ) : List (TNode K) → Except Err (List (K × γ))
  | u :: v :: rest =>
    match Dict.get? g.edges (u, v) with
    | none => .error .type
    | some ⟨_, none⟩ => .error .key
    | some ⟨_, some c⟩ =>
      match commandsLoop g (v :: rest) with
      | .error e => .error e
      | .ok l => .ok ((u.1, c) :: l)
  | _ => .ok []

/-- `commands_on_trajectory`, trajectory.py:223-243. -/
def commandsOnTrajectory (sp : PathFinder K γ) (g : TGraph K γ) (tr : Traj K) :
    Except Err (Seq K γ) :=
  match tr.ts.head?, tr.vs.head?, tr.ts.getLast?, tr.vs.getLast? with
  | some t0, some v0, some t1, some v1 =>
    match findPath sp g (t0, v0) (t1, v1) with
    | .error e => .error e
    | .ok nodes =>
      match commandsLoop g nodes with
      | .error e => .error e
      | .ok l => Seq.mk? (l.map Prod.fst) (l.map Prod.snd)
  | _, _, _, _ => .error .index

/-- The two ways of building a graph. -/
inductive Op (K γ : Type*) where
  | node (n : TNode K) (gen : Option Int)
  | edge (states transition : Traj K) (cmd : Option γ)

/-- One call by a caller that catches exceptions. -/
def step (g : TGraph K γ) : Op K γ → TGraph K γ
  | .node n gen => g.addNode n gen
  | .edge s tr c => (g.addEdge s tr c).1

/-- A graph after a history of calls. -/
def run (ops : List (Op K γ)) : TGraph K γ := ops.foldl step {}

end TGraph
end Verif
