import Verif.Plan.GraphModel

/-!
# Reading a whole `TrajectoryGraph` (src/dg_commons/planning/trajectory.py:185-221)

`is_directed_acyclic_graph` of networkx is a parameter. Sets of trajectories are lists without
repetitions, in order of insertion.
-/

namespace Verif

variable {K : Type*} [Field K] [LinearOrder K]

namespace TGraph
variable {γ : Type*}

/-- `in_degree` of networkx. -/
def inDegree (g : TGraph K γ) (n : TNode K) : Nat :=
  ((Dict.keys g.edges).filter (fun e => decide (e.2 = n))).length

/-- `out_degree` of networkx. -/
def outDegree (g : TGraph K γ) (n : TNode K) : Nat :=
  ((Dict.keys g.edges).filter (fun e => decide (e.1 = n))).length

/-- `roots`, trajectory.py:194 and 213. -/
def roots (g : TGraph K γ) : List (TNode K) := (Dict.keys g.nodes).filter (fun n => g.inDegree n == 0)

/-- `leaves`, trajectory.py:197 and 216. -/
def leaves (g : TGraph K γ) : List (TNode K) := (Dict.keys g.nodes).filter (fun n => g.outDegree n == 0)

/-- `set.add`. -/
def insertNew {α : Type*} [DecidableEq α] (l : List α) (x : α) : List α := if x ∈ l then l else l ++ [x]

/-- The loop over the leaves, trajectory.py:199-201 and 218-219, with the function that reads one. -/
def readAll (read : TNode K → Except Err (Traj K)) : List (Traj K) → List (TNode K) →
    Except Err (List (Traj K))
  | acc, [] => .ok acc
  | acc, t :: rest =>
    match read t with
    | .error e => .error e
    | .ok tr => readAll read (insertNew acc tr) rest

/-- The common part of `get_all_transitions`, trajectory.py:185-203, and `get_all_trajectories`,
trajectory.py:205-221. -/
def getAll (isDag : TGraph K γ → Bool) (read : TNode K → TNode K → Except Err (Traj K))
    (g : TGraph K γ) : Except Err (List (Traj K)) :=
  if isDag g then
    match g.roots with
    | [source] => readAll (read source) [] g.leaves
    | _ => .error .assertion
  else .error .assertion

/-- `get_all_trajectories`, trajectory.py:205-221. -/
def getAllTrajectories (isDag : TGraph K γ → Bool) (sp : PathFinder K γ) (g : TGraph K γ) :
    Except Err (List (Traj K)) := getAll isDag (getTrajectory sp g) g

/-- `get_all_transitions`, trajectory.py:185-203. -/
def getAllTransitions (isDag : TGraph K γ → Bool) (sp : PathFinder K γ) (g : TGraph K γ)
    (tol : K := 1 / 1000) : Except Err (List (Traj K)) :=
  getAll isDag (fun s t => getTransition sp g s t tol) g

end TGraph
end Verif
