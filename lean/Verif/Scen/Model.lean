import Verif.Agents.Model
import Verif.Phys.Outline
import Verif.Phys.States
import Mathlib.Analysis.SpecialFunctions.Pow.Real

/-!
# Scenarios (src/dg_commons/sim/scenarios)

Conversion of CommonRoad scenarios into simulation contexts. Of the external library commonroad-io the
following is a parameter: the lanelets at a position, the merged lanelets that start with a lanelet. Reading
the file, colours, log messages, seed and description are left out. Names and decimal numerals are lists of
characters. Real arithmetic.
-/

namespace Verif
namespace Scen

open Maps

/-- `ObstacleType` of CommonRoad; the constructors after `pedestrian` are not converted. -/
inductive Kind where
  | car
  | bicycle
  | truck
  | bus
  | pedestrian
  | unknown
  | other (code : Nat)
deriving DecidableEq, Repr

/-- `obstacle_shape`: rectangles by length and width. -/
inductive Shape where
  | rectangle (length width : ℝ)
  | other

/-- Position and orientation of a CommonRoad state. -/
structure TState where
  x : ℝ
  y : ℝ
  theta : ℝ

/-- `DynamicObstacle` of CommonRoad: `geo` is `obstacle_shape.shapely_object`, `init` and `speed` the initial
state, `states` the states of the predicted trajectory, which do not contain the initial state. -/
structure DynObs where
  kind : Kind
  trajPred : Bool
  shape : Shape
  geo : Geo ℝ
  init : TState
  speed : ℝ
  states : List TState

/-- A static obstacle in a CommonRoad file. -/
structure CrStatic where
  kind : Kind
  geo : Geo ℝ
  init : TState

/-- `StaticObstacle`, sim/models/obstacles.py:33-39 (the mass and restitution are those of the default
geometry). -/
structure StaticObs where
  kind : Kind
  shape : Geo ℝ

/-- `SE2_from_xytheta`. -/
noncomputable def TState.pose (s : TState) : Mat3 ℝ := rigid (Real.cos s.theta) (Real.sin s.theta) s.x s.y

/-- `is_dyn_obstacle_static`, utils_dyn_obstacle.py:58-67, with the default tolerance. -/
noncomputable def isStatic (o : DynObs) : Except Err Bool :=
  match o.states.getLast? with
  | none => .error .index
  | some e => .ok (decide (norm2 (o.init.x - e.x) (o.init.y - e.y) < 2 / 10))

/-! ## The model of an obstacle -/

/-- `VehicleParameters.default_car`, vehicle_utils.py:15-18. -/
noncomputable def carParams : Phys.VehicleParams ℝ where
  vxMin := -10 / (36 / 10)
  vxMax := 130 / (36 / 10)
  accMin := -8
  accMax := 5
  deltaMax := 1
  ddeltaMax := 1 / 2

/-- `VehicleParameters.default_bicycle`, vehicle_utils.py:24-26. -/
noncomputable def bicycleParams : Phys.VehicleParams ℝ where
  vxMin := -1 / (36 / 10)
  vxMax := 50 / (36 / 10)
  accMin := -4
  accMax := 3
  deltaMax := 1
  ddeltaMax := 1 / 2

/-- The models that the conversion creates: `VehicleModel` with state, geometry, mass, inertia and
parameters, and `PedestrianModel` with the default geometry and parameters. -/
inductive Model where
  | vehicle (state : VehicleState ℝ) (geo : Outline.Geometry ℝ) (m iz : ℝ) (params : Phys.VehicleParams ℝ)
  | pedestrian (state : PedestrianState ℝ)

/-- Why a conversion fails: `NotSupportedConversion`, which the factory catches, or another error. -/
inductive Fail where
  | unsupported
  | err (e : Err)
deriving DecidableEq, Repr

/-- `_estimate_car_mass_inertia`, model_from_dyn_obstacle.py:89-96. Length and width of a CommonRoad
rectangle are positive, so the power is real. -/
noncomputable def massInertia (length width : ℝ) : ℝ × ℝ :=
  let mass := 50 * (length * width) ^ (16 / 10 : ℝ)
  (mass, mass * (length + width) / 6)

/-- `infer_model_from_cr_dyn_obstacle`, model_from_dyn_obstacle.py:17-86. -/
noncomputable def inferModel (o : DynObs) : Except Fail Model :=
  match o.kind with
  | .car | .bicycle | .truck | .bus =>
    match o.shape with
    | .other => .error (.err .assertion)
    | .rectangle length width =>
      let l := length * (7 / 10)
      match o.states with
      | [] => .error (.err .index)
      | s :: _ =>
        let dtheta := s.theta - o.init.theta
        if l = 0 then .error (.err .zeroDiv)
        else
          let x0 : VehicleState ℝ := ⟨o.init.x, o.init.y, o.init.theta, o.speed, dtheta / l⟩
          let wHalf := width / 2 * (95 / 100)
          if o.kind = .bicycle then
            .ok (.vehicle x0 ⟨.bicycle, wHalf, l / 2, l / 2⟩ 85 90 bicycleParams)
          else
            let (m, iz) := massInertia length width
            .ok (.vehicle x0 ⟨.car, wHalf, l / 2, l / 2⟩ m iz carParams)
  | .pedestrian => .ok (.pedestrian ⟨o.init.x, o.init.y, o.init.theta, o.speed, 0, 0⟩)
  | _ => .error .unsupported

/-! ## The lane of an obstacle -/

/-- A merged lanelet of CommonRoad. -/
structure Merged where
  id : Nat
  left : List (ℝ × ℝ)
  right : List (ℝ × ℝ)
  center : List (ℝ × ℝ)

/-- The lanelet network of CommonRoad: `find_lanelet_by_position` for one point, and the merged lanelets that
`all_lanelets_by_merging_successors_from_lanelet` returns for the lanelet with the given id. -/
structure Network where
  findByPosition : ℝ × ℝ → List Nat
  merged : Nat → List Merged

/-- `str(id) in str(merged_id)`, utils_dyn_obstacle.py:28, on decimal numerals: substring. -/
def idIn (id mergedId : Nat) : Bool := decide (Nat.toDigits 10 id <:+: Nat.toDigits 10 mergedId)

/-- The inner loop of utils_dyn_obstacle.py:27-29. -/
noncomputable def candidatesIn (finalIds : List Nat) : List Merged → Except Err (List (List CtrPoint))
  | [] => .ok []
  | m :: rest =>
    if finalIds.any (fun i => idIn i m.id) then
      match fromVertices m.left m.right m.center with
      | .error e => .error e
      | .ok lane => match candidatesIn finalIds rest with
        | .error e => .error e
        | .ok lanes => .ok (lane :: lanes)
    else candidatesIn finalIds rest

/-- The loop of utils_dyn_obstacle.py:24-29. -/
noncomputable def candidates (net : Network) (finalIds : List Nat) :
    List Nat → Except Err (List (List CtrPoint))
  | [] => .ok []
  | i :: rest => match candidatesIn finalIds (net.merged i) with
    | .error e => .error e
    | .ok a => match candidates net finalIds rest with
      | .error e => .error e
      | .ok b => .ok (a ++ b)

/-- `np.argmin` together with the indexing: the first element with the least value. -/
noncomputable def argminBy {α : Type} (f : α → ℝ) : α → List α → α
  | best, [] => best
  | best, x :: xs => if f x < f best then argminBy f x xs else argminBy f best xs

/-- `_dglane_from_trajectory`, utils_dyn_obstacle.py:50-55. -/
noncomputable def laneFromTrajectory (states : List TState) : List CtrPoint :=
  states.map fun s => ⟨⟨s.x, s.y, s.theta⟩, 3 / 2⟩

/-- `infer_lane_from_dyn_obs`, utils_dyn_obstacle.py:13-47. `heading lane p` is the angle of the pose that
`find_along_lane_closest_point_fast` returns. -/
noncomputable def inferLane (net : Network) (heading : List CtrPoint → ℝ × ℝ → ℝ) (o : DynObs) :
    Except Err (List CtrPoint) :=
  match o.states.getLast? with
  | none => .error .index
  | some e =>
    let initIds := net.findByPosition (o.init.x, o.init.y)
    let finalIds := net.findByPosition (e.x, e.y)
    if initIds = [] ∨ finalIds = [] then .ok (laneFromTrajectory o.states)
    else match candidates net finalIds initIds with
      | .error e => .error e
      | .ok [] => .ok (laneFromTrajectory o.states)
      | .ok (c :: cs) =>
        .ok (argminBy (fun lane => |o.init.theta - heading lane (o.init.x, o.init.y)|) c cs)

/-! ## Model and agent -/

/-- What the conversion needs besides the obstacles; see `Agents.Conf` for the last four. -/
structure Env (L : Type) where
  net : Network
  heading : List CtrPoint → ℝ × ℝ → ℝ
  behavior : SpeedBehaviorParam ℝ
  lights : List L
  closest : List CtrPoint → ℝ × ℝ → ℝ
  minim : (ℝ → Except Err ℝ) → ℝ → ℝ → Except Err ℝ

variable {L : Type}

/-- The construction of the agent in convert_from_commonroad.py:31. `SteerController.from_vehicle_params`
(controllers/steer.py:35-41) reads `delta_max`, which `PedestrianParameters` lacks (pedestrian_utils.py:9-12):
`AttributeError`. -/
noncomputable def agentOf (env : Env L) (lane : List CtrPoint) : Model → Except Err (Agents.Conf L)
  | .vehicle _ g _ _ p =>
    Agents.Conf.mk? lane p (Outline.wheelbase g) g.lr env.behavior env.lights (env.closest lane) env.minim
  | .pedestrian _ => .error .attribute

/-- `model_agent_from_dynamic_obstacle`, convert_from_commonroad.py:13-32. -/
noncomputable def modelAgent (env : Env L) (o : DynObs) : Except Fail (Model × Agents.Conf L) :=
  match inferModel o with
  | .error e => .error e
  | .ok m => match inferLane env.net env.heading o with
    | .error e => .error (.err e)
    | .ok lane => match agentOf env lane m with
      | .error e => .error (.err e)
      | .ok a => .ok (m, a)

/-! ## The factory -/

/-- `PlayerName(f"P{i}")`. -/
def playerName (i : Nat) : List Char := 'P' :: Nat.toDigits 10 i

/-- The name of the ego. -/
def egoName : List Char := ['E', 'g', 'o']

/-- The name of player `i`, factory.py:54-57. -/
def nameOf (ego : Option (List Char)) (i : Nat) : List Char :=
  if some (playerName i) = ego then egoName else playerName i

/-- The local variables of the loop of factory.py:39-69. -/
structure Acc (L : Type) where
  statics : List StaticObs
  players : Dict (List Char) (Agents.Conf L)
  models : Dict (List Char) Model

/-- The body of the loop, factory.py:42-69. The warning for a skipped obstacle reads `e.args[0]`; that the external base
class `ZException` keeps its message there is assumed. -/
noncomputable def stepObs (env : Env L) (ego : Option (List Char)) (i : Nat) (o : DynObs) (a : Acc L) :
    Except Err (Acc L) :=
  if o.trajPred = false then .error .assertion
  else match isStatic o with
    | .error e => .error e
    | .ok true => .ok { a with statics := a.statics ++ [⟨o.kind, applyGeo o.geo o.init.pose⟩] }
    | .ok false => match modelAgent env o with
      | .error .unsupported => .ok a
      | .error (.err e) => .error e
      | .ok (m, ag) => .ok { a with players := a.players.set (nameOf ego i) ag,
                                    models := a.models.set (nameOf ego i) m }

/-- The loop of factory.py:41-69. -/
noncomputable def loopObs (env : Env L) (ego : Option (List Char)) : Nat → List DynObs → Acc L →
    Except Err (Acc L)
  | _, [], a => .ok a
  | i, o :: rest, a => match stepObs env ego i o a with
    | .error e => .error e
    | .ok a' => loopObs env ego (i + 1) rest a'

/-- `DgScenario.__post_init__`, structures.py:28-46: the static obstacles and the shapes of the spatial
index. `bounds` is `build_road_boundary_obstacle` of the scenario, `none` if there is no scenario. -/
noncomputable def dgScenario (bounds : Option (ℝ → Except Err (List (Geo ℝ))))
    (statics : Option (List StaticObs)) (useBounds : Bool) (buffer : ℝ) :
    Except Err (List StaticObs × List (Geo ℝ)) :=
  let given := statics.getD []
  match useBounds, bounds with
  | true, some b =>
    if buffer < 0 then .error .assertion
    else match b buffer with
      | .error e => .error e
      | .ok ls =>
        let all := given ++ ls.map fun l => ⟨.unknown, l⟩
        .ok (all, all.map (·.shape))
  | _, _ => .ok (given, given.map (·.shape))

/-- The fields of `SimContext` set by the factory. -/
structure Ctx (L : Type) where
  statics : List StaticObs
  index : List (Geo ℝ)
  players : Dict (List Char) (Agents.Conf L)
  models : Dict (List Char) Model

/-- `get_scenario_commonroad_replica`, factory.py:18-85, on a loaded scenario. -/
noncomputable def replica (env : Env L) (ego : Option (List Char)) (obs : List DynObs)
    (statics : List CrStatic) (bounds : ℝ → Except Err (List (Geo ℝ))) : Except Err (Ctx L) :=
  match loopObs env ego 0 obs ⟨[], [], []⟩ with
  | .error e => .error e
  | .ok a =>
    match dgScenario (some bounds) (some (a.statics ++ statics.map fun s => ⟨s.kind, s.geo⟩)) false (1 / 10) with
    | .error e => .error e
    | .ok (so, ix) => .ok ⟨so, ix, a.players, a.models⟩

end Scen
end Verif
