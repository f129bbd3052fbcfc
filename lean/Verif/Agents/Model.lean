import Verif.Control.Pid
import Verif.Control.Speed
import Verif.Control.PurePursuit
import Verif.Phys.Limits
import Verif.Seq.Model
import Verif.Dict

/-!
# Agents (src/dg_commons/sim/agents/agent.py, lane_follower.py)

What the agents read of an observed state is `ObsState`. The local search for the closest point of
the lane (`closest`) and the bounded minimiser of scipy (`minim`) are parameters. Real arithmetic.
-/

namespace Verif
namespace Agents

open Maps

variable {N : Type} [DecidableEq N]

/-! ## Agents with a plan or a policy -/

/-- `NPAgent.get_commands`, agent.py:50-52. -/
def npCommands {K U : Type} [LinearOrder K] (plan : Seq K U) (time : K) : Except Err U :=
  plan.atOrPrevious time

/-- `PolicyAgent.get_commands`, agent.py:67-69: the policy is applied to `sim_obs.players[my_name]`, the
observation of the player (state and occupancy), not to its state. Before `on_episode_init` the name is
`None`, which is no key. -/
def policyCommands {O U : Type} (policy : O → Except Err U) (myName : Option N) (players : Dict N O) :
    Except Err U :=
  match myName with
  | none => .error .key
  | some n => match Dict.get? players n with
    | none => .error .key
    | some o => policy o

/-! ## The lane follower -/

/-- What is read of a state: pose, `vx` (speed.py:111, 143; lane_follower.py:56) and, of the own state,
`delta` (lane_follower.py:57). -/
structure ObsState where
  x : ℝ
  y : ℝ
  psi : ℝ
  vx : ℝ
  delta : ℝ

/-- `extract_pose_from_state`, sim/models/utils.py:27-37; lane_follower.py:52. -/
noncomputable def ObsState.pose (s : ObsState) : Mat3 ℝ := rigid (Real.cos s.psi) (Real.sin s.psi) s.x s.y

/-- `rel_pose` of speed.py:78-80, together with the distance (101, 117, 142) and the speed (100, 116,
143) read in the loops. -/
noncomputable def viewOf (my other : ObsState) : Except Err (AgentView ℝ) :=
  match relativePose my.pose other.pose with
  | .error e => .error e
  | .ok r =>
    let t := Transform.fromSE2 r
    .ok ⟨t.x, t.y, t.theta, norm2 t.x t.y, other.vx⟩

/-- `valmap(rel_pose, self.agents)`, speed.py:82. -/
noncomputable def viewsOf (my : ObsState) : Dict N ObsState → Except Err (Dict N (AgentView ℝ))
  | [] => .ok []
  | (n, o) :: rest => match viewOf my o with
    | .error e => .error e
    | .ok v => match viewsOf my rest with
      | .error e => .error e
      | .ok vs => .ok ((n, v) :: vs)

/-- `SpeedBehavior.get_speed_ref`, speed.py:70-89, on the observed states. -/
noncomputable def speedRef (prm : SpeedBehaviorParam ℝ) (me : N) (players : Dict N ObsState) :
    Except Err (ℝ × Bool) :=
  match Dict.get? players me with
  | none => .error .key
  | some my => match viewsOf my players with
    | .error e => .error e
    | .ok vs => getSpeedRef Real.pi prm me vs

/-- The constants of a lane follower. `lights` is `list(LightsValues)` (lane_follower.py:43), the
elements of a frozenset of strings in an order that depends on the hash seed of the interpreter. -/
structure Conf (L : Type) where
  lane : List CtrPoint
  speedP : PIDParam ℝ
  steerP : PIDParam ℝ
  pursuitP : Pursuit.Param
  behavior : SpeedBehaviorParam ℝ
  lights : List L
  closest : ℝ × ℝ → ℝ
  minim : (ℝ → Except Err ℝ) → ℝ → ℝ → Except Err ℝ

/-- `SpeedController.from_vehicle_params`, speed.py:39-42, with the defaults of speed.py:20-23. -/
noncomputable def speedParam (p : Phys.VehicleParams ℝ) : Except Err (PIDParam ℝ) :=
  PIDParam.mk? 4 (1 / 100) (1 / 10) (-2, 2) (p.vxMin, p.vxMax) (p.accMin, p.accMax)

/-- `SteerController.from_vehicle_params`, steer.py:35-41, with the defaults of steer.py:13-16. -/
noncomputable def steerParam (p : Phys.VehicleParams ℝ) : Except Err (PIDParam ℝ) :=
  PIDParam.mk? 4 (1 / 10) (2 / 10) (-5 / 10, 5 / 10) (-p.deltaMax, p.deltaMax)
    (-p.ddeltaMax, p.ddeltaMax)

/-- `LFAgent.__init__`, lane_follower.py:25-43. The argument `pure_pursuit` is ignored by the code. -/
noncomputable def Conf.mk? {L : Type} (lane : List CtrPoint) (p : Phys.VehicleParams ℝ)
    (wheelbase lr : ℝ) (behavior : SpeedBehaviorParam ℝ) (lights : List L) (closest : ℝ × ℝ → ℝ)
    (minim : (ℝ → Except Err ℝ) → ℝ → ℝ → Except Err ℝ) : Except Err (Conf L) :=
  match speedParam p with
  | .error e => .error e
  | .ok sp => match steerParam p with
    | .error e => .error e
    | .ok st => .ok ⟨lane, sp, st, Pursuit.Param.fromGeo wheelbase lr, behavior, lights, closest, minim⟩

/-- The attributes of an `LFAgent` that change. The speed behaviour has the same name as the agent
(lane_follower.py:46-47; it is not shared with another agent). -/
structure LF (N : Type) where
  myName : Option N
  emergency : Bool
  speedPid : PIDState ℝ
  steerPid : PIDState ℝ
  pursuit : Pursuit.State

/-- A new agent, lane_follower.py:34-43. -/
noncomputable def LF.init : LF N := ⟨none, false, PIDState.init, PIDState.init, Pursuit.State.init⟩

/-- `on_episode_init`, lane_follower.py:45-48. -/
def LF.onInit {L : Type} (c : Conf L) (a : LF N) (name : N) : LF N :=
  { a with myName := some name, pursuit := a.pursuit.updatePath c.lane }

/-- `VehicleCommands` with the three fields. -/
structure Cmd (L : Type) where
  acc : ℝ
  ddelta : ℝ
  lights : L

/-- The table of lane_follower.py:43. -/
noncomputable def lightsSeq {L : Type} (lights : List L) : Seq ℝ L := ⟨[0, 2, 4, 6, 8], lights⟩

/-- The updates of lane_follower.py:55-57 (the observations are passed on directly). -/
def LF.measure (a : LF N) (my : ObsState) : LF N :=
  { a with speedPid := a.speedPid.updateMeasurement my.vx,
           steerPid := a.steerPid.updateMeasurement my.delta }

/-- Lines 64-70 of lane_follower.py: the latch and the new references. -/
noncomputable def LF.refer {L : Type} (c : Conf L) (a : LF N) (ref : ℝ) (emergency : Bool) : LF N :=
  let stop := emergency || a.emergency
  let r := if stop then 0 else ref
  { a with emergency := stop, pursuit := a.pursuit.updateSpeed r,
           speedPid := a.speedPid.updateReference c.speedP r }

/-- Lines 71-75 of lane_follower.py. -/
noncomputable def LF.control {L : Type} (c : Conf L) (a : LF N) (t : ℝ) : LF N × Except Err (Cmd L) :=
  let r := a.speedPid.getControl c.speedP t
  let a1 := { a with speedPid := r.1 }
  match r.2 with
  | .error e => (a1, .error e)
  | .ok acc => match a1.pursuit.desiredSteering c.minim c.pursuitP with
    | .error e => (a1, .error e)
    | .ok d =>
      let q := (a1.steerPid.updateReference c.steerP d).getControl c.steerP t
      let a2 := { a1 with steerPid := q.1 }
      match q.2 with
      | .error e => (a2, .error e)
      | .ok ddelta => match (lightsSeq c.lights).atOrPrevious t with
        | .error e => (a2, .error e)
        | .ok l => (a2, .ok ⟨acc, ddelta, l⟩)

/-- `get_commands`, lane_follower.py:50-75: the agent after the call and the result. -/
noncomputable def LF.getCommands {L : Type} (c : Conf L) (a : LF N) (players : Dict N ObsState) (t : ℝ) :
    LF N × Except Err (Cmd L) :=
  match a.myName with
  | none => (a, .error .key)
  | some me => match Dict.get? players me with
    | none => (a, .error .key)
    | some my =>
      let a1 := a.measure my
      match lanePoseOf c.closest c.lane my.pose with
      | .error e => (a1, .error e)
      | .ok lp =>
        let a2 := { a1 with pursuit := a1.pursuit.updatePose my.pose lp.along }
        match speedRef c.behavior me players with
        | .error e => (a2, .error e)
        | .ok (ref, emergency) => (a2.refer c ref emergency).control c t

/-- The calls the simulator makes. -/
inductive Call (N : Type) where
  | init (name : N)
  | ask (players : Dict N ObsState) (t : ℝ)

/-- One call; nothing is returned by `on_episode_init`. -/
noncomputable def LF.step {L : Type} (c : Conf L) (a : LF N) : Call N → LF N × Option (Except Err (Cmd L))
  | .init n => (a.onInit c n, none)
  | .ask ps t => ((a.getCommands c ps t).1, some (a.getCommands c ps t).2)

/-- A history of calls: the agent afterwards and the results in order. -/
noncomputable def LF.run {L : Type} (c : Conf L) : LF N → List (Call N) → LF N × List (Except Err (Cmd L))
  | a, [] => (a, [])
  | a, o :: os =>
    let r := a.step c o
    let q := LF.run c r.1 os
    (q.1, r.2.toList ++ q.2)

end Agents
end Verif
