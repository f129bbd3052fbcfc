import Verif.Dict
import Verif.Seq.Model

/-!
# The simulator (src/dg_commons/sim/simulator.py, simulator_structures.py)

Everything the simulator calls and does not implement itself (agents, sensors, models, goals,
obstacle queries, collision resolution) is a field of `World`: an arbitrary function that may read
and change a global state `W` and may raise. Agents, sensors, random generators and so on live in
`W`; the models of the players are kept in the dictionary `models` as in the code, because the
simulator itself moves them around.

Simplifications: the numbers used as time are any linear order with sums and differences (the theorems use
ordered fields, that is, `Decimal` without rounding; `Sim/ClockProps` relates them to `Decimal`); logging output and wall-clock
timing are not modelled (the logged computation time is part of the agent's answer); agents do not
modify the observation objects they are given and do not keep references to models.
`trace` is a ghost record of the external calls; it is never read.
-/

namespace Verif
namespace Sim

/-- `SimObservations`, simulator_structures.py:48-53, with `PlayerObservations` (42-45) as a pair
of state and occupancy. -/
structure Obs (N K X P : Type) where
  players : Dict N (X × P)
  time : K
  deriving DecidableEq, Repr

/-- The code called by the simulator. -/
structure World (N K : Type) where
  /-- state of agents, sensors, ... -/
  W : Type
  /-- `SimModel` objects, simulator_structures.py:148-219 -/
  M : Type
  /-- model states -/
  X : Type
  /-- footprints (shapely polygons) -/
  P : Type
  /-- commands -/
  C : Type
  /-- logged computation time -/
  I : Type
  /-- extra objects -/
  E : Type
  /-- static obstacles -/
  O : Type
  /-- content of a collision report apart from players and time -/
  D : Type
  /-- planning goals -/
  G : Type
  /-- `model.get_state()` (a deep copy, simulator_structures.py:205-206) -/
  getState : M → X
  /-- `model.get_footprint()` -/
  footprint : M → P
  /-- `isinstance(model, DynObstacleModel)`, simulator.py:217 -/
  isDyn : M → Bool
  /-- `agent.on_episode_init`, simulator.py:96 -/
  onInit : W → N → Except Err W
  /-- `sensors[n].sense(...)`, simulator.py:136 -/
  sense : W → N → Obs N K X P → Except Err (W × Obs N K X P)
  /-- `agent.get_commands(...)`, simulator.py:140, with the measured computation time -/
  getCommands : W → N → Obs N K X P → Except Err (W × C × I)
  /-- `agent.on_get_extra()`, simulator.py:145 -/
  getExtra : W → N → Except Err (W × Option E)
  /-- `model.update(cmds, dt)`, simulator.py:150 -/
  update : W → N → M → C → K → Except Err (W × M)
  /-- `m.is_fulfilled(state, t)`, simulator.py:262 -/
  fulfilled : W → N → G → X → K → Except Err (W × Bool)
  /-- `strtree_obstacles.query(shape, "intersects")`, simulator.py:209 -/
  envQuery : W → P → List O
  /-- `EnvPlayer`, the name under which reports list the environment, collision.py:129 -/
  env : N
  /-- `resolve_collision_with_environment`, simulator.py:213: the model after the call, and a
  report, nothing or an exception -/
  resolveEnv : W → N → M → O → K → (W × M) × Except Err (Option D)
  /-- `a_shape.intersects(b_shape)`, simulator.py:242 -/
  touch : P → P → Bool
  /-- `resolve_collision`, simulator.py:244: both models after the call, and a report, nothing or an
  exception -/
  resolve : W → N → M → N → M → K → (W × M × M) × Except Err (Option D)

/-- Where an exception that ends `run` comes from. -/
inductive SimErr where
  /-- a builder of the log rejected a sample -/
  | logging (e : Err)
  /-- code called by the simulator raised -/
  | user (e : Err)
  /-- the simulator looked up a missing dictionary key -/
  | key
  deriving DecidableEq, Repr

/-- Lift an exception of called code. -/
def liftU {α : Type} : Except Err α → Except SimErr α
  | .ok a => .ok a
  | .error e => .error (.user e)

/-- A dictionary lookup `d[k]`. -/
def lookup {N α : Type} [DecidableEq N] (d : Dict N α) (n : N) : Except SimErr α :=
  match Dict.get? d n with
  | some a => .ok a
  | none => .error .key

/-- `builder.add(t=t, v=v)` inside the simulator. -/
def addLog {K α : Type} [LinearOrder K] (b : Builder K α) (t : K) (v : α) :
    Except SimErr (Builder K α) :=
  match b.add t v with
  | (b', .ok ()) => .ok b'
  | (_, .error e) => .error (.logging e)

variable {N K : Type}

/-- `PlayerLogger`, simulator_structures.py:106-113. -/
structure PlayerLogger (Wd : World N K) where
  states : Builder K Wd.X := {}
  commands : Builder K Wd.C := {}
  extra : Builder K Wd.E := {}
  info : Builder K Wd.I := {}

/-- `PlayerLog`, simulator_structures.py:82-89. -/
structure PlayerLog (Wd : World N K) where
  states : Seq K Wd.X
  commands : Seq K Wd.C
  extra : Seq K Wd.E
  info : Seq K Wd.I

/-- `CollisionReport` reduced to the players, the time and the rest
(collision_structures.py:30-60); `data = none` is `CollisionReport.get_empty`. -/
structure Report (Wd : World N K) where
  players : List N
  atTime : K
  data : Option Wd.D

/-- External calls, with the simulation time at which they happen (ghost). -/
inductive Event (Wd : World N K) where
  | sense (t : K) (n : N) (obs : Obs N K Wd.X Wd.P)
  | ask (t : K) (n : N) (obs : Obs N K Wd.X Wd.P)
  | drive (t : K) (n : N) (m : Wd.M) (c : Wd.C)
  | goal (t : K) (n : N) (x : Wd.X)
  | env (t : K) (n : N)
  | pair (t : K) (n₁ n₂ : N)

/-- `SimParameters` (simulator_structures.py:30-39) and the missions of the context. -/
structure Cfg (Wd : World N K) where
  dt : K
  dtCommands : K
  maxSimTime : K
  afterCollision : K
  missions : Dict N Wd.G

/-- `SimContext` (simulator.py:22-53) and the attributes of `Simulator` (77-80). The agents
themselves are in `w`; `players` are the keys of `sim_context.players`. `none` is Infinity for
`firstColl` and -Infinity for `lastCmdTs`. -/
structure St (Wd : World N K) where
  models : Dict N Wd.M
  players : List N
  w : Wd.W
  time : K
  terminated : Bool
  reports : List (Report Wd)
  firstColl : Option K
  lastObs : Obs N K Wd.X Wd.P
  lastCmdTs : Option K
  lastCmds : Dict N Wd.C
  logger : Dict N (PlayerLogger Wd)
  trace : List (Event Wd)

variable [DecidableEq N] [LinearOrder K] {Wd : World N K}

/-- `_need_to_update_commands`, simulator.py:267-269. -/
def need [Sub K] (cfg : Cfg Wd) (s : St Wd) : Bool :=
  match s.lastCmdTs with
  | none => true
  | some t => decide (cfg.dtCommands ≤ s.time - t)

/-- The loop of `pre_update`, simulator.py:116-119 (player names are distinct). -/
def observe (models : Dict N Wd.M) : List N → Except SimErr (Dict N (Wd.X × Wd.P))
  | [] => .ok []
  | n :: ns => do
    let m ← lookup models n
    let rest ← observe models ns
    return (n, (Wd.getState m, Wd.footprint m)) :: rest

/-- `pre_update`, simulator.py:108-126. -/
def preUpdate [Sub K] (cfg : Cfg Wd) (s : St Wd) : Except SimErr (St Wd) :=
  if need cfg s then do
    let ps ← observe s.models s.players
    return { s with lastObs := ⟨ps, s.time⟩ }
  else .ok s

/-- Logging of the extra object, simulator.py:146-147. -/
def addExtra (b : Builder K Wd.E) (t : K) : Option Wd.E → Except SimErr (Builder K Wd.E)
  | none => .ok b
  | some e => addLog b t e

/-- Sensing and asking for commands, simulator.py:135-147. -/
def askPlayer (s : St Wd) (n : N) : Except SimErr (St Wd) := do
  let (w1, o) ← liftU (Wd.sense s.w n s.lastObs)
  let (w2, c, i) ← liftU (Wd.getCommands w1 n o)
  let lg ← lookup s.logger n
  let commands ← addLog lg.commands s.time c
  let info ← addLog lg.info s.time i
  let (w3, ex) ← liftU (Wd.getExtra w2 n)
  let extra ← addExtra lg.extra s.time ex
  return { s with
    w := w3
    lastCmds := Dict.set s.lastCmds n c
    logger := Dict.set s.logger n { lg with commands := commands, info := info, extra := extra }
    trace := s.trace ++ [.sense s.time n s.lastObs, .ask s.time n o] }

/-- The test of simulator.py:135. -/
def maybeAsk [Sub K] (cfg : Cfg Wd) (s : St Wd) (n : N) : Except SimErr (St Wd) :=
  if need cfg s then askPlayer s n else .ok s

/-- Body of the loop of `update`, simulator.py:132-150. -/
def updatePlayer [Sub K] (cfg : Cfg Wd) (s : St Wd) (n : N) : Except SimErr (St Wd) := do
  let m ← lookup s.models n
  let lg ← lookup s.logger n
  let states ← addLog lg.states s.time (Wd.getState m)
  let s1 : St Wd := { s with logger := Dict.set s.logger n { lg with states := states } }
  let s2 ← maybeAsk cfg s1 n
  let c ← lookup s2.lastCmds n
  let m2 ← lookup s2.models n
  let (w', m') ← liftU (Wd.update s2.w n m2 c cfg.dt)
  return { s2 with
    w := w'
    models := Dict.set s2.models n m'
    trace := s2.trace ++ [.drive s.time n m2 c] }

/-- The loop of `update`, simulator.py:132-152. -/
def updateLoop [Sub K] (cfg : Cfg Wd) : St Wd → List N → Except SimErr (St Wd)
  | s, [] => .ok s
  | s, n :: ns => do
    let s' ← updatePlayer cfg s n
    updateLoop cfg s' ns

/-- `update`, simulator.py:128-155. -/
def update [Sub K] (cfg : Cfg Wd) (s : St Wd) : Except SimErr (St Wd) := do
  let s' ← updateLoop cfg s s.players
  return if need cfg s' then { s' with lastCmdTs := some s.time } else s'

/-- Body of the loop of `_remove_finished_players`, simulator.py:258-265. -/
def removePlayer (s : St Wd) (p : N) (g : Wd.G) : Except SimErr (St Wd) :=
  if p ∈ s.players then do
    let m ← lookup s.models p
    let x := Wd.getState m
    let (w', b) ← liftU (Wd.fulfilled s.w p g x s.time)
    let s1 : St Wd := { s with w := w', trace := s.trace ++ [.goal s.time p x] }
    if b then do
      let lg ← lookup s1.logger p
      let states ← addLog lg.states s1.time x
      return { s1 with
        logger := Dict.set s1.logger p { lg with states := states }
        players := s1.players.erase p }
    else return s1
  else .ok s

/-- `_remove_finished_players`, simulator.py:256-265. -/
def removeLoop : St Wd → Dict N Wd.G → Except SimErr (St Wd)
  | s, [] => .ok s
  | s, (p, g) :: rest => do
    let s' ← removePlayer s p g
    removeLoop s' rest

/-- `sim_context.time > sim_context.first_collision_ts + sim_time_after_collision`,
simulator.py:185. -/
def collTimer [Add K] (cfg : Cfg Wd) (s : St Wd) : Bool :=
  match s.firstColl with
  | none => false
  | some t => decide (t + cfg.afterCollision < s.time)

/-- The condition of `_maybe_terminate_simulation`, simulator.py:183-193. -/
def terminationCondition [Add K] (cfg : Cfg Wd) (s : St Wd) : Bool :=
  let timers : Bool := decide (cfg.maxSimTime < s.time) || collTimer cfg s || s.players.isEmpty
  if !timers then
    if !cfg.missions.isEmpty then (Dict.keys cfg.missions).all (fun p => decide (p ∉ s.players))
    else timers
  else timers

/-- Recording of a report with the environment, simulator.py:219-223. -/
def recordReport (s : St Wd) (r : Report Wd) : St Wd :=
  { s with
    reports := s.reports ++ [r]
    firstColl := match s.firstColl with
      | none => some r.atTime
      | some t => if r.atTime < t then some r.atTime else some t }

/-- The report (or none) from the outcome of a resolution: a `CollisionException` gives an empty
report on the players `failed`, other exceptions propagate (simulator.py:212-218, 243-247). -/
def reportOf (players failed : List N) (t : K) : Except Err (Option Wd.D) →
    Except SimErr (Option (Report Wd))
  | .ok none => .ok none
  | .ok (some d) => .ok (some ⟨players, t, some d⟩)
  | .error .collision => .ok (some ⟨failed, t, none⟩)
  | .error e => .error (.user e)

/-- Body of the inner loop of `_check_collisions_with_environment`, simulator.py:210-223. The
report built by `resolve_collision_with_environment` carries the given time, the player and the
environment as a fictitious player (collision.py:133-210). -/
def envObstacle (s : St Wd) (p : N) (o : Wd.O) : Except SimErr (St Wd) := do
  let m ← lookup s.models p
  let r := Wd.resolveEnv s.w p m o s.time
  let s1 : St Wd := { s with w := r.1.1, models := Dict.set s.models p r.1.2 }
  let report ← reportOf [p, Wd.env] [p] s.time r.2
  return match report with
    | some rep => if !(Wd.isDyn r.1.2) then recordReport s1 rep else s1
    | none => s1

/-- Inner loop, simulator.py:210-223. -/
def envObstacles (p : N) : St Wd → List Wd.O → Except SimErr (St Wd)
  | s, [] => .ok s
  | s, o :: os => do
    let s' ← envObstacle s p o
    envObstacles p s' os

/-- `_check_collisions_with_environment`, simulator.py:197-225. -/
def envLoop : St Wd → List N → Except SimErr (St Wd)
  | s, [] => .ok s
  | s, p :: ps => do
    let m ← lookup s.models p
    let items := Wd.envQuery s.w (Wd.footprint m)
    let s' ← envObstacles p { s with trace := s.trace ++ [.env s.time p] } items
    envLoop s' ps

/-- `itertools.combinations(players, 2)`, simulator.py:239. -/
def combinations2 : List N → List (N × N)
  | [] => []
  | a :: l => l.map (fun b => (a, b)) ++ combinations2 l

/-- Body of the loop of `_check_collisions_among_players`, simulator.py:239-253. The report built
by `resolve_collision` carries the time of the context and both players (collision.py:40-126). -/
def checkPair (s : St Wd) (p1 p2 : N) : Except SimErr (St Wd) := do
  let m1 ← lookup s.models p1
  let m2 ← lookup s.models p2
  let s0 : St Wd := { s with trace := s.trace ++ [.pair s.time p1 p2] }
  if Wd.touch (Wd.footprint m1) (Wd.footprint m2) then do
    let r := Wd.resolve s.w p1 m1 p2 m2 s.time
    let s1 : St Wd := { s0 with
      w := r.1.1, models := Dict.set (Dict.set s.models p1 r.1.2.1) p2 r.1.2.2 }
    let report ← reportOf [p1, p2] [p1, p2] s.time r.2
    return match report with
      | some rep => recordReport s1 rep
      | none => s1
  else return s0

/-- Loop of `_check_collisions_among_players`. -/
def pairLoop : St Wd → List (N × N) → Except SimErr (St Wd)
  | s, [] => .ok s
  | s, (a, b) :: rest => do
    let s' ← checkPair s a b
    pairLoop s' rest

/-- `post_update`, simulator.py:157-172. -/
def postUpdate [Add K] (cfg : Cfg Wd) (s : St Wd) : Except SimErr (St Wd) := do
  let s1 : St Wd := { s with time := s.time + cfg.dt }
  let s2 ← removeLoop s1 cfg.missions
  let s3 : St Wd := { s2 with terminated := terminationCondition cfg s2 }
  if s3.terminated then return s3
  else do
    let s4 ← envLoop s3 s3.players
    pairLoop s4 (combinations2 s4.players)

/-- Body of the simulation loop, simulator.py:99-102. -/
def step [Add K] [Sub K] (cfg : Cfg Wd) (s : St Wd) : Except SimErr (St Wd) := do
  let s1 ← preUpdate cfg s
  let s2 ← update cfg s1
  postUpdate cfg s2

/-- `while not sim_context.sim_terminated`, simulator.py:99-102, cut after `fuel` iterations
(`none`: still running). -/
def loop [Add K] [Sub K] (cfg : Cfg Wd) : Nat → St Wd → Option (Except SimErr (St Wd))
  | 0, s => if s.terminated then some (.ok s) else none
  | fuel + 1, s =>
    if s.terminated then some (.ok s)
    else match step cfg s with
      | .error e => some (.error e)
      | .ok s' => loop cfg fuel s'

/-- Initialisation of the episode, simulator.py:85-97. -/
def initLoop : St Wd → List N → Except SimErr (St Wd)
  | s, [] => .ok s
  | s, n :: ns => do
    let _ ← lookup s.models n
    let w' ← liftU (Wd.onInit s.w n)
    initLoop { s with w := w', logger := Dict.set s.logger n {} } ns

/-- `PlayerLogger.as_sequence`, simulator_structures.py:115-123. -/
def PlayerLogger.asSequence (lg : PlayerLogger Wd) : Except Err (PlayerLog Wd) :=
  match lg.states.asSequence, lg.commands.asSequence, lg.extra.asSequence, lg.info.asSequence with
  | .ok s, .ok c, .ok e, .ok i => .ok ⟨s, c, e, i⟩
  | .error e, _, _, _ => .error e
  | _, .error e, _, _ => .error e
  | _, _, .error e, _ => .error e
  | _, _, _, .error e => .error e

/-- Writing the log, simulator.py:104-105. -/
def writeLog (logger : Dict N (PlayerLogger Wd)) : List N → Dict N (PlayerLog Wd) →
    Except SimErr (Dict N (PlayerLog Wd))
  | [], log => .ok log
  | n :: ns, log => do
    let lg ← lookup logger n
    match lg.asSequence with
    | .error e => .error (.logging e)
    | .ok l => writeLog logger ns (Dict.set log n l)

/-- `run`, simulator.py:82-106: final state and log; `none` if not finished after `fuel` steps. -/
def run [Add K] [Sub K] (cfg : Cfg Wd) (fuel : Nat) (s : St Wd) (log : Dict N (PlayerLog Wd)) :
    Option (Except SimErr (St Wd × Dict N (PlayerLog Wd))) :=
  match initLoop s s.players with
  | .error e => some (.error e)
  | .ok s1 =>
    match loop cfg fuel s1 with
    | none => none
    | some (.error e) => some (.error e)
    | some (.ok s2) =>
      match writeLog s2.logger (Dict.keys s2.models) log with
      | .error e => some (.error e)
      | .ok l => some (.ok (s2, l))

/-- A new `Simulator` object on a new context (simulator.py:37-53, 77-80): time zero, nothing
recorded, the players are the keys of the models (assert at line 56). The class-level dictionaries
`last_commands` and `simlogger` may contain anything. -/
structure Fresh [Zero K] (s : St Wd) : Prop where
  time : s.time = 0
  terminated : s.terminated = false
  reports : s.reports = []
  firstColl : s.firstColl = none
  lastCmdTs : s.lastCmdTs = none
  wfModels : Dict.Wf s.models
  players : s.players.Nodup
  keys : ∀ n, n ∈ s.players ↔ n ∈ Dict.keys s.models
  trace : s.trace = []

end Sim
end Verif
