import Verif.Sim.Model

/-!
# Building a simulation context (src/dg_commons/sim/simulator.py:22-65)
-/

namespace Verif
namespace Sim

variable {N K : Type}

/-- What is given to `SimContext`, simulator.py:29-40; the clock, log, reports and seed are left at their
defaults. `none` among models, players and missions is an object of a wrong class. `missions` may be `None`.
`sensors = none` is the default of line 39, which makes an `IdObsFilter` for every player on demand; otherwise it
is a dictionary. Agents are in the state of the world. -/
structure Args (Wd : World N K) (A F : Type) where
  isScenario : Bool
  models : Dict N (Option Wd.M)
  players : Dict N (Option A)
  missions : Option (Dict N (Option Wd.G))
  sensors : Option (Dict N F)

variable [DecidableEq N] {Wd : World N K} {A F : Type}

/-- Python's `assert`. -/
def assertThat (b : Bool) : Except Err Unit := if b then .ok () else .error .assertion

/-- `d1.keys() == d2.keys()`. -/
def sameKeys {α β : Type} (d : Dict N α) (e : Dict N β) : Bool :=
  (Dict.keys d).all (fun n => decide (n ∈ Dict.keys e)) && (Dict.keys e).all (fun n => decide (n ∈ Dict.keys d))

/-- The check of the missions, simulator.py:57-60. -/
def Args.checkMissions (a : Args Wd A F) : Except Err Unit :=
  match a.missions with
  | none => pure ()
  | some ms => do
    assertThat ((Dict.keys ms).all fun p => decide (p ∈ Dict.keys a.models))
    assertThat (ms.all fun (m : N × Option Wd.G) => m.2.isSome)

/-- `__post_init__`, simulator.py:55-65; `players[pname]` exists by the first assertion. -/
def Args.postInit (a : Args Wd A F) : Except Err Unit := do
  assertThat (sameKeys a.models a.players)
  a.checkMissions
  assertThat a.isScenario
  assertThat ((Dict.keys a.models).all fun n =>
    (match Dict.get? a.models n with | some (some _) => true | _ => false) &&
    (match Dict.get? a.players n with | some (some _) => true | _ => false))

/-- The entries of the right class. -/
def typed {α : Type} (d : Dict N (Option α)) : Dict N α :=
  d.filterMap fun (p : N × Option α) => p.2.map fun a => (p.1, a)

/-- The world in which `sensors[player_name]`, simulator.py:136, is looked up in the context; `IdObsFilter.sense`,
sim_perception.py:37-38, returns what it is given. -/
def withSensors (Wd : World N K) (sensors : Option (Dict N F))
    (sense : F → Wd.W → N → Obs N K Wd.X Wd.P → Except Err (Wd.W × Obs N K Wd.X Wd.P)) : World N K :=
  { Wd with
    sense := fun w n o =>
      match sensors with
      | none => .ok (w, o)
      | some d =>
        match Dict.get? d n with
        | none => .error .key
        | some f => sense f w n o }

/-- What `sense` of a filter does. -/
abbrev SenseFn (Wd : World N K) (F : Type) : Type :=
  F → Wd.W → N → Obs N K Wd.X Wd.P → Except Err (Wd.W × Obs N K Wd.X Wd.P)

/-- The world with the sensors of the context. -/
abbrev Args.world (a : Args Wd A F) (sense : SenseFn Wd F) : World N K := withSensors Wd a.sensors sense

variable [Field K] [LinearOrder K]

/-- Class attributes of `Simulator`, simulator.py:77-80, that other runs may have changed. -/
structure Leftovers (Wd : World N K) where
  obs : Obs N K Wd.X Wd.P
  cmds : Dict N Wd.C
  logger : Dict N (PlayerLogger Wd)

/-- The state in which `run` begins. -/
def Args.start (a : Args Wd A F) (sense : SenseFn Wd F) (w : Wd.W) (l : Leftovers (a.world sense)) :
    St (a.world sense) where
  models := typed a.models
  players := Dict.keys a.players
  w := w
  time := 0
  terminated := false
  reports := []
  firstColl := none
  lastObs := l.obs
  lastCmdTs := none
  lastCmds := l.cmds
  logger := l.logger
  trace := []

/-- `SimParameters`, simulator_structures.py:30-39. -/
structure Params (K : Type) where
  dt : K
  dtCommands : K
  maxSimTime : K
  afterCollision : K

/-- Parameters and missions. -/
def Params.cfg {Wd : World N K} (p : Params K) (ms : Dict N Wd.G) : Cfg Wd :=
  ⟨p.dt, p.dtCommands, p.maxSimTime, p.afterCollision, ms⟩

/-- `SimContext(...)` followed by `Simulator().run(context)`. `None` has neither `get`, simulator.py:92, nor
`items`, simulator.py:258, so one of them raises in each run. -/
def Args.run (a : Args Wd A F) (sense : SenseFn Wd F) (p : Params K) (fuel : Nat) (w : Wd.W)
    (l : Leftovers (a.world sense)) :
    Option (Except SimErr (St (a.world sense) × Dict N (PlayerLog (a.world sense)))) :=
  match a.postInit with
  | .error e => some (.error (.user e))
  | .ok () =>
    match a.missions with
    | none => some (.error (.user .attribute))
    | some ms => Sim.run (Wd := a.world sense) (p.cfg (typed ms)) fuel (a.start sense w l) []

end Sim
end Verif
