import Verif.Sim.Closed
import Verif.Coll.ResolveProps

/-!
# The simulator together with the collision code and one agent per player

`Sim.World` leaves everything the simulator calls open. Here the collision code of `Coll` is put in its
place, and the state of the world is split into the agents, of which every call touches only the one of
the player at hand, and the rest.
-/

namespace Verif
namespace Whole

open Sim Coll

/-- What remains open: agents, sensors, models (apart from what the collision code uses, see
`Coll.Iface`), goals and the spatial index. -/
structure Parts (N K M S : Type) where
  /-- agents, sim/agents/agent.py:14-36 -/
  A : Type
  /-- sensors and everything else with a state -/
  V : Type
  X : Type
  C : Type
  I : Type
  E : Type
  G : Type
  getState : M → X
  /-- `isinstance(model, DynObstacleModel)`, simulator.py:217 -/
  isDyn : M → Bool
  /-- `on_episode_init`, agent.py:17-20 -/
  onInit : A → N → Except Err A
  /-- `sense`, simulator.py:136 -/
  sense : V → N → Obs N K X S → Except Err (V × Obs N K X S)
  /-- `get_commands`, agent.py:25-28, with the measured computation time -/
  ask : A → Obs N K X S → Except Err (A × C × I)
  /-- `on_get_extra`, agent.py:30-36 -/
  extra : A → Except Err (A × Option E)
  /-- `update`, simulator_structures.py:155-158 -/
  update : V → N → M → C → K → Except Err (V × M)
  /-- `is_fulfilled`, simulator.py:262 -/
  fulfilled : V → N → G → X → K → Except Err (V × Bool)
  /-- the obstacles, shape and geometry, that the index finds, simulator.py:209 -/
  envQuery : V → S → List (S × Geom K)

variable {N K : Type} [DecidableEq N] [Field K] [LinearOrder K]

/-- The world of the simulator: `sim.players[n]`, the collision code (simulator.py:212-218, 242-247) and
the rest. `scenario` tells whether the context has a scenario. -/
abbrev world (F : Iface N K) (scenario : Bool) (R : Parts N K F.M F.S) : World N K where
  W := (N → R.A) × R.V
  M := F.M
  X := R.X
  P := F.S
  C := R.C
  I := R.I
  E := R.E
  O := F.S × Geom K
  D := CollisionReport N K F.L F.S
  G := R.G
  getState := R.getState
  footprint := F.footprint
  isDyn := R.isDyn
  onInit w n := match R.onInit (w.1 n) n with
    | .error e => .error e
    | .ok a => .ok (Function.update w.1 n a, w.2)
  sense w n o := match R.sense w.2 n o with
    | .error e => .error e
    | .ok (v, o') => .ok ((w.1, v), o')
  getCommands w n o := match R.ask (w.1 n) o with
    | .error e => .error e
    | .ok (a, c, i) => .ok ((Function.update w.1 n a, w.2), c, i)
  getExtra w n := match R.extra (w.1 n) with
    | .error e => .error e
    | .ok (a, x) => .ok ((Function.update w.1 n a, w.2), x)
  update w n m c dt := match R.update w.2 n m c dt with
    | .error e => .error e
    | .ok (v, m') => .ok ((w.1, v), m')
  fulfilled w n g x t := match R.fulfilled w.2 n g x t with
    | .error e => .error e
    | .ok (v, b) => .ok ((w.1, v), b)
  envQuery w s := R.envQuery w.2 s
  env := F.envPlayer
  resolveEnv w n m o t :=
    let r := Coll.resolveEnv F t n m o.1 o.2
    ((w, r.1), r.2)
  touch := F.intersects
  resolve w a ma b mb t :=
    let r := Coll.resolve F scenario t a ma b mb
    ((w, r.1.1, r.1.2), r.2)

/-- What the collision flag of a model has to do with the other operations: driving a model
(`update` in sim/models/*.py) does not touch it, nor does setting the velocity, and no operation changes
the class of a model. -/
structure Lawful (F : Iface N K) (R : Parts N K F.M F.S) (dt : K) : Prop where
  marked : ∀ m, F.hasCollided (F.mark m) = true
  setVelocity : ∀ m v o, F.hasCollided (F.setVelocity m v o) = F.hasCollided m
  update : ∀ v n m c v' m', R.update v n m c dt = .ok (v', m') → F.hasCollided m' = F.hasCollided m
  dynMark : ∀ m, R.isDyn (F.mark m) = R.isDyn m
  dynVelocity : ∀ m v o, R.isDyn (F.setVelocity m v o) = R.isDyn m
  dynUpdate : ∀ v n m c v' m', R.update v n m c dt = .ok (v', m') → R.isDyn m' = R.isDyn m

end Whole
end Verif
