import Verif.Whole.Model
import Verif.Coll.Geometry
import Verif.Phys.SolverAll

/-!
# The simulator with the models of the library

`Coll.Iface` and `Whole.Parts` leave the models open. Here they are the eight models of src/dg_commons/sim/models, with the
equations of `Verif.Phys`, the solver of `Verif.Phys.SolverAll`, `get_velocity` and `set_velocity` of `Verif.Phys.Models` and
the impact geometry of `Verif.Coll.Geometry`. Open remain the shapes (shapely), the lanes, the sizes of the steps that the
solver accepts, agents, sensors, goals and the spatial index.
-/

namespace Verif
namespace Whole
namespace Fleet

open Phys Coll Sim

/-- Which of the models occur; kinematic vehicles, differential drives, spacecraft, spaceships and moving obstacles always
may. -/
structure Allowed where
  dynamic : Bool
  pedestrian : Bool
  rocket : Bool

/-- A model with its parameters and its state: `VehicleModel` (vehicle.py:140), `VehicleModelDyn` (vehicle_dynamic.py:74),
`PedestrianModel` (pedestrian.py:155), `DiffDriveModel` (diff_drive.py:108), `SpacecraftModel` (spacecraft.py:136),
`SpaceshipModel` (spaceship.py:153), `RocketModel` (rocket.py:156), `DynObstacleModel` (obstacles_dyn.py:143). -/
inductive Machine (A : Allowed) where
  | car (wb lr : ℝ) (p : VehicleParams ℝ) (isCar : Bool) (s : VehicleState ℝ)
  | dynamic (ok : A.dynamic = true) (g : VehicleGeom) (p : VehicleParams ℝ) (front rear : Pacejka) (isCar : Bool)
      (s : VehicleStateDyn ℝ)
  | pedestrian (ok : A.pedestrian = true) (p : ModelParams ℝ) (dpsiMax : ℝ) (s : PedestrianState ℝ)
  | drive (wb R lo hi : ℝ) (s : DiffDriveState ℝ)
  | craft (p : ModelParams ℝ) (lo hi w m iz : ℝ) (s : SpacecraftState ℝ)
  | ship (p : ThrustParams) (s : SpaceshipState ℝ)
  | rocket (ok : A.rocket = true) (p : ThrustParams) (s : RocketState ℝ)
  | obstacle (p : ModelParams ℝ) (lo hi : ℝ) (s : DynObstacleState ℝ)

/-- The states that `get_state` may return. -/
inductive AnyState where
  | car (s : VehicleState ℝ)
  | dynamic (s : VehicleStateDyn ℝ)
  | pedestrian (s : PedestrianState ℝ)
  | drive (s : DiffDriveState ℝ)
  | craft (s : SpacecraftState ℝ)
  | ship (s : SpaceshipState ℝ)
  | rocket (s : RocketState ℝ)
  | obstacle (s : DynObstacleState ℝ)

/-- The commands of the models; both vehicles take the same. -/
inductive AnyCmd where
  | car (u : VehicleCommands ℝ)
  | pedestrian (u : PedestrianCommands ℝ)
  | drive (u : DiffDriveCommands ℝ)
  | craft (u : SpacecraftCommands ℝ)
  | ship (u : SpaceshipCommands ℝ)
  | rocket (u : RocketCommands ℝ)
  | obstacle (u : DynObstacleCommands ℝ)

namespace Machine
variable {A : Allowed}

/-- `get_state`, simulator_structures.py:166-167, as pictured in the observations and the log. -/
def state : Machine A → AnyState
  | car _ _ _ _ s => .car s
  | dynamic _ _ _ _ _ _ s => .dynamic s
  | pedestrian _ _ _ s => .pedestrian s
  | drive _ _ _ _ s => .drive s
  | craft _ _ _ _ _ _ s => .craft s
  | ship _ s => .ship s
  | rocket _ _ s => .rocket s
  | obstacle _ _ _ s => .obstacle s

/-- `get_pose`, vehicle.py:233-234 and the same function in the other models: position and heading. -/
def pose : Machine A → (ℝ × ℝ) × ℝ
  | car _ _ _ _ s => ((s.x, s.y), s.psi)
  | dynamic _ _ _ _ _ _ s => ((s.x, s.y), s.psi)
  | pedestrian _ _ _ s => ((s.x, s.y), s.psi)
  | drive _ _ _ _ s => ((s.x, s.y), s.psi)
  | craft _ _ _ _ _ _ s => ((s.x, s.y), s.psi)
  | ship _ s => ((s.x, s.y), s.psi)
  | rocket _ _ s => ((s.x, s.y), s.psi)
  | obstacle _ _ _ s => ((s.x, s.y), s.psi)

/-- `get_velocity(in_model_frame=False)`, see `Verif.Phys.Models`. -/
noncomputable def velocity : Machine A → (ℝ × ℝ) × ℝ
  | car wb lr _ _ s => s.getVelocity wb lr false
  | dynamic _ _ _ _ _ _ s => s.getVelocity false
  | pedestrian _ _ _ s => s.getVelocity false
  | drive _ _ _ _ s => s.getVelocity false
  | craft _ _ _ _ _ _ s => s.getVelocity false
  | ship _ s => s.getVelocity false
  | rocket _ _ s => s.getVelocity false
  | obstacle _ _ _ s => s.getVelocity false

/-- `set_velocity(vel, omega, in_model_frame=False)`, see `Verif.Phys.Models`. -/
noncomputable def setVelocity (v : ℝ × ℝ) (w : ℝ) : Machine A → Machine A
  | car wb lr p c s => car wb lr p c (s.setVelocity v w false)
  | dynamic ok g p f r c s => dynamic ok g p f r c (s.setVelocity v w false)
  | pedestrian ok p d s => pedestrian ok p d (s.setVelocity v w false)
  | drive wb R lo hi s => drive wb R lo hi (s.setVelocity v w false)
  | craft p lo hi a m iz s => craft p lo hi a m iz (s.setVelocity v w false)
  | ship p s => ship p (s.setVelocity v w false)
  | rocket ok p s => rocket ok p (s.setVelocity v w false)
  | obstacle p lo hi s => obstacle p lo hi (s.setVelocity v w false)

/-- `update`, see `Verif.Phys.SolverAll`. Simplified: the code would take the array of commands of another model for its own
commands; here such commands raise. -/
noncomputable def update (tab : Tableau ℝ) (collided : Bool) (steps : List ℝ) : Machine A → AnyCmd → Except Err (Machine A)
  | car wb lr p c s, .car u => (vehicleCall wb lr p c tab ⟨u, collided, steps⟩ s).map (car wb lr p c)
  | dynamic ok g p f r c s, .car u => (vehicleDynCall g p f r c tab ⟨u, collided, steps⟩ s).map (dynamic ok g p f r c)
  | pedestrian ok p d s, .pedestrian u => (pedestrianCall p d tab ⟨u, collided, steps⟩ s).map (pedestrian ok p d)
  | drive wb R lo hi s, .drive u => (diffDriveCall wb R lo hi tab ⟨u, collided, steps⟩ s).map (drive wb R lo hi)
  | craft p lo hi a m iz s, .craft u => (spacecraftCall p lo hi a m iz tab ⟨u, collided, steps⟩ s).map (craft p lo hi a m iz)
  | ship p s, .ship u => (spaceshipCall p tab ⟨u, collided, steps⟩ s).map (ship p)
  | rocket ok p s, .rocket u => (rocketCall p tab ⟨u, collided, steps⟩ s).map (rocket ok p)
  | obstacle p lo hi s, .obstacle u => (dynObstacleCall p lo hi tab ⟨u, collided, steps⟩ s).map (obstacle p lo hi)
  | _, _ => .error .attribute

/-- Whether `get_mesh` has four sides (vehicle.py:218-231, diff_drive.py:177-190) or is the footprint (pedestrian.py:229-230,
spacecraft.py:214-221, spaceship.py:251-258, rocket.py:258-265, obstacles_dyn.py:230-235). -/
def sided : Machine A → Bool
  | car .. => true
  | dynamic .. => true
  | drive .. => true
  | _ => false

/-- `isinstance(model, DynObstacleModel)`, simulator.py:217. -/
def isObstacle : Machine A → Bool
  | obstacle .. => true
  | _ => false

end Machine

/-- A model with its outline in its own frame (`outline_as_polygon`, obstacles_dyn.py:154 `shape`), the part of its geometry
that the collision code reads, and `has_collided`. That the mass here is also that in the equations of motion is not needed. -/
structure Body (A : Allowed) (S : Type) where
  machine : Machine A
  outline : S
  geom : Geom ℝ
  collided : Bool

/-- The shapes and the lanes. -/
structure Surroundings (N : Type) where
  G : ShapeOps
  /-- impact locations -/
  L : Type
  Lane : Type
  /-- `apply_SE2_to_shapely_geo(outline, pose)` -/
  place : G.S → (ℝ × ℝ) × ℝ → G.S
  /-- the four triangles from the corners and the centroid of a footprint, vehicle.py:219-228 -/
  sides : G.S → List (L × G.S)
  /-- `a.intersects(b)` -/
  intersects : G.S → G.S → Bool
  lanesAt : ℝ × ℝ → List Lane
  lanePose : Lane → (ℝ × ℝ) × ℝ → Bool × Bool
  toPolygon : G.S → Except Err G.S
  everywhere : L
  envPlayer : N

variable {N : Type}

/-- `compute_impact_geometry`, collision_utils.py:82-113, for the collision code. Simplified: a normal of NaN, from two equal
contact points or equal centroids, would go on into velocities of NaN; here it raises. -/
noncomputable def geometryOf (G : ShapeOps) (a b : G.S) : Except Err ((ℝ × ℝ) × (ℝ × ℝ)) :=
  match impactGeometry G a b with
  | .error e => .error e
  | .ok (some n, p) => .ok (n, p)
  | .ok (none, _) => .error .value

/-- What the collision code sees of the models: `SimModel`, simulator_structures.py:148-219, with `get_footprint`
(vehicle.py:211-216 and the same function in the other models). The assertions that shapes are valid are left out. -/
noncomputable abbrev fleet (E : Surroundings N) (A : Allowed) : Iface N ℝ where
  M := Body A E.G.S
  S := E.G.S
  L := E.L
  Q := (ℝ × ℝ) × ℝ
  Lane := E.Lane
  footprint m := E.place m.outline m.machine.pose
  pose m := m.machine.pose
  translation q := q.1
  velocity m := m.machine.velocity
  setVelocity m v w := { m with machine := m.machine.setVelocity v w }
  geom m := m.geom
  hasCollided m := m.collided
  mark m := { m with collided := true }
  mesh m := if m.machine.sided then E.sides (E.place m.outline m.machine.pose)
    else [(E.everywhere, E.place m.outline m.machine.pose)]
  intersects := E.intersects
  impactGeometry := geometryOf E.G
  lanesAt := E.lanesAt
  lanePose := E.lanePose
  toPolygon := E.toPolygon
  everywhere := E.everywhere
  envPlayer := E.envPlayer

/-- Agents, sensors, goals and the spatial index; see `Whole.Parts`. -/
structure Crew (N : Type) (S : Type) where
  A : Type
  V : Type
  I : Type
  E : Type
  G : Type
  onInit : A → N → Except Err A
  sense : V → N → Obs N ℝ AnyState S → Except Err (V × Obs N ℝ AnyState S)
  ask : A → Obs N ℝ AnyState S → Except Err (A × AnyCmd × I)
  extra : A → Except Err (A × Option E)
  fulfilled : V → N → G → AnyState → ℝ → Except Err (V × Bool)
  envQuery : V → S → List (S × Geom ℝ)

/-- How the solver divides the time step, for a model and its commands. -/
abbrev Pace (A : Allowed) (S : Type) := Body A S → AnyCmd → ℝ → List ℝ

/-- The simulation with the models of the library. -/
noncomputable abbrev parts (E : Surroundings N) (A : Allowed) (tab : Tableau ℝ) (pace : Pace A E.G.S) (R : Crew N E.G.S) :
    Parts N ℝ (fleet E A).M (fleet E A).S where
  A := R.A
  V := R.V
  X := AnyState
  C := AnyCmd
  I := R.I
  E := R.E
  G := R.G
  getState m := m.machine.state
  isDyn m := m.machine.isObstacle
  onInit := R.onInit
  sense := R.sense
  ask := R.ask
  extra := R.extra
  update v _ m c dt := (m.machine.update tab m.collided (pace m c dt) c).map (fun x => (v, { m with machine := x }))
  fulfilled := R.fulfilled
  envQuery := R.envQuery

end Fleet
end Whole
end Verif
