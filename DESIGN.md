# Formal model of dg-commons: design

The project under study is `/repo` (dg-commons, Python). Nothing of it is executed here.
The Lean 4 development in `/verif/lean` is a hand-written model of its pure and
state-machine core, with theorems on the model. This file says what is trusted, what is
modelled, how each property of `properties.jsonl` is proved, and where the code and the
property disagree.

## 1. Trusted base

1. The Lean 4.33.0 kernel (and the elaborator only as far as it states the theorems).
2. The axioms of Lean/Mathlib that a theorem may depend on: `propext`,
   `Classical.choice`, `Quot.sound`. No axiom is added here, no `sorry`, no
   `native_decide`, no `bv_decide`.
   The axioms behind the theorems of `MANIFEST.json` are listed in section 6.
3. The faithfulness of the model: each definition cites the file and lines it models and
   states its simplifications. Nothing checks this mechanically.
4. The specifications: the small definitions in the `*Spec`/`*Props` files.

## 2. Modelling conventions

| code | model |
|---|---|
| `decimal.Decimal` and `float` numbers used as time | exact rationals `ℚ` (or any ordered field); `C134` proves for the simulator when rounding to 28 digits / 53 bits changes nothing, `C138`–`C140`, `C142`–`C144` treat sequences, the PID controller, upsampling, the discrete bicycle and impulses with rounded operations, elsewhere rounding is not modelled |
| `SimTime("Infinity")`, `SimTime("-Infinity")` | `Option ℚ` with `none` for the infinite value |
| non-finite timestamps given to a sequence | explicit constructors (only for C72) |
| physical quantities (`float`) | a linear ordered field `K` (often `ℚ`/`ℝ`); trigonometry over `ℝ` |
| `numpy` 2-vectors, SE2 matrices | pairs / structures with fields |
| exceptions | values of `Except Err _`, one constructor per exception class |
| dictionaries | insertion ordered association lists with the update rule of Python's dict |
| sets | lists, with membership statements only |
| object mutation | functions returning the new state |
| loops | structural recursion, folds, or a fuel argument that is proved sufficient |
| shapely, scipy (`solve_ivp`, `minimize_scalar`), networkx, commonroad, agents, goals | parameters (arbitrary functions) with the assumptions stated as hypotheses; for C147 and kinematic vehicles `solve_ivp` is any explicit Runge-Kutta method with arbitrary step sizes |
| log messages, wall-clock time | not modelled; drawing is modelled as the list of what is drawn (`Viz/*`) |

Consequences: except in `C134`, `C138`–`C140`, `C142`–`C144`, every theorem on real-valued code is a theorem on exact
arithmetic. A bound that holds exactly may be missed by floating point by rounding errors. This applies to all
other properties and is not repeated below.

## 3. Layout and what is modelled

Modules named `...Model` (or by the thing they model) mirror the code; `...Lemmas` has helper
lemmas; `...Props` has the specification, the property theorems and next to them an `example`
showing that the hypotheses can be met. Property theorems are named `Cxx_...`.

| module | code (below `src/dg_commons`) |
|---|---|
| `Basic`, `Dict`, `Num` | Python indexing, dictionaries, `np.clip` |
| `Seq/*` | `seq/sequence.py`, `seq/seq_op.py` |
| `Plan/TrajModel`, `UpsampleProps`, `MergeProps`, `GraphModel`, `GraphProps`, `GraphAll`, `GraphAllProps`, `Moved`, `MovedProps` | `planning/trajectory.py` |
| `Plan/Primitives`, `PrimitiveProps` | `planning/motion_primitives.py`, `planning/commands_sampler.py` |
| `Control/*` | `controllers/pid.py`, `speed.py`, `steer.py`, `pure_pursuit.py` |
| `Agents/*` | `sim/agents/agent.py`, `sim/agents/lane_follower.py`; `Extract`: `sim/models/utils.py` |
| `Sim/Model` … | `sim/simulator.py` |
| `Sim/LogModel`, `LogProps` | `sim/simulator_structures.py` (logs) |
| `Perception/*` | `sim/sim_perception.py`, `perception/sensor.py` |
| `Coll/*` | `sim/collision.py`, `collision_utils.py`, `collision_structures.py`; `get_footprint` and `get_mesh` of `sim/models/*` |
| `Phys/Limits`, `LimitProps` | `sim/models/model_utils.py`, `vehicle_utils.py`, `pedestrian_utils.py`, `dynamics/bicycle_dynamic.py` (`successor`) |
| `Phys/States`, `StateModule`, `StateProps` | the state and command classes of `sim/models` |
| `Phys/Models`, `MotionProps`, `VelocityProps`, `TyreProps`, `EnergyProps`, `MirrorProps` | `dynamics`, `get_velocity`, `set_velocity`, friction, tyres of all classes in `sim/models` |
| `Phys/Update`, `UpdateProps`, `AfterProps` | the packing, right-hand side and unpacking of `update` of all models, without `solve_ivp` |
| `Phys/Ivp`, `IvpProps`, `EulerProps` | `successor_ivp` of the discrete bicycle, without `solve_ivp` |
| `Control/LoopProps`, `DriveProps` | no further code: the controllers in a loop with the models |
| `Eval/ForeseeProps` | no further code: the search for collisions on regions of the plane |
| `Agents/CruiseProps` | no further code: the lane follower in a loop with its speed |
| `Control/KeepLemmas`, `KeepMotion`, `KeepProps` | no further code: pure pursuit in a loop with the kinematic bicycle; `scipy.optimize.minimize_scalar` is any function that finds a minimum if one exists |
| `Control/RestProps`, `Agents/RestProps`, `Agents/FollowProps`, `Agents/ClearProps` | no further code: the lane follower in a loop with a vehicle whose speed grows at the rate asked for |
| `Phys/Params`, `Phys/ParamProps` | `__post_init__` and defaults of `ModelParameters`, `VehicleParameters`, `PedestrianParameters`, `DynObstacleParameters`, `DiffDriveParameters`, `SpacecraftParameters`, `RocketParameters`, `SpaceshipParameters` |
| `Whole/LifeProps`, `Whole/CruiseProps`, `Phys/CruiseMotion` | no new code: the simulator, the lane follower and the vehicle together |
| `Scen/Load` | `scenarios/utils.py:20-45`; the file system is a tree of names, reading the file itself is not modelled |
| `Agents/Extra` | `lane_follower.py:80-102` |
| `Viz/Moving` | `simulator_visualisation.py:107-121, 223-276`, `simulator_animation.py:120, 147-149`; line widths, transparency and the invisible points are left out |
| `Maps/Closest` | `lanes.py:143-171, 312-319`; `scipy.optimize.minimize_scalar` is a parameter of which the theorems assume that it ends in (or near) a local minimum |
| `Seq/Typed` | `sequence.py:28, 66-68, 145-172, 190-230`, `seq_op.py:14-50`, `trajectory.py:17-22, 51-65, 92-131`: type arguments and classes; `copy`, `pickle` and `dataclasses.replace` of sequences are not modelled |
| `Coll/Shape` | `rocket_structures.py`, `spaceship_structures.py`, `spacecraft_structures.py`, `pedestrian.py:24-28`: outlines as sets of points, shapely's union not modelled |
| `Sim/Clock` | `sim_types.py:8` and the arithmetic of `decimal`: sums and differences rounded to 28 digits, no overflow or underflow |
| `Eval/Dist` | `eval/safety.py:186-194`: outlines are regions of the plane, `nearest_points` is a parameter |
| `Eval/BodyProps` | `_get_ttc`, `eval/safety.py:197-211`, on the same regions |
| `Scen/LaneOf` | `sim/scenarios/utils.py:51-65`, `maps/lanes.py:87-93`: the lanelet network is a parameter |
| `Viz/Frame` | `sim/simulator_animation.py:78-156`, `223-230`, `sim/simulator_visualisation.py:123-221`, `279-528`, `586-630`: the artists of the players over all frames; not the arena, trajectories, goals and texts |
| `Seq/Float` | `seq/sequence.py:46-64`, `109-120`, `166-172` with rounded operations |
| `Control/PidFloat` | `controllers/pid.py:35-57` with rounded operations |
| `Seq/OpFloat` | `seq/seq_op.py`, `seq/sequence.py:190-203` with rounded operations |
| `Plan/UpsampleFloat` | `planning/trajectory.py:109-132` with rounded operations |
| `Phys/BicycleFloat` | `dynamics/bicycle_dynamic.py:36-52, 84-95` with rounded operations |
| `Coll/ImpulseFloat` | `sim/collision_utils.py:116-163` with rounded operations |
| `Phys/Solver` | `sim/models/vehicle.py:163-195` with the steps of `solve_ivp`: any explicit Runge-Kutta method, arbitrary step sizes |
| `Phys/ThrustSolver` | `update` of `sim/models/rocket.py` and `spaceship.py` in the same way, with divisions by zero |
| `Phys/SolverAll` | `update` of all models in `sim/models` on the packed arrays with an explicit Runge-Kutta method; sizes of the steps are given |
| `Whole/Fleet` | the simulator with the eight models of `sim/models`: state, pose, footprint, mesh, velocity, `update` by the solver, impact geometry; commands of another model raise instead of being reinterpreted; a NaN normal raises; the assertions that shapes are valid are left out |
| `Sim/PrefixProps`, `ShiftProps`, `RenameProps`, `ListingProps`, `FreshProps`, `CausalProps` | no further code: two runs of the simulator compared |
| `Sim/CommandLogProps`, `Eval/ArrivalProps`, `Eval/RideProps` | no further code: what the logs of a run say about its steps, read by the metrics |
| `Eval/WholeLogProps`, `Eval/SimMetricProps` | no further code: `eval/safety.py` on logs and on the logs of runs |
| `Misc/Cache`, `CacheProps` | `cached(LRUCache)` as used by the lanes |
| `Phys/Lights`, `LightProps` | `sim/models/vehicle_ligths.py` and its use when drawing |
| `Phys/Outline`, `OutlineProps` | `sim/models/vehicle_structures.py` (geometry) |
| `Maps/*` | `geo.py`, `maps/lanes.py`, `maps/shapes_generator.py` |
| `Scen/RoadBounds` | `maps/road_bounds.py` |
| `Scen/*` | `sim/scenarios/*.py`, `sim/goals.py` |
| `Eval/*` | `eval/*.py` |
| `Misc/*` | `utils_toolz.py`, `time.py` |
| `Sim/Closed` | what every part of a step of the simulator keeps, every execution keeps |
| `Whole/*` | the simulator of `Sim/Model` with the collision code of `Coll/*` in its place and one separate agent per player; models, sensors and goals stay open |
| `Viz/*` | outlines, bodies, engines, camera, frames and trajectories in `sim/simulator_visualisation.py` and `sim/simulator_animation.py`; shapes in `maps/shapely_viz.py` and `plot_arena`; `sim/collision_visualisation.py`; `sim/log_visualisation.py`; all without matplotlib (C112 takes from its documentation what `plot` and `step` show) |

Not modelled: matplotlib; reading CommonRoad files; everything inside
shapely, scipy, numpy, networkx and commonroad beyond the laws stated as hypotheses; parallelism and
wall-clock time; floating point rounding outside `Sim/Clock`, `Seq/Float`, `Seq/OpFloat`, `Plan/UpsampleFloat`, `Phys/BicycleFloat`, `Coll/ImpulseFloat` and `Control/PidFloat`, and overflow and
underflow there.

## 4. Plan per property

| id | modelled code | method |
|---|---|---|
| C01 | `DgSampledSequence.__post_init__` with numeric kinds, both values of the checks flag | decision logic; induction from consecutive to global order |
| C02-C05 | `at`, `at_or_previous`, `at_interp`, `get_start/get_end`, `get_subsequence`, binary search as in `bisect` | binary search proved equal to counting on sorted lists; refinement to a list of pairs |
| C06 | `transform_values`, `shift_timestamps` | commutation theorems |
| C07 | the builder as a state machine | invariant over all histories of adds |
| C08-C12 | `iterate_with_dt`, `seq_integrate`, `seq_differentiate`, `seq_accumulate`, `find_crossings` | induction on lists; closed forms |
| C13, C14 | `Trajectory.upsample`, `merge`, `merge_unsafe`, `is_connectable` | counting, ordering, equality of interpolants |
| C15 | `commands_plan_from_trajectory` | false as written: tuple unpacking of a dataclass raises; negation plus the theorem on the intended formula as partial |
| C16 | `TrajectoryGraph` node/edge insertion, path read back; networkx path search as an oracle returning a path | invariant over histories, acyclicity from strictly increasing time |
| C17 | `iterate_dict_combinations` | induction: membership, count, no duplicates |
| C18, C19 | `PID` as a state machine | invariant over all histories of calls |
| C20 | `SpeedBehavior` with relative poses as data | decision logic, permutation invariance |
| C21-C28 | `Simulator.run/pre_update/update/post_update` with agents, models, sensors, goals and collision resolution as parameters | small-step machine, invariants over all executions, ranking function |
| C29 | `PlayerLog`, `SimLog` | corollaries of the sequence theorems |
| C30-C32 | `DelayedObsFilter`, `GhostObsFilter`, `FovObsFilter`, `IdObsFilter` | state machine over histories; decision logic |
| C33 | `VisRangeSensor.fov_as_polygon`, ray hits as oracle | geometry over the reals |
| C34-C38 | `collision_utils`, `resolve_collision`, `resolve_collision_with_environment` | algebra over an ordered field; decision logic |
| C39-C41 | `check_who_is_at_fault`, `combine_collision_reports`, `who_collided`, `has_collision` | decision logic, algebraic laws, counterexamples |
| C42, C43 | `model_utils`, `vehicle_utils.steering_constraint`, `pedestrian_utils.rotation_constraint` | case analysis |
| C44 | `BicycleDynamics.successor` | invariant over all command sequences |
| C45, C46 | operators and array conversion of the state/command dataclasses | algebra, generic record of fields |
| C47 | `get_velocity`/`set_velocity` of all models | round trips; negations for the models that do not have it |
| C48 | unit conversions | algebra |
| C49 | tyre force part of `VehicleModelDyn.dynamics` | real analysis on sin/atan |
| C50 | `dynamics` of rocket and spaceship | case analysis |
| C51, C52 | generators, `np.linspace` | induction, membership |
| C53-C55 | `maps/lanes.py` | piecewise linear functions, induction over segments |
| C56, C57 | `geo.py` | matrix algebra over the reals |
| C58 | lights tables and phases; shared mutable colours | finite tables lifted over all times; negation with a witness for non-interference |
| C59 | vehicle geometry | algebra |
| C60-C65 | `eval/` | induction, first/min search |
| C66-C68 | `LFAgent`, `NPAgent`, `PurePursuit` | state machine, real analysis |
| C69 | `get_scenario_commonroad_replica`, `DgScenario.__post_init__` | fold invariant |
| C70 | `DiffDriveModel.dynamics` | algebra |
| C71 | `time_function` | equational |
| C72 | as C01 with non-finite numbers | false: negation with a witness, partial for finite numbers |
| C73 | `compute_impact_geometry` | geometry over the reals |
| C74 | `get_velocity` against `dynamics` of all models | equality of vectors, negations where they differ |
| C75 | `dynamics` of all models | equivariance under rotations and translations |
| C76 | `dynamics` of the models with mass | derivative of the world-frame velocity along the flow |
| C77 | friction after a collision | sign and energy arguments |
| C78 | `Pacejka.evaluate` | real analysis on sin/atan |
| C79, C80 | `along_lane_from_beta`, `center_point`, `from_vertices`, `lane_profile` | piecewise linear functions, isometries |
| C81, C82 | `eval/safety.py` | folds with first-minimum characterisations |
| C83 | `get_acc_rms` with the formulas of the real Fourier transforms | Parseval's identity |
| C84 | `desired_lane_reached` | decision logic on the search, negations |
| C85-C87 | `sim/scenarios` | decision logic, first-minimum search, algebra |
| C88 | `build_road_boundary_obstacle` with set-valued geometry | pointwise set algebra |
| C89 | `sim/goals.py` | geometry over the reals |
| C90 | `maps/shapes_generator.py`, random draws as parameters | real analysis, list induction |
| C91 | `sim/models/utils.py` (extraction) and `SpeedBehavior` on states of any class | decision logic, refinement |
| C92 | `VehicleModelDyn.dynamics` | power balance by algebra; sign of each force |
| C93 | `dynamics` of all models, `BicycleDynamics.successor` | equality with the mirror image |
| C94 | `update` of all models: packing of state and commands | solutions of the packed problem are the motions of the model (both ways) |
| C95 | `update` of all models, limits of `model_utils.py` | invariant of motions, lifted to any number of updates |
| C96 | `update` of all models with `has_collided` | explicit solutions |
| C97 | simulator with collision code | invariant of executions |
| C98 | simulator with collision code | invariant of executions, C34, C36, C38 for each report |
| C99 | simulator with collision code, kinematic vehicle | invariant of executions with the trace of updates; C23, C24, C95 |
| C100 | simulator with separate agents, lane follower | the agent's part of an execution refines the agent alone; C66 |
| C101 | `get_footprint` and `get_mesh` of the models, `impact_locations_from_polygons` | triangles as convex hulls, moved by the pose; refinement to the quarters of a box |
| C102 | bodies as drawn, outlines of all models | equality with the footprint; regions as convex hulls and their unions |
| C103 | flames as drawn, `dynamics` of rockets and spaceships | trigonometric identities between the two |
| C104 | `adjust_axes_limits`, `approximate_bounding_box_players` | fold invariants; bounds of the clipped shift |
| C105 | frame count, times and rate of `create_animation` | floor and ceiling |
| C106 | the handles of trajectories over the frames | induction on frames |
| C107 | `lane_profile` on the interpolation of lanes | points of `linspace`, rigid motions of the offsets |
| C108 | `Whole/Model` with `NPAgent` | simulation relation between two runs, with the final log as prophecy |
| C109 | `Whole/Model` with one filter of `Perception/Filters` per player | invariant over all steps, then composition with C30 and C31 |
| C110 | `ShapelyViz`, `plot_arena` | painting artists by `zorder`, induction over the lists |
| C111 | `plot_collision` on the log of `Whole/Model` | invariant over all steps: the report fits the models; composition with C04 and C23 |
| C112 | `plot_player_log` | separate specification of what curves show; C03, C04, C23 |
| C113 | `roots`, `leaves`, `get_all_trajectories`, `get_all_transitions`; networkx path search as an oracle | invariant over histories (C16), paths in an acyclic graph, induction over the leaves |
| C114 | `Trajectory.apply_SE2transform`, `as_path` | specification `IsMoved` of one state; composition with C03, C56 |
| C115 | `SimContext.__post_init__`, sensors of a context, then `run` | specification `Accepted`; composition with C21, C23 |
| C116 | `run` from an end state | invariant of the run, effect of the initialisation |
| C117 | the caches of `DgLanelet` | refinement of the cached by the uncached method, invariant of the history |
| C118 | `BicycleDynamics.successor_ivp` against `successor` | differential equation as specification, uniqueness by constant derivatives |
| C119 | `PID.get_control` in a loop with the vehicle | invariant sets for the saturated phase, small gain for the linear one |
| C120 | `_get_ttc`, `_get_ttc_of_poly_and_state` on regions | specification over real time, convexity |
| C121 | `LFAgent.get_commands` in a loop with the speed | latch of the emergency, then C119 |
| C122 | `PurePursuit.get_desired_steering` in a loop with the bicycle | Lyapunov function: -log cos of the heading plus the integral of the demanded curvature |
| C123 | `LFAgent.get_commands` in a loop, after a danger | the integral term is proportional to the sum of the errors and tends to zero; invariant of braking in three phases |
| C124 | `LFAgent.get_commands` in a loop, behind a vehicle | by contradiction: while the distance stays large, the speed gets and stays above that of the vehicle ahead; for fast vehicles, an invariant with four cases (slower than the other; faster, outside the distance to keep; inside and much faster; inside and about as fast), in the last of which the distance less 50 times the integral term does not fall |
| C125 | `__post_init__` and defaults of the parameters of all models | case distinction over the assertions; the rates at rest |
| C126 | `Simulator.__call__` with `LFAgent.get_commands` and `VehicleModel.update` | invariant of the parts of a step, inverted per step; then C119 along the requests; a speed that begins strictly inside its limits grows linearly |
| C127 | `load_commonroad_scenario` | mutual induction over the directory tree; occurrences of a string in a path |
| C128 | `LFAgent.on_get_extra` | no induction: the state after `get_commands`, frames of the vehicle |
| C129 | `plot_timevarying_goals`, `plot_trajectories`, their use in the animation | invariant over players and frames: patches and handles correspond one to one |
| C130 | `find_along_lane_closest_point`, its fast version, `along_lane_from_T2value` | uniqueness of local minima of the squared distance along a strictly increasing parametrisation; induction over the control points for Lipschitz bounds |
| C131 | `XT`, `iterate_with_dt`, operations, builders | induction over the programs that make sequence objects |
| C132 | contacts between and at the checks of the simulator | split of the loops over obstacles and pairs at one element, what the rest of the loop keeps; nearest check |
| C133 | outlines of the models that are not vehicles | convex hulls of rings, half planes; the 64-gon by Hahn-Banach |
| C134 | `SimTime`, `step`, `run` with rounded sums and differences | the definitions of the simulator take any addition and subtraction; times stay on a grid on which rounding is exact; error of a rounded sum |
| C135 | `_get_dist` with `get_min_dist` | regions of the plane; chord and triangle inequality; minimum over samples from C65 |
| C136 | `dglane_from_position`, `from_commonroad_lanelet` | prefixes of lists of control points; uniqueness of profiles from C53 and C55 |
| C137 | `init_plot`, `update_plot` with `plot_player` and what it calls | drawing again equals drawing anew; induction over players and frames; C04, C29 and C58 for the log and the lights |
| C138 | constructor, `at_interp` and `shift_timestamps` with rounded operations | rounding is monotone, fixes 0 and 1, has relative error 2⁻⁵³; error analysis of weight and combination |
| C139 | `get_control` with rounded operations, histories of calls | limits by `np.clip`; invariant between the exact and the rounded controller with an error that grows by a constant per request |
| C140 | `seq_op.py` with rounded operations | induction over the samples with error factor (1 + 2⁻⁵³)^k; signs survive rounding; error analysis of quotient and product |
| C141 | `removePlayer`, `postUpdate`, `refLaneFulfilled`, `laneEndFulfilled` | what one step does to one model, followed through collisions; induction to the first step that reaches the region; local coordinates of the cross section |
| C142 | `upsample` with rounded operations | four roundings bounded for every new timestamp; pairwise order of the refined list; samples near a segment give an interpolation near the old one (convexity) |
| C143 | `BicycleDynamics.successor` with rounded operations | chains of roundings measured by (1 + 2⁻⁵³)^k - 1; clipping is exact and does not increase distances; rounding is monotone and odd |
| C144 | the impulse response with rounded operations | both bodies receive exactly opposite rounded impulses because rounding is odd; the remaining operations are short chains of roundings |
| C145 | the run of a renamed context | renaming commutes with every function of the simulator, by cases and induction over the loops |
| C146 | two runs with different limits | one step of both is equal unless the shorter run ends there; all later steps only add to logs, reports and calls |
| C147 | speed and steering angle under an explicit Runge-Kutta method | each is a component whose rate depends on itself and a constant only; its slopes are zero or the clamped command; invariant over steps and updates |
| C148 | mass and nozzle angle under `RK45`, with right-hand sides that can fail | projection of the failing system onto one component; the mass is guarded from below; what is kept at one point is kept at all stages |
| C149 | packed arrays under an explicit Runge-Kutta method; change of frame and mirroring as affine maps | a method commutes with every affine map the right-hand side commutes with; packing is such a map; C75 and C93 for the right-hand sides |
| C150 | straight motion under `RK45` | the line is an affine image of way and speed; order conditions of the method for constant acceleration |
| C151 | a world in which every called function gives the converted answer; congruences of the plane; the geometry library up to the order of corners | a run in the converted world is the converted run (induction over all loops of the simulator); dot products are invariant, cross products change sign with the reflection |
| C152 | a lane whose control points are all moved by the same rigid motion; the same exception or related values | relative poses and distances are invariant; induction over control points and over the calls of the agent |
| C153 | recorded states, shapes and goals moved by a rigid motion | distances and dot products are invariant; interpolation commutes with affine maps |
| C154 | a filter that gives the converted answer for converted observations; a moved sensor | each filter preserves this relation, induction over the calls; ray ends and squared distances are moved along |
| C155 | two contexts whose dictionaries have the same entries; outcomes with the same entries and permuted lists | each loop of a step is a fold of operations that read and write the share of one player; such folds are invariant under permutations (induction over the permutation, the swap of two operations being the only case); reports are compared per player; the loop over pairs does nothing when nobody touches |
| C156 | a map on states, reports and logs that adds τ to every time | simulation relation, one lemma per function of the simulator; only differences and comparisons of times occur; the trace of events is not compared |
| C157 | a system of units with a moving observer, acting on points, velocities, masses and energies | dimension of every term of the response; the relative velocity does not see the observer; momentum is preserved, so the additional work of the observer cancels |
| C158 | a system of units acting on states, commands, limits, parameters and steps | every limit is homogeneous, every rate has its dimension; a Runge-Kutta step of a scaled rate is the step with scaled size (`rkRunE_scaled`) |
| C159 | a conversion of everything the simulator handles, with all instants and durations multiplied | a run of the converted world is the converted run (`Sim/ScaleProps`), with C157 for the collisions; the velocities of every model are homogeneous |
| C160 | the models of the library put in place of the open ones (`Whole/Fleet`); shapes, lanes, agents, sensors, goals and step sizes converted alike | the laws that C151 and C159 ask of models follow from C149, C151, C158, C159 and from the impact geometry seen from a frame |
| C161 | the simulator with the models of the library (`Whole/Fleet`) | an invariant of marking, setting velocities and driving holds in all executions and in the log; C97, C99 and C147 applied to the models |
| C162 | the simulator with collision code; then with the models of the library | a budget over the recorded events, kept by every part of a step; C34, C36, C37, C38, C47, C73 |
| C163 | the simulator and `eval/safety.py` together | the log of a run from C23, C26 and C29, put into C65 and C81 restated over logs |
| C164 | the simulator, its logs, the collision code and `distance_traveled` together | invariant: the latest logged command of a player in the simulation is the one that drives it; the models after a step differ from the driven ones by what collisions change |
| C165 | the simulator, `eval/efficiency.py` and `eval/comfort.py` together | the log of a run from C23, C26, C141 and C164, put into C61, C63 and C83 |
| C166 | the simulator, for two sets of agents | a relation of the states that is preserved by every function of a step as long as the observation is from before `T`, then both runs only add to what they have in common |

## 5. Disagreements between code and property

Each row is a behaviour of the code as modelled. Where a theorem is named, it proves the behaviour on
the model; the property is then marked partial in `MANIFEST.json`, with the part that does hold proved
beside it. Rows without a theorem were seen while reading and are outside of the stated properties.

| property | behaviour | theorem |
|---|---|---|
| C72 | float `nan` timestamps are accepted, even between equal ones | `C72_false` |
| C01 | `bool` next to `Decimal` is accepted; with the checks flag off nothing is validated | `C01_*` (flag is part of the statement) |
| C12 | `find_crossings` raises `TypeError` for `Decimal` timestamps | `C12_decimal` |
| C15 | `commands_plan_from_trajectory` raises `TypeError` for two or more samples | `C15_false` |
| C16 | `TrajectoryGraph.add_edge` tests the bare state instead of the node | in the model |
| C28 | a `Simulator` object that is used twice keeps the time of its last request | `C28_reuse_counterexample` |
| C30 | answers before the latency has passed carry a stamp in the future; a negative latency raises | `C30_negative` |
| C31 | with threshold zero an agent at distance zero is not removed | `C31_zero_threshold_counterexample` |
| C33 | a field of view smaller than the resolution has one ray at its edge; range zero divides by zero | `C33_narrow_counterexample` |
| C40 | combining reports is not associative; an empty list raises `AttributeError` | `C40_assoc_counterexample` |
| C42 | limited accelerations can be outside of limits that exclude zero | `C42_zero_counterexample` |
| C45 | `val * s` does not scale `vy`, `dpsi` of a dynamic vehicle state; `+` keeps the left lights | `C45_false_dyn_rmul`, `C45_false_lights_comm` |
| C46 | `VehicleCommands.from_array` resets lights; `SpacecraftCommands.from_array` always raises `KeyError` | `C46_false_VehicleCommands`, `C46_false_SpacecraftCommands` |
| C47 | `set_velocity` then `get_velocity` differ for kinematic and dynamic vehicles, pedestrians (rotation overwrites the speed) and differential drives | `C47_false_*` |
| C50 | negative thrust makes the default spaceship heavier | `C50_false_spaceship` |
| C52 | sampler parameters derived from the default car are rejected | `C52_false_default` |
| C55 | `center_point_fast` interpolates headings as numbers | `C55_fast_heading_counterexample` |
| C58 | displaying one braking vehicle changes the shared colour table for all | `C58_false_interference` |
| C59 | steered front tyres stick out of the outline | `C59_steered_counterexample` |
| C62 | `desired_lane_reached` need not terminate | `C62_false_pingpong`, `C62_false_cycle` |
| C66 | the lights of a lane follower depend on set order (hash seed); the emergency latch survives episodes; the `pure_pursuit` argument is ignored | `C66_lights_counterexample`, `C66_*` |
| C68 | the small constant in the pure pursuit formula makes the steering non-zero for a goal straight ahead | `C68_false_straight` |
| C69 | a walking pedestrian makes the conversion of the scenario fail | `C69_false_pedestrian` |
| C71 | `time_function` raises for callables without `__qualname__` | `C71_false_unnamed` |
| C74 | reported velocity is not the rate of the pose: rocket, pedestrian rotation, differential drive, dynamic vehicle below 0.1 m/s | `C74_false_*` |
| C78 | the default front tyre of bicycles pushes the wrong way at large slip | `C78_false_bicycle_front` |
| C79 | beyond the ends of a lane the centre line moves 0.1 m per metre of position | `C79_false_outside` |
| C81 | the deceleration rate of a standing ego is infinite | `C81_false_standing` |
| C83 | odd sample counts use the wrong length; the sampling time is fixed at 0.1 s | `C83_false_odd`, `C83_false_rate` |
| C84 | positives on a predecessor and far beyond the end | `C84_false_predecessor`, `C84_false_past_end` |
| C85 | static obstacles of a scenario are not moved to their pose; a car that returns is taken for parked | `C85_false_static`, `C85_loop_counterexample` |
| C86 | lanelet identifiers are compared as substrings, headings as numbers | `C86_false_id`, `C86_false_angle` |
| C87 | initial steering beyond the limits across ±π; outline too small beyond 4 m; trucks get car limits | `C87_false_steering`, `C87_false_size`, `C87_truck` |
| C88 | road bounds raise without gates | `C88_false_closed` |
| C89 | lane goals in metres are used as control point progress; the polygon of a pose goal cannot be drawn | `C89_false_metres`, `C89_false_plot` |
| C90 | vertices are rounded to integers, so small random polygons collapse to a point | `C90_false_small` |
| C91 | states of differential drives have no `vx`: the speed behaviour raises next to one | `C91_false_robot`, `C91_blind` |
| C92 | the slip angle of the front wheel is computed without its quadrant: a wheel dragged backwards is pushed on | `C92_false_backwards` |
| C93 | dynamic obstacles use the longitudinal speed limits sideways, where they are not symmetric | `C93_false_dynObstacle` |
| C95 | `vx_limits` is not used by spacecraft, spaceships and rockets | `C95_false_spacecraft`, `C95_false_spaceship` |
| C95 | the dynamic vehicle limits the demanded acceleration, not the speed | `C95_false_vehicleDyn` |
| C96 | limits are applied after the commands are dropped: with a positive minimal thrust collided rockets burn on | `C96_false_idle` |
| C97 | when the collision code raises `CollisionException`, the simulator records an empty report that names players whose models were never flagged | `C97_false` |
| C101 | the locations of a differential drive are made of the first four of the 64 corners of its circle: they cover a sliver between front and right, other hits have no location | `C101_false_diffDrive`, `C101_false_diffDrive_located` |
| C103 | flames are drawn for commands beyond the limits and after collisions, when the engines do less or nothing; the nozzles of rockets are drawn `w_half / 10` beside the axis on which their forces act in the dynamics | `C103_false_limits`, `C103_false_collided`, `C103_rocket_partial` (last clause) |
| C104 | following a differential drive raises `AttributeError`, unknown names (and `""`, documented as automatic) raise `KeyError`, no players raise `AssertionError` in the bounding box; the `None` and `autoscale` branches are never reached | `C104_false_robot`, `C104_false_unknown`, `C104_empty` |
| C105 | the last state is in no frame; the default step of 30 ms is played two percent too fast; logs that begin later are shown from time 0 | `C105_false_end`, `C105_false_realtime`, `C105_false_begin` |
| C106 | trajectories of players that have none at first are never drawn: the `KeyError` is swallowed | `C106_false_late` |
| C107 | the outline of a lane is sampled evenly over all segments, so inner vertices of the bounds are cut off; with one control point it is empty | `C107_false_corner`, `C107_false_single` |
| C108 | `NPAgent` reads its plan at the time of the observation; `DelayedObsFilter` changes that time | `C108_false_delayed` |
| C109 | nothing stops a user from giving two players the same `DelayedObsFilter` object; then the second is given the observations of the first | `C109_false_shared` |
| C110 | holes of obstacles are hidden as they are drawn below the obstacle; parts of multi-polygons after the first are drawn in the colour of the background | `C110_false_holes`, `C110_false_multi` |
| C110 | obstacles that are multi-points, multi-lines or collections (with shapely 2) and pose goals make `plot_arena` raise `TypeError` | `C110_false_raises` |
| C111 | the report of a collision that could not be resolved has no impact point; drawing it raises `AttributeError` | `C111_false_unresolved` |
| C112 | `plt.step` without `where='post'` shows each command from the request before on, thus between requests the next command instead of the one in force | `C112_false_commands`, `C112_false_run` |
| C113 | when two ways lead to a leaf, `get_all_trajectories` returns only one of them | `C113_false_diamond` |
| C114 | headings are wrapped at the samples only, so between two samples on both sides of π the moved vehicle turns the wrong way round | `C114_false_heading` |
| C114 | `apply_SE2transform` returns a `DgSampledSequence` instead of a `Trajectory` | `C114_false_class` |
| C115 | `missions=None` passes the assertions but `run` raises AttributeError | `C115_false_missions` |
| C115 | a dictionary of sensors that lacks a player is accepted; `run` raises KeyError | `C115_false_sensors` |
| C115 | a step of zero is accepted; the second step raises when logging | `C115_false_dt` |
| C116 | running a finished context again empties the logs of the players still there | `C116_false_log` |
| C116 | in another process it raises KeyError if somebody had left | `C116_false_process` |
| C117 | control points added after the first call of `get_lane_lengths` are not seen by later calls | `C117_false_changed` |
| C117 | the returned list is the cached one: changing it changes later answers | `C117_false_altered` |
| C117 | `get_lanelets` with a list of points, as documented, raises TypeError, the key is not hashable | `C117_false_get_lanelets` |
| C118 | `successor_ivp` keeps no limits of commands, speed or steering; `successor` keeps all | `C118_false_limits` |
| C119 | asked once a second, the default steering controller oscillates for ever | `C119_false_rare` |
| C120 | contacts shorter than 0.1 s are not foreseen | `C120_false_short` |
| C120 | the search is skipped if the centers move apart, also if a long shape is about to be hit | `C120_false_skipped` |
| C122 | the line that pure pursuit leads to lies up to (lookahead + lr) / 2e9 beside the lane, and on it `get_desired_steering` raises `ZeroDivisionError` | `C122_false_limit` |
| C123 | after an emergency stop the vehicle rolls back, by about its braking distance, to where it saw the danger: the integral term of the speed controller has to be worked off | `C123_false_follower`, `C123_false_back` |
| C124 | the distance that the cruise control keeps is proportional to the speed and counted between the centers of the vehicles, so a follower creeps into a standing or slow vehicle | `C124_false_near` |
| C125 | the assertions of the parameters accept limits that exclude zero: the model then moves although it is commanded nothing, e.g. after a collision | `C125_false_rest` |
| C127 | a scenario in the directory itself is not loaded if a file of the same name lies deeper, as `break` leaves the inner loop only | `C127_false_top` |
| C127 | the default folder is wrong if the path of the checkout contains `src` in another place | `C127_false_default` |
| C128 | the line shown by a lane follower does not begin at the rear axle unless `lr` is half the wheelbase | `C128_false_axle` |
| C129 | moving goals that are no polygons end the animation; trajectories of differential drive robots cannot be drawn | `C129_false_kind`, `C129_false_robot` |
| C130 | the search for the closest point of a lane may end in a local minimum: on a lane that turns around, a vehicle inside the lane is then reported outside of it | `C130_false_local` |
| C130 | positions beyond the ends of a lane are reported ten times as far beyond them as they are | `C130_false_beyond` |
| C131 | `get_subsequence` and `shift_timestamps` lose the type of the values; with `transform_values` they also lose the class of trajectories, so a trajectory shifted by zero is not equal to itself | `C131_false_type`, `C131_false_trajectory` |
| C131 | a builder with `sampled_sequence_type=Trajectory` raises `TypeError` | `C131_false_builder` |
| C131 | sequences made without type argument cannot be iterated with time differences, integrated or accumulated | `C131_false_untyped` |
| C132 | contacts between two checks are not found, those found after the bodies passed each other are not reported, contacts in the last step are not looked for | `C132_false_tunnel`, `C132_false_passed`, `C132_false_last` |
| C133 | the outline of a spacecraft is not convex, `RocketGeometry.default` ignores `l`, the tyres of the default differential drive stick out of its outline | `C133_false_convex`, `C133_false_length`, `C133_false_wheels` |
| C134 | with `SimTime(0.1)` built from a float for `dt` and `dt_commands`, agents are not asked in the second step, although every step is a multiple of `dt_commands` | `C134_false_float` |
| C135 | `get_min_dist` looks at logged times only: a player passing through the ego between two samples leaves a positive smallest distance | `C135_false_between` |
| C137 | players that have left the simulation are still drawn, at their last state, in all later frames (`at_interp` keeps the last value); a vehicle that does not brake has bright back lights once any player has braked with the same phase of lights (see C58) | `C137_false_gone`, `C137_false_brake` |
| C138 | in floats the interpolated lookup can leave the range of the two samples (3 and 3 give 3 + 2⁻⁵¹); with `Decimal` timestamps `float(t) - float(t0)` can exceed `float(t1 - t0)`, so that a weight is beyond 1 and a quantity that is nowhere negative in the samples becomes negative; `shift_timestamps` raises if two times become equal by rounding | `C138_false_between`, `C138_false_sign`, `C138_false_shift` |
| C140 | in floats `seq_differentiate` raises for an accepted sequence if two middles coincide after rounding; with `Decimal` timestamps that convert to the same float it divides by zero and `seq_integrate` is refused by the constructor; `find_crossings` can report an instant after the later sample | `C140_false_differentiate`, `C140_false_decimal`, `C140_false_crossing` |
| C141 | a fast player drives over its goal between two examinations; a goal reached at the start is not examined before the first update | `C141_false_jump`, `C141_false_start` |
| C142 | an accepted trajectory whose timestamps are neighbouring floats cannot be upsampled: the new timestamp rounds onto an old one and the constructor raises | `C142_false_succeeds` |
| C143 | a vehicle with a small positive acceleration (2⁻⁵⁰ m/s² at 16 m/s, steps of 1 s) never gets faster in floats | `C143_false_accelerates` |
| C144 | an elastic head-on collision of masses 1 and 5 gains momentum and kinetic energy in floats | `C144_false_exact` |
| C147 | the default car, 0.04 m/s below its top speed and accelerating fully, is 0.23 m/s above it after one step of a tenth of a second of `RK45`; likewise for its steering angle: `update` does not clip what the solver returns (vehicle.py:191-195) | `C147_false` |
| C148 | the default rocket with 0.4 g of fuel left ends an update of a tenth of a second at full thrust 1.7 g below its mass without fuel: nothing is clipped (rocket.py:199-204) | `C148_false` |
| C151 | collisions depend on the world frame for rockets (`get_velocity` turns a velocity that is already in the world frame, rocket.py:274-284), for obstacles with finite inertia (the arm of the obstacle is the constant (1, 1), collision.py:170), and in the sign of the normal when the centre of the first shape is on the line of the contact points | `C151_false_rocket`, `C151_false_env`, `C151_false_order` |
| C152 | lane poses and steering depend on the world frame in the heading of `center_point_fast_SE2Transform` (headings are blended as numbers, lanes.py:301-303), for lanes whose left and right vertices coincide and for a goal exactly at the rear axle (`atan2(0, 0)` is 0 in every frame) | `C152_false_heading`, `C152_false_vertices`, `C152_false_goal` |
| C155 | when three players touch, their speeds afterwards depend on the order of the dictionary of models, because pairs are resolved one after the other; with equal distances the player named as nearest depends on the order too | `C155_false_chain`, `C155_false_nearest` |
| C156 | the lights of a lane follower follow a table of absolute times (0, 2, 4, 6, 8 s), so an episode that starts later shows other lights | `C156_false_lights` |
| C157 | the arm (1, 1) of an obstacle with finite inertia does not scale with the unit of length; the energy of one player depends on the observer | `C157_false_arm`, `C157_false_share`, `C157_false_wall` |
| C158 | the drag of the dynamic vehicle (vehicle_dynamic.py:177) is half of speed times squared density, while a drag force is half of squared speed times density | `C158_false_drag` |
| C158 | the friction of pedestrians and dynamic vehicles after a collision is a number per unit of time | `C158_false_friction`, `C158_false_friction_car` |
| C159 | `PedestrianModel.set_velocity` stores a rate of rotation as a speed, so the effect of a collision depends on the unit of length | `C159_false_pedestrian` |
| C160 | rockets break the independence of the frame, pedestrians and dynamic vehicles that of the units | `C151_false_rocket`, `C159_false_pedestrian`, `C158_false_friction`, `C158_false_drag` |
| C162 | `VehicleModel.set_velocity` stores the forward speed only; with turned wheels a vehicle that was hit from behind moves sideways and turns, and has more energy than there was before | `C162_false_vehicle` |
| C163 | `_remove_finished_players` of safety.py:248-252 asks `is_fulfilled(state)` without the time, the simulator with it: with goals that depend on time the metrics count players that have left | `C163_false_moving` |
| C163 | the simulator allows players without missions, the metrics raise `KeyError` for them | `C163_false_mission` |
| C96 | trucks lose their commands after a collision, cars do not | `C94_vehicle`, `C96_car` (the code's intention is unclear) |
| — | `compute_impact_geometry` has no normal when centres coincide; no lane at the impact makes both at fault; a player named "Env" is overwritten; a non-polygon obstacle raises after the velocity has been changed | in the model |
| — | `missions=None` passes the checks of the context but not `run`; `dt = 0` raises in the second step; the last state of unfinished players is not logged; no collision check in the terminating step | in the model |
| — | polygon holes are ignored by `shapely2crPolygons`; `VehicleGeometry.width` is not the width of the outline | in the model |
| — | the evaluation of missions raises `KeyError` for players without a mission | in the model |

## 6. Axioms

`#print axioms` was run on all 1016 theorems named in `MANIFEST.json` at the time of writing: 853 depend
on `propext`, `Classical.choice` and `Quot.sound`, 159 on `propext` and `Quot.sound`, three on `propext`
only and one on no axiom. No other axiom occurs. To repeat it, put `#print axioms` in front of each name of the manifest in
a file that imports `Verif`.

## 7. Tests of the theorems

`seeded/LOG.jsonl` has one line per seeded defect: the definition edited in a scratch copy, the edit,
the claim it breaks, the theorems that then failed to compile, and what was tightened if the defect
survived. A failed compilation can be a mere break of a proof script; for edits that do not change a
claim this is said in the line. A line that says the edit is not known to make the claim
false was an edit expected to be harmless: its failures are no evidence for the theorems. In the later
rounds (14 and after) only the modules that the theorems of the claim depend on were rebuilt, so the list
of failed theorems of these lines is not complete. The rounds were run on copies of the sources of
different ages, and theorems renamed since appear under their present names.
