{"id": "C01", "title": "A sampled sequence is accepted exactly when it is well formed", "statement": "For finite timestamps, building a DgSampledSequence succeeds if and only if there are as many values as timestamps, every timestamp is an int, float, bool or Decimal, consecutive timestamps strictly increase, and Decimals are not mixed with ints or floats. An accepted sequence has strictly increasing timestamps over its whole length and stores exactly the given pairs in the given order; every other input ends in an exception and no sequence.", "quantifier": "All lists of finite timestamps and values of any lengths and numeric kinds (non-finite floats are C72).", "why_tests_cant": "The set of inputs is infinite; local checks on consecutive pairs have to be lifted to global strict monotonicity by induction on the length.", "anchors": ["src/dg_commons/seq/sequence.py:DgSampledSequence.__post_init__"]}
{"id": "C02", "title": "Exact lookup", "statement": "at(t) returns the value stored with t when t is one of the timestamps and raises UndefinedAtTime otherwise; on an accepted sequence the returned value is the only one stored at t.", "quantifier": "All accepted sequences and all query times.", "why_tests_cant": "Uniqueness follows from strict monotonicity for all lengths, not from samples.", "anchors": ["src/dg_commons/seq/sequence.py:DgSampledSequence.at"]}
{"id": "C03", "title": "Zero-order-hold lookup", "statement": "at_or_previous(t) returns the value of the latest timestamp that is not after t; it raises UndefinedAtTime when t precedes the first timestamp and ZValueError on an empty sequence.", "quantifier": "All accepted sequences and all query times.", "why_tests_cant": "It is a universally quantified optimality claim (latest among all earlier samples).", "anchors": ["src/dg_commons/seq/sequence.py:DgSampledSequence.at_or_previous"]}
{"id": "C04", "title": "Interpolated lookup", "statement": "at_interp(t) equals the stored value at every sample, holds the first and last values outside the covered interval, lies on the chord between the two neighbouring samples in between (so it stays between their values for scalars), and never divides by zero; an empty sequence raises ZValueError.", "quantifier": "All accepted sequences, all query times, values in any vector space (scalar bounds for ordered fields).", "why_tests_cant": "Chord and bound claims range over a continuum of times and values.", "anchors": ["src/dg_commons/seq/sequence.py:DgSampledSequence.at_interp", "src/dg_commons/seq/sequence.py:DgSampledSequence.get_start", "src/dg_commons/seq/sequence.py:DgSampledSequence.get_end"]}
{"id": "C05", "title": "Subsequence by time window", "statement": "get_subsequence(a, b) with a <= b returns exactly the samples whose time is within [a, b], in order, as an accepted sequence; with a > b it fails the assertion.", "quantifier": "All accepted sequences and all windows.", "why_tests_cant": "Correctness of the two bisections must hold for every length and every position of the window ends.", "anchors": ["src/dg_commons/seq/sequence.py:DgSampledSequence.get_subsequence"]}
{"id": "C06", "title": "Mapping values and shifting time", "statement": "transform_values(f) keeps, in order, exactly the samples on which f does not return None with their timestamps and applies f pointwise, so for a total f lookups commute with f (interpolated lookup too for affine f); shift_timestamps(d) always yields an accepted sequence and at, at_or_previous and at_interp at t+d on the result equal the lookups at t on the original.", "quantifier": "All accepted sequences, all functions f, all shifts d, all query times.", "why_tests_cant": "Commutation laws over arbitrary functions, shifts and times.", "anchors": ["src/dg_commons/seq/sequence.py:DgSampledSequence.transform_values", "src/dg_commons/seq/sequence.py:DgSampledSequence.shift_timestamps"]}
{"id": "C07", "title": "Incremental builder", "statement": "DgSampledSequenceBuilder accepts exactly the adds whose time is after the last accepted one (others raise and leave it unchanged); after any history, as_sequence succeeds and contains exactly the accepted samples in order; the builder never loses, reorders or rewrites samples.", "quantifier": "All finite histories of add calls, including rejected ones, and all numeric kinds of time stamps of one family.", "why_tests_cant": "It is an invariant over unbounded call histories.", "anchors": ["src/dg_commons/seq/sequence.py:DgSampledSequenceBuilder.add", "src/dg_commons/seq/sequence.py:DgSampledSequenceBuilder.as_sequence"]}
{"id": "C08", "title": "Consecutive-pair iteration", "statement": "iterate_with_dt yields, for a sequence with n samples, exactly max(n-1,0) items; item i carries (t_i, t_{i+1}, v_i, v_{i+1}) and dt = t_{i+1}-t_i > 0, and the dts add up to the covered duration.", "quantifier": "All accepted sequences.", "why_tests_cant": "Telescoping over arbitrary length.", "anchors": ["src/dg_commons/seq/sequence.py:iterate_with_dt", "src/dg_commons/seq/sequence.py:IterateDT"]}
{"id": "C09", "title": "Numerical integration of a sequence", "statement": "For a sequence with at least two samples seq_integrate returns an accepted sequence with one sample per interval, at the end of that interval, whose value is the trapezoid sum from the first sample up to there; it is linear in the signal and exact for affine signals. An empty sequence raises ValueError and a one-sample sequence is returned as is.", "quantifier": "All accepted sequences with values in a vector space over an ordered field.", "why_tests_cant": "Closed form proved by induction over any number of samples.", "anchors": ["src/dg_commons/seq/seq_op.py:seq_integrate"]}
{"id": "C10", "title": "Numerical differentiation of a sequence", "statement": "seq_differentiate yields an accepted sequence with one sample per interval, at the interval midpoint, with value (v_{i+1}-v_i)/(t_{i+1}-t_i); the sum of derivative times interval length equals last minus first value; differentiating an affine signal gives its slope everywhere; an empty sequence raises ValueError, a single sample gives the empty sequence.", "quantifier": "All accepted sequences of scalar values.", "why_tests_cant": "Strict monotonicity of the midpoints and telescoping hold for all lengths.", "anchors": ["src/dg_commons/seq/seq_op.py:seq_differentiate"]}
{"id": "C11", "title": "Accumulation", "statement": "seq_accumulate keeps the timestamps and returns running sums: value i is the sum of the first i+1 values.", "quantifier": "All accepted sequences.", "why_tests_cant": "Induction on the length.", "anchors": ["src/dg_commons/seq/seq_op.py:seq_accumulate"]}
{"id": "C12", "title": "Threshold crossings", "statement": "find_crossings reports, in order, exactly one instant per consecutive pair of samples on different sides of the threshold (equality counted as above) and none for other pairs; each instant lies in its interval and the linearly interpolated signal equals the threshold there. (With Decimal timestamps the arithmetic raises as soon as there is a crossing.)", "quantifier": "All accepted scalar sequences and thresholds.", "why_tests_cant": "Soundness and completeness over all sequences; also the location of the crossing for all real thresholds.", "anchors": ["src/dg_commons/seq/seq_op.py:find_crossings"]}
{"id": "C13", "title": "Upsampling a trajectory", "statement": "upsample(n) of a non-empty trajectory with k samples has k+(k-1)*n samples, strictly increasing timestamps, keeps every original sample, and its interpolated lookup is the same function of time as that of the original.", "quantifier": "All non-empty trajectories, all n >= 0, all query times.", "why_tests_cant": "Equality of two piecewise functions on a continuum of times.", "anchors": ["src/dg_commons/planning/trajectory.py:Trajectory.upsample"]}
{"id": "C14", "title": "Merging trajectories", "statement": "merge and merge_unsafe return either an exception or a trajectory that is the first followed by the second without its first sample (the whole second if the first is empty), with strictly increasing timestamps; merge raises unless speed and steering at the seam agree within tolerance; merge_unsafe raises unless the seam times agree within tolerance.", "quantifier": "All pairs of trajectories.", "why_tests_cant": "Quantifies over all pairs, including empty ones.", "anchors": ["src/dg_commons/planning/trajectory.py:Trajectory.merge", "src/dg_commons/planning/trajectory.py:Trajectory.merge_unsafe", "src/dg_commons/planning/trajectory.py:Trajectory.is_connectable"]}
{"id": "C15", "title": "Commands plan from a trajectory", "statement": "commands_plan_from_trajectory returns for each interval of the trajectory the constant acceleration and steering rate that take the speed and steering from one sample to the next.", "quantifier": "All trajectories.", "why_tests_cant": "The claim is universal; the code as written raises for every trajectory with two samples or more, which is a statement about all of them.", "anchors": ["src/dg_commons/planning/trajectory.py:commands_plan_from_trajectory", "src/dg_commons/seq/sequence.py:IterateDT"]}
{"id": "C16", "title": "Trajectory graph", "statement": "If every edge inserted in a TrajectoryGraph comes from a trajectory with at least two samples, then every edge goes strictly forward in time, hence the graph is acyclic, and every source-target path read back by get_trajectory is a valid trajectory starting and ending in the requested nodes; inserting an edge from a missing source raises and changes nothing.", "quantifier": "All histories of node and edge insertions and all paths.", "why_tests_cant": "Unbounded histories and paths of any length.", "anchors": ["src/dg_commons/planning/trajectory.py:TrajectoryGraph.add_node", "src/dg_commons/planning/trajectory.py:TrajectoryGraph.add_edge", "src/dg_commons/planning/trajectory.py:TrajectoryGraph.get_trajectory", "src/dg_commons/planning/trajectory.py:TrajectoryGraph.commands_on_trajectory", "src/dg_commons/planning/trajectory.py:TrajectoryGraph.get_transition"]}
{"id": "C17", "title": "Dictionary combinations", "statement": "iterate_dict_combinations yields every way of choosing one allowed value per key, each exactly once (for duplicate-free choices), nothing else, and the number of results is the product of the numbers of choices.", "quantifier": "All dictionaries of collections.", "why_tests_cant": "Completeness and uniqueness over all sizes.", "anchors": ["src/dg_commons/utils_toolz.py:iterate_dict_combinations"]}
{"id": "C18", "title": "PID output and integrator stay within limits", "statement": "For any sequence of references, measurements and times, every output of the PID lies within the output limits, the stored reference lies within the set point limits once a reference has been given, and the integral term lies within the antiwindup limits.", "quantifier": "All controller parameters that pass validation and all finite call histories.", "why_tests_cant": "An invariant over unbounded call histories with real inputs.", "anchors": ["src/dg_commons/controllers/pid.py:PID.update_reference", "src/dg_commons/controllers/pid.py:PID.update_measurement", "src/dg_commons/controllers/pid.py:PID.get_control", "src/dg_commons/controllers/pid.py:PIDParam.__post_init__"]}
{"id": "C19", "title": "PID repeated requests at one time", "statement": "Asking for the control twice at the same time with no new measurement never divides by zero, leaves the integrator unchanged, and uses no derivative term in the second answer.", "quantifier": "All PID states, gains and times.", "why_tests_cant": "Claim about all internal states reachable by any history.", "anchors": ["src/dg_commons/controllers/pid.py:PID.get_control"]}
{"id": "C20", "title": "Speed behaviour reference", "statement": "For a non-negative nominal speed the reference speed returned by SpeedBehavior is never negative and never above the nominal speed; it is zero when an emergency or a yield situation is detected; with no other agents it is the nominal speed and no emergency; it never depends on the order in which the agents are listed.", "quantifier": "All observations of any number of agents and all parameters with sensible signs.", "why_tests_cant": "Any number of agents at real-valued relative poses.", "anchors": ["src/dg_commons/controllers/speed.py:SpeedBehavior.get_speed_ref", "src/dg_commons/controllers/speed.py:SpeedBehavior.is_there_anyone_to_yield_to", "src/dg_commons/controllers/speed.py:SpeedBehavior.is_emergency_subroutine_needed", "src/dg_commons/controllers/speed.py:SpeedBehavior.cruise_control"]}
{"id": "C21", "title": "The simulation terminates", "statement": "For dt > 0 every run of the simulator stops after finitely many steps, at the latest at the first step whose time exceeds max_sim_time, whatever the agents, models, goals and collisions do.", "quantifier": "All contexts, agents, models, collision outcomes.", "why_tests_cant": "Termination for every behaviour of every component.", "anchors": ["src/dg_commons/sim/simulator.py:Simulator.run", "src/dg_commons/sim/simulator.py:Simulator._maybe_terminate_simulation"]}
{"id": "C22", "title": "Why a simulation stops", "statement": "A run stops at the first end of step at which the time exceeds max_sim_time, or exceeds the first collision time plus sim_time_after_collision, or no player is left, or missions exist and no player with a mission is left; it never stops earlier and never continues past such a step.", "quantifier": "All runs.", "why_tests_cant": "An if-and-only-if over all reachable simulator states.", "anchors": ["src/dg_commons/sim/simulator.py:Simulator._maybe_terminate_simulation", "src/dg_commons/sim/simulator.py:Simulator.post_update"]}
{"id": "C23", "title": "The log is on the simulation grid and always valid", "statement": "For dt > 0 every state, command and info time stamp that the simulator logs is a multiple k*dt of the step, logging never raises, and when run returns the log of every player is a valid sampled sequence whose states cover every step from 0 to the step the player left (or the last executed step).", "quantifier": "All runs with any number of players and steps.", "why_tests_cant": "Invariant over unbounded executions.", "anchors": ["src/dg_commons/sim/simulator.py:Simulator.update", "src/dg_commons/sim/simulator.py:Simulator.run", "src/dg_commons/sim/simulator.py:Simulator._remove_finished_players", "src/dg_commons/sim/simulator_structures.py:PlayerLogger"]}
{"id": "C24", "title": "Command period and zero-order hold", "statement": "In a fresh run commands are requested exactly at the times k*m*dt with m = max(1, ceil(dt_commands/dt)), all active players are asked at the same steps, and between requests the model of each player is driven with the last command that player returned.", "quantifier": "All runs, all dt > 0 and dt_commands.", "why_tests_cant": "Arithmetic and induction over all step sizes and horizons.", "anchors": ["src/dg_commons/sim/simulator.py:Simulator.update", "src/dg_commons/sim/simulator.py:Simulator._need_to_update_commands"]}
{"id": "C25", "title": "Observations are a consistent snapshot", "statement": "At each step all agents are offered one and the same observation of exactly the players still active with their states at the beginning of the step; a model update of one player never changes what another observes in that step, and the resulting models and logs do not depend on the order in which players are processed when agents are independent.", "quantifier": "All runs and all orders of players.", "why_tests_cant": "Order independence over all permutations and all model behaviours.", "anchors": ["src/dg_commons/sim/simulator.py:Simulator.pre_update", "src/dg_commons/sim/simulator.py:Simulator.update"]}
{"id": "C26", "title": "Finished players leave for good", "statement": "A player is removed at the end of a step if and only if it has a mission fulfilled by its state at that time; its last logged state is that state at that time; once removed it is never observed, asked for commands, updated or collision checked again.", "quantifier": "All runs.", "why_tests_cant": "Temporal claim over unbounded executions.", "anchors": ["src/dg_commons/sim/simulator.py:Simulator._remove_finished_players", "src/dg_commons/sim/simulator.py:Simulator.post_update"]}
{"id": "C27", "title": "Collision bookkeeping", "statement": "Collision reports are appended in non-decreasing time, each stamped with the time of the step it was found; first_collision_ts is the minimum of all recorded collision times (infinity if none); at each step each unordered pair of active players is examined exactly once.", "quantifier": "All runs.", "why_tests_cant": "Invariant over unbounded executions.", "anchors": ["src/dg_commons/sim/simulator.py:Simulator._check_collisions_among_players", "src/dg_commons/sim/simulator.py:Simulator._check_collisions_with_environment"]}
{"id": "C28", "title": "Fresh simulators do not influence each other", "statement": "Running a fresh simulator on a context gives the same result whatever earlier simulations (of other Simulator objects) left in the class-level shared dictionaries; reusing one Simulator object does not have this guarantee.", "quantifier": "All pairs of earlier histories and contexts.", "why_tests_cant": "Quantifies over all previous contents of hidden shared state.", "anchors": ["src/dg_commons/sim/simulator.py:Simulator.run", "src/dg_commons/sim/simulator.py:Simulator.last_commands", "src/dg_commons/sim/simulator.py:Simulator.simlogger", "src/dg_commons/sim/simulator.py:Simulator.last_get_commands_ts"]}
{"id": "C29", "title": "Reading a simulation log", "statement": "SimLog.at_interp(t) returns for every player its state interpolated at t, its last command at or before t if any and its info accordingly; get_init_time and get_last_time are the smallest start and largest end over the players; item assignment rejects anything but player logs.", "quantifier": "All logs and times.", "why_tests_cant": "Universal over all logs with any number of players.", "anchors": ["src/dg_commons/sim/simulator_structures.py:PlayerLog.at_interp", "src/dg_commons/sim/simulator_structures.py:SimLog.at_interp", "src/dg_commons/sim/simulator_structures.py:SimLog.get_init_time", "src/dg_commons/sim/simulator_structures.py:SimLog.get_last_time", "src/dg_commons/sim/simulator_structures.py:SimLog.__setitem__"]}
{"id": "C30", "title": "Delayed observations", "statement": "With a latency L >= 0 that is a multiple of a regular sampling period, once the simulation is older than L an agent behind DelayedObsFilter receives at time t exactly the observation made at t-L, re-stamped t; before that it receives the very first observation; sense never raises for L >= 0.", "quantifier": "All observation histories and latencies.", "why_tests_cant": "Unbounded histories with state.", "anchors": ["src/dg_commons/sim/sim_perception.py:DelayedObsFilter.sense"]}
{"id": "C31", "title": "Ghosted player", "statement": "GhostObsFilter removes exactly the ghost, exactly when the observer is someone else and is further from it than the threshold; everything else in the observation is untouched and the ghost always observes itself.", "quantifier": "All observations, observers, thresholds.", "why_tests_cant": "Universal over real positions and thresholds; also covers the boundary distance.", "anchors": ["src/dg_commons/sim/sim_perception.py:GhostObsFilter.sense"]}
{"id": "C32", "title": "Field-of-view filter", "statement": "FovObsFilter returns a subset of the observed players with unchanged states, always containing the observer itself, containing another player if and only if their occupancy meets the visible area, at the same time stamp; identity filter returns everything.", "quantifier": "All observations and visible areas.", "why_tests_cant": "Quantifies over all sets of players and geometric predicates.", "anchors": ["src/dg_commons/sim/sim_perception.py:FovObsFilter.sense", "src/dg_commons/sim/sim_perception.py:IdObsFilter.sense"]}
{"id": "C33", "title": "Visibility polygon", "statement": "Every vertex of the polygon of VisRangeSensor is within the range of the sensor, each ray contributes the closest recorded hit strictly within range or else the point at full range, the outline is closed, and rays cover the field of view symmetrically.", "quantifier": "All sensor poses, ranges, fields of view and sets of ray hits.", "why_tests_cant": "Real-valued geometry and any number of hits per ray.", "anchors": ["src/dg_commons/perception/sensor.py:VisRangeSensor.fov_as_polygon", "src/dg_commons/perception/sensor.py:Sensor.__post_init__", "src/dg_commons/perception/sensor.py:FullRangeSensor.fov_as_polygon"]}
{"id": "C34", "title": "Collisions conserve momentum", "statement": "Applying the computed impulse with the normal to one body and with the opposite normal to the other keeps total linear momentum and total angular momentum about any point.", "quantifier": "All masses, inertias, velocities, contact points and unit or non-unit normals.", "why_tests_cant": "Algebraic identity over all reals.", "anchors": ["src/dg_commons/sim/collision_utils.py:compute_impulse_response", "src/dg_commons/sim/collision_utils.py:velocity_after_collision", "src/dg_commons/sim/collision_utils.py:rot_velocity_after_collision", "src/dg_commons/sim/collision.py:resolve_collision"]}
{"id": "C35", "title": "Restitution law", "statement": "After the impulse the relative normal velocity of the contact points is -e times the one before, with e the smaller restitution coefficient, so bodies with 0 <= e never keep approaching at the contact.", "quantifier": "All masses > 0, inertias > 0, velocities, contact points, unit normals, restitution coefficients.", "why_tests_cant": "Algebraic identity over all reals.", "anchors": ["src/dg_commons/sim/collision_utils.py:compute_impulse_response", "src/dg_commons/sim/collision_utils.py:velocity_of_P_given_A"]}
{"id": "C36", "title": "Collisions do not create kinetic energy", "statement": "For restitution within [0,1] the total kinetic energy (translation plus rotation) after an impulse is at most the one before, equal exactly when e = 1 or there is no approach velocity.", "quantifier": "All masses > 0, inertias > 0, velocities, contact points, unit normals, restitution in [0,1].", "why_tests_cant": "Inequality over all reals.", "anchors": ["src/dg_commons/sim/collision_utils.py:compute_impulse_response", "src/dg_commons/sim/collision_utils.py:kinetic_energy"]}
{"id": "C37", "title": "Collision resolution decision and report", "statement": "resolve_collision leaves both models untouched and reports nothing when the bodies separate along the normal; otherwise it marks both collided, sets both velocities to the impulse result and returns a report at the current time naming both players with the velocities before and after; fault is computed only if a scenario is given.", "quantifier": "All pairs of models and contact geometries.", "why_tests_cant": "Decision logic over all real-valued configurations.", "anchors": ["src/dg_commons/sim/collision.py:resolve_collision"]}
{"id": "C38", "title": "Collision with the environment", "statement": "Resolving a collision with a static obstacle behaves as a collision with an immovable body: the obstacle keeps zero velocity, the normal contact velocity of the player is multiplied by -e with e the smaller coefficient, the kinetic energy of the player does not increase for 0 <= e <= 1, and the report blames the player and only the player. A dynamic-obstacle player is deflected but never reported.", "quantifier": "All masses, velocities and contact geometries.", "why_tests_cant": "Limit of infinite mass, all reals.", "anchors": ["src/dg_commons/sim/collision.py:resolve_collision_with_environment", "src/dg_commons/sim/models/obstacles.py:ObstacleGeometry", "src/dg_commons/sim/simulator.py:Simulator._check_collisions_with_environment"]}
{"id": "C39", "title": "Fault assignment", "statement": "check_who_is_at_fault blames a player exactly when its pose is illegal (outside or against the direction) on every lane that contains the impact point; the verdict on one player does not depend on the other player or on the order of the players. In particular, when no lane contains the impact point everyone is blamed.", "quantifier": "All pairs of poses, lane sets and impact locations.", "why_tests_cant": "Finite case logic over infinite lane data.", "anchors": ["src/dg_commons/sim/collision_utils.py:check_who_is_at_fault", "src/dg_commons/sim/collision_utils.py:_is_illegal_lanepose"]}
{"id": "C40", "title": "Combining collision reports", "statement": "Combining two complete reports on the same players gives a report with the time, point, normal, footprint, fault and velocity-before of the earlier report (the first argument on ties), the velocity-after of the later one, concatenated impact locations and added energy changes; combining is associative for reports in time order (not in general) and commutative for different times; reports on different players are rejected.", "quantifier": "All pairs and triples of reports.", "why_tests_cant": "Algebraic law over all reports.", "anchors": ["src/dg_commons/sim/collision_structures.py:combine_collision_reports"]}
{"id": "C41", "title": "Who collided", "statement": "who_collided returns exactly the players named in at least one report; has_collision is true exactly if one of the reports names the player called Ego.", "quantifier": "All lists of reports.", "why_tests_cant": "Set equality over lists of any length.", "anchors": ["src/dg_commons/sim/utils.py:who_collided", "src/dg_commons/eval/safety.py:has_collision"]}
{"id": "C42", "title": "Acceleration limiting", "statement": "apply_full_acceleration_limits returns a value within the acceleration limits (whenever these contain zero), equal to the request if it is admissible, and never pushes the speed further beyond a reached speed limit; the same for the angular and force variants.", "quantifier": "All speeds, requests and parameters passing validation.", "why_tests_cant": "Real-valued branching with several boundaries.", "anchors": ["src/dg_commons/sim/models/model_utils.py:apply_acceleration_limits", "src/dg_commons/sim/models/model_utils.py:apply_speed_constraint", "src/dg_commons/sim/models/model_utils.py:apply_full_acceleration_limits", "src/dg_commons/sim/models/model_utils.py:apply_rot_speed_constraint", "src/dg_commons/sim/models/model_utils.py:apply_force_limits", "src/dg_commons/sim/models/model_utils.py:apply_full_ang_vel_limits"]}
{"id": "C43", "title": "Steering limiting", "statement": "steering_constraint and the pedestrian rotation constraint return a rate within the rate limits, equal to the request if admissible, and zero when the steering angle is at or beyond its limit and the request would increase the violation.", "quantifier": "All angles, rates, parameters.", "why_tests_cant": "Real-valued branching.", "anchors": ["src/dg_commons/sim/models/vehicle_utils.py:steering_constraint", "src/dg_commons/sim/models/pedestrian_utils.py:rotation_constraint"]}
{"id": "C44", "title": "Discrete bicycle model respects limits", "statement": "For any state and any (even inadmissible) command, the state produced by the discrete bicycle model has speed and steering angle within their limits; from an admissible state speed and steering change by at most the maximal rates times dt; hence every state of every roll-out is admissible. The given state is not modified.", "quantifier": "All command sequences and step sizes.", "why_tests_cant": "Invariant over unbounded command sequences.", "anchors": ["src/dg_commons/dynamics/bicycle_dynamic.py:BicycleDynamics.successor", "src/dg_commons/dynamics/bicycle_dynamic.py:BicycleDynamics.dynamics"]}
{"id": "C45", "title": "State and command arithmetic", "statement": "The +, -, * and / of vehicle, dynamic vehicle, pedestrian, differential drive, spacecraft, spaceship, rocket and obstacle states and commands satisfy the vector space laws field by field, in particular a - b + b = a and (a*k)/k = a for k != 0.", "quantifier": "All states and scalars.", "why_tests_cant": "Algebraic laws.", "anchors": ["src/dg_commons/sim/models/vehicle.py:VehicleState.__add__", "src/dg_commons/sim/models/pedestrian.py:PedestrianState.__add__", "src/dg_commons/sim/models/spacecraft.py:SpacecraftState.__mul__", "src/dg_commons/sim/models/rocket.py:RocketState.__sub__"]}
{"id": "C46", "title": "Array round trips", "statement": "from_array(as_ndarray(s)) = s for every state and command type and as_ndarray(from_array(z)) = z for every array of the right length; arrays of another length are rejected.", "quantifier": "All states, commands and arrays.", "why_tests_cant": "Universal round-trip; for SpacecraftCommands the claim fails for all inputs.", "anchors": ["src/dg_commons/sim/models/vehicle.py:VehicleState.from_array", "src/dg_commons/sim/models/spacecraft.py:SpacecraftCommands.from_array", "src/dg_commons/sim/models/rocket.py:RocketState.from_array", "src/dg_commons/sim/models/diff_drive.py:DiffDriveState.from_array"]}
{"id": "C47", "title": "Setting and reading back velocities", "statement": "After set_velocity(v, w, frame) a model reports velocity v and rotation w through get_velocity(frame), in both frames, leaving its pose unchanged.", "quantifier": "All states, velocities and frames of every dynamic model.", "why_tests_cant": "Trigonometric identity over all headings; fails for some of the models for almost all inputs.", "anchors": ["src/dg_commons/sim/models/vehicle_dynamic.py:VehicleModelDyn.set_velocity", "src/dg_commons/sim/models/pedestrian.py:PedestrianModel.set_velocity", "src/dg_commons/sim/models/spacecraft.py:SpacecraftModel.set_velocity", "src/dg_commons/sim/models/rocket.py:RocketModel.set_velocity", "src/dg_commons/sim/models/vehicle.py:VehicleModel.set_velocity"]}
{"id": "C48", "title": "Unit conversions", "statement": "kmh2ms and ms2kmh are mutually inverse, strictly increasing and linear.", "quantifier": "All speeds.", "why_tests_cant": "Universal identity.", "anchors": ["src/dg_commons/sim/models/utils.py:kmh2ms", "src/dg_commons/sim/models/utils.py:ms2kmh"]}
{"id": "C49", "title": "Friction circle of the dynamic vehicle model", "statement": "The tyre forces produced by the model never exceed the peak friction: the lateral force is at most D times the load, the expression under the square root is never negative, so the computation is defined for every state with vx >= 0.1 and the combined force at an axle stays within the friction ellipse when the longitudinal demand does.", "quantifier": "All slip angles, tyre parameters and loads.", "why_tests_cant": "Real trigonometric bounds.", "anchors": ["src/dg_commons/sim/models/vehicle_dynamic.py:VehicleModelDyn.dynamics", "src/dg_commons/sim/models/tires.py:Pacejka.evaluate", "src/dg_commons/sim/models/tires.py:Pacejka4p.evaluate"]}
{"id": "C50", "title": "Fuel and mass", "statement": "The mass rate of rocket and spaceship is never positive for non-negative force limits, and zero when no fuel is left; without fuel there is no linear or angular thrust acceleration.", "quantifier": "All states, commands and parameters.", "why_tests_cant": "Real-valued claim with a mode switch; false for the spaceship default limits which allow negative thrust.", "anchors": ["src/dg_commons/sim/models/rocket.py:RocketModel.dynamics", "src/dg_commons/sim/models/spaceship.py:SpaceshipModel.dynamics"]}
{"id": "C51", "title": "Motion primitives", "statement": "Each generated motion primitive is a valid trajectory of n_steps+1 samples on the grid k*dt starting in the given state, or at the origin with a sampled speed and steering; its command is constant with acceleration and steering rate within the limits and such that the commanded change over the horizon equals the sampled change; every admissible pair of samples yields a primitive.", "quantifier": "All generator parameters and sample grids.", "why_tests_cant": "Soundness and completeness over all grids.", "anchors": ["src/dg_commons/planning/motion_primitives.py:MotionPrimitivesGenerator.generate", "src/dg_commons/planning/motion_primitives.py:MotionPrimitivesGenerator.check_input_constraints"]}
{"id": "C52", "title": "Commands sampler", "statement": "The commands sampler returns one one-step trajectory per pair of sampled acceleration and steering rate, each a valid trajectory from the given state; samples lie within the configured limits and include both ends; default parameters derived from a vehicle are accepted by update_params.", "quantifier": "All sampler parameters, states.", "why_tests_cant": "Universal over grids; the last claim is false for the default vehicles.", "anchors": ["src/dg_commons/planning/commands_sampler.py:CommandsSampler.generate", "src/dg_commons/planning/commands_sampler.py:CommandsSampler.update_params", "src/dg_commons/planning/commands_sampler.py:CommandsSamplerParam"]}
{"id": "C53", "title": "Lane coordinates are mutually inverse", "statement": "beta_from_along_lane and along_lane_from_beta are inverse to each other and strictly increasing (up to the snap of positions within max(1e-8, 1e-9 times the length) before the lane end) on lanes with positive segment lengths, and the internal assertions never fail.", "quantifier": "All lanes with at least two control points at positive distances, all reals.", "why_tests_cant": "Inverse of piecewise functions with any number of pieces.", "anchors": ["src/dg_commons/maps/lanes.py:DgLanelet.along_lane_from_beta", "src/dg_commons/maps/lanes.py:DgLanelet.beta_from_along_lane"]}
{"id": "C54", "title": "Lane pose flags", "statement": "In a lane pose exactly one of lateral_inside, outside_left, outside_right holds; at most one of along_inside, along_before, along_after holds and exactly one unless the position is exactly at the lane end; inside means both; distances are the absolute distances to the boundaries and center.", "quantifier": "All lanes, positions and headings.", "why_tests_cant": "Real-valued case distinction incl. boundary values.", "anchors": ["src/dg_commons/maps/lanes.py:DgLanelet.lane_pose"]}
{"id": "C55", "title": "Lane radius and center line", "statement": "radius(beta) stays within the smallest and largest control point radius, equals the control point radius at integers and is constant outside; center_point_fast passes through the control points at integer parameters and is the straight segment in between.", "quantifier": "All lanes and real parameters.", "why_tests_cant": "Continuum of parameters, any number of control points.", "anchors": ["src/dg_commons/maps/lanes.py:DgLanelet.radius", "src/dg_commons/maps/lanes.py:DgLanelet.center_point_fast_SE2Transform"]}
{"id": "C56", "title": "Planar pose algebra", "statement": "relative_pose(base, pose) composed with base gives pose back, relative_pose(q,q) is the identity, distances are invariant under a common change of frame, transforming points with transform_xy, SE2_apply_T2 and apply_SE2_to_shapely_geo is the same map, it preserves distances, and composes.", "quantifier": "All planar poses and points.", "why_tests_cant": "Group laws over all reals.", "anchors": ["src/dg_commons/geo.py:relative_pose", "src/dg_commons/geo.py:SE2_apply_T2", "src/dg_commons/geo.py:transform_xy", "src/dg_commons/geo.py:apply_SE2_to_shapely_geo", "src/dg_commons/geo.py:norm_between_SE2value"]}
{"id": "C57", "title": "Polygon conversion", "statement": "shapely2crPolygons yields one polygon per shapely polygon, without the repeated closing vertex, and one per segment of a line string; other geometries raise ValueError.", "quantifier": "All vertex lists.", "why_tests_cant": "Any number of vertices.", "anchors": ["src/dg_commons/geo.py:sPolygon2crPolygon", "src/dg_commons/geo.py:sLine2crPolygon", "src/dg_commons/geo.py:shapely2crPolygons"]}
{"id": "C58", "title": "Vehicle lights", "statement": "For every lights command and time the displayed lights are one of the phases of that command, alternate with twice the phase period for blinking commands, and braking brightens red back lights; displaying lights never affects later displays.", "quantifier": "All lights commands, times, histories of displays.", "why_tests_cant": "Periodicity with rounding for all real times; non-interference over unbounded histories (false as written).", "anchors": ["src/dg_commons/sim/models/vehicle_ligths.py:get_phased_lights", "src/dg_commons/sim/simulator_animation.py:lights_colors_from_lights_cmd"]}
{"id": "C59", "title": "Vehicle outline geometry", "statement": "The outline of a vehicle is a closed axis-aligned rectangle that contains all wheel centers and lights, its length equals the length property and its width the width property plus one tyre; with straight wheels it contains all tyres exactly when the front bumper is at least the tyre radius, with steered wheels a front tyre of a car sticks out; only the front wheels are turned; unknown vehicle types are rejected.", "quantifier": "All vehicle geometries with positive dimensions.", "why_tests_cant": "All real dimensions.", "anchors": ["src/dg_commons/sim/models/vehicle_structures.py:VehicleGeometry.outline", "src/dg_commons/sim/models/vehicle_structures.py:VehicleGeometry.length", "src/dg_commons/sim/models/vehicle_structures.py:VehicleGeometry.width"]}
{"id": "C60", "title": "Distance travelled", "statement": "distance_traveled is non-negative, zero for constant positions, at least the straight-line displacement between the first and last position, additive under splitting the log at a sample, and unaffected by a rigid change of frame.", "quantifier": "All state sequences.", "why_tests_cant": "Triangle inequality over any length.", "anchors": ["src/dg_commons/eval/efficiency.py:distance_traveled"]}
{"id": "C61", "title": "First time the goal lane is reached", "statement": "time_goal_lane_reached returns the first logged time at which the goal predicate holds, and None exactly when it holds at no logged time.", "quantifier": "All logs and predicates.", "why_tests_cant": "First-index claim over any length.", "anchors": ["src/dg_commons/eval/efficiency.py:time_goal_lane_reached"]}
{"id": "C62", "title": "Lane search terminates", "statement": "desired_lane_reached terminates for every position.", "quantifier": "All lane networks and positions.", "why_tests_cant": "Non-termination cannot be observed by a test; a network and position on which the search alternates forever exists.", "anchors": ["src/dg_commons/eval/efficiency.py:desired_lane_reached"]}
{"id": "C63", "title": "Comfort metrics", "statement": "get_max_jerk returns the largest absolute difference quotient of consecutive accelerations whose interval ends within the time range, zero if there is none, and an upper bound for all of them.", "quantifier": "All command sequences.", "why_tests_cant": "Maximum over any length.", "anchors": ["src/dg_commons/eval/comfort.py:get_max_jerk"]}
{"id": "C64", "title": "Time to collision search", "statement": "The forward search for the time to collision returns the first of the times 0, 0.1, ..., 3.1 at which the moved shapes meet together with the distances covered, infinity if there is none, and always ends after at most 32 checks.", "quantifier": "All shapes, velocities (geometric predicate arbitrary).", "why_tests_cant": "Arbitrary predicate; loop bound.", "anchors": ["src/dg_commons/eval/safety.py:_get_ttc_of_poly_and_state", "src/dg_commons/eval/safety.py:get_ttc_drac_at_t"]}
{"id": "C65", "title": "Minimal distances", "statement": "get_min_dist returns the smallest distance between the ego and another active player over the logged times within the range, with a player and time at which it is attained (the first such time), or infinity with no player if there is none.", "quantifier": "All logs.", "why_tests_cant": "Minimum over all times and players.", "anchors": ["src/dg_commons/eval/safety.py:get_min_dist", "src/dg_commons/eval/safety.py:get_min_dist_at_t"]}
{"id": "C66", "title": "Lane follower agent", "statement": "Once the lane-follower agent sees an emergency it keeps requesting zero speed for ever, even in later episodes of the same agent; its acceleration and steering rate commands always lie within the limits of the vehicle parameters.", "quantifier": "All observation histories.", "why_tests_cant": "Latch invariant over unbounded histories.", "anchors": ["src/dg_commons/sim/agents/lane_follower.py:LFAgent.get_commands"]}
{"id": "C67", "title": "Non-player agents", "statement": "An agent with a commands plan returns at each time the last planned command not after the observation time and raises exactly when the plan starts later.", "quantifier": "All plans and times.", "why_tests_cant": "Universal over plans.", "anchors": ["src/dg_commons/sim/agents/agent.py:NPAgent.get_commands"]}
{"id": "C68", "title": "Pure pursuit", "statement": "The lookahead distance is always between the minimum and maximum whatever the speed; the steering command is within (-pi/2, pi/2), zero for a goal straight ahead, antisymmetric in the lateral offset, and the command is refused when pose or path is missing.", "quantifier": "All poses, speeds and goals.", "why_tests_cant": "Real trigonometry.", "anchors": ["src/dg_commons/controllers/pure_pursuit.py:PurePursuit.get_desired_steering", "src/dg_commons/controllers/pure_pursuit.py:PurePursuit._get_lookahead"]}
{"id": "C69", "title": "Scenario obstacles and players", "statement": "Converting a CommonRoad scenario gives each dynamic obstacle either a static obstacle or a player named after its index (or the ego), never both, in order, names are unique, models and players have the same keys, unsupported ones are skipped; the obstacle index of a scenario lists the given obstacles first, then the road bounds.", "quantifier": "All scenarios.", "why_tests_cant": "Any number of obstacles of any kind.", "anchors": ["src/dg_commons/sim/scenarios/factory.py:get_scenario_commonroad_replica", "src/dg_commons/sim/scenarios/structures.py:DgScenario.__post_init__", "src/dg_commons/sim/scenarios/utils_dyn_obstacle.py:is_dyn_obstacle_static"]}
{"id": "C70", "title": "Differential drive kinematics", "statement": "The differential drive moves only along its heading (no side slip), turns in place for opposite wheel speeds, goes straight for equal ones, with wheel speeds clipped to their limits, and its speed is bounded by the wheel radius times the maximal wheel speed.", "quantifier": "All states, commands and parameters.", "why_tests_cant": "Real-valued claim.", "anchors": ["src/dg_commons/sim/models/diff_drive.py:DiffDriveModel.dynamics"]}
{"id": "C71", "title": "Timing wrapper is transparent", "statement": "A function decorated with time_function returns the same result or raises the same exception as the original for all arguments.", "quantifier": "All functions and arguments.", "why_tests_cant": "Universal over functions.", "anchors": ["src/dg_commons/time.py:time_function"]}
{"id": "C72", "title": "No undefined time stamps", "statement": "A DgSampledSequence never contains a timestamp that is not a number, so its timestamps are always totally ordered.", "quantifier": "All lists of timestamps including infinite and not-a-number floats and Decimals.", "why_tests_cant": "It is a claim on all constructions including non-finite values; the comparison used by the check is false for not-a-number, which makes the check pass.", "anchors": ["src/dg_commons/seq/sequence.py:DgSampledSequence.__post_init__"]}
{"id": "C73", "title": "Impact normal and impact point", "statement": "compute_impact_geometry returns a unit normal that does not point back from the impact point into the first body; the impact point is the midpoint of the two contact points and the normal is perpendicular to their connection (or, for an enclosed body, the point is its centre and the normal the direction from the centre of the enclosing body). Shapes that only touch, or overlaps without exactly two contact points, are rejected; the normal is undefined only for coinciding centres or contact points.", "quantifier": "All pairs of shapes, for every behaviour of the shape library.", "why_tests_cant": "Overlaps come in infinitely many positions and kinds (partial, enclosed, scattered, touching); tests check a few pairs.", "anchors": ["src/dg_commons/sim/collision_utils.py:32-113"]}
{"id": "C74", "title": "Reported velocity is the rate of the pose", "statement": "The velocity and rotation reported by get_velocity in the world frame equal the rate of change of position and heading given by dynamics().", "quantifier": "All states, commands and parameters of every dynamic model.", "why_tests_cant": "Identity between two separately written formulas for all headings and speeds; false for some of the models and regimes.", "anchors": ["src/dg_commons/sim/models/vehicle.py:VehicleModel.get_velocity", "src/dg_commons/sim/models/rocket.py:RocketModel.get_velocity", "src/dg_commons/sim/models/pedestrian.py:PedestrianModel.dynamics", "src/dg_commons/sim/models/vehicle_dynamic.py:VehicleModelDyn.dynamics"]}
{"id": "C75", "title": "Dynamics do not depend on the world frame", "statement": "Moving the world frame by any rotation and shift moves the rate of every model accordingly: the rate of the position is rotated, all other rates stay the same.", "quantifier": "All states, commands, parameters, rotations and shifts, all models.", "why_tests_cant": "Symmetry over a continuous group.", "anchors": ["src/dg_commons/sim/models/vehicle.py:VehicleModel.dynamics", "src/dg_commons/sim/models/rocket.py:RocketModel.dynamics", "src/dg_commons/sim/models/spaceship.py:SpaceshipModel.dynamics", "src/dg_commons/sim/models/vehicle_dynamic.py:VehicleModelDyn.dynamics"]}
{"id": "C76", "title": "Newton's law in the world frame", "statement": "Along every motion of the spacecraft, spaceship, rocket and dynamic vehicle, mass times the acceleration of the world velocity is the sum of the applied forces; the turning frame adds no spurious force.", "quantifier": "All motions and commands.", "why_tests_cant": "Statement about derivatives along all motions.", "anchors": ["src/dg_commons/sim/models/spacecraft.py:SpacecraftModel.dynamics", "src/dg_commons/sim/models/spaceship.py:SpaceshipModel.dynamics", "src/dg_commons/sim/models/rocket.py:RocketModel.dynamics", "src/dg_commons/sim/models/vehicle_dynamic.py:VehicleModelDyn.dynamics"]}
{"id": "C77", "title": "Friction after a collision", "statement": "After a collision a pedestrian's velocities shrink by the factor 1 - 2 dt with every update of length dt (so they never grow for dt at most one second and keep their direction up to half a second) and its heading stays; for the dynamic vehicle a collision adds exactly the friction opposed to the velocities at the start of the update.", "quantifier": "All states, numbers of updates and step lengths.", "why_tests_cant": "Any number of updates, real step lengths.", "anchors": ["src/dg_commons/sim/models/pedestrian.py:PedestrianModel.get_extra_collision_friction_acc", "src/dg_commons/sim/models/vehicle_dynamic.py:VehicleModelDyn.get_extra_collision_friction_acc"]}
{"id": "C78", "title": "Lateral tyre force opposes the slip", "statement": "The tyre curve is odd and on an axle pressed to the ground the lateral force points against the slip, for the tyres of all default vehicles.", "quantifier": "All slip angles, loads and tyre parameters.", "why_tests_cant": "Sign of a composition of transcendental functions for all slips; false for the front wheel of the default bicycle at large slip.", "anchors": ["src/dg_commons/sim/models/tires.py:Pacejka.evaluate", "src/dg_commons/sim/models/tires.py:Pacejka4p.evaluate"]}
{"id": "C79", "title": "Position along a lane is arc length", "statement": "The difference of the along-lane positions of two points of the center line is the length of the center line between them, inside the lane and beyond its ends.", "quantifier": "All lanes, all pairs of progress values.", "why_tests_cant": "Continuum of progress values and lanes; the metric is that of circular arcs between poses.", "anchors": ["src/dg_commons/maps/lanes.py:DgLanelet.along_lane_from_beta", "src/dg_commons/maps/lanes.py:DgLanelet.center_point"]}
{"id": "C80", "title": "Lane bounds reproduce the vertices", "statement": "A lane built from left, right and middle vertices has at each control point exactly the left and right vertex as its bounds, half their distance as radius and the perpendicular of their connection as heading.", "quantifier": "All vertex lists with middle vertices, including degenerate ones of zero width.", "why_tests_cant": "All vertex positions and orientations.", "anchors": ["src/dg_commons/maps/lanes.py:DgLanelet.from_vertices", "src/dg_commons/maps/lanes.py:DgLanelet.lane_profile"]}
{"id": "C81", "title": "Time to collision and deceleration rate over players and times", "statement": "get_ttc_drac_at_t looks exactly at the other active players whose centers coincide with the ego's or whose distance decreases at a rate that would close it within five seconds; it returns the least time to collision and the greatest deceleration rate over them with the first players attaining them, and get_min_ttc_max_drac the same over the ego's logged times in the range with the first times. For an ego driving forward the rate is the constant deceleration that stops it exactly at the point of collision.", "quantifier": "All logs, models, missions and ranges.", "why_tests_cant": "Minimum and maximum over all players and times; the test is a statement about derivatives of the distance.", "anchors": ["src/dg_commons/eval/safety.py:get_min_ttc_max_drac", "src/dg_commons/eval/safety.py:get_ttc_drac_at_t"]}
{"id": "C82", "title": "Ego collision flag", "statement": "has_collision is true exactly if some collision report lists the ego among its players.", "quantifier": "All lists of reports.", "why_tests_cant": "Any number of reports.", "anchors": ["src/dg_commons/eval/safety.py:has_collision"]}
{"id": "C83", "title": "Frequency-weighted acceleration", "statement": "get_acc_rms returns the root mean square of the accelerations in the time range after weighting every frequency with the ISO 2631 filter: the weighted energies of all frequencies are counted once and with their weight (Parseval), a constant acceleration a gives |a| times the weight of frequency zero, scaling the accelerations scales the result, the result never exceeds the plain root mean square, it is zero only without acceleration, and it refers to the actual sampling rate. Fewer than two samples are refused.", "quantifier": "All command sequences and time ranges.", "why_tests_cant": "The repository tests one recorded sequence against a rounded number; identities over all sample counts and spectra, including odd counts and other sampling rates, cannot be sampled.", "anchors": ["src/dg_commons/eval/comfort.py:25-49", "src/dg_commons/eval/comfort.py:52-60"]}
{"id": "C84", "title": "Meaning of desired_lane_reached", "statement": "desired_lane_reached returns true only if the goal is fulfilled or the vehicle is centered in and aligned with the goal lane or one of its successors.", "quantifier": "All lane networks and positions.", "why_tests_cant": "All networks; it is false: lanes before the goal lane and positions far beyond the last lane count as well.", "anchors": ["src/dg_commons/eval/efficiency.py:desired_lane_reached"]}
{"id": "C85", "title": "Obstacles of a CommonRoad scenario stand where the file says", "statement": "After converting a CommonRoad scenario, every obstacle that does not move, whether static in the file or a parked dynamic obstacle, is an obstacle of the simulation whose shape is the shape of the file turned and moved to the obstacle's pose; an obstacle that drives is not taken for a parked one.", "quantifier": "All scenarios.", "why_tests_cant": "Universal over scenarios; a static obstacle at the origin or a trajectory that does not return hides the fault.", "anchors": ["src/dg_commons/sim/scenarios/factory.py:get_scenario_commonroad_replica", "src/dg_commons/sim/scenarios/utils_dyn_obstacle.py:is_dyn_obstacle_static"]}
{"id": "C86", "title": "Lane inferred for an obstacle", "statement": "The lane given to an obstacle is the merged lane that starts at a lanelet at its initial position and passes through a lanelet at its last position, the one best aligned with the initial heading if there are several; if there is none it is the lane through the predicted positions.", "quantifier": "All lanelet networks and trajectories.", "why_tests_cant": "Depends on identifiers and headings of the map; the matching is on decimal strings and on unwrapped angles.", "anchors": ["src/dg_commons/sim/scenarios/utils_dyn_obstacle.py:infer_lane_from_dyn_obs", "src/dg_commons/sim/scenarios/utils_dyn_obstacle.py:_dglane_from_trajectory"]}
{"id": "C87", "title": "Model inferred for an obstacle", "statement": "The model made of an obstacle starts at its pose and speed, has positive mass and inertia, limits that fit its type, a steering angle within them, and an outline that covers the obstacle.", "quantifier": "All obstacles.", "why_tests_cant": "Universal over sizes and headings.", "anchors": ["src/dg_commons/sim/scenarios/model_from_dyn_obstacle.py:infer_model_from_cr_dyn_obstacle", "src/dg_commons/sim/scenarios/model_from_dyn_obstacle.py:_estimate_car_mass_inertia"]}
{"id": "C88", "title": "Road boundaries", "statement": "The road boundaries consist of the inner boundaries of the road surface and of the outer boundary except at the gates, which are exactly the ends without successor and the starts without predecessor; closed roads have boundaries too.", "quantifier": "All lanelet networks.", "why_tests_cant": "Universal over maps.", "anchors": ["src/dg_commons/maps/road_bounds.py:build_road_boundary_obstacle"]}
{"id": "C89", "title": "Planning goals", "statement": "A goal on a lane, given in metres along the lane, is fulfilled only within a metre of the cross section at that distance and not before it, and is fulfilled by who is there; a goal made of a lane lies at its end; a pose goal is fulfilled exactly within its tolerance, headings counted modulo full turns; every goal can be drawn.", "quantifier": "All lanes, goals and poses.", "why_tests_cant": "Universal over real-valued lanes and poses; on lanes with control points one metre apart the unit confusion does not show.", "anchors": ["src/dg_commons/sim/goals.py:RefLaneGoal", "src/dg_commons/sim/goals.py:_polygon_at_along_lane", "src/dg_commons/sim/goals.py:PolygonGoal", "src/dg_commons/sim/goals.py:PoseGoal"]}
{"id": "C90", "title": "Generated shapes", "statement": "create_star_polygon gives eight vertices winding once clockwise around the centre, each neighbouring pair spanning the same area with it. create_random_starshaped_polygon gives the requested number of vertices, at most twice the average radius from the centre, listed in the order of their direction over exactly one full turn.", "quantifier": "All centres, sizes, numbers of vertices and all outcomes of the random draws.", "why_tests_cant": "Random output: tests see a few draws; the claim is about all of them, including the extreme ones.", "anchors": ["src/dg_commons/maps/shapes_generator.py:create_star_polygon", "src/dg_commons/maps/shapes_generator.py:create_random_starshaped_polygon"]}
{"id": "C91", "title": "Reading pose and speed of any state", "statement": "The pose of any state is read from x, y and theta, or psi when there is no theta, and a ZValueError is raised exactly when that is impossible; pose and speed can be read of every state class of the models, so that the speed behaviour of an agent works next to agents of any model.", "quantifier": "All states of all model classes and all states with any attributes.", "why_tests_cant": "Combinations of agent classes and attributes; tests run vehicles next to vehicles.", "anchors": ["src/dg_commons/sim/models/utils.py:extract_pose_from_state", "src/dg_commons/sim/models/utils.py:extract_vel_from_state", "src/dg_commons/controllers/speed.py:SpeedBehavior"]}
{"id": "C92", "title": "Energy of the dynamic vehicle", "statement": "The kinetic energy of the dynamic vehicle changes exactly by the work of the two axle forces at the axles and of the drag; a vehicle that is not accelerating never gains kinetic energy.", "quantifier": "All states at 0.1 m/s and above before a collision, all commands, geometries and tyres with a regular curve.", "why_tests_cant": "Universal over real states; energy gains show only in spins with turned wheels.", "anchors": ["src/dg_commons/sim/models/vehicle_dynamic.py:VehicleModelDyn.dynamics", "src/dg_commons/sim/models/tires.py:Pacejka.evaluate"]}
{"id": "C93", "title": "Left and right are treated alike", "statement": "For every model the rate of change of the mirror image of a state, under the mirrored command, is the mirror image of the rate of change.", "quantifier": "All states, commands and parameters with symmetric steering and turning limits.", "why_tests_cant": "Universal over real-valued states of eight models; a sign error in one term shows only off axis.", "anchors": ["src/dg_commons/sim/models/vehicle.py:VehicleModel.dynamics", "src/dg_commons/sim/models/vehicle_dynamic.py:VehicleModelDyn.dynamics", "src/dg_commons/sim/models/pedestrian.py:PedestrianModel.dynamics", "src/dg_commons/sim/models/diff_drive.py:DiffDriveModel.dynamics", "src/dg_commons/sim/models/spacecraft.py:SpacecraftModel.dynamics", "src/dg_commons/sim/models/spaceship.py:SpaceshipModel.dynamics", "src/dg_commons/sim/models/rocket.py:RocketModel.dynamics", "src/dg_commons/sim/models/obstacles_dyn.py:DynObstacleModel.dynamics", "src/dg_commons/dynamics/bicycle_dynamic.py:BicycleDynamics.successor"]}
{"id": "C94", "title": "Updates integrate the model under the given commands", "statement": "The right-hand side that every model's update hands to the integrator, on arrays of state and commands, has as exact solutions precisely the motions of the model's dynamics from the current state with the commands held constant; what is unpacked at the end is the state of that motion. No index of a command or state field is confused and no field is lost.", "quantifier": "All eight models, states, commands, durations and solutions.", "why_tests_cant": "Equivalence of two differential equations over all solutions.", "anchors": ["src/dg_commons/sim/models/vehicle.py:VehicleModel.update", "src/dg_commons/sim/models/pedestrian.py:PedestrianModel.update", "src/dg_commons/sim/models/diff_drive.py:DiffDriveModel.update", "src/dg_commons/sim/models/spacecraft.py:SpacecraftModel.update", "src/dg_commons/sim/models/spaceship.py:SpaceshipModel.update", "src/dg_commons/sim/models/rocket.py:RocketModel.update", "src/dg_commons/sim/models/obstacles_dyn.py:DynObstacleModel.update"]}
{"id": "C95", "title": "Limits hold over any number of updates", "statement": "A model that starts within the limits of its parameters (speed, steering, nozzle angle, spin) is within them after any number of updates, whatever the commands, the durations and the collisions on the way.", "quantifier": "All sequences of updates, commands and parameters.", "why_tests_cant": "Invariant of differential equations over unboundedly many updates.", "anchors": ["src/dg_commons/sim/models/model_utils.py:apply_full_acceleration_limits", "src/dg_commons/sim/models/model_utils.py:apply_rot_speed_constraint", "src/dg_commons/sim/models/model_utils.py:apply_full_ang_vel_limits", "src/dg_commons/sim/models/vehicle_utils.py:steering_constraint"]}
{"id": "C96", "title": "Commands after a collision", "statement": "After a collision every model but cars and obstacles ignores its commands: vehicles keep speed and steering angle and turn at a constant rate; spacecraft, spaceships and rockets keep spin, mass and nozzle angle and move in a straight line at constant speed; differential drives stand still. Collided cars obey their commands as before. Dynamic vehicles have in addition a friction, in proportion to their velocities at the start of the update.", "quantifier": "All states, commands and durations.", "why_tests_cant": "Explicit form of all solutions of differential equations.", "anchors": ["src/dg_commons/sim/models/vehicle.py:VehicleModel.update", "src/dg_commons/sim/models/spacecraft.py:SpacecraftModel.update", "src/dg_commons/sim/models/spaceship.py:SpaceshipModel.update", "src/dg_commons/sim/models/rocket.py:RocketModel.update"]}
{"id": "C97", "title": "Collision flags and collision reports agree", "statement": "In every run without collisions at the start: a player whose model is flagged as collided is named in a collision report, unless it is a moving obstacle; and every player named in a report is flagged.", "quantifier": "All runs, players, models, agents and shapes.", "why_tests_cant": "Agreement of two records over all histories of a run.", "anchors": ["src/dg_commons/sim/simulator.py:Simulator._check_collisions_with_environment", "src/dg_commons/sim/simulator.py:Simulator._check_collisions_among_players", "src/dg_commons/sim/collision.py:resolve_collision", "src/dg_commons/sim/collision.py:resolve_collision_with_environment"]}
{"id": "C98", "title": "Recorded collisions obey mechanics", "statement": "Every report with details recorded in a run tells the time and the players of the collision. Two players keep their common momentum and do not gain kinetic energy together. A player that hits the environment is at fault and does not gain kinetic energy, and the environment does not move.", "quantifier": "All runs, players, models, agents, shapes, masses and restitutions.", "why_tests_cant": "Concerns all collisions of all runs, not one resolution.", "anchors": ["src/dg_commons/sim/simulator.py:Simulator.post_update", "src/dg_commons/sim/collision.py:resolve_collision", "src/dg_commons/sim/collision.py:resolve_collision_with_environment"]}
{"id": "C99", "title": "Players without collisions obey their own commands only", "statement": "The model of a player that is not a moving obstacle and is named in no report is its initial model after one update per step, with its own commands. What every update keeps holds in every logged state; so speed and steering angle of a kinematic vehicle are within its limits throughout the log.", "quantifier": "All runs, players, models and agents.", "why_tests_cant": "Invariant over unboundedly many steps of a whole simulation.", "anchors": ["src/dg_commons/sim/simulator.py:Simulator.update", "src/dg_commons/sim/simulator.py:Simulator.post_update", "src/dg_commons/sim/models/vehicle.py:VehicleModel.update"]}
{"id": "C100", "title": "Agents in a simulation behave as if alone with their observations", "statement": "If agents share no state, the state of an agent and everything logged for it (commands, computation times, extra objects) are what the agent, alone, makes of the observations it was given since the start of the episode. In particular a lane follower's logged commands are within the limits of its vehicle.", "quantifier": "All runs, agents and other players.", "why_tests_cant": "Non-interference over all runs and all other agents.", "anchors": ["src/dg_commons/sim/simulator.py:Simulator.run", "src/dg_commons/sim/simulator.py:Simulator.update", "src/dg_commons/sim/agents/agent.py:Agent", "src/dg_commons/sim/agents/lane_follower.py:LFAgent"]}
{"id": "C101", "title": "Impact locations tell where a model was hit", "statement": "The impact locations of a model cover its footprint, so every hit has a location; those of a vehicle are the four quarters of its footprint, on the side they are named after, wherever the vehicle is. A side is reported if and only if the other shape has a point in its quarter.", "quantifier": "All vehicles, poses and shapes.", "why_tests_cant": "Geometry of all dimensions, poses and shapes.", "anchors": ["src/dg_commons/sim/models/vehicle.py:VehicleModel.get_mesh", "src/dg_commons/sim/models/vehicle.py:VehicleModel.get_footprint", "src/dg_commons/sim/models/diff_drive.py:DiffDriveModel.get_mesh", "src/dg_commons/sim/collision.py:impact_locations_from_polygons"]}
{"id": "C102", "title": "Players are drawn where and as large as they are", "statement": "What is drawn of a player is its footprint, the polygon that collides, moved to its position and heading without being deformed, with its name at its position. The outlines of spaceships, rockets, spacecraft and pedestrians have the lengths and widths of their geometries.", "quantifier": "All outlines, dimensions, positions and headings.", "why_tests_cant": "Pictures are not compared by tests, and the claim is for all poses and dimensions.", "anchors": ["src/dg_commons/sim/simulator_visualisation.py:plot_vehicle", "src/dg_commons/sim/simulator_visualisation.py:plot_pedestrian", "src/dg_commons/sim/simulator_visualisation.py:plot_spacecraft", "src/dg_commons/sim/simulator_visualisation.py:plot_rocket", "src/dg_commons/sim/simulator_visualisation.py:plot_spaceship", "src/dg_commons/sim/simulator_visualisation.py:plot_diffdrive", "src/dg_commons/sim/models/spaceship_structures.py:SpaceshipGeometry.outline", "src/dg_commons/sim/models/rocket_structures.py:RocketGeometry.outline", "src/dg_commons/sim/models/spacecraft_structures.py:SpacecraftGeometry.outline", "src/dg_commons/sim/models/pedestrian.py:PedestrianGeometry.outline"]}
{"id": "C103", "title": "Engines push as they are drawn", "statement": "The flames of rockets and spaceships point against the forces with which the dynamics accelerate them, start at the nozzles at which these forces act, are as long as the forces are large, and are drawn if and only if the engines work.", "quantifier": "All states, commands, geometries and parameters.", "why_tests_cant": "Two pieces of code that must agree on signs and angles for all headings.", "anchors": ["src/dg_commons/sim/simulator_visualisation.py:plot_rocket", "src/dg_commons/sim/simulator_visualisation.py:plot_spaceship", "src/dg_commons/sim/models/rocket.py:RocketModel.dynamics", "src/dg_commons/sim/models/spaceship.py:SpaceshipModel.dynamics", "src/dg_commons/sim/models/rocket_structures.py:RocketGeometry.flames_outline_in_body_frame", "src/dg_commons/sim/models/spaceship_structures.py:SpaceshipGeometry.flames_outline_in_body_frame"]}
{"id": "C104", "title": "The camera keeps the players in view", "statement": "With automatic limits all players are in view, 15 m from the edge, and no more is shown than needed; a followed player is in view, at least 35/3 m from the edge of a square of 70 m, whatever its speed, and the view leads in the direction of its motion. If the limits cannot be computed, matplotlib's limits are used.", "quantifier": "All players, positions, headings and speeds.", "why_tests_cant": "Any number of players at any positions and speeds.", "anchors": ["src/dg_commons/sim/simulator_animation.py:adjust_axes_limits", "src/dg_commons/sim/simulator_visualisation.py:approximate_bounding_box_players"]}
{"id": "C105", "title": "An animation shows the run at its own pace", "statement": "The frames of an animation are at times of the run, evenly spaced by the step asked for (at most one second), from its begin to its end, and are played at the speed of the run.", "quantifier": "All durations and steps.", "why_tests_cant": "Rounding of the number of frames and of the frame rate for all durations and steps.", "anchors": ["src/dg_commons/sim/simulator_animation.py:create_animation"]}
{"id": "C106", "title": "Planned trajectories in an animation are the latest ones", "statement": "In every frame the trajectories shown for a player are those its agent has logged last.", "quantifier": "All logs and numbers of frames.", "why_tests_cant": "All sequences of frames; the exceptions are swallowed.", "anchors": ["src/dg_commons/sim/simulator_animation.py:create_animation"]}
{"id": "C107", "title": "The outline of a lane runs along its bounds", "statement": "The outline of a lane runs along its right bound from the start to the end and back along its left bound; each point is half the width of the lane there away from the centre line, at right angles to it. At the ends these are the end vertices of the bounds that the lane was built from, and the vertices in between are on it too.", "quantifier": "All lanes and numbers of points per segment.", "why_tests_cant": "All lanes, with any number of control points, and all sampling densities.", "anchors": ["src/dg_commons/maps/lanes.py:DgLanelet.lane_profile"]}
{"id": "C108", "title": "Recorded runs can be replayed", "statement": "If the agents of some or all players are replaced by non-player agents whose plans are the commands logged in a run, the run repeats itself: same number of steps, same models, players and collisions at the end, same calls in the same order, and the same log, but for the computation times and extra objects of the replaced players.", "quantifier": "All agents, models, sensors, collision code, parameters, and sets of replaced players.", "why_tests_cant": "Two executions of any length of the whole simulator have to be compared, for arbitrary agents.", "anchors": ["src/dg_commons/sim/agents/agent.py:NPAgent", "src/dg_commons/sim/simulator.py:Simulator.run", "src/dg_commons/seq/sequence.py:DgSampledSequence.at_or_previous"]}
{"id": "C109", "title": "What agents see in a run is what their sensors let through", "statement": "In a run in which every player has a sensor of its own, the observations an agent is given are what its sensor, alone, makes of the snapshots of the world at the times of the requests. The k-th snapshot is the world at step k times the command period, there is one for every request time at which the player is in the simulation. With a latency of d command periods the agent sees at its k-th request, k at least d, the world as it was d requests ago, stamped with the present time. A ghost is shown exactly to itself and to players not further away than the threshold at that step.", "quantifier": "All agents, models, filters, numbers of players, parameters and lengths of runs.", "why_tests_cant": "The filters keep a history over the whole run; arbitrary filters of other players act in between.", "anchors": ["src/dg_commons/sim/simulator.py:SimContext.sensors", "src/dg_commons/sim/simulator.py:Simulator.update", "src/dg_commons/sim/sim_perception.py:DelayedObsFilter.sense", "src/dg_commons/sim/sim_perception.py:GhostObsFilter.sense"]}
{"id": "C110", "title": "Obstacles and goals are drawn where they are", "statement": "The picture of the arena shows at every point the obstacle that covers it, otherwise the goal that covers it, otherwise nothing: holes are not filled, shapes of several parts are shown whole, and every kind of shape and goal of the project can be drawn.", "quantifier": "All lists of obstacles and goals, all shapes, all points.", "why_tests_cant": "Which artist is on top depends on the order and zorder of all of them, at every point of the plane; the existing tests only look at pictures.", "anchors": ["src/dg_commons/maps/shapely_viz.py:ShapelyViz.add_shape", "src/dg_commons/maps/shapely_viz.py:ShapelyViz._plot_polys", "src/dg_commons/sim/simulator_visualisation.py:SimRenderer.plot_arena", "src/dg_commons/sim/goals.py:PoseGoal.get_plottable_geometry"]}
{"id": "C111", "title": "Pictures of collisions show what happened", "statement": "After a run every reported collision can be drawn; the picture shows both participants where their models were at the collision, with their velocities before and after it, and arrows at the impact point along which they run into each other.", "quantifier": "All runs with all agents, models, obstacles and missions, all reported collisions.", "why_tests_cant": "The picture reads positions back from the log written at other moments of the run; whether these are the positions at the collision depends on every run.", "anchors": ["src/dg_commons/sim/collision_visualisation.py:plot_collision", "src/dg_commons/sim/simulator.py:Simulator.post_update", "src/dg_commons/sim/simulator_structures.py:SimLog.at_interp"]}
{"id": "C112", "title": "Diagrams of logs show states and commands as they were", "statement": "The diagrams of a log of a player show, for each field of states and commands and at every time of the log, the value which reading the log at that time gives: the interpolated state and the command in force. After a run the logs of all players can be drawn.", "quantifier": "All logs, fields and times; all runs.", "why_tests_cant": "A diagram is a curve over a continuum of times, over logs of any length; the tests do not look at what is drawn.", "anchors": ["src/dg_commons/sim/log_visualisation.py:plot_player_log", "src/dg_commons/sim/log_visualisation.py:plot_players_logs", "src/dg_commons/seq/sequence.py:DgSampledSequence.at_interp"]}
{"id": "C113", "title": "All trajectories of a graph are returned", "statement": "If a trajectory graph has one root, get_all_trajectories returns every complete trajectory, from the root to a leaf, each of them once; get_all_transitions returns for each leaf the merged transitions on the way to it.", "quantifier": "All histories of add_node and add_edge with valid trajectories, all path searches that return a path.", "why_tests_cant": "The number of paths of a graph is unbounded and depends on its history.", "anchors": ["src/dg_commons/planning/trajectory.py:TrajectoryGraph.get_all_trajectories", "src/dg_commons/planning/trajectory.py:TrajectoryGraph.get_all_transitions"]}
{"id": "C114", "title": "Moving a trajectory moves it as a rigid body", "statement": "apply_SE2transform moves the state of a trajectory at every time by the transform and leaves times, speeds and steering; distances and whether trajectories can be joined stay; moves compose and can be undone.", "quantifier": "All valid trajectories and transforms, all times.", "why_tests_cant": "Statement about a continuum of times, transforms and headings.", "anchors": ["src/dg_commons/planning/trajectory.py:Trajectory.apply_SE2transform", "src/dg_commons/planning/trajectory.py:Trajectory.as_path"]}
{"id": "C115", "title": "Contexts that are accepted can be run", "statement": "SimContext accepts exactly the arguments in which the same players have models and agents of the right classes, missions are goals of known players and the scenario is a scenario. A simulator begins an accepted context in a fresh state, and the run ends with a log for every model that begins with its initial state, unless a model, agent, sensor or goal raises.", "quantifier": "All dictionaries of models, agents, missions and sensors, all parameters with a positive step, all behaviours of models and agents that do not raise.", "why_tests_cant": "Relates all accepted arguments to whole runs of unbounded length with arbitrary agents.", "anchors": ["src/dg_commons/sim/simulator.py:SimContext.__post_init__", "src/dg_commons/sim/simulator.py:Simulator.run"]}
{"id": "C116", "title": "Running a finished context again changes nothing", "statement": "If a context whose simulation has ended is given to run again, no step is made, no agent is asked and no model moves, and the logs stay as they are.", "quantifier": "All fresh runs that return, all agents, all simulators used for the second run.", "why_tests_cant": "Statement about the end states of all runs of unbounded length.", "anchors": ["src/dg_commons/sim/simulator.py:Simulator.run"]}
{"id": "C117", "title": "Cached lane quantities are those of the lane", "statement": "get_lane_lengths and lane_profile, which are cached by cachetools with at most 128 entries, return in every history of calls what they would compute from the present control points of the lane, and the cache holds exactly the last 128 different arguments for which the function returned.", "quantifier": "All histories of calls on any number of lanes, interleaved with changes of lanes, all cache sizes.", "why_tests_cant": "Quantifies over all histories of calls of unbounded length, including evictions, and over all lanes.", "anchors": ["src/dg_commons/maps/lanes.py:DgLanelet.get_lane_lengths", "src/dg_commons/maps/lanes.py:DgLanelet.lane_profile", "src/dg_commons/maps/lanes.py:DgLanelet.get_lanelets"]}
{"id": "C118", "title": "The two propagations of the bicycle advance the same vehicle", "statement": "BicycleDynamics.successor_ivp integrates exactly the kinematic bicycle for the given commands; successor is its Euler step: both agree to first order, on a straight line speed, heading and steering agree exactly and the position differs by half the acceleration times the squared step, in general speed and steering agree exactly, heading and position of one step differ by at most half the squared step times bounds of the yaw acceleration and the acceleration, and the errors after many steps over a fixed duration are in proportion to the step; and both keep the limits of speed and steering.", "quantifier": "All states, commands, geometries, steps and all exact solutions over real time.", "why_tests_cant": "Relates a discrete step to all solutions of a differential equation over the reals; tests only compare single numbers up to tolerances.", "anchors": ["src/dg_commons/sim/models/vehicle.py:VehicleModel.dynamics", "src/dg_commons/dynamics/bicycle_dynamic.py:BicycleDynamics.successor"]}
{"id": "C119", "title": "Speed and steering reach their reference", "statement": "A vehicle whose SpeedController and SteerController are asked every h seconds for the same reference, from any earlier history, has its speed and steering angle tend to the reference, with limits of output, anti-windup and derivative part as in the code; on the way the error stays bounded.", "quantifier": "All gains in a stated region that contains the defaults, all histories before, all references, all initial values, all exact motions of the vehicle between the requests.", "why_tests_cant": "A limit over infinitely many steps of a non-linear feedback loop, from all initial states.", "anchors": ["src/dg_commons/controllers/pid.py:PID.get_control", "src/dg_commons/controllers/speed.py:SpeedController", "src/dg_commons/controllers/steer.py:SteerController"]}
{"id": "C120", "title": "The foreseen time to collision is the true one", "statement": "If both agents go on with constant velocity, the time to collision that is returned is one at which their shapes do touch, at most 0.1 s after the first contact, and every contact within the next three seconds is foreseen.", "quantifier": "All regions of the plane as shapes, all positions, headings and speeds, continuous time.", "why_tests_cant": "Relates a sampled search to contacts at all real times, for all shapes.", "anchors": ["src/dg_commons/eval/safety.py:_get_ttc_of_poly_and_state", "src/dg_commons/eval/safety.py:get_ttc_drac_at_t"]}
{"id": "C121", "title": "Where the speed of a lane follower ends", "statement": "A lane follower that drives on a free road reaches its nominal speed, as far as its limits allow. One that has seen a danger once comes to rest, whatever it sees later, and covers only a finite distance on the way.", "quantifier": "All lanes, histories, observations of others, initial speeds, limits of acceleration and nominal speeds in a stated region that contains the defaults, all periods up to 0.225 s.", "why_tests_cant": "A limit over infinitely many requests to an agent with memory, whatever it observes after the danger.", "anchors": ["src/dg_commons/sim/agents/lane_follower.py:LFAgent.get_commands", "src/dg_commons/controllers/speed.py:SpeedBehavior", "src/dg_commons/controllers/pid.py:PID.get_control"]}
{"id": "C122", "title": "Pure pursuit brings the vehicle to the lane", "statement": "A vehicle that drives forward along a straight lane with the wheel angle of pure pursuit, at any speed, comes to the center of the lane: heading and distance of the rear axle decay exponentially with the distance driven, and the vehicle never leaves the surroundings of the lane on the way.", "quantifier": "All straight lanes, starts in a stated region around the lane, forward speeds varying with time, wheelbases, lookaheads and positions of the rear axle (at most ten lookaheads behind).", "why_tests_cant": "A convergence statement over a continuum of starts and speeds, by a Lyapunov function.", "anchors": ["src/dg_commons/controllers/pure_pursuit.py:PurePursuit.find_goal_point", "src/dg_commons/controllers/pure_pursuit.py:PurePursuit.get_desired_steering", "src/dg_commons/sim/models/vehicle.py:VehicleModel.dynamics", "src/dg_commons/maps/lanes.py:DgLanelet.center_point"]}
{"id": "C123", "title": "After a danger a lane follower stops ahead of it and stays there", "statement": "A lane follower that sees a danger brakes at once: it covers little more than its braking distance v^2 / (2 a), and from then on it stays where it has stopped.", "quantifier": "All lanes, observations after the danger, initial speeds and limits of acceleration in a stated region that contains the default car, truck and bicycle, periods up to 0.225 s, all requests for ever.", "why_tests_cant": "A limit over infinitely many requests; the return takes minutes at centimetres per second, and the law behind it (the sum of all errors is zero in the end) is about all histories of references.", "anchors": ["src/dg_commons/sim/agents/lane_follower.py:LFAgent.get_commands", "src/dg_commons/controllers/speed.py:SpeedController", "src/dg_commons/controllers/pid.py:PID.get_control"]}
{"id": "C124", "title": "A lane follower keeps clear of the vehicle ahead", "statement": "A lane follower that drives behind a vehicle with the same heading and a lower constant speed does not run into it: the distance between them stays larger than the length of a vehicle.", "quantifier": "All lanes, initial distances and speeds, speeds of the vehicle ahead, lengths, safety times, nominal speeds and limits of acceleration in a stated region that contains the defaults.", "why_tests_cant": "A statement about all executions of a switching controller with memory, from a continuum of initial situations.", "anchors": ["src/dg_commons/controllers/speed.py:SpeedBehavior.cruise_control", "src/dg_commons/controllers/speed.py:SpeedBehavior.get_speed_ref", "src/dg_commons/sim/agents/lane_follower.py:LFAgent.get_commands"]}
{"id": "C125", "title": "Parameters that are accepted make usable models", "statement": "The constructor of the parameters of a model accepts exactly limits that are proper intervals and positive maxima and stores them as given; all defaults are accepted; and with accepted parameters a model at rest that is commanded nothing stays at rest.", "quantifier": "All real limits, maxima, masses and geometries; all models; all states at rest.", "why_tests_cant": "A statement about all parameters; tests use the defaults, for which it is true.", "anchors": ["src/dg_commons/sim/models/model_structures.py:ModelParameters.__post_init__", "src/dg_commons/sim/models/vehicle_utils.py:VehicleParameters", "src/dg_commons/sim/models/diff_drive_structures.py:DiffDriveParameters", "src/dg_commons/sim/models/rocket_structures.py:RocketParameters"]}
{"id": "C126", "title": "In a simulation a lane follower that nobody disturbs reaches its speed", "statement": "In a simulation of any length and with any other players, the agent and the model of a player that is named in no collision report are touched only by its own requests and updates, the agent being shown the situation at the beginning of the step. Hence the speed of a lane follower follows the loop of its PID controller, with straight lines between the requests, and comes as close as one likes to the speed that its speed behaviour asks for (as far as the limits of the vehicle allow), or to zero after it has seen a danger, after a number of steps that does not depend on the rest of the simulation, as long as its speed is strictly within its limits.", "quantifier": "All worlds, other players, step sizes, numbers of steps, states in the beginning and tolerances; commands requested at least every 0.225 s; all configurations of the lane follower with usual limits of the acceleration.", "why_tests_cant": "A statement about the limit of runs that are longer and longer and about all worlds; a test runs one scenario for a few seconds.", "anchors": ["src/dg_commons/sim/simulator.py:Simulator.update", "src/dg_commons/sim/agents/lane_follower.py:LFAgent.get_commands", "src/dg_commons/controllers/pid.py:PID.get_control", "src/dg_commons/sim/models/vehicle.py:VehicleModel.update"]}
{"id": "C127", "title": "The scenario that is loaded is the file that was asked for", "statement": "load_commonroad_scenario opens a file with the given name (with or without the ending .xml) that lies somewhere in the given directory, and raises FileNotFoundError exactly if there is none. A file in the directory itself comes before files deeper in the tree. Without a directory the folder scenarios next to src of the project is searched.", "quantifier": "All directory trees, file names and paths of the project.", "why_tests_cant": "Tests load scenarios from one tree in one place; whether the right one of several files of the same name is opened depends on the whole tree, and the default folder on where the project lies.", "anchors": ["src/dg_commons/sim/scenarios/utils.py:load_commonroad_scenario"]}
{"id": "C128", "title": "The line that a lane follower shows is the one for which it steers", "statement": "With return_extra a lane follower shows the line from the rear axle of the vehicle to the goal point for which its last commands steer, and nothing otherwise.", "quantifier": "All lanes, poses, geometries of vehicles, parameters and histories of the agent.", "why_tests_cant": "The line is only looked at; a test of the picture for one vehicle cannot tell that for other positions of the rear axle the line begins at another point.", "anchors": ["src/dg_commons/sim/agents/lane_follower.py:LFAgent.on_get_extra", "src/dg_commons/controllers/pure_pursuit.py:PurePursuit.find_goal_point"]}
{"id": "C129", "title": "The animation shows moving goals and trajectories as they are at the time of the frame", "statement": "In each frame of the animation each player with a moving goal has exactly one patch, with the outline of the goal at the time of the frame and in the colour of the player. Trajectories are drawn as lines through the positions of their states, each in its colour, and nothing of the previous frame stays.", "quantifier": "All players, missions, sequences of frames, trajectories and colours.", "why_tests_cant": "The handles of the artists are carried from frame to frame; that no patch of an earlier frame or of another player stays is an invariant over all frames.", "anchors": ["src/dg_commons/sim/simulator_visualisation.py:SimRenderer.plot_timevarying_goals", "src/dg_commons/sim/simulator_visualisation.py:plot_trajectories", "src/dg_commons/sim/simulator_animation.py:create_animation"]}
{"id": "C130", "title": "The place on the lane found for a position is the nearest one", "statement": "find_along_lane_closest_point and find_along_lane_closest_point_fast return the place of the center line that is nearest to the position; along_lane_from_T2value is the distance of this place from the beginning of the lane, lane_pose_from_SE2_generic reports the distance to the left of the center line, and is_inside_from_T2value holds exactly for the positions within the lane.", "quantifier": "All lanes and positions, and every search that ends in a local minimum, exactly or up to a tolerance.", "why_tests_cant": "Tests try some positions on some lanes; whether the search can end in another place depends on the shape of the squared distance over the whole lane and its prolongation.", "anchors": ["src/dg_commons/maps/lanes.py:DgLanelet.find_along_lane_closest_point", "src/dg_commons/maps/lanes.py:DgLanelet.find_along_lane_closest_point_fast", "src/dg_commons/maps/lanes.py:DgLanelet.along_lane_from_T2value", "src/dg_commons/maps/lanes.py:DgLanelet.lane_pose_from_SE2_generic"]}
{"id": "C131", "title": "Sequences know the type of their values, and operations keep type and class", "statement": "The XT of a sequence, and of everything computed from it by the operations of the library, is the type of its values, so that all of them can be iterated with time differences; cutting or shifting a sequence keeps its type, and of a trajectory makes a trajectory; equal sequences behave alike; builders make the kind of sequence they are told to.", "quantifier": "All sequence objects, with and without type argument, all trajectories and builders, and all programs of operations on them.", "why_tests_cant": "Tests look at XT of one sequence after its construction; what the operations record and which sequences raise later depends on the whole program that made them.", "anchors": ["src/dg_commons/seq/sequence.py:DgSampledSequence.XT", "src/dg_commons/seq/sequence.py:iterate_with_dt", "src/dg_commons/seq/sequence.py:DgSampledSequence.get_subsequence", "src/dg_commons/seq/sequence.py:DgSampledSequenceBuilder.as_sequence", "src/dg_commons/planning/trajectory.py:Trajectory"]}
{"id": "C132", "title": "Players that run into each other, or into obstacles, are noticed", "statement": "Whenever the bodies of two active players come into contact during a simulation, a collision report about them is made; likewise for contacts with obstacles.", "quantifier": "All simulator configurations, agents, models and obstacles, all executions, all continuous motions of bodies that the sampled footprints belong to.", "why_tests_cant": "Collisions are looked for at the ends of the steps only; whether a contact is found depends on step length, speeds and sizes, and on what else happens in the same step.", "anchors": ["src/dg_commons/sim/simulator.py:Simulator._check_collisions_among_players", "src/dg_commons/sim/simulator.py:Simulator._check_collisions_with_environment", "src/dg_commons/sim/simulator.py:Simulator.post_update", "src/dg_commons/sim/collision.py:resolve_collision"]}
{"id": "C133", "title": "Outlines of rockets, spaceships, spacecraft, pedestrians and differential drives", "statement": "The outlines of all models with positive dimensions are convex, symmetric to their axis, contain the centre of gravity in their interior and all wheels, and are exactly as long and as wide as the length and width of the geometry say; the dimensions given to the default constructors are the ones of the outline.", "quantifier": "All rockets, spaceships, spacecraft, pedestrians and differential drives with positive dimensions.", "why_tests_cant": "The dimensions are arbitrary real numbers and the statements are about all points of an outline.", "anchors": ["src/dg_commons/sim/models/rocket_structures.py:RocketGeometry.outline", "src/dg_commons/sim/models/spaceship_structures.py:SpaceshipGeometry.outline", "src/dg_commons/sim/models/spacecraft_structures.py:SpacecraftGeometry.outline", "src/dg_commons/sim/models/pedestrian.py:PedestrianGeometry.outline", "src/dg_commons/sim/models/diff_drive_structures.py:DiffDriveGeometry.outline"]}
{"id": "C134", "title": "Rounding of the simulation clock", "statement": "When the time step and the time after collisions are decimal fractions with d digits behind the point and the simulation is shorter than 10^(28-d) seconds, a run in Decimal arithmetic (28 significant digits, half to even) gives exactly the states, reports and logs of a run in exact arithmetic, with binary floats likewise for binary fractions. For any other time step the clock still advances in every step, is off by at most k^2/10^27 time steps after k steps, and the run ends.", "quantifier": "All simulator configurations, agents, models and obstacles, all executions of at most 10^26 steps.", "why_tests_cant": "Times are sums of arbitrarily many rounded numbers, and the moments at which commands are requested depend on exact comparisons of them.", "anchors": ["src/dg_commons/sim/simulator.py:Simulator.run", "src/dg_commons/sim/simulator.py:Simulator.post_update", "src/dg_commons/sim/simulator.py:Simulator._need_to_update_commands", "src/dg_commons/sim/simulator.py:Simulator._maybe_terminate_simulation", "src/dg_commons/sim/sim_types.py:SimTime"]}
{"id": "C135", "title": "Distances between players", "statement": "The distance of two players used in the safety metrics is the distance of two points of their outlines at their poses, and no two points are nearer; it is zero exactly if they touch, it is the same from either player and in any frame of the plane, and it changes by no more than the players move. The smallest distance reported for a log bounds from below the distance of the ego and any other active player at all times, not only at logged ones.", "quantifier": "All outlines that are closed and bounded, all states, all logs and motions of players.", "why_tests_cant": "Poses, outlines and the instants between samples are continuous; a test compares some configurations.", "anchors": ["src/dg_commons/eval/safety.py:_get_dist", "src/dg_commons/eval/safety.py:get_min_dist", "src/dg_commons/eval/safety.py:get_min_dist_at_t", "src/dg_commons/geo.py:apply_SE2_to_shapely_geo"]}
{"id": "C136", "title": "The lane of a position is the lanelet there, continued", "statement": "dglane_from_position returns the control points of a merged lanelet that starts with a lanelet at the position, both as selected; off all lanelets it raises AssertionError and for selections that do not exist IndexError. The lane starts with the lane of the lanelet at the position alone: up to its end both give the same positions along the lane, center poses and half widths, and the same places for positions along the lane, apart from the snap at the ends.", "quantifier": "All lanelet networks whose merged lanelets start with the lanelet, all positions, selections, lanes and progress values.", "why_tests_cant": "Networks, lanes and progress values are unbounded and continuous; tests look at a few positions in one map.", "anchors": ["src/dg_commons/sim/scenarios/utils.py:dglane_from_position", "src/dg_commons/maps/lanes.py:DgLanelet.from_commonroad_lanelet", "src/dg_commons/maps/lanes.py:DgLanelet.from_vertices", "src/dg_commons/maps/lanes.py:DgLanelet.along_lane_from_beta"]}
{"id": "C137", "title": "The frames of an animation show the players as they are", "statement": "Every frame of an animation shows the players of the first frame exactly as they would be drawn anew from their state in the log at the time of the frame; nothing stays of the earlier frames. The body is the outline of the model at the position and with the heading of the player, its name is at its position; wheels, thrusters, nozzles and flames are at their places on the body, front wheels turned by the steering angle and nozzles by the gimbal; the lights of vehicles are at the corners they are named after, in the colours of the commanded lights. Players that have left are not shown, and back lights are bright exactly if the vehicle brakes. An animation of entries that fit the models raises no error.", "quantifier": "All players, models, logs, sequences of frames of any length, states and commands.", "why_tests_cant": "The artists are reused from frame to frame, so a frame depends on all earlier ones; logs and sequences of frames are unbounded and states continuous, and nobody compares the pictures of an animation with the states.", "anchors": ["src/dg_commons/sim/simulator_animation.py:create_animation", "src/dg_commons/sim/simulator_animation.py:get_lights_colors_from_cmds", "src/dg_commons/sim/simulator_visualisation.py:SimRenderer.plot_player", "src/dg_commons/sim/simulator_visualisation.py:plot_vehicle", "src/dg_commons/sim/simulator_visualisation.py:plot_rocket"]}
{"id": "C138", "title": "Sampled sequences work in floating point", "statement": "With the rounding of floats, and with timestamps that are floats, Decimals or integers: the constructor accepts exactly the timestamps that increase strictly; the interpolated lookup never raises in an accepted sequence, returns samples bit by bit at their times, and in between differs from the chord of the two samples by no more than rounding, 2^-49 of the larger value if the times are floats; a component without negative samples is never negative, and stays between the samples; shifting keeps the values, rounds each time to the nearest number, and succeeds.", "quantifier": "All sequences of any length with any number of components, all times and shifts, all three kinds of timestamps.", "why_tests_cant": "Rounding errors depend on all bits of times and values; a sample of tests sees ordinary numbers only, and compares with a tolerance.", "anchors": ["src/dg_commons/seq/sequence.py:DgSampledSequence.__post_init__", "src/dg_commons/seq/sequence.py:DgSampledSequence.at_interp", "src/dg_commons/seq/sequence.py:DgSampledSequence.shift_timestamps"]}
{"id": "C139", "title": "The PID controller works in floating point", "statement": "With the rounding of floats, and in fact with any rounding, every request to a PID controller is answered, within the output limits, and the reference and the integral stay within theirs. A second request at the same time changes nothing and has no derivative term. Over any history of calls the answers differ from those of exact arithmetic by no more than 2^-50 of the size of the three terms plus 2^-50 of the size of the integral for each request so far.", "quantifier": "All parameters accepted by PIDParam, all histories of calls of any length, all times, references and measurements.", "why_tests_cant": "The integral carries rounding errors from request to request, so an answer depends on the rounding of all calls before; histories are unbounded.", "anchors": ["src/dg_commons/controllers/pid.py:PID.get_control", "src/dg_commons/controllers/pid.py:PID.update_reference", "src/dg_commons/controllers/pid.py:PID.update_measurement"]}
{"id": "C140", "title": "Operations on sequences work in floating point", "statement": "With the rounding of floats, integration, differentiation and accumulation of an accepted sequence and the search for crossings of a threshold succeed and differ from the exact results by no more than rounding: integrals and sums by 2^-52 of the sum of magnitudes for each sample so far, difference quotients by 2^-51 of themselves, crossings by 2^-50 of the times; the integral of nonnegative values never decreases; the crossings reported belong to exactly the intervals on which the signal changes side, and lie in them. Decimal timestamps act as the floats they convert to.", "quantifier": "All accepted sequences of up to 2^52 samples, all thresholds, all values and timestamps.", "why_tests_cant": "Rounding errors add up over sequences of any length and depend on all bits of times and values.", "anchors": ["src/dg_commons/seq/seq_op.py:seq_integrate", "src/dg_commons/seq/seq_op.py:seq_differentiate", "src/dg_commons/seq/seq_op.py:seq_accumulate", "src/dg_commons/seq/seq_op.py:find_crossings", "src/dg_commons/seq/sequence.py:iterate_with_dt"]}
{"id": "C141", "title": "Players that drive to their goal are noticed and leave", "statement": "An active player leaves at the end of a step exactly if its goal accepts the position of its model then, so after the first step no active player is at a position its goal accepts, and collisions do not change that since they move no model. A player that begins before the region of its goal, stays on the lane and moves in no step by more than the region is deep (0.99 m for a goal on a lane, 1.98 inflation radii for a goal at the end of a lane) has left when it has come to the region or beyond. If it also advances by at least some amount in each step it leaves within the corresponding number of steps, and if that holds for all players with missions, the run ends then.", "quantifier": "All worlds, agents, models, goals decided by position and time, lanes, numbers of steps.", "why_tests_cant": "Whether a goal is noticed depends on where exactly the steps end, for every speed, start and step length.", "anchors": ["src/dg_commons/sim/simulator.py:Simulator._remove_finished_players", "src/dg_commons/sim/goals.py:RefLaneGoal.is_fulfilled", "src/dg_commons/sim/goals.py:PolygonGoal", "src/dg_commons/sim/goals.py:_polygon_at_along_lane"]}
{"id": "C142", "title": "Upsampling works in floating point", "statement": "With rounded timestamps and values, upsampling an accepted trajectory by n samples per interval, when its result is accepted, gives k + (k-1) n samples, keeps every original sample bit by bit and in order, puts the i-th new timestamp within 2^-49 (relative to the times) of the equally spaced position, and is, as a function of time, within 2^-49 of the largest value of each component (for Decimal timestamps also depending on the ratio of times to gaps). It succeeds when neighbouring timestamps differ by more than (n+1) 2^-48 of the larger one. Upsampling by zero returns the same trajectory.", "quantifier": "All accepted non-empty trajectories with float or Decimal timestamps, all n, all times and components.", "why_tests_cant": "Whether rounded timestamps still increase, and how far values move, depends on all bits of the times and on n.", "anchors": ["src/dg_commons/planning/trajectory.py:Trajectory.upsample", "src/dg_commons/seq/sequence.py:DgSampledSequence.at_interp"]}
{"id": "C143", "title": "The discrete bicycle works in floating point", "statement": "With every operation rounded and whatever the C library returns for sine, cosine and tangent, BicycleDynamics.successor ends within the limits of speed and steering exactly; each component differs from the exact Euler step (with the same values of the library functions) by at most 2^-49 of the magnitudes added; over a roll-out of n steps speed and steering drift by at most n times the error of one step; more acceleration never gives less speed; without acceleration (steering) the speed (steering angle) stays the same bit by bit, a standing vehicle does not move at all and a vehicle steering straight keeps its direction; mirrored inputs give the mirrored result bit by bit; an acceleration that changes the speed by at least 2^-51 of itself per step is never lost.", "quantifier": "All states, commands (admissible or not), steps, geometries, parameters, library functions and roll-outs.", "why_tests_cant": "Rounding depends on all bits of state, command and step, and its effect over roll-outs of any length cannot be sampled.", "anchors": ["src/dg_commons/dynamics/bicycle_dynamic.py:BicycleDynamics.successor", "src/dg_commons/dynamics/bicycle_dynamic.py:BicycleDynamics.dynamics", "src/dg_commons/sim/models/vehicle.py:VehicleState.__mul__"]}
{"id": "C144", "title": "Impulses work in floating point", "statement": "With every operation of the impulse response rounded (and any np.dot with at most two roundings): the denominator is positive, so the division is possible; bodies that the code's own test takes for approaching are never pulled together; the impulse differs from the exact one by at most 2^-48 of its magnitude unless the cross products cancel; whatever the impulse, the total linear and angular momenta change by at most 2^-51 and 2^-50 of the magnitudes that take part; an obstacle of infinite mass and inertia keeps its velocity bit by bit; the impulse does not depend, bit by bit, on which of the players comes first.", "quantifier": "All bodies with positive masses and inertias (or one with infinite ones), restitution coefficients, velocities, normals of any length, points of impact and computed impulses.", "why_tests_cant": "Rounding depends on all bits of some twenty inputs; a test can only compare within a tolerance of its own.", "anchors": ["src/dg_commons/sim/collision_utils.py:compute_impulse_response", "src/dg_commons/sim/collision_utils.py:velocity_after_collision", "src/dg_commons/sim/collision_utils.py:rot_velocity_after_collision", "src/dg_commons/sim/collision.py:resolve_collision"]}
{"id": "C145", "title": "The names of the players carry no meaning", "statement": "Renaming all players, with their missions, sensors and agents, renames them in the outcome of a simulation and changes nothing else: the same number of steps, the same exception if any, the same final context, collision reports, logs and order of external calls under the new names.", "quantifier": "All contexts, agents, sensors, models, goals, parameters and all one-to-one renamings.", "why_tests_cant": "It compares two runs for every renaming; a dependence on names (sorting, hashing, a reserved name) would show only for particular names.", "anchors": ["src/dg_commons/sim/simulator.py:Simulator.run", "src/dg_commons/sim/simulator.py:Simulator.update", "src/dg_commons/sim/simulator.py:Simulator._check_collisions_among_players", "src/dg_commons/sim/simulator.py:Simulator._remove_finished_players"]}
{"id": "C146", "title": "A longer simulation begins like a shorter one", "statement": "If the same context is simulated with a larger maximal time or a larger time after a collision and both runs return, the logs, collision reports and external calls of the shorter run are the beginnings of those of the longer one, everything added is not before the end of the shorter run, and who has left in the shorter run has left in the longer one. If a step of the shorter run raises, the longer run raises the same exception.", "quantifier": "All contexts, agents, models, parameters, pairs of limits, and runs of any length.", "why_tests_cant": "It compares two runs of unbounded length for all agents and models; a limit that influences the run before it is reached would have to be guessed.", "anchors": ["src/dg_commons/sim/simulator.py:Simulator.run", "src/dg_commons/sim/simulator.py:Simulator.post_update", "src/dg_commons/sim/simulator.py:Simulator._maybe_terminate_simulation"]}
{"id": "C147", "title": "With the solver of the code the limits of vehicles hold up to one solver step", "statement": "Over any number of updates with any commands, a kinematic vehicle integrated by RK45 exceeds its speed limits by at most 0.4654*h*a and its steering limit by at most 0.4654*h*r, where h bounds the steps of the solver and a and r the acceleration and the steering rate; it never goes the wrong way. For any other explicit Runge-Kutta method the factor is the sum of its positive weights, if the limits are further apart than its stages look ahead. At or beyond a limit the vehicle goes no further; away from the limits speed and steering angle change exactly by the clamped rate times the time; a collided vehicle that is no car keeps both. In a simulation the bound (with the simulation period for h) holds for every logged state of a vehicle that is named in no collision report.", "quantifier": "All states within the limits, commands, numbers of updates, sequences of step sizes, explicit Runge-Kutta methods and valid parameters.", "why_tests_cant": "The overshoot depends on where the stages of the solver fall relative to the limit and on the choice of the step sizes; the worst case over all of them and its accumulation over all updates cannot be sampled.", "anchors": ["src/dg_commons/sim/models/vehicle.py:VehicleModel.update", "src/dg_commons/sim/models/vehicle.py:VehicleModel.dynamics", "src/dg_commons/sim/models/model_utils.py:apply_full_acceleration_limits", "src/dg_commons/sim/models/vehicle_utils.py:steering_constraint"]}
{"id": "C148", "title": "Fuel and free flight with the solver of the code", "statement": "Integrated by RK45 with any step sizes, rockets, and spaceships whose thrust limits are not negative, never become heavier; over any number of updates they lose no mass without fuel and otherwise end at most 0.4654 of what full thrust burns in one solver step below their mass without fuel. While there is fuel enough an update burns exactly coefficient times forces times time. Without fuel, or after a collision, a rocket flies exactly straight at constant velocity and spin. The nozzle angle of a rocket exceeds its limits by at most 0.4654 of a step of its largest rate. No update divides by zero if the mass without fuel exceeds what full thrust burns in 13.3 steps.", "quantifier": "All states, commands, numbers of updates, sequences of step sizes and parameters with non-negative force limits.", "why_tests_cant": "What happens when the fuel ends within a step depends on where the stages of the solver fall; the worst case over all steps and its accumulation over all updates cannot be sampled.", "anchors": ["src/dg_commons/sim/models/rocket.py:RocketModel.update", "src/dg_commons/sim/models/rocket.py:RocketModel.dynamics", "src/dg_commons/sim/models/spaceship.py:SpaceshipModel.update", "src/dg_commons/sim/models/spaceship.py:SpaceshipModel.dynamics"]}
{"id": "C149", "title": "Solved motions do not depend on the world frame", "statement": "Integrating packed arrays of states and commands by an explicit Runge-Kutta method is integrating the states under the commands the model reads. Any sequence of updates of any of the eight models, seen from a rotated and shifted world frame, is the same sequence with all states moved, errors included. The mirror image of a model under mirrored commands moves to the mirror image, where its limits are symmetric. A standing vehicle or differential drive that is asked for nothing stays exactly where it is.", "quantifier": "All states, commands, collision flags, numbers of updates, sequences of step sizes, explicit Runge-Kutta methods, rotations, shifts and parameters.", "why_tests_cant": "An error in one stage or one packed component shows only for particular headings and commands; the claim is about every frame and every sequence of updates.", "anchors": ["src/dg_commons/sim/models/vehicle.py:VehicleModel.update", "src/dg_commons/sim/models/vehicle_dynamic.py:VehicleModelDyn.dynamics", "src/dg_commons/sim/models/pedestrian.py:PedestrianModel.update", "src/dg_commons/sim/models/diff_drive.py:DiffDriveModel.update", "src/dg_commons/sim/models/spacecraft.py:SpacecraftModel.update", "src/dg_commons/sim/models/spaceship.py:SpaceshipModel.update", "src/dg_commons/sim/models/rocket.py:RocketModel.update", "src/dg_commons/sim/models/obstacles_dyn.py:DynObstacleModel.update"]}
{"id": "C150", "title": "Straight motion is exact with the solver of the code", "statement": "A vehicle with straight wheels that is not asked to steer keeps exactly to its line and heading over any number of updates, whatever the accelerations and step sizes. With RK45, as long as no limit is reached, it covers exactly v T + a T^2 / 2 and has speed v + a T; coasting, exactly v T in any number of updates. The heading of a differential drive is exact under any commands, and with equal wheels it drives exactly along its heading. A spacecraft that does not rotate and fires both engines alike moves exactly as under uniform acceleration.", "quantifier": "All states, accelerations, numbers of updates, sequences of non-negative step sizes and parameters.", "why_tests_cant": "Tests compare with tolerances for a few speeds and one way of splitting the time; that the numerical method adds no error for any splitting is a statement about all of them.", "anchors": ["src/dg_commons/sim/models/vehicle.py:VehicleModel.update", "src/dg_commons/sim/models/diff_drive.py:DiffDriveModel.update", "src/dg_commons/sim/models/spacecraft.py:SpacecraftModel.update"]}
{"id": "C151", "title": "Collisions and whole simulations do not depend on the world frame", "statement": "Shift, rotate or reflect everything: the geometry of an impact, the decision whether it is resolved, faults, impulses, velocities afterwards and reports are those of the original seen from the new frame, and so are the outcome, the log and the reports of any simulation whose agents, sensors, goals and obstacles are moved along.", "quantifier": "All congruences of the plane, shapes, models, agents, sensors, goals, obstacles, parameters and runs.", "why_tests_cant": "Tests use a few positions and headings. A sign or an axis that is wrong only for some headings is not seen, and equality of whole runs under every change of frame cannot be enumerated.", "anchors": ["src/dg_commons/sim/collision.py:resolve_collision", "src/dg_commons/sim/collision.py:resolve_collision_with_environment", "src/dg_commons/sim/collision_utils.py:compute_impact_geometry", "src/dg_commons/sim/simulator.py:Simulator.run", "src/dg_commons/sim/models/rocket.py:RocketModel.get_velocity"]}
{"id": "C152", "title": "Lanes, lane poses, steering and the lane follower do not depend on the world frame", "statement": "Shift or rotate the map and the players: lane lengths, progress, lateral distance, relative heading, inside tests, lookahead points, steering, reference speed and all commands of the lane follower stay the same; points on the lane, its bounds and outline are moved along.", "quantifier": "All rigid motions, lanes, points, poses, players, parameters and runs of the agent.", "why_tests_cant": "Tests use lanes with a few headings. Wrapping of angles, an axis that is swapped or an angle blended as a number show only for some headings.", "anchors": ["src/dg_commons/maps/lanes.py:DgLanelet.center_point", "src/dg_commons/maps/lanes.py:DgLanelet.lane_pose_from_SE2_generic", "src/dg_commons/maps/lanes.py:DgLanelet.from_vertices", "src/dg_commons/controllers/pure_pursuit.py:PurePursuit.get_desired_steering", "src/dg_commons/controllers/speed.py:SpeedBehavior.get_speed_ref", "src/dg_commons/sim/agents/lane_follower.py:LFAgent.get_commands"]}
{"id": "C153", "title": "Goals and metrics do not depend on the world frame", "statement": "Shift or rotate the recorded states, shapes and goals: distance travelled, minimum distance, closing speed, times to collision and whether a goal is reached stay the same.", "quantifier": "All rigid motions, recorded runs, shapes, goals and lane networks.", "why_tests_cant": "Tests check single runs. Equality of the metrics under every rigid motion and every recorded run cannot be enumerated.", "anchors": ["src/dg_commons/eval/efficiency.py:distance_traveled", "src/dg_commons/eval/safety.py:get_min_dist", "src/dg_commons/eval/safety.py:get_ttc_drac_at_t", "src/dg_commons/sim/goals.py:PoseGoal.is_fulfilled", "src/dg_commons/sim/goals.py:RefLaneGoal.is_fulfilled"]}
{"id": "C154", "title": "Sensors and observation filters do not depend on the world frame", "statement": "Shift or rotate players and obstacles: the visible area is moved along, and each observation filter, alone or nested, reports the same players at the same times, at the moved states, or raises the same exception.", "quantifier": "All rigid motions, sensors, obstacles, ray tracings, nestings of filters and sequences of calls.", "why_tests_cant": "Tests place a sensor at a few poses. Filters keep buffers, so equality is a claim about all sequences of calls.", "anchors": ["src/dg_commons/perception/sensor.py:VisRangeSensor.fov_as_polygon", "src/dg_commons/perception/sensor.py:FullRangeSensor.fov_as_polygon", "src/dg_commons/sim/sim_perception.py:FovObsFilter.sense", "src/dg_commons/sim/sim_perception.py:DelayedObsFilter.sense", "src/dg_commons/sim/sim_perception.py:GhostObsFilter.sense"]}
{"id": "C155", "title": "The order in which players and missions are listed carries no meaning", "statement": "Two simulations with the same players, models and missions listed in different orders have the same outcome: the same time, models, agents, collision reports (up to their order), log entries and remaining players, or both fail. A lane follower answers the same whatever the order of the players it observes, and the smallest distance between players is the same.", "quantifier": "All orders of players and missions, all agents that look players up by name, all runs.", "why_tests_cant": "Tests use one order of a few players. That no loop over players leaks its order into the outcome is a claim about all permutations and all behaviours of agents.", "anchors": ["src/dg_commons/sim/simulator.py:Simulator.run", "src/dg_commons/sim/simulator.py:Simulator.pre_update", "src/dg_commons/sim/simulator.py:Simulator.update", "src/dg_commons/sim/simulator.py:Simulator._remove_finished_players", "src/dg_commons/sim/simulator.py:Simulator._check_collisions_with_environment", "src/dg_commons/controllers/speed.py:SpeedBehavior.get_speed_ref", "src/dg_commons/eval/safety.py:get_min_dist_at_t"]}
{"id": "C156", "title": "Nothing depends on the time at which the clock starts", "statement": "A simulation whose clock starts \u03c4 later (with the time limit later by as much, and agents that use differences of times only) has the same outcome: the same models, players, exceptions, and the same reports and log, with all times later by \u03c4. Controllers, agents with a plan that is later by as much, lane followers and observation filters are such parts.", "quantifier": "All times \u03c4, all worlds whose agents use differences of times only, all runs, all histories of calls of controllers, agents and filters.", "why_tests_cant": "Tests start the clock at zero. That no comparison with an absolute time hides in a loop, a timer or the log is a claim about all starts and all runs.", "anchors": ["src/dg_commons/sim/simulator.py:Simulator.run", "src/dg_commons/sim/simulator.py:Simulator._termination_condition", "src/dg_commons/sim/simulator.py:Simulator.update", "src/dg_commons/controllers/pid.py:PID.get_control", "src/dg_commons/sim/agents/agent.py:NPAgent.get_commands", "src/dg_commons/sim/agents/lane_follower.py:LFAgent.get_commands", "src/dg_commons/sim/sim_perception.py:DelayedObsFilter.sense"]}
{"id": "C157", "title": "Collisions depend neither on the units nor on a common velocity", "statement": "If lengths, masses and times are measured in other units, and all velocities are seen by an observer who moves with constant velocity, the collision of two players has the same outcome: the same decision, exceptions, faults, normal and impact locations; impulses, velocities, rates of rotation, impact point and energies are those in the new units. The energy that the two lose together does not depend on the motion of the observer. Collisions with obstacles do not depend on the units.", "quantifier": "All units, all velocities of the observer, all players, poses, velocities, masses, inertias and restitutions, all shapes.", "why_tests_cant": "Tests use one set of units. A constant with a dimension hidden in the response (a threshold, an arm, a missing square) is only excluded by a statement about all scalings.", "anchors": ["src/dg_commons/sim/collision.py:resolve_collision", "src/dg_commons/sim/collision.py:resolve_collision_with_environment", "src/dg_commons/sim/collision_utils.py:compute_impulse_response", "src/dg_commons/sim/collision_utils.py:velocity_after_collision", "src/dg_commons/sim/collision_utils.py:rot_velocity_after_collision", "src/dg_commons/sim/collision_utils.py:kinetic_energy", "src/dg_commons/sim/collision_utils.py:compute_impact_geometry"]}
{"id": "C158", "title": "Motions do not depend on the units", "statement": "If lengths, masses and times are measured in other units, and states, commands, limits, parameters and the steps of the solver are converted, every sequence of calls of update of a vehicle, pedestrian, differential drive, spacecraft, spaceship, rocket or moving obstacle ends in the converted state or with the same exception.", "quantifier": "All units of length, mass and time, all parameters and geometries, all methods and step sizes of the solver, all sequences of calls, with and without collisions before them.", "why_tests_cant": "Tests use SI units with one set of parameters. A missing factor, a square too many or a constant that carries a unit shows only when the same motion is computed in all units.", "anchors": ["src/dg_commons/sim/models/vehicle.py:VehicleModel.dynamics", "src/dg_commons/sim/models/vehicle_dynamic.py:VehicleModelDyn.dynamics", "src/dg_commons/sim/models/pedestrian.py:PedestrianModel.dynamics", "src/dg_commons/sim/models/diff_drive.py:DiffDriveModel.dynamics", "src/dg_commons/sim/models/spacecraft.py:SpacecraftModel.dynamics", "src/dg_commons/sim/models/spaceship.py:SpaceshipModel.dynamics", "src/dg_commons/sim/models/rocket.py:RocketModel.dynamics", "src/dg_commons/sim/models/obstacles_dyn.py:DynObstacleModel.dynamics", "src/dg_commons/sim/models/model_utils.py", "src/dg_commons/dynamics/bicycle_dynamic.py:BicycleDynamics.successor"]}
{"id": "C159", "title": "Whole simulations do not depend on the units", "statement": "If lengths, masses and times are measured in other units, and the time step, the time between commands, the longest duration, the time after the first collision, the start and the missions are converted, a simulation whose agents, sensors, goals and obstacles are converted alike takes the same number of steps, raises the same exception, or returns the same players, reports and logs in the new units, the energies of the reports included.", "quantifier": "All units of length, mass and time, all agents, sensors, models, goals, obstacles and parameters that are converted alike, all starts and numbers of steps, with and without collisions.", "why_tests_cant": "Tests run some scenarios in SI units. That no comparison, timer or impulse hides a constant with a unit is a statement on pairs of runs of arbitrary length.", "anchors": ["src/dg_commons/sim/simulator.py:Simulator", "src/dg_commons/sim/collision.py:resolve_collision", "src/dg_commons/sim/collision.py:resolve_collision_with_environment", "src/dg_commons/sim/simulator_structures.py:SimModel", "src/dg_commons/sim/models/pedestrian.py:PedestrianModel.set_velocity"]}
{"id": "C160", "title": "Simulations of the library's own models depend neither on the world frame nor on the units", "statement": "A simulation whose players are the models of the library, integrated by the solver of the code and colliding by the collision code of the library, gives the same run with the same collisions, commands and log times if the scenario, the agents and the goals are seen from a turned and shifted world frame, and the same run in the new units if everything is measured in other units of length, mass and time. No assumption is made on the models themselves.", "quantifier": "All numbers, kinds, parameters and states of models (without rockets for frames, without pedestrians and dynamic vehicles for units), all shapes libraries, lanes, agents, sensors, goals and obstacles that are converted alike, all Runge-Kutta tables and step sizes that are chosen alike, all frames and units, all numbers of steps.", "why_tests_cant": "A test compares two runs of one scenario up to a tolerance. The statement is about equality of arbitrary pairs of runs, through eight models, the solver, the impact geometry, the impulses and the loop of the simulator.", "anchors": ["src/dg_commons/sim/simulator.py:Simulator", "src/dg_commons/sim/models/vehicle.py:VehicleModel", "src/dg_commons/sim/models/spacecraft.py:SpacecraftModel", "src/dg_commons/sim/models/obstacles_dyn.py:DynObstacleModel", "src/dg_commons/sim/collision.py:resolve_collision", "src/dg_commons/sim/collision_utils.py:compute_impact_geometry"]}
{"id": "C161", "title": "Simulations of the library's own models keep kinds, flags, commands and limits", "statement": "In a simulation whose players are the models of the library: neither driving nor colliding changes the class, the parameters, the outline or the geometry of a model, so that every logged state of a player is a state of the model it started with; the flag has_collided is set only by a report that names the player and is never cleared; a player named in no report has exactly the state that update gives for the commands it has got, one after the other; and the logged speed and steering angle of a kinematic vehicle named in no report exceed its limits by at most 0.4654 of what its largest rates give in one time step.", "quantifier": "All numbers, kinds, parameters and states of the eight models, all shapes libraries, agents, sensors, goals and obstacles, all step sizes the solver may choose, all runs of any length, for the limits all valid parameters.", "why_tests_cant": "A test sees a few runs of a few steps with one or two models. The statement is about every state of every run, through the loop of the simulator, the collision code, the solver and each model.", "anchors": ["src/dg_commons/sim/simulator.py:Simulator", "src/dg_commons/sim/models/vehicle.py:VehicleModel.update", "src/dg_commons/sim/models/model_structures.py", "src/dg_commons/sim/collision.py:resolve_collision"]}
{"id": "C162", "title": "Momentum and energy of all players together over a simulation", "statement": "In a simulation collisions among players change neither the momentum nor the angular momentum of all players together, and no collision, with players or with obstacles of the scenario, increases their kinetic energy: both are, over the whole simulation and in the models themselves, those at the start and what driving has added. Players that drift keep their common momentum.", "quantifier": "All simulations of any length, with any number of players of positive masses and moments of inertia and restitution between 0 and 1, all shapes, agents, sensors and goals, all Runge-Kutta tables and step sizes, all points about which the angular momentum is taken.", "why_tests_cant": "A test looks at single collisions. The statement adds up over arbitrarily many collisions and steps, in any order, including those that raise or are refused half way, and is about what the models have stored, not about what the report says.", "anchors": ["src/dg_commons/sim/collision.py:resolve_collision", "src/dg_commons/sim/collision.py:resolve_collision_with_environment", "src/dg_commons/sim/simulator.py:Simulator", "src/dg_commons/sim/models/vehicle.py:VehicleModel.set_velocity", "src/dg_commons/sim/models/spacecraft.py:SpacecraftModel.set_velocity"]}
{"id": "C163", "title": "Safety metrics of a simulation", "statement": "The safety metrics of the log of a simulation do not raise and are about the simulation: get_min_dist is the smallest distance, and get_min_ttc_max_drac the least time to collision and the greatest deceleration rate, between the states that the models of the ego and of another player had at the beginning of a step in the range in which both took part and were not yet at their goals, with such a player and the first such time.", "quantifier": "All simulations of any length that return, all players, models, agents, sensors, collisions, goals that do not depend on time, all distance functions and ranges.", "why_tests_cant": "The metrics read logs and the simulator writes them; a test compares one log with one number. The statement is about every run, about players that leave at any time and about the states the models really had.", "anchors": ["src/dg_commons/eval/safety.py:get_min_dist", "src/dg_commons/eval/safety.py:get_min_ttc_max_drac", "src/dg_commons/eval/safety.py:_remove_finished_players", "src/dg_commons/sim/simulator.py:Simulator.run", "src/dg_commons/sim/simulator_structures.py:SimLog.at_interp"]}
{"id": "C164", "title": "Logged motion comes from logged commands", "statement": "In the log of a simulation every state after the first is the one that the player's model reached from the previous logged state by its own update with the command that was logged last, except for what collisions of that time did to its velocity; commands are logged at the time at which they were given, and states at the times of the steps. If a model never moves further than v dt in an update, consecutive logged positions are at most v dt apart and the travelled distance computed from the log is at most v times the logged duration, whatever the collisions.", "quantifier": "All simulations of any length that return, all players, models, agents, sensors, periods of commands, collisions with players and walls, for any worlds and for the vehicle models of the library.", "why_tests_cant": "A log of states and a log of commands with a different period are written in different methods; that one explains the other is a statement about every step of every run, in particular about steps in which no command was asked for and steps with collisions.", "anchors": ["src/dg_commons/sim/simulator.py:Simulator.run", "src/dg_commons/sim/simulator.py:Simulator.update", "src/dg_commons/sim/simulator.py:Simulator.pre_update", "src/dg_commons/sim/simulator_structures.py:PlayerLogger", "src/dg_commons/eval/efficiency.py:distance_traveled", "src/dg_commons/sim/collision.py:resolve_collision"]}
{"id": "C165", "title": "Goal times and comfort of a simulation", "statement": "The efficiency and comfort metrics of the log of a simulation are about the simulation. time_goal_lane_reached tells the time of the first step at which the player's model passed the test while the player took part or left, and None if there is none; with the test of a goal that depends on the place it is the time at which the player left the simulation (0 if it began at its goal), and None exactly for players that stayed. get_max_jerk is the largest difference of the accelerations that the player returned at two consecutive requests divided by the time between them (0 if there are none), and at most 2 A / dt_commands if the player returned accelerations of at most A. get_acc_rms is defined exactly if the player was asked at least twice, is at most 1.5 A, and is 0.162 |a| (times n / (n - 1) for odd n) if the player returned the acceleration a at all n requests.", "quantifier": "All simulations of any length that return, all players, models, agents, sensors, collisions that do not move models, time steps and periods of commands, all tests of states, ranges of time and bounds of acceleration.", "why_tests_cant": "The metrics read logs that other code writes; a test compares one log with one number. That the time read from the log is the time at which the simulator removed the player, and that no log of commands of any run has a larger jerk, are statements about all runs.", "anchors": ["src/dg_commons/eval/efficiency.py:time_goal_lane_reached", "src/dg_commons/eval/comfort.py:get_max_jerk", "src/dg_commons/eval/comfort.py:get_acc_rms", "src/dg_commons/sim/simulator.py:Simulator.update", "src/dg_commons/sim/simulator.py:Simulator._remove_finished_players"]}
{"id": "C166", "title": "Later decisions have no effect before", "statement": "Two simulations of the same context whose agents give the same answers to all observations from before a time T are the same before T, however different the agents are afterwards: every step taken before T leads to states that differ in nothing but what the agents remember, or raises the same exception in both; all states, commands, extra data, planning data and collision reports recorded before T are equal; and if the first simulation is over before T, the second one ends in the same way with the same logs.", "quantifier": "All simulations of any length, all times T, all pairs of agents that cannot be told apart before T (including stateful agents and sensors that delay), models, goals, collisions, time steps and periods of commands.", "why_tests_cant": "That no answer given later changes what has been recorded, through the shared observations, the remembered commands, the logs or the reports, is a statement about all pairs of agents and all times; a test runs two agents.", "anchors": ["src/dg_commons/sim/simulator.py:Simulator.run", "src/dg_commons/sim/simulator.py:Simulator.pre_update", "src/dg_commons/sim/simulator.py:Simulator.update", "src/dg_commons/sim/simulator.py:Simulator.post_update", "src/dg_commons/sim/simulator_structures.py:PlayerLogger"]}
