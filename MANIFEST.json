{
 "claims": [
  {
   "property": "C01",
   "status": "proved",
   "theorems": [
    "Verif.C01_construct_iff",
    "Verif.C01_construct_error",
    "Verif.C01_checks_off",
    "Verif.C01_accepted_iff_valid"
   ],
   "note": "Constructor with Python numeric kinds; iff for finite timestamps, all exceptions classified, effect of the checks flag."
  },
  {
   "property": "C02",
   "status": "proved",
   "theorems": [
    "Verif.C02_at_ok_iff",
    "Verif.C02_at_error_iff",
    "Verif.C02_at_unique"
   ],
   "note": ""
  },
  {
   "property": "C03",
   "status": "proved",
   "theorems": [
    "Verif.C03_at_or_previous_ok_iff",
    "Verif.C03_at_or_previous_error_iff"
   ],
   "note": ""
  },
  {
   "property": "C04",
   "status": "proved",
   "theorems": [
    "Verif.C04_empty",
    "Verif.C04_total",
    "Verif.C04_before",
    "Verif.C04_after",
    "Verif.C04_chord",
    "Verif.C04_at_samples",
    "Verif.C04_between_scalar",
    "Verif.C04_range_scalar"
   ],
   "note": "Exact arithmetic; values in any vector space."
  },
  {
   "property": "C05",
   "status": "proved",
   "theorems": [
    "Verif.C05_subsequence",
    "Verif.C05_assertion"
   ],
   "note": ""
  },
  {
   "property": "C06",
   "status": "proved",
   "theorems": [
    "Verif.C06_transform",
    "Verif.C06_transform_total",
    "Verif.C06_at_transform",
    "Verif.C06_at_or_previous_transform",
    "Verif.C06_at_interp_transform",
    "Verif.C06_shift",
    "Verif.C06_at_shift",
    "Verif.C06_at_or_previous_shift",
    "Verif.C06_at_interp_shift"
   ],
   "note": ""
  },
  {
   "property": "C07",
   "status": "proved",
   "theorems": [
    "Verif.C07_add_ok_iff",
    "Verif.C07_add_error",
    "Verif.C07_history",
    "Verif.C07_append_only"
   ],
   "note": ""
  },
  {
   "property": "C08",
   "status": "proved",
   "theorems": [
    "Verif.C08_items",
    "Verif.C08_total_duration"
   ],
   "note": ""
  },
  {
   "property": "C09",
   "status": "proved",
   "theorems": [
    "Verif.C09_integrate",
    "Verif.C09_empty",
    "Verif.C09_single",
    "Verif.C09_linear",
    "Verif.C09_affine_exact"
   ],
   "note": ""
  },
  {
   "property": "C10",
   "status": "proved",
   "theorems": [
    "Verif.C10_differentiate",
    "Verif.C10_empty",
    "Verif.C10_single",
    "Verif.C10_fundamental",
    "Verif.C10_affine"
   ],
   "note": ""
  },
  {
   "property": "C11",
   "status": "proved",
   "theorems": [
    "Verif.C11_accumulate"
   ],
   "note": ""
  },
  {
   "property": "C12",
   "status": "proved",
   "theorems": [
    "Verif.C12_crossings",
    "Verif.C12_decimal"
   ],
   "note": "With Decimal timestamps and a crossing the code raises TypeError, proved in C12_decimal."
  },
  {
   "property": "C13",
   "status": "proved",
   "theorems": [
    "Verif.C13_upsample",
    "Verif.C13_empty"
   ],
   "note": ""
  },
  {
   "property": "C14",
   "status": "proved",
   "theorems": [
    "Verif.C14_merge_ok_iff",
    "Verif.C14_merge_error",
    "Verif.C14_merge_unsafe_ok_iff",
    "Verif.C14_merge_unsafe_error"
   ],
   "note": ""
  },
  {
   "property": "C15",
   "status": "partial",
   "theorems": [
    "Verif.C15_false",
    "Verif.C15_short_partial",
    "Verif.C15_fields_partial"
   ],
   "note": "False as stated: C15_false shows that the call raises TypeError for every valid trajectory with two or more samples. The _partial theorems: empty plan below two samples; the loop body would be right if the fields were unpacked."
  },
  {
   "property": "C16",
   "status": "proved",
   "theorems": [
    "Verif.TGraph.C16_add_edge_ok",
    "Verif.TGraph.C16_missing_source",
    "Verif.TGraph.C16_add_edge_error",
    "Verif.TGraph.C16_forward",
    "Verif.TGraph.C16_acyclic",
    "Verif.TGraph.C16_add_node",
    "Verif.TGraph.C16_generation",
    "Verif.TGraph.C16_keeps_generation",
    "Verif.TGraph.C16_get_trajectory",
    "Verif.TGraph.C16_commands",
    "Verif.TGraph.C16_get_transition"
   ],
   "note": "networkx path finding is a parameter assumed to return a path exactly when there is one."
  },
  {
   "property": "C17",
   "status": "proved",
   "theorems": [
    "Verif.C17_mem_iff",
    "Verif.C17_nodup",
    "Verif.C17_count"
   ],
   "note": ""
  },
  {
   "property": "C18",
   "status": "proved",
   "theorems": [
    "Verif.C18_outputs",
    "Verif.C18_state",
    "Verif.C18_accepted",
    "Verif.C18_last"
   ],
   "note": ""
  },
  {
   "property": "C19",
   "status": "proved",
   "theorems": [
    "Verif.C19_no_division_by_zero",
    "Verif.C19_fresh",
    "Verif.C19_repeat",
    "Verif.C19_repeat_measurement",
    "Verif.C19_first",
    "Verif.C19_law"
   ],
   "note": ""
  },
  {
   "property": "C20",
   "status": "proved",
   "theorems": [
    "Verif.Agents.C20_view",
    "Verif.Agents.C20_states",
    "Verif.Agents.C20_frame",
    "Verif.C20_decision",
    "Verif.C20_range",
    "Verif.C20_alone",
    "Verif.C20_order",
    "Verif.C20_follow",
    "Verif.C20_free",
    "Verif.C20_reference"
   ],
   "note": ""
  },
  {
   "property": "C21",
   "status": "proved",
   "theorems": [
    "Verif.Sim.C21_finishes",
    "Verif.Sim.C21_terminates",
    "Verif.Sim.C21_latest",
    "Verif.Sim.C21_returns"
   ],
   "note": ""
  },
  {
   "property": "C22",
   "status": "proved",
   "theorems": [
    "Verif.Sim.C22_stop_iff",
    "Verif.Sim.C22_first_stop"
   ],
   "note": ""
  },
  {
   "property": "C23",
   "status": "proved",
   "theorems": [
    "Verif.Sim.C23_never_raises",
    "Verif.Sim.C23_log",
    "Verif.Sim.C23_blame"
   ],
   "note": ""
  },
  {
   "property": "C24",
   "status": "proved",
   "theorems": [
    "Verif.Sim.C24_requests",
    "Verif.Sim.C24_period",
    "Verif.Sim.C24_driven"
   ],
   "note": ""
  },
  {
   "property": "C25",
   "status": "proved",
   "theorems": [
    "Verif.Sim.C25_snapshot",
    "Verif.Sim.C25_order_independent"
   ],
   "note": ""
  },
  {
   "property": "C26",
   "status": "proved",
   "theorems": [
    "Verif.Sim.C26_removed_iff",
    "Verif.Sim.C26_last_state",
    "Verif.Sim.C26_gone"
   ],
   "note": ""
  },
  {
   "property": "C27",
   "status": "proved",
   "theorems": [
    "Verif.Sim.C27_reports",
    "Verif.Sim.C27_stamped",
    "Verif.Sim.C27_pairs",
    "Verif.Sim.C27_env_report",
    "Verif.Sim.C27_pair_report"
   ],
   "note": ""
  },
  {
   "property": "C28",
   "status": "proved",
   "theorems": [
    "Verif.Sim.C28_fresh_independent",
    "Verif.Sim.C28_reuse_counterexample"
   ],
   "note": ""
  },
  {
   "property": "C29",
   "status": "proved",
   "theorems": [
    "Verif.Sim.C29_player_ok_iff",
    "Verif.Sim.C29_player_error_iff",
    "Verif.Sim.C29_at_interp",
    "Verif.Sim.C29_set_item",
    "Verif.Sim.C29_times",
    "Verif.Sim.C29_after_run"
   ],
   "note": ""
  },
  {
   "property": "C30",
   "status": "proved",
   "theorems": [
    "Verif.Perception.C30_delay",
    "Verif.Perception.C30_regular",
    "Verif.Perception.C30_negative"
   ],
   "note": ""
  },
  {
   "property": "C31",
   "status": "proved",
   "theorems": [
    "Verif.Perception.C31_ghost",
    "Verif.Perception.C31_ghost_sees_itself",
    "Verif.Perception.C31_zero_threshold_counterexample"
   ],
   "note": ""
  },
  {
   "property": "C32",
   "status": "proved",
   "theorems": [
    "Verif.Perception.C32_interleave",
    "Verif.Perception.C32_fov",
    "Verif.Perception.C32_repair",
    "Verif.Perception.C32_id"
   ],
   "note": ""
  },
  {
   "property": "C33",
   "status": "proved",
   "theorems": [
    "Verif.Perception.C33_ray",
    "Verif.Perception.C33_within_range",
    "Verif.Perception.C33_outline",
    "Verif.Perception.C33_rays",
    "Verif.Perception.C33_exists",
    "Verif.Perception.C33_narrow_counterexample",
    "Verif.Perception.C33_make",
    "Verif.Perception.C33_ray_end",
    "Verif.Perception.C33_direction",
    "Verif.Perception.C33_resolution",
    "Verif.Perception.C33_full"
   ],
   "note": ""
  },
  {
   "property": "C34",
   "status": "proved",
   "theorems": [
    "Verif.Coll.C34_momentum"
   ],
   "note": ""
  },
  {
   "property": "C35",
   "status": "proved",
   "theorems": [
    "Verif.Coll.C35_restitution",
    "Verif.Coll.C35_separate"
   ],
   "note": ""
  },
  {
   "property": "C36",
   "status": "proved",
   "theorems": [
    "Verif.Coll.C36_energy_change",
    "Verif.Coll.C36_energy"
   ],
   "note": ""
  },
  {
   "property": "C37",
   "status": "proved",
   "theorems": [
    "Verif.Coll.C37_untouched",
    "Verif.Coll.C37_no_location",
    "Verif.Coll.C37_resolved",
    "Verif.Coll.C37_physics"
   ],
   "note": ""
  },
  {
   "property": "C38",
   "status": "proved",
   "theorems": [
    "Verif.Coll.C38_physics",
    "Verif.Coll.C38_untouched",
    "Verif.Coll.C38_resolved",
    "Verif.Sim.C27_env_report"
   ],
   "note": "The sentence about dynamic obstacles is about the simulator: C27_env_report, whose last two parts say that the model is replaced by the deflected one and no report is added."
  },
  {
   "property": "C39",
   "status": "proved",
   "theorems": [
    "Verif.Coll.C39_fault",
    "Verif.Coll.C39_independent",
    "Verif.Coll.C39_off_road"
   ],
   "note": ""
  },
  {
   "property": "C40",
   "status": "proved",
   "theorems": [
    "Verif.Coll.C40_different_players",
    "Verif.Coll.C40_combine",
    "Verif.Coll.C40_comm",
    "Verif.Coll.C40_assoc",
    "Verif.Coll.C40_assoc_counterexample",
    "Verif.Coll.C40_empty"
   ],
   "note": ""
  },
  {
   "property": "C41",
   "status": "proved",
   "theorems": [
    "Verif.Coll.C41_who_collided",
    "Verif.Coll.C41_has_collision"
   ],
   "note": ""
  },
  {
   "property": "C42",
   "status": "proved",
   "theorems": [
    "Verif.Phys.C42_full",
    "Verif.Phys.C42_limits",
    "Verif.Phys.C42_zero_counterexample",
    "Verif.Phys.C42_force",
    "Verif.Phys.C42_angular"
   ],
   "note": ""
  },
  {
   "property": "C43",
   "status": "proved",
   "theorems": [
    "Verif.Phys.C43_steering",
    "Verif.Phys.C43_rotation"
   ],
   "note": ""
  },
  {
   "property": "C44",
   "status": "proved",
   "theorems": [
    "Verif.Phys.C44_admissible",
    "Verif.Phys.C44_rate",
    "Verif.Phys.C44_euler",
    "Verif.Phys.C44_rollout",
    "Verif.Phys.C44_continuous_rate",
    "Verif.Phys.C44_continuous"
   ],
   "note": ""
  },
  {
   "property": "C45",
   "status": "partial",
   "theorems": [
    "Verif.C45_VehicleState",
    "Verif.C45_VehicleState_rmul",
    "Verif.C45_VehicleState_comm",
    "Verif.C45_VehicleStateDyn",
    "Verif.C45_false_dyn_rmul",
    "Verif.C45_dyn_rmul_partial",
    "Verif.C45_VehicleStateDyn_comm",
    "Verif.C45_PedestrianState",
    "Verif.C45_PedestrianState_rmul",
    "Verif.C45_PedestrianState_comm",
    "Verif.C45_DiffDriveState",
    "Verif.C45_DiffDriveState_rmul",
    "Verif.C45_DiffDriveState_comm",
    "Verif.C45_SpacecraftState",
    "Verif.C45_SpacecraftState_rmul",
    "Verif.C45_SpacecraftState_comm",
    "Verif.C45_SpaceshipState",
    "Verif.C45_SpaceshipState_rmul",
    "Verif.C45_SpaceshipState_comm",
    "Verif.C45_RocketState",
    "Verif.C45_RocketState_rmul",
    "Verif.C45_RocketState_comm",
    "Verif.C45_DynObstacleState",
    "Verif.C45_DynObstacleState_rmul",
    "Verif.C45_DynObstacleState_comm",
    "Verif.C45_VehicleCommands",
    "Verif.C45_VehicleCommands_rmul",
    "Verif.C45_VehicleCommands_comm_partial",
    "Verif.C45_false_lights_comm",
    "Verif.C45_PedestrianCommands",
    "Verif.C45_PedestrianCommands_rmul",
    "Verif.C45_PedestrianCommands_comm",
    "Verif.C45_DiffDriveCommands",
    "Verif.C45_DiffDriveCommands_rmul",
    "Verif.C45_DiffDriveCommands_comm",
    "Verif.C45_SpacecraftCommands",
    "Verif.C45_SpacecraftCommands_rmul",
    "Verif.C45_SpacecraftCommands_comm",
    "Verif.C45_SpaceshipCommands",
    "Verif.C45_SpaceshipCommands_rmul",
    "Verif.C45_SpaceshipCommands_comm",
    "Verif.C45_RocketCommands",
    "Verif.C45_RocketCommands_rmul",
    "Verif.C45_RocketCommands_comm",
    "Verif.C45_DynObstacleCommands",
    "Verif.C45_DynObstacleCommands_rmul",
    "Verif.C45_DynObstacleCommands_comm"
   ],
   "note": "All types except: val*state of VehicleStateDyn does not scale vy and dpsi (C45_false_dyn_rmul); VehicleCommands addition keeps the lights of the left operand (C45_false_lights_comm)."
  },
  {
   "property": "C46",
   "status": "partial",
   "theorems": [
    "Verif.C46_VehicleState",
    "Verif.C46_VehicleStateDyn",
    "Verif.C46_PedestrianState",
    "Verif.C46_DiffDriveState",
    "Verif.C46_SpacecraftState",
    "Verif.C46_SpaceshipState",
    "Verif.C46_RocketState",
    "Verif.C46_DynObstacleState",
    "Verif.C46_false_VehicleCommands",
    "Verif.C46_VehicleCommands_partial",
    "Verif.C46_VehicleCommands_to_from",
    "Verif.C46_VehicleCommands_reject",
    "Verif.C46_PedestrianCommands",
    "Verif.C46_DiffDriveCommands",
    "Verif.C46_false_SpacecraftCommands",
    "Verif.C46_SpaceshipCommands",
    "Verif.C46_RocketCommands",
    "Verif.C46_DynObstacleCommands"
   ],
   "note": "All types except: SpacecraftCommands.from_array always raises (C46_false_SpacecraftCommands), VehicleCommands.from_array loses the lights (C46_false_VehicleCommands)."
  },
  {
   "property": "C47",
   "status": "partial",
   "theorems": [
    "Verif.Phys.C47_spacecraft",
    "Verif.Phys.C47_spaceship",
    "Verif.Phys.C47_rocket",
    "Verif.Phys.C47_dynObstacle",
    "Verif.Phys.C47_rest",
    "Verif.Phys.C47_false_vehicleDyn",
    "Verif.Phys.C47_vehicleDyn_partial",
    "Verif.Phys.C47_false_pedestrian",
    "Verif.Phys.C47_pedestrian_partial",
    "Verif.Phys.C47_false_vehicle",
    "Verif.Phys.C47_vehicle_partial",
    "Verif.Phys.C47_false_diffDrive",
    "Verif.Phys.C47_diffDrive_partial"
   ],
   "note": "Proved for spacecraft, spaceship, rocket and dynamic obstacle. False for the kinematic and dynamic vehicle, pedestrian and differential drive (C47_false_*); the _partial theorems say exactly when the round trip holds there."
  },
  {
   "property": "C48",
   "status": "proved",
   "theorems": [
    "Verif.Phys.C48_units",
    "Verif.Phys.C48_mph",
    "Verif.Phys.C48_scale"
   ],
   "note": ""
  },
  {
   "property": "C49",
   "status": "proved",
   "theorems": [
    "Verif.Phys.C49_lateral",
    "Verif.Phys.C49_axle",
    "Verif.Phys.C49_circle",
    "Verif.Phys.C49_loads",
    "Verif.Phys.C49_forces_defined",
    "Verif.Phys.C49_defined"
   ],
   "note": "Exact real arithmetic; solve_ivp not modelled."
  },
  {
   "property": "C50",
   "status": "partial",
   "theorems": [
    "Verif.Phys.C50_spaceship_mass_partial",
    "Verif.Phys.C50_spaceship_empty",
    "Verif.Phys.C50_rocket_mass",
    "Verif.Phys.C50_rocket_empty",
    "Verif.Phys.C50_defined",
    "Verif.Phys.C50_rocket_motion",
    "Verif.Phys.C50_spaceship_motion_partial",
    "Verif.Phys.C50_false_spaceship"
   ],
   "note": "Proved for rocket and spaceship with non-negative limits, per rate and along exact motions. False for the default spaceship limits (C50_false_spaceship)."
  },
  {
   "property": "C51",
   "status": "proved",
   "theorems": [
    "Verif.Plan.C51_generate",
    "Verif.Plan.C51_no_horizon",
    "Verif.Plan.C51_end",
    "Verif.Plan.C51_vehicle"
   ],
   "note": ""
  },
  {
   "property": "C52",
   "status": "partial",
   "theorems": [
    "Verif.Plan.C52_samples",
    "Verif.Plan.C52_generate",
    "Verif.Plan.C52_one_step",
    "Verif.Plan.C52_accepted",
    "Verif.Plan.C52_default_partial",
    "Verif.Plan.C52_false_default"
   ],
   "note": "Samples, grid and generated trajectories proved. The last clause is false: parameters derived from the default car are rejected (C52_false_default); C52_default_partial says exactly when it holds."
  },
  {
   "property": "C53",
   "status": "proved",
   "theorems": [
    "Verif.Maps.C53_lane",
    "Verif.Maps.C53_along",
    "Verif.Maps.C53_along_strict",
    "Verif.Maps.C53_no_assertion",
    "Verif.Maps.C53_beta",
    "Verif.Maps.C53_inverse",
    "Verif.Maps.C53_beta_mono"
   ],
   "note": ""
  },
  {
   "property": "C54",
   "status": "proved",
   "theorems": [
    "Verif.Maps.C54_lane",
    "Verif.Maps.C54_pose",
    "Verif.Maps.C54_inside",
    "Verif.Maps.C54_flags"
   ],
   "note": ""
  },
  {
   "property": "C55",
   "status": "proved",
   "theorems": [
    "Verif.Maps.C55_center",
    "Verif.Maps.C55_fast",
    "Verif.Maps.C55_fast_heading_counterexample",
    "Verif.Maps.C55_radius",
    "Verif.Maps.C55_bounds"
   ],
   "note": "C55_fast_heading_counterexample: the heading of the fast center line is interpolated as a number and can point backwards near +-pi."
  },
  {
   "property": "C56",
   "status": "proved",
   "theorems": [
    "Verif.Maps.C56_relative",
    "Verif.Maps.C56_self",
    "Verif.Maps.C56_frame",
    "Verif.Maps.C56_chain",
    "Verif.Maps.C56_same_map",
    "Verif.Maps.C56_rigid_map",
    "Verif.Maps.C56_coordinates",
    "Verif.Maps.C56_identity",
    "Verif.Maps.C56_convert",
    "Verif.Maps.C56_exp_log",
    "Verif.Maps.C56_log_exp",
    "Verif.Maps.C56_distance_frame",
    "Verif.Maps.C56_distance",
    "Verif.Maps.C56_interpolate"
   ],
   "note": ""
  },
  {
   "property": "C57",
   "status": "proved",
   "theorems": [
    "Verif.Maps.C57_polygon",
    "Verif.Maps.C57_line",
    "Verif.Maps.C57_other"
   ],
   "note": ""
  },
  {
   "property": "C58",
   "status": "partial",
   "theorems": [
    "Verif.Lights.C58_phase",
    "Verif.Lights.C58_period",
    "Verif.Lights.C58_always",
    "Verif.Lights.C58_no_braking_partial",
    "Verif.Lights.C58_colours",
    "Verif.Lights.C58_false_interference"
   ],
   "note": "The last clause is false: braking changes the shared colour table (C58_false_interference). Proved: phases, periodicity, what braking shows after every history, and the full claim for histories without braking. At ties (odd multiples of 0.2 s) alternation after half a period fails; the theorem excludes them."
  },
  {
   "property": "C59",
   "status": "proved",
   "theorems": [
    "Verif.Outline.C59_outline",
    "Verif.Outline.C59_rejected",
    "Verif.Outline.C59_centers",
    "Verif.Outline.C59_number",
    "Verif.Outline.C59_default_sizes",
    "Verif.Outline.C59_wheels",
    "Verif.Outline.C59_straight",
    "Verif.Outline.C59_steered_counterexample",
    "Verif.Outline.C59_diff_drive"
   ],
   "note": "Includes that steered front tyres of cars stick out of the outline (C59_steered_counterexample)."
  },
  {
   "property": "C60",
   "status": "proved",
   "theorems": [
    "Verif.Eval.C60_length",
    "Verif.Eval.C60_nonneg",
    "Verif.Eval.C60_displacement",
    "Verif.Eval.C60_additive",
    "Verif.Eval.C60_frame"
   ],
   "note": "Exact real arithmetic."
  },
  {
   "property": "C61",
   "status": "proved",
   "theorems": [
    "Verif.Eval.C61_first",
    "Verif.Eval.C61_error"
   ],
   "note": "The predicate is arbitrary, also one that raises (C61_error)."
  },
  {
   "property": "C62",
   "status": "partial",
   "theorems": [
    "Verif.Eval.C62_false_pingpong",
    "Verif.Eval.C62_false_cycle",
    "Verif.Eval.C62_ends_partial"
   ],
   "note": "False: C62_false_pingpong and C62_false_cycle show that no number of turns of the loop suffices. C62_ends_partial: it ends if chains are finite and no position is beyond a lane and before its successor. The closest-point search behind the lane pose is not modelled here; lane poses are arbitrary subject to C54."
  },
  {
   "property": "C63",
   "status": "proved",
   "theorems": [
    "Verif.Eval.C63_max_jerk"
   ],
   "note": ""
  },
  {
   "property": "C64",
   "status": "proved",
   "theorems": [
    "Verif.Eval.C64_search",
    "Verif.Eval.C64_tight",
    "Verif.Eval.C64_motion"
   ],
   "note": "Intersection test and translation are parameters with the laws stated as hypotheses of C64_motion; C64_search has none. Times are exact multiples of 0.1."
  },
  {
   "property": "C65",
   "status": "proved",
   "theorems": [
    "Verif.Eval.C65_at_t",
    "Verif.Eval.C65_min_dist",
    "Verif.Eval.C65_snapshot",
    "Verif.Eval.C65_logs"
   ],
   "note": "The distance of two shapes is a parameter."
  },
  {
   "property": "C66",
   "status": "proved",
   "theorems": [
    "Verif.Agents.C66_built",
    "Verif.Agents.C66_signal",
    "Verif.Agents.C66_limits",
    "Verif.Agents.C66_latch",
    "Verif.Agents.C66_lights",
    "Verif.Agents.C66_answers",
    "Verif.Agents.C66_lights_counterexample"
   ],
   "note": "Other agents, the closest-point search and the goal-point minimiser are parameters; exact real arithmetic. C66_lights_counterexample: the lights depend on the iteration order of a set, so they are not reproducible between processes."
  },
  {
   "property": "C67",
   "status": "proved",
   "theorems": [
    "Verif.Agents.C67_plan",
    "Verif.Agents.C67_policy",
    "Verif.Agents.C67_simulated"
   ],
   "note": "C67_simulated connects the plan to what the simulator applies."
  },
  {
   "property": "C68",
   "status": "partial",
   "theorems": [
    "Verif.Pursuit.C68_lookahead",
    "Verif.Pursuit.C68_command",
    "Verif.Pursuit.C68_steering",
    "Verif.Pursuit.C68_side",
    "Verif.Pursuit.C68_antisymmetric_partial",
    "Verif.Pursuit.C68_false_straight",
    "Verif.Pursuit.C68_arc",
    "Verif.Pursuit.C68_vehicle"
   ],
   "note": "Lookahead, range of the steering, side and refusal proved. Zero for a goal straight ahead is false because of the 1e-9 in the denominator (C68_false_straight); antisymmetry holds up to that term (C68_antisymmetric_partial)."
  },
  {
   "property": "C69",
   "status": "proved",
   "theorems": [
    "Verif.Scen.C69_names",
    "Verif.Scen.C69_ego",
    "Verif.Scen.C69_total",
    "Verif.Scen.C69_order",
    "Verif.Scen.C69_players",
    "Verif.Scen.C69_statics",
    "Verif.Scen.C69_exclusive",
    "Verif.Scen.C69_scenario",
    "Verif.Scen.C69_false_pedestrian"
   ],
   "note": "Reading the file and commonroad-io are parameters. C69_total gives the exact condition of success; C69_false_pedestrian: one walking pedestrian makes the whole conversion fail."
  },
  {
   "property": "C70",
   "status": "proved",
   "theorems": [
    "Verif.Phys.C70_rolling",
    "Verif.Phys.C70_straight",
    "Verif.Phys.C70_turn",
    "Verif.Phys.C70_bounds",
    "Verif.Phys.C70_collided"
   ],
   "note": ""
  },
  {
   "property": "C71",
   "status": "proved",
   "theorems": [
    "Verif.TimeFn.C71_transparent",
    "Verif.TimeFn.C71_repeated",
    "Verif.TimeFn.C71_log",
    "Verif.TimeFn.C71_false_unnamed"
   ],
   "note": "For functions and methods. C71_false_unnamed: callables without __qualname__ raise AttributeError once decorated."
  },
  {
   "property": "C72",
   "status": "partial",
   "theorems": [
    "Verif.C72_false",
    "Verif.C72_partial"
   ],
   "note": "False as stated: C72_false gives an accepted sequence with a not-a-number timestamp. C72_partial: with at least two Decimal timestamps no NaN is accepted and the order is strict."
  },
  {
   "property": "C73",
   "status": "proved",
   "theorems": [
    "Verif.Coll.C73_normal",
    "Verif.Coll.C73_errors",
    "Verif.Coll.C73_defined",
    "Verif.Coll.C73_direction"
   ],
   "note": ""
  },
  {
   "property": "C74",
   "status": "partial",
   "theorems": [
    "Verif.Phys.C74_vehicle",
    "Verif.Phys.C74_spacecraft",
    "Verif.Phys.C74_spaceship",
    "Verif.Phys.C74_dynObstacle",
    "Verif.Phys.C74_vehicleDyn_partial",
    "Verif.Phys.C74_false_vehicleDyn",
    "Verif.Phys.C74_pedestrian_partial",
    "Verif.Phys.C74_false_pedestrian",
    "Verif.Phys.C74_rocket_partial",
    "Verif.Phys.C74_false_rocket",
    "Verif.Phys.C74_false_diffDrive"
   ],
   "note": "Proved for vehicle, spacecraft, spaceship, dynamic obstacle. False for the dynamic vehicle below 0.1 m/s, pedestrian, rocket, differential drive (C74_false_*); _partial theorems say what holds."
  },
  {
   "property": "C75",
   "status": "proved",
   "theorems": [
    "Verif.Phys.C75_vehicle",
    "Verif.Phys.C75_pedestrian",
    "Verif.Phys.C75_diffDrive",
    "Verif.Phys.C75_spacecraft",
    "Verif.Phys.C75_dynObstacle",
    "Verif.Phys.C75_spaceship",
    "Verif.Phys.C75_rocket",
    "Verif.Phys.C75_vehicleDyn"
   ],
   "note": ""
  },
  {
   "property": "C76",
   "status": "proved",
   "theorems": [
    "Verif.Phys.C76_straight",
    "Verif.Phys.C76_spacecraft",
    "Verif.Phys.C76_spaceship",
    "Verif.Phys.C76_rocket",
    "Verif.Phys.C76_vehicleDyn"
   ],
   "note": "For exact motions; the numerical integrator is not modelled."
  },
  {
   "property": "C77",
   "status": "proved",
   "theorems": [
    "Verif.Phys.C77_pedestrian",
    "Verif.Phys.C77_pedestrian_updates",
    "Verif.Phys.C77_reversal",
    "Verif.Phys.C77_vehicleDyn"
   ],
   "note": "For exact motions; the numerical integrator is not modelled. C77_reversal: steps over half a second reverse the motion."
  },
  {
   "property": "C78",
   "status": "partial",
   "theorems": [
    "Verif.Phys.C78_axles",
    "Verif.Phys.C78_odd",
    "Verif.Phys.C78_opposes_partial",
    "Verif.Phys.C78_false_bicycle_front"
   ],
   "note": "Proved for regular parameters incl. all default tyres except the front wheel of the default bicycle, where it is false (C78_false_bicycle_front)."
  },
  {
   "property": "C79",
   "status": "partial",
   "theorems": [
    "Verif.Maps.C79_arc_partial",
    "Verif.Maps.C79_false_outside",
    "Verif.Maps.C79_continuous",
    "Verif.Maps.C79_length_partial"
   ],
   "note": "Proved within the lane, over any number of segments, for the length of the center line as a curve in the plane (C79_length_partial, C79_continuous) and, within a segment, for the distance of poses (C79_arc_partial). False beyond the ends, where the center line moves a tenth of the along-lane distance (C79_false_outside)."
  },
  {
   "property": "C80",
   "status": "proved",
   "theorems": [
    "Verif.Maps.C80_vertices"
   ],
   "note": ""
  },
  {
   "property": "C81",
   "status": "proved",
   "theorems": [
    "Verif.Eval.C81_at_t",
    "Verif.Eval.C81_times",
    "Verif.Eval.C81_near",
    "Verif.Eval.C81_drac",
    "Verif.Eval.C81_false_standing",
    "Verif.Eval.C81_whole",
    "Verif.Eval.C81_logs"
   ],
   "note": "C81_false_standing: a standing ego gets an infinite rate once someone drives into it."
  },
  {
   "property": "C82",
   "status": "proved",
   "theorems": [
    "Verif.Eval.C82_has_collision"
   ],
   "note": ""
  },
  {
   "property": "C83",
   "status": "partial",
   "theorems": [
    "Verif.Eval.C83_defined",
    "Verif.Eval.C83_energy_partial",
    "Verif.Eval.C83_energy_total",
    "Verif.Eval.C83_bound",
    "Verif.Eval.C83_scale",
    "Verif.Eval.C83_constant",
    "Verif.Eval.C83_zero_partial",
    "Verif.Eval.C83_false_odd",
    "Verif.Eval.C83_range",
    "Verif.Eval.C83_rate",
    "Verif.Eval.C83_false_rate"
   ],
   "note": "True for an even number of samples taken every 0.1 s: energy identity, constant signals, zero only for zero, bound by the plain rms. Scaling, definedness, the bound with factor n/(n-1) and the choice of samples hold for all. The claim fails for odd counts (C83_false_odd: 0,1,-1 gives 0; C83_constant: factor n/(n-1)) because irfft is called without the length, and for other sampling rates (C83_rate, C83_false_rate) because 0.1 s is hard-coded."
  },
  {
   "property": "C84",
   "status": "partial",
   "theorems": [
    "Verif.Eval.C84_sound_partial",
    "Verif.Eval.C84_false_predecessor",
    "Verif.Eval.C84_false_past_end",
    "Verif.Eval.C84_fulfilled"
   ],
   "note": "False as documented: C84_false_predecessor, C84_false_past_end. C84_sound_partial states what a positive answer means."
  },
  {
   "property": "C85",
   "status": "partial",
   "theorems": [
    "Verif.Scen.C85_parked_partial",
    "Verif.Scen.C85_false_static",
    "Verif.Scen.C85_loop_counterexample"
   ],
   "note": "Proved for parked obstacles (C85_parked_partial). False for static obstacles of the file, which are not moved to their pose (C85_false_static), and for cars that return to their start (C85_loop_counterexample)."
  },
  {
   "property": "C86",
   "status": "partial",
   "theorems": [
    "Verif.Scen.C86_lane_partial",
    "Verif.Scen.C86_total",
    "Verif.Scen.C86_false_id",
    "Verif.Scen.C86_false_angle"
   ],
   "note": "C86_lane_partial states what the code guarantees. False in general: ids are compared as substrings (C86_false_id), headings as numbers (C86_false_angle). The search for the closest point is a parameter."
  },
  {
   "property": "C87",
   "status": "partial",
   "theorems": [
    "Verif.Scen.C87_vehicle_partial",
    "Verif.Scen.C87_pedestrian",
    "Verif.Scen.C87_covers",
    "Verif.Scen.C87_false_size",
    "Verif.Scen.C87_false_steering",
    "Verif.Scen.C87_mobile",
    "Verif.Scen.C87_truck"
   ],
   "note": "Pose, speed, mass, inertia proved. False: steering angle (C87_false_steering), covering (C87_false_size; C87_covers gives the exact condition), trucks and buses get car limits (C87_truck)."
  },
  {
   "property": "C88",
   "status": "partial",
   "theorems": [
    "Verif.Scen.C88_bounds_partial",
    "Verif.Scen.C88_gates",
    "Verif.Scen.C88_false_closed"
   ],
   "note": "Shapely operations are parameters with the law of difference as hypothesis. False for roads without gates, where the function raises (C88_false_closed)."
  },
  {
   "property": "C89",
   "status": "partial",
   "theorems": [
    "Verif.Scen.C89_pose",
    "Verif.Scen.C89_pose_exact",
    "Verif.Scen.C89_end",
    "Verif.Scen.C89_end_fulfilled",
    "Verif.Scen.C89_lane_partial",
    "Verif.Scen.C89_false_metres",
    "Verif.Scen.C89_false_plot"
   ],
   "note": "Pose goals proved (C89_pose, C89_pose_exact). Lane goals proved where metres and control points agree (C89_lane_partial); false otherwise (C89_false_metres). The goal at the end of a lane is 0.1 m beyond it (C89_end). A pose goal cannot be drawn (C89_false_plot). Shapely's buffer is a parameter with a stated law."
  },
  {
   "property": "C90",
   "status": "partial",
   "theorems": [
    "Verif.Maps.C90_star",
    "Verif.Maps.C90_star_points",
    "Verif.Maps.C90_full_turn",
    "Verif.Maps.C90_random_partial",
    "Verif.Maps.C90_no_vertices",
    "Verif.Maps.C90_defined",
    "Verif.Maps.C90_degenerate",
    "Verif.Maps.C90_false_small"
   ],
   "note": "Proved for the star and for the random polygon before rounding (C90_random_partial bounds the rounding by one per coordinate). False for the returned polygon: rounding to integers collapses small polygons (C90_false_small). Draws of random are parameters."
  },
  {
   "property": "C91",
   "status": "partial",
   "theorems": [
    "Verif.Agents.C91_pose",
    "Verif.Agents.C91_position",
    "Verif.Agents.C91_states",
    "Verif.Agents.C91_refines_partial",
    "Verif.Agents.C91_blind",
    "Verif.Agents.C91_false_robot"
   ],
   "note": "Reading is proved for all attribute sets and all model states, and C91_refines_partial reduces the speed behaviour to the model of C20. False for differential drives, whose states have no speed (C91_false_robot)."
  },
  {
   "property": "C92",
   "status": "partial",
   "theorems": [
    "Verif.Phys.C92_power",
    "Verif.Phys.C92_coasting_partial",
    "Verif.Phys.C92_false_backwards"
   ],
   "note": "The power balance is proved without restriction on the direction of the wheels. The energy claim holds while the front wheel rolls forwards in its own frame (C92_coasting_partial) and is false otherwise (C92_false_backwards). Exact arithmetic."
  },
  {
   "property": "C93",
   "status": "partial",
   "theorems": [
    "Verif.Phys.C93_vehicle",
    "Verif.Phys.C93_step",
    "Verif.Phys.C93_pedestrian",
    "Verif.Phys.C93_diffDrive",
    "Verif.Phys.C93_spacecraft",
    "Verif.Phys.C93_spaceship",
    "Verif.Phys.C93_rocket",
    "Verif.Phys.C93_dynObstacle_partial",
    "Verif.Phys.C93_false_dynObstacle",
    "Verif.Phys.C93_vehicleDyn"
   ],
   "note": "Proved for seven models and the discrete bicycle step. For dynamic obstacles it holds with symmetric speed and acceleration limits (C93_dynObstacle_partial) and is false otherwise (C93_false_dynObstacle)."
  },
  {
   "property": "C94",
   "status": "proved",
   "theorems": [
    "Verif.Phys.C94_refines",
    "Verif.Phys.C94_vehicle",
    "Verif.Phys.C94_vehicleDyn",
    "Verif.Phys.C94_pedestrian",
    "Verif.Phys.C94_diffDrive",
    "Verif.Phys.C94_spacecraft",
    "Verif.Phys.C94_spaceship",
    "Verif.Phys.C94_rocket",
    "Verif.Phys.C94_dynObstacle"
   ],
   "note": "Exact solutions; the numerical error of scipy's solve_ivp is not modelled."
  },
  {
   "property": "C95",
   "status": "partial",
   "theorems": [
    "Verif.Phys.C95_vehicle",
    "Verif.Phys.C95_dynObstacle",
    "Verif.Phys.C95_spacecraft_partial",
    "Verif.Phys.C95_spaceship_partial",
    "Verif.Phys.C95_rocket_partial",
    "Verif.Phys.C95_vehicleDyn_partial",
    "Verif.Phys.C95_pedestrian",
    "Verif.Phys.C95_false_spacecraft",
    "Verif.Phys.C95_false_spaceship",
    "Verif.Phys.C95_false_vehicleDyn"
   ],
   "note": "Proved for kinematic vehicles, moving obstacles and, with updates of at most half a second, pedestrians; for the spin of spacecraft, the nozzle angle of spaceships and rockets and the steering angle of dynamic vehicles. False for the speed of spacecraft (C95_false_spacecraft), spaceships (C95_false_spaceship; rockets use vx_limits as little) and dynamic vehicles (C95_false_vehicleDyn). Exact solutions only."
  },
  {
   "property": "C96",
   "status": "partial",
   "theorems": [
    "Verif.Phys.C96_car",
    "Verif.Phys.C96_vehicleDyn",
    "Verif.Phys.C96_vehicle",
    "Verif.Phys.C96_diffDrive",
    "Verif.Phys.C96_spacecraft",
    "Verif.Phys.C96_spaceship_partial",
    "Verif.Phys.C96_rocket_partial",
    "Verif.Phys.C96_false_idle"
   ],
   "note": "Proved where the thrust limits contain zero; false for a positive minimal thrust (C96_false_idle). Exact solutions only."
  },
  {
   "property": "C97",
   "status": "partial",
   "theorems": [
    "Verif.Whole.C97_flags_partial",
    "Verif.Whole.C97_false",
    "Verif.Whole.C97_complete_partial"
   ],
   "note": "C97_flags_partial proves both directions; the second for reports with details. C97_complete_partial is the equivalence for all reports where the collision code never raises its exception (see C101). It is false for the empty reports recorded when the collision code raises (C97_false). Moving obstacles are excluded because the simulator drops their reports with the environment."
  },
  {
   "property": "C98",
   "status": "proved",
   "theorems": [
    "Verif.Whole.C98_mechanics"
   ],
   "note": "For rigid bodies with constant mass, unit normals (C40) and immovable obstacles; exact arithmetic."
  },
  {
   "property": "C99",
   "status": "proved",
   "theorems": [
    "Verif.Whole.C99_driven",
    "Verif.Whole.C99_log",
    "Verif.Whole.C99_limits"
   ],
   "note": "The models' laws (updates do not touch the collision flag and the class) are hypotheses; C99_limits supposes exact solutions of the differential equations (C94)."
  },
  {
   "property": "C100",
   "status": "proved",
   "theorems": [
    "Verif.Whole.C100_alone",
    "Verif.Whole.C100_isolated",
    "Verif.Whole.C100_log",
    "Verif.Whole.C100_laneFollower"
   ],
   "note": "Agents that share no state; agents that share objects are outside of the claim."
  },
  {
   "property": "C101",
   "status": "partial",
   "theorems": [
    "Verif.Coll.C101_quarters",
    "Verif.Coll.C101_partition",
    "Verif.Coll.C101_located",
    "Verif.Coll.C101_vehicle_partial",
    "Verif.Coll.C101_false_diffDrive",
    "Verif.Coll.C101_false_diffDrive_located",
    "Verif.Coll.C101_whole"
   ],
   "note": "Proved for vehicles and for models with one location; false for differential drives (C101_false_diffDrive). Polygons are convex hulls of their rings, the centroid is that of GEOS in exact arithmetic, and shapely's intersects is taken to be having a common point."
  },
  {
   "property": "C102",
   "status": "proved",
   "theorems": [
    "Verif.Viz.C102_drawn",
    "Verif.Viz.C102_pose",
    "Verif.Viz.C102_ship",
    "Verif.Viz.C102_pedestrian",
    "Verif.Viz.C102_craft"
   ],
   "note": "Outlines as sets of points; unary_union is the union of the sets. Rounding and matplotlib are outside."
  },
  {
   "property": "C103",
   "status": "partial",
   "theorems": [
    "Verif.Viz.C103_rocket_partial",
    "Verif.Viz.C103_spaceship_partial",
    "Verif.Viz.C103_nozzle",
    "Verif.Viz.C103_empty",
    "Verif.Viz.C103_false_limits",
    "Verif.Viz.C103_false_collided"
   ],
   "note": "C103_rocket_partial and C103_spaceship_partial prove directions, accelerations and torques. False: flames are drawn for commands beyond the limits (C103_false_limits) and after collisions (C103_false_collided), and the nozzles of rockets are drawn beside the axis on which the forces act in the dynamics (last clause of C103_rocket_partial)."
  },
  {
   "property": "C104",
   "status": "partial",
   "theorems": [
    "Verif.Viz.C104_box",
    "Verif.Viz.C104_empty",
    "Verif.Viz.C104_auto",
    "Verif.Viz.C104_follow_partial",
    "Verif.Viz.C104_false_robot",
    "Verif.Viz.C104_false_unknown",
    "Verif.Viz.C104_fixed"
   ],
   "note": "False for followed players without vx (C104_false_robot), and exceptions reach the caller where matplotlib's limits were meant (C104_false_unknown, C104_empty)."
  },
  {
   "property": "C105",
   "status": "partial",
   "theorems": [
    "Verif.Viz.C105_frames_partial",
    "Verif.Viz.C105_false_end",
    "Verif.Viz.C105_speed",
    "Verif.Viz.C105_false_realtime",
    "Verif.Viz.C105_false_begin"
   ],
   "note": "C105_frames_partial is for runs that begin at 0 and all but the last step. False: the last time is never shown (C105_false_end), the film is faster than the run unless a whole number of frames fits into a second (C105_speed, C105_false_realtime), logs that begin later are shown from 0 (C105_false_begin)."
  },
  {
   "property": "C106",
   "status": "partial",
   "theorems": [
    "Verif.Viz.C106_latest_partial",
    "Verif.Viz.C106_false_late"
   ],
   "note": "C106_latest_partial is for players that have trajectories from the start; those of others are never shown (C106_false_late)."
  },
  {
   "property": "C107",
   "status": "partial",
   "theorems": [
    "Verif.Maps.C107_profile_partial",
    "Verif.Maps.C107_ends",
    "Verif.Maps.C107_false_corner",
    "Verif.Maps.C107_false_single"
   ],
   "note": "C107_profile_partial and C107_ends prove the shape of the outline and its ends. False between the ends: control points that are not sampled are cut off (C107_false_corner); the outline of a lane with a single control point is empty (C107_false_single)."
  },
  {
   "property": "C108",
   "status": "partial",
   "theorems": [
    "Verif.Whole.C108_replay_partial",
    "Verif.Whole.C108_npAgents_partial",
    "Verif.Whole.C108_false_delayed"
   ],
   "note": "Proved for sensors that leave the time of observations as it is, which all filters of sim_perception.py do except the delay. False with delayed observations (C108_false_delayed)."
  },
  {
   "property": "C109",
   "status": "proved",
   "theorems": [
    "Verif.Whole.C109_seen",
    "Verif.Whole.C109_snapshots",
    "Verif.Whole.C109_delay",
    "Verif.Whole.C109_delayed_world",
    "Verif.Whole.C109_ghost",
    "Verif.Whole.Sensors.C109_false_shared"
   ],
   "note": "C109_snapshots holds for every world of the simulator. C109_false_shared shows why the players must not share a delaying filter object."
  },
  {
   "property": "C110",
   "status": "partial",
   "theorems": [
    "Verif.Viz.C110_low",
    "Verif.Viz.C110_false_holes",
    "Verif.Viz.C110_false_multi",
    "Verif.Viz.C110_false_raises",
    "Verif.Viz.C110_arena_partial",
    "Verif.Viz.C110_lines"
   ],
   "note": "Proved for arenas of polygons without holes and lines; holes are right for a zorder of at most 1 (C110_low). False in the simulator for holes (C110_false_holes), for shapes of several polygons (C110_false_multi), and other shapes with parts and pose goals raise a TypeError (C110_false_raises)."
  },
  {
   "property": "C111",
   "status": "partial",
   "theorems": [
    "Verif.Whole.C111_picture_partial",
    "Verif.Whole.C111_false_unresolved",
    "Verif.Whole.C111_false_unresolved_run"
   ],
   "note": "Proved for all collisions reported with details. False for the reports of collisions that could not be resolved, which have no impact point: drawing them raises (C111_false_unresolved, C111_false_unresolved_run)."
  },
  {
   "property": "C112",
   "status": "partial",
   "theorems": [
    "Verif.Viz.C112_diagrams",
    "Verif.Viz.C112_states",
    "Verif.Viz.C112_commands_partial",
    "Verif.Viz.C112_false_commands",
    "Verif.Viz.C112_after_run",
    "Verif.Viz.C112_false_run"
   ],
   "note": "Proved for states, and for commands at the times of the log. False for commands between two requests, where the diagram shows the next command (C112_false_commands, C112_false_run): matplotlib continues values to the left by default."
  },
  {
   "property": "C113",
   "status": "partial",
   "theorems": [
    "Verif.TGraph.C113_trajectories",
    "Verif.TGraph.C113_tree_partial",
    "Verif.TGraph.C113_grown",
    "Verif.TGraph.C113_transitions",
    "Verif.TGraph.C113_false_diamond"
   ],
   "note": "Proved for graphs in which no node has two predecessors; in general exactly one complete trajectory per leaf is returned (C113_trajectories). False when two ways lead to one node (C113_false_diamond)."
  },
  {
   "property": "C114",
   "status": "partial",
   "theorems": [
    "Verif.Moved.C114_moved",
    "Verif.Moved.C114_compose",
    "Verif.Moved.C114_back",
    "Verif.Moved.C114_distance",
    "Verif.Moved.C114_connectable",
    "Verif.Moved.C114_position",
    "Verif.Moved.C114_heading_partial",
    "Verif.Moved.C114_false_heading",
    "Verif.Moved.C114_path",
    "Verif.Moved.C114_false_class"
   ],
   "note": "Proved at the samples, and for positions, speeds and steering at all times. False for headings between samples, which are wrapped to (-pi, pi] at the samples (C114_false_heading); what is returned is no Trajectory, so it cannot be moved again or made a path (C114_false_class)."
  },
  {
   "property": "C115",
   "status": "partial",
   "theorems": [
    "Verif.Sim.C115_accepts",
    "Verif.Sim.C115_fresh",
    "Verif.Sim.C115_runs_partial",
    "Verif.Sim.C115_false_missions",
    "Verif.Sim.C115_false_sensors",
    "Verif.Sim.C115_false_dt"
   ],
   "note": "Acceptance and the fresh state are proved for all arguments. The run returns if missions are given, there are sensors for nobody or everybody, and the step is positive (C115_runs_partial). False otherwise: missions=None is accepted but raises (C115_false_missions), also sensors for some players only (C115_false_sensors) and a step of zero (C115_false_dt)."
  },
  {
   "property": "C116",
   "status": "partial",
   "theorems": [
    "Verif.Sim.C116_again_partial",
    "Verif.Sim.C116_false_log",
    "Verif.Sim.C116_false_process"
   ],
   "note": "No step is made and players that had left keep their log (C116_again_partial). False for players still there, whose log is replaced by an empty one (C116_false_log), and in another process, where KeyError is raised if somebody had left (C116_false_process)."
  },
  {
   "property": "C117",
   "status": "partial",
   "theorems": [
    "Verif.Cache.C117_calls",
    "Verif.Cache.C117_lru",
    "Verif.Cache.C117_history_partial",
    "Verif.Cache.C117_lanes_partial",
    "Verif.Cache.C117_false_changed",
    "Verif.Cache.C117_false_altered",
    "Verif.Cache.C117_false_get_lanelets"
   ],
   "note": "Proved for all histories in which a lane is complete before it is first asked and no returned value is changed in place (C117_history_partial, C117_lanes_partial); contents of the cache for all histories (C117_lru). False if control points change later (C117_false_changed) or a returned list is changed (C117_false_altered); get_lanelets with a list always raises TypeError (C117_false_get_lanelets)."
  },
  {
   "property": "C118",
   "status": "partial",
   "theorems": [
    "Verif.Phys.C118_error",
    "Verif.Phys.C118_converges",
    "Verif.Phys.C118_ivp",
    "Verif.Phys.C118_inputs",
    "Verif.Phys.C118_first_order",
    "Verif.Phys.C118_straight",
    "Verif.Phys.C118_simulator_partial",
    "Verif.Phys.C118_false_limits"
   ],
   "note": "The differential equation, the agreement to first order, the straight case, bounds of the error of one step (C118_error) and of many steps (C118_converges) inside the limits and the agreement with the simulator inside the limits are proved for all exact solutions; solve_ivp itself is outside the model. False for the limits: successor_ivp keeps none (C118_false_limits)."
  },
  {
   "property": "C119",
   "status": "partial",
   "theorems": [
    "Verif.Loop.C119_speed",
    "Verif.Loop.C119_steer",
    "Verif.Loop.C119_car",
    "Verif.Loop.C119_false_rare",
    "Verif.Loop.C119_converges_partial",
    "Verif.Loop.C119_bounded"
   ],
   "note": "Proved for all gains, limits and periods in Loop.Stable, which the default gains meet for periods up to 0.2 s, from any state of the controllers; for the simulated car as long as it meets no limit of speed or steering (C119_car). False for rare requests: asked once a second, the default steering controller oscillates for ever (C119_false_rare)."
  },
  {
   "property": "C120",
   "status": "partial",
   "theorems": [
    "Verif.Eval.C120_bodies",
    "Verif.Eval.C120_distance",
    "Verif.Eval.C120_extremes",
    "Verif.Eval.C120_foreseen",
    "Verif.Eval.C120_long_partial",
    "Verif.Eval.C120_false_short",
    "Verif.Eval.C120_false_skipped"
   ],
   "note": "Foreseen collisions are true and less than 0.1 s late for convex shapes (C120_foreseen); contacts that last 0.1 s are foreseen (C120_long_partial). False for shorter contacts (C120_false_short) and for agents that move away from the center of a long shape, for which the search is skipped (C120_false_skipped)."
  },
  {
   "property": "C121",
   "status": "proved",
   "theorems": [
    "Verif.Agents.C121_cruise",
    "Verif.Agents.C121_stops"
   ],
   "note": "For agents asked at least every 0.225 s whose speed grows at the rate they have asked for (no limit of the vehicle model in force); on the free road the speed behaviour has to ask for the same speed throughout, which it does when the agent is alone."
  },
  {
   "property": "C122",
   "status": "partial",
   "theorems": [
    "Verif.Pursuit.C122_keeps_partial",
    "Verif.Pursuit.C122_false_limit",
    "Verif.Pursuit.C122_lane"
   ],
   "note": "The vehicle comes not to the center but to a line up to (lookahead + lr) / 2e9 left of it (C122_keeps_partial), because of the constant 1e-9 in the formula; at every pose on that line get_desired_steering raises ZeroDivisionError (C122_false_limit). Idealised: time is continuous, the wheels are at the demanded angle, the minimiser of scipy finds a minimum where one exists, the lookahead stays inside the lane, the reference speed is constant. C122_lane shows that lanes of collinear control points are straight in the sense of the theorem."
  },
  {
   "property": "C123",
   "status": "partial",
   "theorems": [
    "Verif.Agents.C123_follower",
    "Verif.Agents.C123_after",
    "Verif.Agents.C123_distance_partial",
    "Verif.Agents.C123_false_follower",
    "Verif.Loop.C123_memory",
    "Verif.Loop.C123_forgets",
    "Verif.Loop.C123_lag",
    "Verif.Loop.C123_braking",
    "Verif.Loop.C123_false_back"
   ],
   "note": "The bound of the distance is proved for a lane follower that sees the danger in its first request (C123_distance_partial, C123_braking). False that it stays: it rolls back to where it saw the danger (C123_false_follower), because the integral term of the speed controller remembers the distance run ahead of the reference. C123_follower gives the place of rest in general: in the end the distance covered is that of the references, if they never differ by 200 m (beyond that the integral term is clipped)."
  },
  {
   "property": "C124",
   "status": "partial",
   "theorems": [
    "Verif.Agents.C124_clear_partial",
    "Verif.Agents.C124_ahead_partial",
    "Verif.Agents.C124_reference",
    "Verif.Agents.C124_false_near"
   ],
   "note": "False for slow vehicles: the follower gets nearer than any distance larger than what the other covers in the safety time, e.g. nearer than a car's length to a standing car (C124_false_near). C124_ahead_partial: what the speed behaviour asks for behind a vehicle, and that it is no emergency. C124_reference: the speed it aims at behind a vehicle, exactly. C124_clear_partial: behind a vehicle with a constant speed that is high enough, the distance never falls below a clearance given explicitly, as long as the integral term of the speed controller stays within given bounds. Not proved: a bound for the integral term over arbitrarily long runs, and vehicles ahead that change their speed."
  },
  {
   "property": "C125",
   "status": "partial",
   "theorems": [
    "Verif.Phys.C125_model",
    "Verif.Phys.C125_vehicle",
    "Verif.Phys.C125_pedestrian",
    "Verif.Phys.C125_rot",
    "Verif.Phys.C125_dynObstacle",
    "Verif.Phys.C125_thrust",
    "Verif.Phys.C125_enforced",
    "Verif.Phys.C125_rest_vehicle_partial",
    "Verif.Phys.C125_rest_pedestrian_partial",
    "Verif.Phys.C125_rest_diffDrive_partial",
    "Verif.Phys.C125_rest_spacecraft_partial",
    "Verif.Phys.C125_rest_dynObstacle_partial",
    "Verif.Phys.C125_rest_thrust_partial",
    "Verif.Phys.C125_defaults",
    "Verif.Phys.C125_values",
    "Verif.Phys.C125_thrust_values",
    "Verif.Phys.C125_false_rest"
   ],
   "note": "What is accepted, the defaults and their values are proved. False that accepted parameters allow rest: limits of the acceleration, of wheel speeds or forces that exclude zero are accepted (C125_false_rest); the C125_rest_*_partial theorems assume that the limits contain zero, as those of all defaults do (C125_defaults)."
  },
  {
   "property": "C126",
   "status": "proved",
   "theorems": [
    "Verif.Whole.C126_speed",
    "Verif.Whole.C126_reaches",
    "Verif.Whole.C126_log",
    "Verif.Whole.C126_step"
   ],
   "note": "C126_step for all worlds; C126_speed, C126_reaches and C126_log for a lane follower whose sensor shows it its own speed and whose speed follows the differential equation of the vehicle (Phys.speedCurve_of_motion). Speeds at a limit are excluded by a hypothesis on the logged speeds: there the differential equation may have no solution."
  },
  {
   "property": "C127",
   "status": "partial",
   "theorems": [
    "Verif.Load.C127_found",
    "Verif.Load.C127_missing",
    "Verif.Load.C127_unique_partial",
    "Verif.Load.C127_false_top",
    "Verif.Load.C127_ending",
    "Verif.Load.C127_default_partial",
    "Verif.Load.C127_false_default",
    "Verif.Load.C127_installed",
    "Verif.Load.C127_directory"
   ],
   "note": "C127_found, C127_missing and C127_ending hold for all trees. The full claim fails: C127_false_top (a file in the directory itself is not opened if there is another one deeper) and C127_false_default (the path of the project contains src elsewhere); C127_unique_partial and C127_default_partial hold without these cases."
  },
  {
   "property": "C128",
   "status": "partial",
   "theorems": [
    "Verif.Agents.C128_goal",
    "Verif.Agents.C128_line_partial",
    "Verif.Agents.C128_false_axle",
    "Verif.Agents.C128_none"
   ],
   "note": "C128_goal: the goal point is the one for which the commands steer. The line begins half a wheelbase behind the centre of gravity: at the rear axle if lr = wheelbase / 2 (C128_line_partial), and elsewhere otherwise (C128_false_axle)."
  },
  {
   "property": "C129",
   "status": "partial",
   "theorems": [
    "Verif.Viz.C129_goals_partial",
    "Verif.Viz.C129_false_kind",
    "Verif.Viz.C129_lines_partial",
    "Verif.Viz.C129_false_robot",
    "Verif.Viz.C129_drawn_iff"
   ],
   "note": "C129_goals_partial for goals that are polygons and C129_lines_partial for states with vx. Other moving goals end the animation (C129_false_kind); trajectories of differential drive robots are not drawn (C129_false_robot)."
  },
  {
   "property": "C130",
   "status": "partial",
   "theorems": [
    "Verif.Maps.C130_straight_partial",
    "Verif.Maps.C130_pose_partial",
    "Verif.Maps.C130_tolerance_partial",
    "Verif.Maps.C130_inside_partial",
    "Verif.Maps.C130_perpendicular",
    "Verif.Maps.C130_false_beyond",
    "Verif.Maps.C130_false_local"
   ],
   "note": "For straight lanes with any spacing of control points, including their prolongation, there is one local minimum and it is the nearest point (C130_straight_partial, C130_pose_partial, C130_inside_partial; C130_tolerance_partial for a search that stops within a tolerance). On any lane a local minimum of the fast version strictly inside a segment lies at a right angle (C130_perpendicular). The full claim fails on lanes that turn around (C130_false_local); beyond the ends of a lane distances are counted ten times (C130_false_beyond). The search of scipy is not modelled."
  },
  {
   "property": "C131",
   "status": "partial",
   "theorems": [
    "Verif.Typed.C131_made",
    "Verif.Typed.C131_iterate",
    "Verif.Typed.C131_builder",
    "Verif.Typed.C131_equal",
    "Verif.Typed.C131_transform",
    "Verif.Typed.C131_trajectory_partial",
    "Verif.Typed.C131_false_type",
    "Verif.Typed.C131_false_trajectory",
    "Verif.Typed.C131_false_builder",
    "Verif.Typed.C131_false_untyped"
   ],
   "note": "Everything made by the operations from sequences with a type argument and from trajectories is valid, has an XT and can be iterated (C131_made, an induction over programs; C131_builder); the iteration raises exactly for untyped sequences with at least two samples (C131_iterate); == is characterised in C131_equal. The methods of trajectories keep the class (C131_trajectory_partial). The rest fails: cutting and shifting leave the type variable as type (C131_false_type) and make plain sequences, unequal to any trajectory, of trajectories (C131_false_trajectory); builders of trajectories always raise (C131_false_builder); untyped sequences raise where equal ones do not (C131_false_untyped). Python's typing machinery (`__orig_class__`, subscription of generic classes) is modelled by its documented behaviour."
  },
  {
   "property": "C132",
   "status": "partial",
   "theorems": [
    "Verif.Whole.C132_contact",
    "Verif.Whole.C132_wall",
    "Verif.Whole.C132_lasting_partial",
    "Verif.Whole.C132_deep_partial",
    "Verif.Whole.C132_discs",
    "Verif.Whole.C132_false_tunnel",
    "Verif.Whole.C132_false_passed",
    "Verif.Whole.C132_false_last"
   ],
   "note": "Two players in contact at the end of a step that does not end the run have a report of this time, unless their bodies separate in the resulting state or another collision of one of them is reported at this time (C132_contact); a player that meets an obstacle there is named or moves away from it (C132_wall). Hence contacts that last for a step are noticed (C132_lasting_partial), and so are contacts whose depth reaches half of what the gap can change in a step (C132_deep_partial, with C132_discs for bodies around discs). In general the claim fails: players can drive through each other between two checks (C132_false_tunnel, acknowledged in the docstring), can be found in contact after they passed each other and are then taken to separate (C132_false_passed), and the last step is not checked (C132_false_last)."
  },
  {
   "property": "C133",
   "status": "partial",
   "theorems": [
    "Verif.Coll.C133_rocket",
    "Verif.Coll.C133_spaceship",
    "Verif.Coll.C133_length",
    "Verif.Coll.C133_false_length",
    "Verif.Coll.C133_defaults",
    "Verif.Coll.C133_pedestrian",
    "Verif.Coll.C133_diff_drive",
    "Verif.Coll.C133_wheels",
    "Verif.Coll.C133_false_wheels",
    "Verif.Coll.C133_spacecraft",
    "Verif.Coll.C133_spacecraft_errors",
    "Verif.Coll.C133_false_convex",
    "Verif.Coll.C133_default_spacecraft"
   ],
   "note": "Rockets and spaceships are boxes with a triangular nose and have all the properties (C133_rocket, C133_spaceship, C133_length), pedestrians and differential drives are 64-gons between two ellipses (C133_pedestrian, C133_diff_drive), spacecraft are a box with half an ellipse and have them except convexity (C133_spacecraft, C133_spacecraft_errors). The claim fails for spacecraft, whose box reaches a millimetre beside the ellipse, so that the outline has a notch (C133_false_convex), for the length given to RocketGeometry.default, which is ignored (C133_false_length), and for the wheels of the default differential drive (C133_false_wheels; C133_wheels says which drives have all wheels inside)."
  },
  {
   "property": "C134",
   "status": "proved",
   "theorems": [
    "Verif.Sim.C134_rounding",
    "Verif.Sim.C134_exact",
    "Verif.Sim.C134_decimal",
    "Verif.Sim.C134_double",
    "Verif.Sim.C134_drift",
    "Verif.Sim.C134_ends",
    "Verif.Sim.C134_false_float"
   ],
   "note": "This is what justifies the exact times of the other simulator theorems. The condition on the digits cannot be dropped: with dt = dt_commands = SimTime(0.1), a Decimal with 55 digits, agents are not asked in the second step, though exact times ask them in every step (C134_false_float). Overflow and underflow of exponents are not modelled."
  },
  {
   "property": "C135",
   "status": "partial",
   "theorems": [
    "Verif.Eval.C135_distance",
    "Verif.Eval.C135_zero",
    "Verif.Eval.C135_symmetric",
    "Verif.Eval.C135_frame",
    "Verif.Eval.C135_moved",
    "Verif.Eval.C135_between_partial",
    "Verif.Eval.C135_false_between"
   ],
   "note": "Distance, contact, symmetry, frame and motion are proved. The last sentence fails: only logged times are looked at, a player that passes through the ego between two of them leaves a positive distance (C135_false_between). What holds is C135_between_partial: the reported distance minus the speeds and yaw rates times the time since a logged instant is a lower bound. shapely's nearest_points is a parameter with a contract, shown satisfiable."
  },
  {
   "property": "C136",
   "status": "proved",
   "theorems": [
    "Verif.Scen.C136_selected",
    "Verif.Scen.C136_exists",
    "Verif.Scen.C136_starts",
    "Verif.Scen.C136_alike",
    "Verif.Scen.C136_places"
   ],
   "note": "The lanelet network of CommonRoad is a parameter; that merged lanelets start with the vertices of the lanelet is a contract (Continues), met by an example. Non-negative selections; negative ones count from the end as in Python."
  },
  {
   "property": "C137",
   "status": "partial",
   "theorems": [
    "Verif.Viz.C137_frame",
    "Verif.Viz.C137_body",
    "Verif.Viz.C137_vehicle",
    "Verif.Viz.C137_parts",
    "Verif.Viz.C137_complete",
    "Verif.Viz.C137_false_brake",
    "Verif.Viz.C137_false_gone"
   ],
   "note": "Proved for all sequences of frames, except that players that have left stay shown at their last state (C137_false_gone) and that back lights stay bright after any player with the same phase of lights has braked (C137_false_brake). matplotlib is reduced to the coordinates and colours that are set; that a state of one kind with the geometry of another ends in AttributeError is a simplification."
  },
  {
   "property": "C138",
   "status": "partial",
   "theorems": [
    "Verif.C138_construct",
    "Verif.C138_total",
    "Verif.C138_samples",
    "Verif.C138_chord",
    "Verif.C138_chord_decimal",
    "Verif.C138_sign_partial",
    "Verif.C138_false_sign",
    "Verif.C138_false_between",
    "Verif.C138_shift",
    "Verif.C138_shift_ok",
    "Verif.C138_false_shift"
   ],
   "note": "Overflow and underflow are not modelled. The lookup can leave the range of two samples by rounding (C138_false_between), with Decimal timestamps it can be negative between samples that are not (C138_false_sign; the error bound for such timestamps, C138_chord_decimal, grows with the times over the step), and shifting by a large number is refused when times collapse (C138_false_shift). The rest is proved."
  },
  {
   "property": "C139",
   "status": "proved",
   "theorems": [
    "Verif.C139_limits",
    "Verif.C139_repeat",
    "Verif.C139_near"
   ],
   "note": "Overflow and underflow are not modelled; the error bound needs a lower bound on the time between requests that are not simultaneous, as the derivative term divides by it."
  },
  {
   "property": "C140",
   "status": "partial",
   "theorems": [
    "Verif.C140_convert",
    "Verif.C140_integrate",
    "Verif.C140_monotone",
    "Verif.C140_differentiate_partial",
    "Verif.C140_false_differentiate",
    "Verif.C140_false_decimal",
    "Verif.C140_accumulate",
    "Verif.C140_crossings",
    "Verif.C140_crossing_after_partial",
    "Verif.C140_false_crossing"
   ],
   "note": "Overflow, underflow and signed zeros are not modelled. Differentiation raises when two middles of intervals round to the same float (C140_false_differentiate; proved for gaps of at least 2^-50 of the times), with Decimal timestamps that convert to the same float differentiation divides by zero and integration is refused (C140_false_decimal), and a crossing can be reported after the later sample of its interval (C140_false_crossing; never before the earlier one). The rest is proved."
  },
  {
   "property": "C141",
   "status": "partial",
   "theorems": [
    "Verif.Sim.C141_leaves_iff",
    "Verif.Sim.C141_outside",
    "Verif.Sim.C141_passes",
    "Verif.Sim.C141_arrives",
    "Verif.Sim.C141_ends",
    "Verif.Whole.C141_keeps",
    "Verif.Whole.C141_depth_end",
    "Verif.Whole.C141_depth_lane",
    "Verif.Whole.C141_lane_end",
    "Verif.Whole.C141_lane",
    "Verif.Whole.Strip.C141_false_jump",
    "Verif.Whole.Strip.C141_false_start"
   ],
   "note": "Goals are examined at the ends of steps only: a vehicle at 25 m/s with steps of 0.1 s drives over a goal at the end of a lane and is never noticed (C141_false_jump), and a player that stands at its goal at the beginning is driven first and may leave the region unnoticed (C141_false_start). The statement as given, with steps not longer than the region is deep, is proved. shapely's buffer is a parameter with the law BufferLaw; for goals on lanes the progress reported by the lane is a hypothesis."
  },
  {
   "property": "C142",
   "status": "partial",
   "theorems": [
    "Verif.C142_upsample",
    "Verif.C142_succeeds",
    "Verif.C142_zero",
    "Verif.C142_function",
    "Verif.C142_function_decimal",
    "Verif.C142_false_succeeds",
    "Verif.C142_empty"
   ],
   "note": "Without room between neighbouring floats the new timestamp rounds onto an old one and the constructor raises (C142_false_succeeds). The rest is proved. Overflow, underflow and integer timestamps are not modelled."
  },
  {
   "property": "C143",
   "status": "proved",
   "theorems": [
    "Verif.Phys.C143_admissible",
    "Verif.Phys.C143_near",
    "Verif.Phys.C143_mono",
    "Verif.Phys.C143_hold",
    "Verif.Phys.C143_standing",
    "Verif.Phys.C143_straight",
    "Verif.Phys.C143_mirror",
    "Verif.Phys.C143_accelerates",
    "Verif.Phys.C143_rollout",
    "Verif.Phys.C143_false_accelerates"
   ],
   "note": "Small positive accelerations are lost for ever (C143_false_accelerates), which is why the last part has a bound. Overflow, underflow and signed zeros are not modelled; the error of the library functions themselves is not part of the bound."
  },
  {
   "property": "C144",
   "status": "proved",
   "theorems": [
    "Verif.Coll.C144_total",
    "Verif.Coll.C144_sign",
    "Verif.Coll.C144_momentum",
    "Verif.Coll.C144_angular",
    "Verif.Coll.C144_fixed",
    "Verif.Coll.C144_swap",
    "Verif.Coll.C144_impulse",
    "Verif.Coll.C144_velocity",
    "Verif.Coll.C144_rotation",
    "Verif.Coll.C144_false_exact"
   ],
   "note": "Momentum and energy are not conserved exactly; an elastic collision can gain both (C144_false_exact). Relative velocity and normal are given; the rotation of velocities into the frame of a model and the velocity of the point of impact are not rounded here."
  },
  {
   "property": "C145",
   "status": "proved",
   "theorems": [
    "Verif.Sim.C145_rename",
    "Verif.Sim.C145_log"
   ],
   "note": "The simulator is modelled for any type of names with decidable equality, so that it cannot sort or hash them; what collision resolution, agents and goals do with names is given by the renamed world."
  },
  {
   "property": "C146",
   "status": "proved",
   "theorems": [
    "Verif.Sim.C146_prefix",
    "Verif.Sim.C146_error"
   ],
   "note": "Exact clock. The agents do not see the limits."
  },
  {
   "property": "C147",
   "status": "proved",
   "theorems": [
    "Verif.Phys.C147_rk45_linear",
    "Verif.Phys.C147_rk45_powers",
    "Verif.Phys.C147_vehicle",
    "Verif.Phys.C147_rk45",
    "Verif.Phys.C147_direction",
    "Verif.Phys.C147_exact",
    "Verif.Phys.C147_hold",
    "Verif.Phys.C147_drops",
    "Verif.Phys.C147_false",
    "Verif.Whole.C147_log"
   ],
   "note": "Exact arithmetic; the choice of the step sizes by solve_ivp is not modelled (any positive sizes may occur), nor are rejected steps. That the limits themselves are exceeded is C147_false."
  },
  {
   "property": "C148",
   "status": "proved",
   "theorems": [
    "Verif.Phys.C148_rocket",
    "Verif.Phys.C148_burn",
    "Verif.Phys.C148_free",
    "Verif.Phys.C148_total",
    "Verif.Phys.C148_rocket_nozzle",
    "Verif.Phys.C148_spaceship",
    "Verif.Phys.C148_spaceship_free",
    "Verif.Phys.C148_false"
   ],
   "note": "Exact arithmetic; any positive step sizes; rejected steps are not modelled. That the mass falls below the mass without fuel is C148_false."
  },
  {
   "property": "C149",
   "status": "proved",
   "theorems": [
    "Verif.Phys.C149_refines",
    "Verif.Phys.C149_vehicle",
    "Verif.Phys.C149_vehicleDyn",
    "Verif.Phys.C149_pedestrian",
    "Verif.Phys.C149_diffDrive",
    "Verif.Phys.C149_spacecraft",
    "Verif.Phys.C149_spaceship",
    "Verif.Phys.C149_rocket",
    "Verif.Phys.C149_dynObstacle",
    "Verif.Phys.C149_mirror_vehicle",
    "Verif.Phys.C149_mirror_vehicleDyn",
    "Verif.Phys.C149_mirror_pedestrian",
    "Verif.Phys.C149_mirror_diffDrive",
    "Verif.Phys.C149_mirror_spacecraft",
    "Verif.Phys.C149_mirror_spaceship",
    "Verif.Phys.C149_mirror_rocket",
    "Verif.Phys.C149_mirror_dynObstacle",
    "Verif.Phys.C149_same_vehicle",
    "Verif.Phys.C149_same_rocket",
    "Verif.Phys.C149_same_spaceship",
    "Verif.Phys.C149_rest",
    "Verif.Phys.C149_stand",
    "Verif.Phys.C149_stand_diffDrive"
   ],
   "note": "Exact arithmetic, the same step sizes in both frames: how the library chooses them is not modelled, and it depends on the coordinates. Moving obstacles are mirrored only if their limits are symmetric (C93_false_dynObstacle)."
  },
  {
   "property": "C150",
   "status": "proved",
   "theorems": [
    "Verif.Phys.C150_straight",
    "Verif.Phys.C150_exact",
    "Verif.Phys.C150_coast",
    "Verif.Phys.C150_diffDrive",
    "Verif.Phys.C150_spacecraft"
   ],
   "note": "Exact arithmetic; rejected steps are not modelled."
  },
  {
   "property": "C151",
   "status": "partial",
   "theorems": [
    "Verif.Coll.C151_resolve",
    "Verif.Coll.C151_resolveEnv_partial",
    "Verif.Coll.C151_geometry_partial",
    "Verif.Coll.C151_errors",
    "Verif.Coll.C151_false_order",
    "Verif.Coll.C151_false_env",
    "Verif.Whole.C151_run",
    "Verif.Whole.C151_log",
    "Verif.Whole.C151_vehicle",
    "Verif.Whole.C151_vehicleDyn",
    "Verif.Whole.C151_pedestrian",
    "Verif.Whole.C151_spacecraft",
    "Verif.Whole.C151_spaceship",
    "Verif.Whole.C151_dynObstacle",
    "Verif.Whole.C151_diffDrive",
    "Verif.Whole.C151_false_rocket"
   ],
   "note": "False for rockets, whose velocity is kept in the world frame and read as if it were in their own (C151_false_rocket), for obstacles with a finite moment of inertia (C151_false_env) and for the sign of the normal if the centre of the first shape is on the line through the contact points, where it depends on the order in which the geometry library lists corners (C151_false_order). Proved for everything else: C151_geometry_partial and C151_resolveEnv_partial exclude exactly these cases; C151_resolve, C151_run and C151_log assume that shapely, agents, sensors and goals are moved along, C149 and C151_<model> show it for the models. Exact arithmetic."
  },
  {
   "property": "C152",
   "status": "partial",
   "theorems": [
    "Verif.Agents.C152_steering_partial",
    "Verif.Agents.C152_false_goal",
    "Verif.Agents.C152_speed",
    "Verif.Agents.C152_follower_partial",
    "Verif.Agents.C152_shifted_state",
    "Verif.Maps.C152_shifted",
    "Verif.Maps.C152_lane",
    "Verif.Maps.C152_profile",
    "Verif.Maps.C152_closest",
    "Verif.Maps.C152_pose",
    "Verif.Maps.C152_inside",
    "Verif.Maps.C152_vertices_partial",
    "Verif.Maps.C152_false_heading",
    "Verif.Maps.C152_false_vertices"
   ],
   "note": "False for the heading of center_point_fast, which blends headings as numbers (C152_false_heading), for lanes made from vertices where left and right vertex coincide (C152_false_vertices) and for steering when the goal is exactly at the rear axle (C152_false_goal). Proved for everything else; the lane follower for runs in which the goal is never at the rear axle (C152_follower_partial). Exact arithmetic; a search for the closest point that depends only on the function it minimises."
  },
  {
   "property": "C153",
   "status": "proved",
   "theorems": [
    "Verif.Eval.C153_distance",
    "Verif.Eval.C153_min_distance",
    "Verif.Eval.C153_outlines",
    "Verif.Eval.C153_closing",
    "Verif.Eval.C153_ttc",
    "Verif.Eval.C153_min_ttc",
    "Verif.Eval.C153_pose_goal",
    "Verif.Eval.C153_lane_goals",
    "Verif.Eval.C153_goal_lane",
    "Verif.Eval.C153_shifted",
    "Verif.Eval.C153_contains",
    "Verif.Eval.C153_affine"
   ],
   "note": "Exact arithmetic; shapely's tests, nearest points and the goal polygons are moved along (assumed laws, shown consistent by examples)."
  },
  {
   "property": "C154",
   "status": "proved",
   "theorems": [
    "Verif.Perception.C154_sensor",
    "Verif.Perception.C154_moved",
    "Verif.Perception.C154_id",
    "Verif.Perception.C154_delayed",
    "Verif.Perception.C154_ghosted",
    "Verif.Perception.C154_fov",
    "Verif.Perception.C154_calls",
    "Verif.Perception.C154_view"
   ],
   "note": "Exact arithmetic; ray tracing, polygons and shapely's tests are moved along (assumed laws, shown consistent by an example)."
  },
  {
   "property": "C155",
   "status": "partial",
   "theorems": [
    "Verif.Agents.C155_lane_follower",
    "Verif.Agents.C155_lane_follower_life",
    "Verif.Eval.C155_min_distance_partial",
    "Verif.Eval.C155_false_nearest",
    "Verif.Sim.C155_run_partial",
    "Verif.Sim.C155_false_chain"
   ],
   "note": "Proved for whole runs in which no two players touch (walls may be hit), for agents with memories of their own that look players up by name and do not store whole observations; for the lane follower and for the value of the smallest distance. False when three players touch: impacts are resolved pair by pair in the order of the list (C155_false_chain). With two players at the same distance the one named by get_min_dist_at_t depends on the order (C155_false_nearest)."
  },
  {
   "property": "C156",
   "status": "partial",
   "theorems": [
    "Verif.C156_pid",
    "Verif.C156_pid_new",
    "Verif.Perception.C156_id",
    "Verif.Perception.C156_delayed",
    "Verif.Perception.C156_ghosted",
    "Verif.Perception.C156_fov",
    "Verif.Perception.C156_sense_all",
    "Verif.Agents.C156_plan",
    "Verif.Agents.C156_lane_follower_once",
    "Verif.Agents.C156_lane_follower_partial",
    "Verif.Agents.C156_false_lights",
    "Verif.Sim.Shift.C156_run"
   ],
   "note": "Proved for whole runs (C156_run, with Timeless as the condition on agents), for the controller, the agent with a plan, all observation filters and the acceleration and steering of the lane follower. The lights of the lane follower follow a table of absolute times from 0 to 8 seconds, so they do depend on the start (C156_false_lights), and before time zero it raises."
  },
  {
   "property": "C157",
   "status": "partial",
   "theorems": [
    "Verif.Coll.Units.C157_resolve",
    "Verif.Coll.Units.C157_resolveEnv_partial",
    "Verif.Coll.Units.C157_energy",
    "Verif.Coll.Units.C157_geometry",
    "Verif.Coll.Units.C157_false_share",
    "Verif.Coll.Units.C157_false_wall",
    "Verif.Coll.Units.C157_false_arm"
   ],
   "note": "Proved for collisions of two players (C157_resolve, C157_energy) and for the geometry of the impact (C157_geometry, in which the radius 1e-9 of collision_utils.py:54 counts as a length). For obstacles proved for all units if the obstacle cannot be turned (C157_resolveEnv_partial); the arm (1, 1) of an obstacle with finite inertia is not a length in any unit (C157_false_arm), walls are at rest for one observer only (C157_false_wall), and the energy lost by one of two players depends on the observer (C157_false_share)."
  },
  {
   "property": "C158",
   "status": "partial",
   "theorems": [
    "Verif.Phys.Units.C158_vehicle",
    "Verif.Phys.Units.C158_pedestrian_partial",
    "Verif.Phys.Units.C158_diffDrive",
    "Verif.Phys.Units.C158_spacecraft",
    "Verif.Phys.Units.C158_spaceship",
    "Verif.Phys.Units.C158_rocket",
    "Verif.Phys.Units.C158_dynObstacle",
    "Verif.Phys.Units.C158_bicycle",
    "Verif.Phys.Units.C158_false_friction",
    "Verif.Phys.Units.C158_vehicleDyn_partial",
    "Verif.Phys.Units.C158_false_drag",
    "Verif.Phys.Units.C158_false_friction_car"
   ],
   "note": "Proved for all sequences of updates of the kinematic vehicle, differential drive, spacecraft, spaceship, rocket and moving obstacle, and for the discrete bicycle model (C158_bicycle). The pedestrian only before a collision (C158_pedestrian_partial): the friction 2 afterwards is per unit of time (C158_false_friction). The dynamic vehicle has constants with units (gravity 9.81, threshold 0.1, density of air): proved for its rate in units that keep them and without drag (C158_vehicleDyn_partial). The drag of vehicle_dynamic.py:177 is linear in the speed and quadratic in the density, hence no force, and the claim fails in units that keep all constants (C158_false_drag)."
  },
  {
   "property": "C159",
   "status": "partial",
   "theorems": [
    "Verif.Whole.Units.C159_run_partial",
    "Verif.Whole.Units.C159_log_partial",
    "Verif.Whole.Units.C159_energy_partial",
    "Verif.Whole.Units.C159_vehicle",
    "Verif.Whole.Units.C159_vehicleDyn",
    "Verif.Whole.Units.C159_spacecraft",
    "Verif.Whole.Units.C159_spaceship",
    "Verif.Whole.Units.C159_rocket",
    "Verif.Whole.Units.C159_dynObstacle",
    "Verif.Whole.Units.C159_diffDrive",
    "Verif.Whole.Units.C159_false_pedestrian"
   ],
   "note": "Proved for all worlds whose parts are converted alike (C159_run_partial, C159_log_partial, C159_energy_partial), provided that no obstacle has a finite moment of inertia (C157_false_arm). What this asks of the models is C158 and, for reading and setting velocities, the theorems of every model but the pedestrian, whose set_velocity stores a rate of rotation as a speed (C159_false_pedestrian)."
  },
  {
   "property": "C160",
   "status": "partial",
   "theorems": [
    "Verif.Whole.Fleet.C160_units_partial",
    "Verif.Whole.Fleet.C160_log_units_partial",
    "Verif.Whole.Fleet.C160_frames_partial",
    "Verif.Whole.Fleet.C160_log_frames_partial"
   ],
   "note": "C160_frames_partial, C160_log_frames_partial: all models but rockets, whose get_velocity turns a velocity that is already in the world frame (C151_false_rocket); the geometry library must list the corners of an overlap in the same order in both frames (C151_false_order shows why). C160_units_partial, C160_log_units_partial: all models but pedestrians and dynamic vehicles (C159_false_pedestrian, C158_false_friction, C158_false_drag). The accepted step sizes of the solver are a parameter that has to be converted alike; obstacles of the scenario must have an infinite moment of inertia (C157_false_arm)."
  },
  {
   "property": "C161",
   "status": "proved",
   "theorems": [
    "Verif.Whole.Fleet.C161_lawful",
    "Verif.Whole.Fleet.C161_kept",
    "Verif.Whole.Fleet.C161_kind",
    "Verif.Whole.Fleet.C161_flags",
    "Verif.Whole.Fleet.C161_alone",
    "Verif.Whole.Fleet.C161_limits"
   ],
   "note": "C161_lawful discharges, for the eight models, what C97 and C99 assume of models; C161_kind, C161_flags, C161_alone and C161_limits are about whole runs. C161_flags speaks of reports with data; empty reports are the counterexample C97_false. The step sizes accepted by the solver are a parameter; C161_limits assumes that they are positive and make up the time step."
  },
  {
   "property": "C162",
   "status": "partial",
   "theorems": [
    "Verif.Whole.Budget.C162_energy",
    "Verif.Whole.Budget.C162_momentum",
    "Verif.Whole.Budget.C162_drift",
    "Verif.Whole.Fleet.C162_free",
    "Verif.Whole.Fleet.C162_fleet",
    "Verif.Whole.Fleet.C162_states",
    "Verif.Whole.Fleet.Crash.C162_false_vehicle"
   ],
   "note": "C162_energy, C162_momentum, C162_drift: for models that take the velocities that collisions give them. C162_free, C162_fleet: the spacecraft, spaceships and moving obstacles of the library do. Missing: kinematic vehicles store the forward speed only and gain momentum and energy in a collision (C162_false_vehicle); dynamic vehicles and pedestrians do not store what they get either (C47), and rockets report a turned velocity (C151_false_rocket)."
  },
  {
   "property": "C163",
   "status": "partial",
   "theorems": [
    "Verif.Eval.OfRun.C163_min_dist",
    "Verif.Eval.OfRun.C163_ttc",
    "Verif.Eval.OfRun.Cars.C163_false_mission",
    "Verif.Eval.OfRun.Cars.C163_false_moving"
   ],
   "note": "C163_min_dist and C163_ttc: for goals that do not depend on time, with a mission for every player. Missing, because the code does otherwise: the metrics ask is_fulfilled without the time, so that with goals that depend on time a player that has left is still counted (C163_false_moving); the simulator allows players without missions, for which the metrics raise KeyError (C163_false_mission)."
  },
  {
   "property": "C164",
   "status": "proved",
   "theorems": [
    "Verif.Sim.C164_commands",
    "Verif.Whole.Motion.C164_motion",
    "Verif.Whole.Motion.C164_distance",
    "Verif.Whole.Fleet.C164_fleet"
   ],
   "note": "C164_commands for any world, C164_motion with the collision code, C164_fleet with the models of the library, C164_distance for positions in the reals."
  },
  {
   "property": "C165",
   "status": "proved",
   "theorems": [
    "Verif.Eval.Arrival.C165_time",
    "Verif.Eval.Arrival.C165_no_later",
    "Verif.Eval.Arrival.C165_arrival",
    "Verif.Eval.Arrival.C165_jerk",
    "Verif.Eval.Arrival.C165_rms"
   ],
   "note": "C165_time for any test, C165_arrival for goals that depend on the place, C165_no_later for tests that accept more than the goal, C165_jerk for get_max_jerk, C165_rms for get_acc_rms."
  },
  {
   "property": "C166",
   "status": "proved",
   "theorems": [
    "Verif.Sim.Causal.C166_states",
    "Verif.Sim.Causal.C166_log",
    "Verif.Sim.Causal.C166_raises"
   ],
   "note": "C166_states step by step, C166_log for the logs and reports of returning runs, C166_raises for runs ended by an exception before T."
  }
 ]
}