{
 "claims": [
  {
   "property": "C01",
   "status": "proved",
   "theorems": [
    "Verif.C01_boundary_conditions",
    "Verif.C01_answers"
   ],
   "note": "All seven CoM sets; derivatives are HasDerivAt derivatives of the Bernstein sum. c0_dc0_dc1 answers only for dc1 = 0, as coded."
  },
  {
   "property": "C02",
   "status": "partial",
   "theorems": [
    "Verif.C02_position_coefs_partial",
    "Verif.C02_jerk_error",
    "Verif.C02_refuted"
   ],
   "note": "Proved for the seven CoM sets. False for the set with jerks (255), which is registered for the query too: the exact difference is (1-t)^8 (pi[8]-pi[0])."
  },
  {
   "property": "C03",
   "status": "partial",
   "theorems": [
    "Verif.C03_acceleration_coefs_partial",
    "Verif.C03_jerk_error",
    "Verif.C03_refuted"
   ],
   "note": "Proved for the seven CoM sets. False for the set with jerks (255), which is registered for the query too; the exact difference is given."
  },
  {
   "property": "C04",
   "status": "partial",
   "theorems": [
    "Verif.C04_wrench_waypoints_partial",
    "Verif.C04_wrench_waypoints_rounded_partial",
    "Verif.C04_not_exact",
    "Verif.C04_jerk_refuted"
   ],
   "note": "Exact for five sets; the sets 31 and 63 use truncated decimals in the source: an explicit error bound is proved and exactness refuted. The set with jerks is registered too and its formulas are those of another curve (refuted)."
  },
  {
   "property": "C05",
   "status": "proved",
   "theorems": [
    "Verif.C05_final_velocity"
   ],
   "note": "All sets registered for the query."
  },
  {
   "property": "C06",
   "status": "proved",
   "theorems": [
    "Verif.C06_evaluateCurveAtTime",
    "Verif.C06_evaluateAccelerationCurveAtTime",
    "Verif.C06_evaluateCurveWaypointAtTime",
    "Verif.C06_evaluateVelocityCurveWaypointAtTime",
    "Verif.C06_evaluateAccelerationCurveWaypointAtTime",
    "Verif.C06_evaluateJerkCurveWaypointAtTime",
    "Verif.C06_computeVelocityWaypoints",
    "Verif.C06_computeAccelerationWaypoints",
    "Verif.C06_computeJerkWaypoints",
    "Verif.C06_computeVelocityCost",
    "Verif.C06_computeConstantWaypoints",
    "Verif.C06_computeFinalVelocityPoint",
    "Verif.C06_computeConstantWaypointsSymbolic",
    "Verif.C06_computeWwaypoints"
   ],
   "note": "All 2^32 flag values, fourteen queries."
  },
  {
   "property": "C07",
   "status": "partial",
   "theorems": [
    "Verif.C07_boundary_partial",
    "Verif.C07_jerk_end",
    "Verif.C07_refuted"
   ],
   "note": "Proved for the seven sets of the planner. For the set with jerks it is false: C07_jerk_end gives the point where the curve ends, C07_refuted a problem where it is not c1."
  },
  {
   "property": "C08",
   "status": "proved",
   "theorems": [
    "Verif.C08_terminal"
   ],
   "note": "all flags"
  },
  {
   "property": "C09",
   "status": "proved",
   "theorems": [
    "Verif.C09_boundary_conditions"
   ],
   "note": "The three jerk sets."
  },
  {
   "property": "C10",
   "status": "partial",
   "theorems": [
    "Verif.C10_position_partial",
    "Verif.C10_j0_j1_error",
    "Verif.C10_refuted"
   ],
   "note": "Exact for x3 and x5; for j0_j1 the exact error term of the coded formula is proved and exactness refuted."
  },
  {
   "property": "C100",
   "status": "proved",
   "theorems": [
    "Verif.C100_stop",
    "Verif.C100_end",
    "Verif.C100_end_threshold_exists",
    "Verif.backProblem_margin",
    "Verif.unitMove_margin"
   ],
   "note": "solve0step: without angular momentum, with a time step. C79_margin was extended to problems with zero rows for this."
  },
  {
   "property": "C101",
   "status": "proved",
   "theorems": [
    "Verif.C101_values",
    "Verif.C101_reads",
    "Verif.C101_reference",
    "Verif.C101_dangling",
    "Verif.C101_contacts",
    "Verif.C101_call",
    "Verif.C101_l0",
    "Verif.C101_defined",
    "Verif.C101_overflow",
    "Verif.C101_new",
    "Verif.C101_newConstraints"
   ],
   "note": "One Python variable per ContactData, ProblemData and Constraints object; an Equilibrium may have several. A number is stored in the enum ConstraintFlag with all its 32 bits."
  },
  {
   "property": "C102",
   "status": "proved",
   "theorems": [
    "Verif.C102_forces",
    "Verif.C102_forces_motion",
    "Verif.C102_forces_motion_rounded",
    "Verif.C102_threshold_exists",
    "Verif.gripProblem_margin",
    "Verif.gripProblem_plans"
   ],
   "note": "C102_forces covers all seven sets; what the satisfied rows mean for the motion is stated for the five exact sets in C102_forces_motion, and for the other two, with the error of the printed coefficients, in C102_forces_motion_rounded. The margin is that of the rows, which are conditions on the control points. The iteration limit cannot be excluded."
  },
  {
   "property": "C103",
   "status": "proved",
   "theorems": [
    "Verif.C103_exact",
    "Verif.C103_stop",
    "Verif.spin_stop",
    "Verif.spinProblem_margin"
   ],
   "note": "With angular momentum there must be no kinematic constraint: with them the code constrains other quantities (C35). The iteration limit cannot be excluded."
  },
  {
   "property": "C104",
   "status": "proved",
   "theorems": [
    "Verif.C104_undefined",
    "Verif.C104_any_memory",
    "Verif.C104_slack"
   ],
   "note": "No function of the library calls it; it has external linkage."
  },
  {
   "property": "C105",
   "status": "proved",
   "theorems": [
    "Verif.C105_fixedSize",
    "Verif.C105_timeStep",
    "Verif.C105_continuous",
    "Verif.C105_end",
    "Verif.C105_stop",
    "Verif.C105_forces",
    "Verif.restPhases_near",
    "Verif.gripProblem_near"
   ],
   "note": "Sampled formulation: the five sets whose wrench waypoints are exact. Continuous formulation in double description: all seven sets, requirements stated as the assembled rows (C22, C23 give their meaning). With force variables: the five sets, generators that span the wrenches. solve0step with angular momentum: no kinematic constraints (C35). Costs: distance or acceleration. Real arithmetic; the iteration limit cannot be excluded."
  },
  {
   "property": "C106",
   "status": "proved",
   "theorems": [
    "Verif.C106_lifetime",
    "Verif.C106_reference",
    "Verif.C106_value",
    "Verif.C106_leak",
    "Verif.C106_disciplined",
    "Verif.C106_needed"
   ],
   "note": "boost.python is modelled by its documented ownership policies: with_custodian_and_ward keeps the Python object of the argument alive, reference_existing_object does not own. One variable per ContactData."
  },
  {
   "property": "C107",
   "status": "proved",
   "theorems": [
    "Verif.C107_translate",
    "Verif.C107_meaning"
   ],
   "note": "Exact arithmetic. The Cholesky factor is an exact inverse factor of the Hessian (Factor)."
  },
  {
   "property": "C108",
   "status": "partial",
   "theorems": [
    "Verif.C108_feasible",
    "Verif.C108_unique",
    "Verif.C108_fixedSize",
    "Verif.C108_timeStep",
    "Verif.C108_margin_refuted",
    "Verif.pinned_frames"
   ],
   "note": "False with a margin (C108_margin_refuted). Without one: the five sets whose wrench waypoints are exact, distance or acceleration cost; the planners with epsilon = 0 and an iteration limit above 2^(number of rows)."
  },
  {
   "property": "C109",
   "status": "proved",
   "theorems": [
    "Verif.C109_all_fixedSize",
    "Verif.C109_all_timeStep",
    "Verif.C109_fixedSize",
    "Verif.C109_timeStep",
    "Verif.C109_acceleration_refuted",
    "Verif.sixPhases_turned"
   ],
   "note": "All seven constraint sets (acceleration cost not with set 63), no bound on the acceleration; epsilon = 0 and an iteration limit above 2^(number of rows). C109_acceleration_refuted is the false case of the statement. C109_fixedSize and C109_timeStep go through the physical requirements (five sets). ProblemData.rotated: every problem with contact phases can be written in other axes."
  },
  {
   "property": "C11",
   "status": "partial",
   "theorems": [
    "Verif.C11_velocity_partial",
    "Verif.C11_j0_j1_error",
    "Verif.C11_refuted"
   ],
   "note": "For j0_j1 and x3 the dependence on the free points is exact; the constant part is not (exact error term for j0_j1; exactness refuted for all three sets)."
  },
  {
   "property": "C110",
   "status": "proved",
   "theorems": [
    "Verif.C110_all_fixedSize",
    "Verif.C110_all_timeStep",
    "Verif.C110_fixedSize",
    "Verif.C110_timeStep",
    "Verif.C110_divisor_refuted",
    "Verif.C110_multiple_refuted",
    "Verif.sixPhases_still"
   ],
   "note": "All seven constraint sets (acceleration cost not with set 63); epsilon = 0 and an iteration limit above 2^(number of rows) in the second call. C110_divisor_refuted and C110_multiple_refuted are the false cases of the statement. C110_fixedSize and C110_timeStep go through the physical requirements (five sets)."
  },
  {
   "property": "C111",
   "status": "proved",
   "theorems": [
    "Verif.C111_all_fixedSize",
    "Verif.C111_all_timeStep",
    "Verif.C111_fixedSize",
    "Verif.C111_timeStep",
    "Verif.C111_factor_refuted"
   ],
   "note": "All seven constraint sets (acceleration cost not with set 63); epsilon = 0 and an iteration limit above 2^(number of rows) in the sampled call. C111_factor_refuted is the false case of the statement. C111_fixedSize and C111_timeStep go through the physical requirements (five sets)."
  },
  {
   "property": "C112",
   "status": "proved",
   "theorems": [
    "Verif.C112_all_fixedSize",
    "Verif.C112_all_timeStep",
    "Verif.C112_fixedSize",
    "Verif.C112_timeStep",
    "Verif.ProblemData.inUnits",
    "Verif.UnitsEquilibrium.time",
    "Verif.C112_margin_refuted",
    "Verif.sixPhases_units"
   ],
   "note": "All seven constraint sets (acceleration cost not with set 63); epsilon = 0 and an iteration limit above 2^(number of rows). C112_margin_refuted is the false case of the statement. C112_fixedSize and C112_timeStep go through the physical requirements (five sets)."
  },
  {
   "property": "C113",
   "status": "proved",
   "theorems": [
    "Verif.C113_all_fixedSize",
    "Verif.C113_all_timeStep",
    "Verif.C113_fixedSize",
    "Verif.C113_timeStep",
    "Verif.C113_margin_refuted"
   ],
   "note": "All seven constraint sets (acceleration cost not with set 63); epsilon = 0 and an iteration limit above 2^(number of rows) in the sampled call. C113_margin_refuted is the false case of the statement. C113_fixedSize and C113_timeStep go through the physical requirements (five sets)."
  },
  {
   "property": "C114",
   "status": "partial",
   "theorems": [
    "Verif.C114_feasible",
    "Verif.C114_continuous",
    "Verif.C114_origin_refuted"
   ],
   "note": "False when a constant waypoint is at the origin (C114_origin_refuted). Otherwise: no margin, the five sets whose wrench waypoints are exact, distance or acceleration cost; epsilon = 0 and an iteration limit above 2^(number of rows)."
  },
  {
   "property": "C115",
   "status": "proved",
   "theorems": [
    "Verif.C115_feasible",
    "Verif.C115_continuous",
    "Verif.C115_merging_refuted"
   ],
   "note": "All seven constraint sets (acceleration cost not with set 63), any margin; epsilon = 0 and, for the second call, an iteration limit above 2^(number of rows). C115_merging_refuted is the false converse."
  },
  {
   "property": "C116",
   "status": "partial",
   "theorems": [
    "Verif.C116_feasible",
    "Verif.C116_forces_exist",
    "Verif.C116_continuous",
    "Verif.C116_far_refuted"
   ],
   "note": "False far from the origin (C116_far_refuted). Otherwise all seven constraint sets (acceleration cost not with set 63); epsilon = 0 and an iteration limit above 2^(number of rows and bounds)."
  },
  {
   "property": "C117",
   "status": "partial",
   "theorems": [
    "Verif.C117_feasible",
    "Verif.C117_continuous",
    "Verif.C117_nested_refuted"
   ],
   "note": "False for phases that are not nested (C117_nested_refuted, stated for the systems). Otherwise all seven constraint sets (acceleration cost not with set 63); epsilon = 0 and, for the second call, an iteration limit above 2^(number of rows and bounds)."
  },
  {
   "property": "C118",
   "status": "proved",
   "theorems": [
    "Verif.C118_admissible",
    "Verif.C118_frame",
    "Verif.spin_frames"
   ],
   "note": "epsilon = 0 and an iteration limit above 2^(number of rows). spin_frames is an instance with angular momentum in every frame."
  },
  {
   "property": "C119",
   "status": "proved",
   "theorems": [
    "Verif.C119_admissible",
    "Verif.C119_looser",
    "Verif.C119_multiple_refuted"
   ],
   "note": "epsilon = 0 and an iteration limit above 2^(number of rows); with angular momentum no kinematic constraints. C119_multiple_refuted shows that the condition on the numbers of steps is needed."
  },
  {
   "property": "C12",
   "status": "partial",
   "theorems": [
    "Verif.C12_acceleration_partial",
    "Verif.C12_j0_j1_error",
    "Verif.C12_refuted"
   ],
   "note": "For j0_j1 and x3 the dependence on the free points is exact; the constant part is not (exact error term for j0_j1; exactness refuted for all three sets)."
  },
  {
   "property": "C120",
   "status": "partial",
   "theorems": [
    "Verif.C120_admissible",
    "Verif.C120_one",
    "Verif.unitMove_frames",
    "Verif.C120_exact_refuted",
    "Verif.C120_verdict_refuted"
   ],
   "note": "False exactly (C120_exact_refuted), and for the sets with three and five free points (C120_verdict_refuted). With one free point: the same verdict, and the bound on the displacement for weight 0; epsilon = 0 and an iteration limit above 2^(number of rows)."
  },
  {
   "property": "C121",
   "status": "proved",
   "theorems": [
    "Verif.C121_axes",
    "Verif.calm_turned",
    "Verif.C121_axes_refuted",
    "Verif.C121_units",
    "Verif.calm_units",
    "Verif.C121_factor_refuted",
    "Verif.C121_threshold_refuted"
   ],
   "note": "The three conditions are needed (C121_axes_refuted, C121_factor_refuted, C121_threshold_refuted). Epsilon = 0, an iteration limit above 2^(number of rows), and not the acceleration cost with c0_dc0_ddc0_ddc1_dc1_c1."
  },
  {
   "property": "C122",
   "status": "proved",
   "theorems": [
    "Verif.C122_admissible",
    "Verif.C122_axes",
    "Verif.C122_python",
    "Verif.unitMove_turned",
    "Verif.C122_angle_refuted",
    "Verif.C122_vertical_refuted"
   ],
   "note": "The two conditions on the axes are needed (C122_angle_refuted, C122_vertical_refuted). Epsilon = 0, an iteration limit above 2^(number of rows)."
  },
  {
   "property": "C123",
   "status": "proved",
   "theorems": [
    "Verif.C123_admissible",
    "Verif.C123_slower",
    "Verif.unitMove_slower",
    "Verif.C123_length_refuted",
    "Verif.C123_time_refuted"
   ],
   "note": "The converse fails (C123_length_refuted, C123_time_refuted). Epsilon = 0, an iteration limit above 2^(number of rows)."
  },
  {
   "property": "C124",
   "status": "partial",
   "theorems": [
    "Verif.C124_rates_partial",
    "Verif.C124_one_partial",
    "Verif.unitMove_reversed",
    "Verif.C124_one_refuted",
    "Verif.C124_three_refuted",
    "Verif.C124_five_refuted"
   ],
   "note": "False for each of the three sets: a motion at constant acceleration is planned in one direction and refused in the other (C124_one_refuted, C124_three_refuted, C124_five_refuted), because the list of acceleration control points has errors that are not symmetric (C14). What holds: the requirements on velocities, jerks and heights are the same in both directions (C124_rates_partial), and with one free point the verdict is the same when the motion starts and ends at rest, or more generally when the two ends are displaced alike (C124_one_partial). Epsilon = 0, an iteration limit above 2^(number of rows)."
  },
  {
   "property": "C125",
   "status": "proved",
   "theorems": [
    "Verif.C125_verdict",
    "Verif.C125_motion",
    "Verif.unitMove_paths",
    "Verif.C125_fixed",
    "Verif.C125_step",
    "Verif.C125_continuous",
    "Verif.calm_two_solvers",
    "Verif.C125_stop",
    "Verif.spin_two_solvers",
    "Verif.C125_forces",
    "Verif.clasp_two_solvers"
   ],
   "note": "Epsilon = 0; for the verdicts an iteration limit above 2^(number of rows). With forces the limit counts the lower bounds too. computeCOMTraj: not the acceleration cost with c0_dc0_ddc0_ddc1_dc1_c1. solve0step: with angular momentum the problem has no kinematic constraints."
  },
  {
   "property": "C126",
   "status": "partial",
   "theorems": [
    "Verif.C126_nearer",
    "Verif.fall_weights",
    "Verif.C126_rougher",
    "Verif.C126_one",
    "Verif.C126_one_refuted"
   ],
   "note": "Smoothness: the three sets, proved. Distance: proved for three and five free points; false for one (C126_one_refuted: asked to follow the very motion that it plans without a path, the planner leaves it), because the points compared with the path are displaced by (1-t)^8 (c1 - c0) (C10); of the motion so displaced the claim holds (C126_one), so it holds of motions that end where they start. Epsilon = 0."
  },
  {
   "property": "C127",
   "status": "proved",
   "theorems": [
    "Verif.C127_admissible",
    "Verif.C127_between",
    "Verif.fan_between",
    "Verif.C127_ends_refuted"
   ],
   "note": "C127_ends_refuted shows that the condition on the lower end is needed (one free point, downward jerks of 3326.4 and 3360 at the start, duration 1). The verdicts hold once the solver's iteration limit exceeds a number that depends on the three problems only. Epsilon = 0."
  },
  {
   "property": "C128",
   "status": "partial",
   "theorems": [
    "Verif.polyEnds_spec",
    "Verif.C128_one_partial",
    "Verif.C128_three_partial",
    "Verif.C128_five_partial",
    "Verif.polyEndsTen_spec",
    "Verif.C128_five_ten_partial",
    "Verif.glide_planned",
    "Verif.hop_planned",
    "Verif.C128_more_points_refuted",
    "Verif.restAt_poly",
    "Verif.C128_one_refuted"
   ],
   "note": "False as stated for the three sets, because of the acceleration points of C14: with one free point, uniform motion over 1000 m in 1 s is refused (C128_one_refuted); with three and five, rest far from the origin is refused (restAt_poly with C85_far). Proved with three and five free points when the accelerations leave a margin of 90 |q|/T^2, respectively 132 (|q| + |q'|)/T^2, where q and q' are the fourth control points from the ends of the curve of the set (motions of degree 10 included, with five: C128_five_ten_partial); and with one free point when the points it checks, the wrong one included, are within the bounds. C128_more_points_refuted: a motion planned with one free point can be refused with three and five, because the derivatives near the ends are not checked. Epsilon = 0."
  },
  {
   "property": "C13",
   "status": "partial",
   "theorems": [
    "Verif.C13_jerk_partial",
    "Verif.C13_refuted"
   ],
   "note": "Exact for j0_j1 and x3; refuted for x5."
  },
  {
   "property": "C14",
   "status": "partial",
   "theorems": [
    "Verif.C14_velocity_partial",
    "Verif.C14_jerk_partial",
    "Verif.C14_default_pi",
    "Verif.C14_acceleration_refuted",
    "Verif.C14_acceleration_j0_j1_partial"
   ],
   "note": "Velocity and jerk lists exact for all three sets; the acceleration list is refuted for all three sets (for j0_j1 only one of its seven points is wrong)."
  },
  {
   "property": "C15",
   "status": "proved",
   "theorems": [
    "Verif.C15_feasible_set",
    "Verif.C15_count",
    "Verif.C15_minus_one"
   ],
   "note": "Normalize keeps the feasible set; its return value"
  },
  {
   "property": "C16",
   "status": "proved",
   "theorems": [
    "Verif.C16_discretized_time",
    "Verif.C16_short_phase",
    "Verif.C16_nonpositive_step"
   ],
   "note": "All phase vectors meeting the asserted precondition; the precondition failure and non-positive steps are characterised as well."
  },
  {
   "property": "C17",
   "status": "proved",
   "theorems": [
    "Verif.C17_fixed_discretization"
   ],
   "note": "All duration vectors, all points per phase >= 1."
  },
  {
   "property": "C18",
   "status": "proved",
   "theorems": [
    "Verif.C18_in_bounds_and_complete",
    "Verif.C18_zero_points",
    "Verif.C18_no_phase"
   ],
   "note": "assembly always completes for accepted problems; the two ways to leave the accepted inputs are shown to be undefined behaviour"
  },
  {
   "property": "C19",
   "status": "proved",
   "theorems": [
    "Verif.C19_meaning",
    "Verif.C19_physical",
    "Verif.C19_physical_rounded_partial"
   ],
   "note": "iff for all seven sets in terms of the wrench waypoints; in terms of the physical wrench exactly for the five exact sets, up to 1e-12 relative for the two rounded ones (cf. C04)"
  },
  {
   "property": "C20",
   "status": "proved",
   "theorems": [
    "Verif.C20_both_phases_constrained",
    "Verif.C20_switch",
    "Verif.C20_switch_all_sets"
   ],
   "note": "both discretisations"
  },
  {
   "property": "C21",
   "status": "proved",
   "theorems": [
    "Verif.C21_in_bounds_and_complete",
    "Verif.C21_refuted_default",
    "Verif.C21_refuted_empty"
   ],
   "note": "both representations; a contact with default kinematic constraints and an empty list of contacts are shown to break it"
  },
  {
   "property": "C22",
   "status": "proved",
   "theorems": [
    "Verif.C22_sound",
    "Verif.C22_kinematics_every_instant",
    "Verif.C22_wrench_every_instant",
    "Verif.C22_refuted_zero"
   ],
   "note": "physical wrench for the five sets with exact wrench waypoints; all seven sets in terms of the wrench waypoints (cf. C04); refuted when a constant waypoint is the origin"
  },
  {
   "property": "C23",
   "status": "proved",
   "theorems": [
    "Verif.C23_sound",
    "Verif.C23_every_instant",
    "Verif.C23_refuted"
   ],
   "note": "under nesting of consecutive cones; refuted without"
  },
  {
   "property": "C24",
   "status": "proved",
   "theorems": [
    "Verif.C24_margin_monotone",
    "Verif.C24_nonpositive_margin",
    "Verif.C24_cone",
    "Verif.C24_nonhomogeneous_refuted",
    "Verif.C24_continuous_margin"
   ],
   "note": "both formulations; non-homogeneous polytopes are shown to be mis-scaled"
  },
  {
   "property": "C25",
   "status": "proved",
   "theorems": [
    "Verif.C25_samples",
    "Verif.C25_every_instant",
    "Verif.C25_scaled",
    "Verif.C25_bare",
    "Verif.C25_refuted_short"
   ],
   "note": "both formulations; the factor carried by the derivative control points of the external library is a parameter"
  },
  {
   "property": "C26",
   "status": "proved",
   "theorems": [
    "Verif.C26_acceleration",
    "Verif.C26_distance",
    "Verif.C26_unknown",
    "Verif.C26_samples"
   ],
   "note": "The seven CoM sets; for the set with jerks see C03."
  },
  {
   "property": "C27",
   "status": "partial",
   "theorems": [
    "Verif.C27_body_partial",
    "Verif.C27_refuted"
   ],
   "note": "The formulas are right, but the test before them always throws (logical instead of bitwise conjunction)."
  },
  {
   "property": "C28",
   "status": "proved",
   "theorems": [
    "Verif.C28_computeCOMTraj",
    "Verif.C28_fixedSize",
    "Verif.C28_first"
   ],
   "note": "computeCOMTrajFixedSize asserts the representation before the sizes"
  },
  {
   "property": "C29",
   "status": "proved",
   "theorems": [
    "Verif.C29_planned",
    "Verif.C29_failure",
    "Verif.C29_success",
    "Verif.C29_success_iff"
   ],
   "note": ""
  },
  {
   "property": "C30",
   "status": "proved",
   "theorems": [
    "Verif.C30_stops",
    "Verif.restProblem_succeeds"
   ],
   "note": ""
  },
  {
   "property": "C31",
   "status": "proved",
   "theorems": [
    "Verif.C31_continuous",
    "Verif.C31_discretised",
    "Verif.stepCount_example"
   ],
   "note": "A time step longer than the motion gives the formulation without discretisation."
  },
  {
   "property": "C32",
   "status": "proved",
   "theorems": [
    "Verif.C32_waypoints_continuous",
    "Verif.C32_waypoints_discretised",
    "Verif.C32_returned",
    "Verif.C32_none"
   ],
   "note": ""
  },
  {
   "property": "C33",
   "status": "proved",
   "theorems": [
    "Verif.C33_angular",
    "Verif.C33_distance",
    "Verif.C33_qp_angular",
    "Verif.C33_qp_distance"
   ],
   "note": ""
  },
  {
   "property": "C34",
   "status": "proved",
   "theorems": [
    "Verif.C34_every_instant",
    "Verif.C34_samples",
    "Verif.C34_exact",
    "Verif.C34_kinematics",
    "Verif.C34_polytope"
   ],
   "note": "The code ignores the right-hand side of the polytope; the cone is the one through the origin. The kinematic part is for problems without angular momentum, see C35."
  },
  {
   "property": "C35",
   "status": "partial",
   "theorems": [
    "Verif.C35_refuted_angular",
    "Verif.C35_refuted_kinematic",
    "Verif.C35_refuted_spurious",
    "Verif.C35_kinematic_partial",
    "Verif.C35_exact_partial"
   ],
   "note": "False of the code: the kinematic constraints are passed again in place of the angular ones. Proved: the kinematic constraints hold when there are at least as many angular rows, and without kinematic constraints only the wrench is constrained."
  },
  {
   "property": "C36",
   "status": "proved",
   "theorems": [
    "Verif.C36_problem",
    "Verif.C36_wrong_size"
   ],
   "note": ""
  },
  {
   "property": "C37",
   "status": "partial",
   "theorems": [
    "Verif.C37_refuted"
   ],
   "note": "False of the code: a nonempty vector of upper bounds overruns the matrix allocated for the rows; no call with upper bounds returns."
  },
  {
   "property": "C38",
   "status": "proved",
   "theorems": [
    "Verif.C38_quadprog",
    "Verif.C38_glpk",
    "Verif.C38_unknown"
   ],
   "note": ""
  },
  {
   "property": "C39",
   "status": "partial",
   "theorems": [
    "Verif.C39_feasible_partial",
    "Verif.C39_feasible_exact_partial",
    "Verif.C39_feasible_conditioned_partial",
    "Verif.C40_separated_partial",
    "Verif.C39_refuted"
   ],
   "note": "Inequalities up to the tolerance for all conditioned data, equalities when their normals are independent by a margin; exactly in exact arithmetic; refuted for an ill-scaled problem; for problems with a margin see C79."
  },
  {
   "property": "C40",
   "status": "partial",
   "theorems": [
    "Verif.C40_optimal_partial",
    "Verif.C40_solution_exact_partial",
    "Verif.C40_total_partial",
    "Verif.C40_separated_partial",
    "Verif.factor_iff_posDef"
   ],
   "note": "For every run whose threshold tests are exact; this holds with a zero epsilon, and with any epsilon for conditioned data with separated normals; up to an explicit gap for problems with a margin, see C79."
  },
  {
   "property": "C41",
   "status": "partial",
   "theorems": [
    "Verif.C41_infeasible_partial",
    "Verif.C41_never_infeasible_status_partial",
    "Verif.C40_separated_partial",
    "Verif.C41_refuted"
   ],
   "note": "For every run whose threshold tests are exact; refuted for an ill-scaled problem; for problems with a margin see C79."
  },
  {
   "property": "C42",
   "status": "partial",
   "theorems": [
    "Verif.C42_terminates_partial",
    "Verif.C43_in_bounds_partial",
    "Verif.C42_refuted"
   ],
   "note": "Explicit bound on the number of passes for conditioned data and for exact runs; an endless loop is exhibited otherwise."
  },
  {
   "property": "C43",
   "status": "partial",
   "theorems": [
    "Verif.C43_in_bounds_partial",
    "Verif.C42_terminates_partial",
    "Verif.conditioned_of_norms",
    "Verif.C43_refuted",
    "Verif.C43_refuted_equalities"
   ],
   "note": "For conditioned data and for exact runs; out-of-bounds accesses are exhibited otherwise, and for more equalities than variables."
  },
  {
   "property": "C44",
   "status": "partial",
   "theorems": [
    "Verif.C44_redundant_partial",
    "Verif.C44_independent_partial",
    "Verif.C44_redundant_conditioned_partial"
   ],
   "note": "Exact for exact runs, by a margin for conditioned data."
  },
  {
   "property": "C45",
   "status": "proved",
   "theorems": [
    "Verif.C45_reuse"
   ],
   "note": "for all contents of the work arrays left by earlier calls"
  },
  {
   "property": "C46",
   "status": "partial",
   "theorems": [
    "Verif.C46_in_bounds",
    "Verif.C46_entries",
    "Verif.C46_problem",
    "Verif.C46_refuted"
   ],
   "note": "Faithful whenever the constraint matrices have at most 20000 nonzero entries; with more the fixed buffers are overrun (proved undefined)."
  },
  {
   "property": "C47",
   "status": "partial",
   "theorems": [
    "Verif.C47_bounds",
    "Verif.C47_valid",
    "Verif.C47_refuted_equal"
   ],
   "note": "Correct for bounds with lower < upper on every variable, and for missing bounds; equal bounds give a problem that GLPK rejects (refuted)."
  },
  {
   "property": "C48",
   "status": "partial",
   "theorems": [
    "Verif.C48_rows",
    "Verif.C48_bounds_partial",
    "Verif.C48_refuted",
    "Verif.C48_end_effector",
    "Verif.C48_motion_bounds"
   ],
   "note": "False of the code for the jerk: the upper rows compare with the velocity bound. C48_rows gives the exact meaning of the rows for all inputs; the claim holds without jerk rows or when both bounds agree. The end effector planner uses the same number for both bounds: C48_end_effector and C48_motion_bounds are unconditional."
  },
  {
   "property": "C49",
   "status": "partial",
   "theorems": [
    "Verif.C49_distance_samples",
    "Verif.C49_distance_partial",
    "Verif.C49_distance_path_partial",
    "Verif.C49_jerk_samples",
    "Verif.C49_jerk_partial",
    "Verif.C49_acceleration_samples_partial",
    "Verif.C49_velocity_samples_partial",
    "Verif.C49_distance_refuted",
    "Verif.C49_velocity_refuted",
    "Verif.C49_acceleration_refuted"
   ],
   "note": "Distance: right for three and five free points, false for one. Jerk: right for one and three. Velocity: the cross terms between the free points are missing. Acceleration: the reported acceleration is not the derivative for one free point."
  },
  {
   "property": "C50",
   "status": "proved",
   "theorems": [
    "Verif.C50_curve",
    "Verif.C50_result",
    "Verif.C50_curve_exists"
   ],
   "note": ""
  },
  {
   "property": "C51",
   "status": "proved",
   "theorems": [
    "Verif.C51_x",
    "Verif.C51_kinematic",
    "Verif.C51_angular",
    "Verif.C51_session"
   ],
   "note": ""
  },
  {
   "property": "C52",
   "status": "partial",
   "theorems": [
    "Verif.C52_independent",
    "Verif.C52_defined",
    "Verif.C52_refuted_null",
    "Verif.C52_refuted_dangling",
    "Verif.C52_assignment_shares"
   ],
   "note": "Independence holds for all sessions; copying a contact without a phase, or whose phase object was destroyed, is undefined (refuted), and assignment shares the phase."
  },
  {
   "property": "C53",
   "status": "partial",
   "theorems": [
    "Verif.C53_symbolic_partial",
    "Verif.C53_refuted_zero",
    "Verif.C53_refuted_many"
   ],
   "note": "Holds when no constant waypoint is zero and there is a single free point; refuted otherwise."
  },
  {
   "property": "C54",
   "status": "proved",
   "theorems": [
    "Verif.C54_skew_cross",
    "Verif.C54_skew_antisymm",
    "Verif.C54_skew_parallel",
    "Verif.C54_skew_injective"
   ],
   "note": ""
  },
  {
   "property": "C55",
   "status": "proved",
   "theorems": [
    "Verif.C55_bernstein_list",
    "Verif.C55_partition_of_unity",
    "Verif.C55_half_space",
    "Verif.C55_max_degree_diverges"
   ],
   "note": "For every degree below 2^32-1; for the maximal degree the loop never ends (proved)."
  },
  {
   "property": "C56",
   "status": "partial",
   "theorems": [
    "Verif.C56_fixedSize_partial",
    "Verif.C56_timeStep_partial",
    "Verif.C56_continuous_partial",
    "Verif.C56_force_partial",
    "Verif.C56_force_spans_partial",
    "Verif.C56_fixedSize_tolerance_partial",
    "Verif.C56_timeStep_tolerance_partial",
    "Verif.C56_scale_exists",
    "Verif.C56_continuous_tolerance_partial",
    "Verif.C56_continuous_scale_exists",
    "Verif.C56_fixedSize_rounded_partial",
    "Verif.C56_timeStep_rounded_partial",
    "Verif.C56_fixedSize_rounded_tolerance_partial",
    "Verif.C56_timeStep_rounded_tolerance_partial",
    "Verif.C56_continuous_rounded_tolerance_partial",
    "Verif.C56_coded_scale_exists",
    "Verif.C56_force_tolerance_partial",
    "Verif.C56_force_rounded_tolerance_partial",
    "Verif.C56_force_scale_exists",
    "Verif.gripProblem_tolerance",
    "Verif.sixPhases_tolerance",
    "Verif.standProblem63_tolerance",
    "Verif.restPhases_tolerance",
    "Verif.standProblem_tolerance",
    "Verif.sixPhases_rest",
    "Verif.twoPhases_succeeds",
    "Verif.standProblem_succeeds",
    "Verif.gripProblem_succeeds",
    "Verif.sixPhases_succeeds"
   ],
   "note": "With the contract of the Cholesky factorisation. The full verdict is proved for epsilon = 0, for the five exact constraint sets, and for the two sets whose coefficients are rounded decimals up to an explicit error; for epsilon > 0 the tolerance theorems give what a returned curve satisfies, for all seven sets, in double description and with forces (epsilon small compared to the scale of the data, which exists for every problem, with forces for phases whose generators span). A failure is only explained when the iteration limit exceeds 2^(number of inequalities). Rounding of the solver's arithmetic: C90. The last theorems show runs that succeed."
  },
  {
   "property": "C57",
   "status": "proved",
   "theorems": [
    "Verif.C57_add",
    "Verif.C57_sub",
    "Verif.C57_scale",
    "Verif.C57_init"
   ],
   "note": ""
  },
  {
   "property": "C58",
   "status": "proved",
   "theorems": [
    "Verif.C58_not_cut_off",
    "Verif.C58_all_sets"
   ],
   "note": "For the sets 31 and 63 the wrench is the one of the wrench waypoints, whose coefficients are rounded (C04)."
  },
  {
   "property": "C59",
   "status": "partial",
   "theorems": [
    "Verif.C59_multipliers_partial",
    "Verif.C59_active_conditioned_partial",
    "Verif.C59_separated_partial"
   ],
   "note": "For every run whose threshold tests are exact; with any epsilon for conditioned data with separated normals (C59_separated_partial); the part about the active set for all conditioned data (C59_active_conditioned_partial)."
  },
  {
   "property": "C60",
   "status": "proved",
   "theorems": [
    "Verif.C60_solves",
    "Verif.C60_equilibrium",
    "Verif.C60_closest",
    "Verif.restProblem_succeeds"
   ],
   "note": "In exact arithmetic, with the contract of the Cholesky factorisation; a failure may also mean that the iteration limit is at most 2^(number of rows)."
  },
  {
   "property": "C61",
   "status": "partial",
   "theorems": [
    "Verif.C61_solves",
    "Verif.C61_refuted",
    "Verif.glpkOk_exists"
   ],
   "note": "For the linear problem, under the stated GLPK contract; the quadratic part of a cost is ignored (refuted as a quadratic program)."
  },
  {
   "property": "C62",
   "status": "partial",
   "theorems": [
    "Verif.C62_capturability",
    "Verif.C62_kinematic",
    "Verif.C62_sizes",
    "Verif.C62_dropped",
    "Verif.C62_refuted_kinematic"
   ],
   "note": "Exact arithmetic; the kinematic constraints hold without angular momentum and are lost with it (refuted). Mismatched sizes are rejected except an empty kin, with which the rows of Kin are dropped silently (C62_dropped)."
  },
  {
   "property": "C63",
   "status": "proved",
   "theorems": [
    "Verif.C63_velocity_cost",
    "Verif.C63_not_exact"
   ],
   "note": "The precision is that of the decimals in the source: 2e-11, 1e-8 and 6e-7 for one, three and five free points. C63_not_exact shows that the tolerance is needed."
  },
  {
   "property": "C64",
   "status": "proved",
   "theorems": [
    "Verif.C64_solves",
    "Verif.C64_motion",
    "Verif.C64_least_velocity",
    "Verif.C64_unitMove"
   ],
   "note": "The reported acceleration control points are not those of the acceleration (C14), so nothing follows for the acceleration of the motion. In exact arithmetic, with the contract of the Cholesky factorisation; a failure may also mean that the iteration limit is at most 2^(number of rows)."
  },
  {
   "property": "C65",
   "status": "partial",
   "theorems": [
    "Verif.C65_projection",
    "Verif.C65_identity_partial",
    "Verif.C65_refuted"
   ],
   "note": "The code discards the inverse factor (line 709), so it returns the feasible point nearest to the unconstrained minimiser: proved; the solution when the Hessian is the identity: proved; not the solution in general: refuted."
  },
  {
   "property": "C66",
   "status": "partial",
   "theorems": [
    "Verif.C66_opposite",
    "Verif.C66_refuted_sign",
    "Verif.C66_erased"
   ],
   "note": "False of the code: the sign of the unconstrained minimiser is lost, so the answer is that of the opposite linear term (proved for all problems), and an object that has not seen the sizes erases the factor (proved)."
  },
  {
   "property": "C67",
   "status": "partial",
   "theorems": [
    "Verif.C67_sessions",
    "Verif.C67_size",
    "Verif.C67_refuted_size"
   ],
   "note": "Answers are independent of the history. getActiveSetSize is that of the last call except after redundant equalities, where it is stale (refuted)."
  },
  {
   "property": "C68",
   "status": "proved",
   "theorems": [
    "Verif.C68_meaning",
    "Verif.C68_reflexive",
    "Verif.C68_symmetric",
    "Verif.C68_zero",
    "Verif.C68_not_transitive",
    "Verif.C68_ne"
   ],
   "note": "The precision of == is that of Eigen for double, 1e-12."
  },
  {
   "property": "C69",
   "status": "partial",
   "theorems": [
    "Verif.C69_file",
    "Verif.C69_refuted"
   ],
   "note": "True when the file can be opened. The directory is fixed in the source and a failure to open is not reported: refuted."
  },
  {
   "property": "C70",
   "status": "proved",
   "theorems": [
    "Verif.C70_init",
    "Verif.C70_goal"
   ],
   "note": ""
  },
  {
   "property": "C71",
   "status": "proved",
   "theorems": [
    "Verif.C71_unconstrained_minimiser",
    "Verif.restPhases_succeeds"
   ],
   "note": ""
  },
  {
   "property": "C72",
   "status": "proved",
   "theorems": [
    "Verif.C72_fixedSize",
    "Verif.C72_timeStep",
    "Verif.restPhases_succeeds"
   ],
   "note": "Exact real arithmetic apart from the thresholds, contract of the Cholesky factorisation. The last theorem is an instance."
  },
  {
   "property": "C73",
   "status": "partial",
   "theorems": [
    "Verif.C73_terminates",
    "Verif.C73_fixed",
    "Verif.C73_absorbed",
    "Verif.C73_refuted"
   ],
   "note": "Proved when the step is not small compared to the rounding of the total duration. When the step is absorbed the loop never ends: C73_absorbed, with an instance in double precision (C73_refuted). Overflow and underflow are not modelled."
  },
  {
   "property": "C74",
   "status": "partial",
   "theorems": [
    "Verif.C74_exceeds",
    "Verif.C74_refuted"
   ],
   "note": "False of the code: the total is computed by another summation than the ends of the phases; when the accumulated end exceeds it, extract throws. Instance in double precision with four phases (0.5, 0.5, 0.1, 0.1) and a two-lane sum. The positive direction is C25 and C56 in exact arithmetic."
  },
  {
   "property": "C75",
   "status": "proved",
   "theorems": [
    "Verif.C75_tolerance",
    "Verif.C75_stays",
    "Verif.restProblem_tolerance"
   ],
   "note": "Exact real arithmetic apart from the thresholds, contract of the Cholesky factorisation. With epsilon = 2^-52 the smallness condition allows data up to 4000 with angular momentum and 10^7 without. The last theorem is an instance that succeeds."
  },
  {
   "property": "C76",
   "status": "proved",
   "theorems": [
    "Verif.C76_tolerance",
    "Verif.C76_scale_exists",
    "Verif.C76_best",
    "Verif.C76_unitMove"
   ],
   "note": "Exact real arithmetic apart from the thresholds, contract of the Cholesky factorisation. A scale exists for every problem; the last theorem is an instance with epsilon = 2^-52 that succeeds."
  },
  {
   "property": "C77",
   "status": "proved",
   "theorems": [
    "Verif.C77_meaning",
    "Verif.C77_verdict",
    "Verif.C77_refuted"
   ],
   "note": "The verdict is for epsilon = 0, the distance cost and a fixed number of points. C77_refuted: a success whose start is outside the kinematic polytope."
  },
  {
   "property": "C78",
   "status": "proved",
   "theorems": [
    "Verif.C78_convex",
    "Verif.C78_set63",
    "Verif.C78_singular"
   ],
   "note": ""
  },
  {
   "property": "C79",
   "status": "proved",
   "theorems": [
    "Verif.C79_margin",
    "Verif.C79_equalities",
    "Verif.twice_margin"
   ],
   "note": "C79_equalities is used on a problem with equalities in gripProblem_plans (C102)."
  },
  {
   "property": "C80",
   "status": "proved",
   "theorems": [
    "Verif.C80_fixedSize",
    "Verif.C80_timeStep",
    "Verif.C80_continuous",
    "Verif.C80_continuous_threshold_exists",
    "Verif.standProblem_plans",
    "Verif.C80_fixedSize_rounded",
    "Verif.C80_timeStep_rounded",
    "Verif.restPhases_margin",
    "Verif.sixPhases_margin"
   ],
   "note": "The sets with rounded coefficients: for samples the margin must also exceed the explicit error of the coefficients. In the continuous formulation rows that do not depend on the unknown point need no margin, and a small enough threshold always exists."
  },
  {
   "property": "C81",
   "status": "proved",
   "theorems": [
    "Verif.C81_boundary",
    "Verif.C81_effector",
    "Verif.C81_curve",
    "Verif.constantWaypointsFp_zero",
    "Verif.C81_answers",
    "Verif.C81_not_exact"
   ],
   "note": "Model of rounding: each operation has a relative error of at most u, chosen freely at each operation; overflow and underflow are not modelled. C81_answers: double precision is an instance. C81_not_exact: the errors do occur."
  },
  {
   "property": "C82",
   "status": "proved",
   "theorems": [
    "Verif.C82_position",
    "Verif.C82_acceleration",
    "Verif.C82_final_velocity",
    "Verif.evaluateCurveFp_zero",
    "Verif.evaluateAccelerationFp_zero",
    "Verif.finalVelocityFp_zero",
    "Verif.C82_answers"
   ],
   "note": "Same model of rounding. The three _zero theorems: without rounding the relations are the functions of the exact model."
  },
  {
   "property": "C83",
   "status": "partial",
   "theorems": [
    "Verif.C83_com",
    "Verif.C83_effector",
    "Verif.C83_com_independent",
    "Verif.C83_effector_independent",
    "Verif.C83_refuted"
   ],
   "note": "All sets, except the derivatives with five free points, which do not read the last two constant points (C83_refuted)."
  },
  {
   "property": "C84",
   "status": "partial",
   "theorems": [
    "Verif.C84_one",
    "Verif.C84_more",
    "Verif.C84_refuted"
   ],
   "note": "False of the code. C84_one and C84_more give what the functions return and when that is right. No caller in the library."
  },
  {
   "property": "C85",
   "status": "partial",
   "theorems": [
    "Verif.C85_one",
    "Verif.C85_near_partial",
    "Verif.C85_far",
    "Verif.C85_refuted",
    "Verif.C85_margin_partial",
    "Verif.C85_far_threshold"
   ],
   "note": "True for the set with one free point. False for the sets with three and five: one reported acceleration control point depends on the position itself, so the request is refused when a coordinate exceeds about 10000 T^2/90 (10000 T^2/132); an instance is two metres from the origin for a tenth of a second. The first four in exact arithmetic, iteration limit above 2^(number of rows) for the positive parts; C85_margin_partial and C85_far_threshold are the same two answers for every threshold of the solver that is small enough, the positive one unless the iteration limit is reached."
  },
  {
   "property": "C86",
   "status": "proved",
   "theorems": [
    "Verif.C86_any_arithmetic",
    "Verif.C86_exact"
   ],
   "note": "C86_exact: with exact operations this machine is the one of the other properties. A refused inequality can lead to an endless loop or an access out of range (C42, C43)."
  },
  {
   "property": "C87",
   "status": "proved",
   "theorems": [
    "Verif.C87_rounded",
    "Verif.C87_left_to_right"
   ],
   "note": "C87_left_to_right: rounding each operation and summing from left to right is an instance; the example takes doubles and 1000 passes. Overflow and underflow are not modelled. The factorisation is a parameter: nothing is asked of its accuracy."
  },
  {
   "property": "C88",
   "status": "proved",
   "theorems": [
    "Verif.C88_optimal",
    "Verif.C88_constraints",
    "Verif.C88_independent"
   ],
   "note": "Constraints only: the optimality of the point under rounding is not claimed. The radius of the iterates is a hypothesis on the run."
  },
  {
   "property": "C89",
   "status": "proved",
   "theorems": [
    "Verif.C89_nan_optimal"
   ],
   "note": ""
  },
  {
   "property": "C90",
   "status": "proved",
   "theorems": [
    "Verif.C90_samples",
    "Verif.C90_samples_rounded",
    "Verif.C90_continuous",
    "Verif.C90_continuous_rounded",
    "Verif.C90_scaled",
    "Verif.C90_scale_exists",
    "Verif.restPhases_doubles"
   ],
   "note": "Constraints only, not optimality. The motion is computed from the returned point in exact arithmetic. The radius of the iterates is a hypothesis on the run, met by some radius for every run (C90_scale_exists)."
  },
  {
   "property": "C91",
   "status": "proved",
   "theorems": [
    "Verif.C91_com",
    "Verif.C91_fixedSize",
    "Verif.C91_zero",
    "Verif.C91_midpoint_reads"
   ],
   "note": "C91_midpoint_reads: the exception is real."
  },
  {
   "property": "C92",
   "status": "proved",
   "theorems": [
    "Verif.C92_all_flags",
    "Verif.C92_sets"
   ],
   "note": ""
  },
  {
   "property": "C93",
   "status": "proved",
   "theorems": [
    "Verif.C93_end_effector",
    "Verif.C93_zero_step",
    "Verif.C93_scale_exists",
    "Verif.restProblem_doubles",
    "Verif.unitMove_doubles"
   ],
   "note": "Constraints only, not optimality. The motion is computed from the returned point in exact arithmetic. The radius of the iterates is a hypothesis on the run, met by some radius for every run (C93_scale_exists)."
  },
  {
   "property": "C94",
   "status": "proved",
   "theorems": [
    "Verif.C94_rows",
    "Verif.C94_planner",
    "Verif.C94_scale_exists",
    "Verif.C94_exact_assembly",
    "Verif.C94_exact_rounded",
    "Verif.C94_rounding",
    "Verif.restPhases_fl"
   ],
   "note": "Five of the seven sets: for the other two the wrench of the code is wrong in exact arithmetic already (C04). C94_exact_assembly, C94_exact_rounded: without rounding the assembly is the one of the exact model. C94_rounding: rounding every operation with a function such as rounding to nearest, sums from left to right, is an instance. C94_scale_exists: the bound R of the wrench in the hypotheses exists for all accepted data. C and u0 are not computed. Overflow and underflow are not modelled; the time values of the samples are exact."
  },
  {
   "property": "C95",
   "status": "proved",
   "theorems": [
    "Verif.C95_rows",
    "Verif.restPhases_fl_keeps"
   ],
   "note": "Five of the seven sets as in C94. C and u0 are not computed. The converse direction of C94: the rows computed with rounding lose no motion with a margin; what the solver answers on them is C88 and C94."
  },
  {
   "property": "C96",
   "status": "proved",
   "theorems": [
    "Verif.C96_margin",
    "Verif.C96_equalities",
    "Verif.C96_independent",
    "Verif.C96_coefficients_exist",
    "Verif.C96_samples",
    "Verif.flArith_tri"
   ],
   "note": "With equalities the margin also covers their coefficients in the combination that yields an entering normal (bounded by L along the run, shown to exist for every run). The triangular solver of Eigen is assumed to have a componentwise backward error (Arith.TriRounded); back substitution from left to right has one (flArith_tri). The radius of the iterates is a hypothesis on the run, as in C88 and C90."
  },
  {
   "property": "C97",
   "status": "proved",
   "theorems": [
    "Verif.C97_near_optimal",
    "Verif.C97_equalities",
    "Verif.C97_independent",
    "Verif.C97_samples",
    "Verif.C97_multipliers_exist",
    "Verif.C97_scale_exists",
    "Verif.nearFactor_diag",
    "Verif.flArith_subMul"
   ],
   "note": "The sign of the final multipliers (up to delta) is a hypothesis on the returned multipliers: with rounding the code does not enforce it. The radius of the iterates and the bound of the multipliers along the run are hypotheses on the run, shown to exist for every run. Errors of the Cholesky factors are a hypothesis (NearFactor), met by diagonal factors as in the planner (nearFactor_diag)."
  },
  {
   "property": "C98",
   "status": "proved",
   "theorems": [
    "Verif.C98_value",
    "Verif.C98_equalities",
    "Verif.C98_independent",
    "Verif.C98_value_exists",
    "Verif.C98_samples"
   ],
   "note": "The radius of the iterates, the bound of the multipliers and the bound of the reported objective along the run are hypotheses on the run, shown to exist for every run (reach_radius, C97_multipliers_exist, C98_value_exists); C97_scale_exists shows the others can be met for every accepted problem. The bound grows with the square of the number of passes."
  },
  {
   "property": "C99",
   "status": "proved",
   "theorems": [
    "Verif.C99_forces",
    "Verif.C99_forces_rounded",
    "Verif.C99_scale_exists",
    "Verif.C99_case"
   ],
   "note": "Phases are nested in the sense of C56 (the force variables of a control point shared by two phases are those of one of them). The radius of the iterates is a hypothesis on the run, shown to exist for every run. The rows given to the solver may differ from the assembled ones by rho; the assembly itself is exact here. C99_scale_exists derives all other hypotheses from the data when the generators span the space of wrenches."
  }
 ]
}