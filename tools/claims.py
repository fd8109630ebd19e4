c("C01","proved","C01_boundary_conditions C01_answers","All seven CoM sets; derivatives are HasDerivAt derivatives of the Bernstein sum. c0_dc0_dc1 answers only for dc1 = 0, as coded.")
c("C02","partial","C02_position_coefs_partial C02_jerk_error C02_refuted","Proved for the seven CoM sets. False for the set with jerks (255), which is registered for the query too: the exact difference is (1-t)^8 (pi[8]-pi[0]).")
c("C03","partial","C03_acceleration_coefs_partial C03_jerk_error C03_refuted","Proved for the seven CoM sets. False for the set with jerks (255), which is registered for the query too; the exact difference is given.")
c("C04","partial","C04_wrench_waypoints_partial C04_wrench_waypoints_rounded_partial C04_not_exact C04_jerk_refuted","Exact for five sets; the sets 31 and 63 use truncated decimals in the source: an explicit error bound is proved and exactness refuted. The set with jerks is registered too and its formulas are those of another curve (refuted).")
c("C05","proved","C05_final_velocity","All sets registered for the query.")
c("C06","proved","C06_evaluateCurveAtTime C06_evaluateAccelerationCurveAtTime C06_evaluateCurveWaypointAtTime C06_evaluateVelocityCurveWaypointAtTime C06_evaluateAccelerationCurveWaypointAtTime C06_evaluateJerkCurveWaypointAtTime C06_computeVelocityWaypoints C06_computeAccelerationWaypoints C06_computeJerkWaypoints C06_computeVelocityCost C06_computeConstantWaypoints C06_computeFinalVelocityPoint C06_computeConstantWaypointsSymbolic C06_computeWwaypoints","All 2^32 flag values, fourteen queries.")
c("C09","proved","C09_boundary_conditions","The three jerk sets.")
c("C10","partial","C10_position_partial C10_j0_j1_error C10_refuted","Exact for x3 and x5; for j0_j1 the exact error term of the coded formula is proved and exactness refuted.")
c("C11","partial","C11_velocity_partial C11_j0_j1_error C11_refuted","For j0_j1 and x3 the dependence on the free points is exact; the constant part is not (exact error term for j0_j1; exactness refuted for all three sets).")
c("C12","partial","C12_acceleration_partial C12_j0_j1_error C12_refuted","For j0_j1 and x3 the dependence on the free points is exact; the constant part is not (exact error term for j0_j1; exactness refuted for all three sets).")
c("C13","partial","C13_jerk_partial C13_refuted","Exact for j0_j1 and x3; refuted for x5.")
c("C14","partial","C14_velocity_partial C14_jerk_partial C14_default_pi C14_acceleration_refuted C14_acceleration_j0_j1_partial","Velocity and jerk lists exact for all three sets; the acceleration list is refuted for all three sets (for j0_j1 only one of its seven points is wrong).")
c("C16","proved","C16_discretized_time C16_short_phase C16_nonpositive_step","All phase vectors meeting the asserted precondition; the precondition failure and non-positive steps are characterised as well.")
c("C17","proved","C17_fixed_discretization","All duration vectors, all points per phase >= 1.")
c("C53","partial","C53_symbolic_partial C53_refuted_zero C53_refuted_many","Holds when no constant waypoint is zero and there is a single free point; refuted otherwise.")
c("C54","proved","C54_skew_cross C54_skew_antisymm C54_skew_parallel C54_skew_injective","")
c("C55","proved","C55_bernstein_list C55_partition_of_unity C55_half_space C55_max_degree_diverges","For every degree below 2^32-1; for the maximal degree the loop never ends (proved).")
c("C57","proved","C57_add C57_sub C57_scale C57_init","")
c("C15","proved","C15_feasible_set C15_count C15_minus_one","Normalize keeps the feasible set; its return value")
c("C18","proved","C18_in_bounds_and_complete C18_zero_points C18_no_phase","assembly always completes for accepted problems; the two ways to leave the accepted inputs are shown to be undefined behaviour")
c("C19","proved","C19_meaning C19_physical C19_physical_rounded_partial","iff for all seven sets in terms of the wrench waypoints; in terms of the physical wrench exactly for the five exact sets, up to 1e-12 relative for the two rounded ones (cf. C04)")
c("C20","proved","C20_both_phases_constrained C20_switch C20_switch_all_sets","both discretisations")
c("C24","proved","C24_margin_monotone C24_nonpositive_margin C24_cone C24_nonhomogeneous_refuted C24_continuous_margin","both formulations; non-homogeneous polytopes are shown to be mis-scaled")
c("C21","proved","C21_in_bounds_and_complete C21_refuted_default C21_refuted_empty","both representations; a contact with default kinematic constraints and an empty list of contacts are shown to break it")
c("C22","proved","C22_sound C22_kinematics_every_instant C22_wrench_every_instant C22_refuted_zero","physical wrench for the five sets with exact wrench waypoints; all seven sets in terms of the wrench waypoints (cf. C04); refuted when a constant waypoint is the origin")
c("C23","proved","C23_sound C23_every_instant C23_refuted","under nesting of consecutive cones; refuted without")
c("C25","proved","C25_samples C25_every_instant C25_scaled C25_bare C25_refuted_short","both formulations; the factor carried by the derivative control points of the external library is a parameter")
c("C58","proved","C58_not_cut_off C58_all_sets","For the sets 31 and 63 the wrench is the one of the wrench waypoints, whose coefficients are rounded (C04).")
c("C39","partial","C39_feasible_partial C39_feasible_exact_partial C39_feasible_conditioned_partial C40_separated_partial C39_refuted","Inequalities up to the tolerance for all conditioned data, equalities when their normals are independent by a margin; exactly in exact arithmetic; refuted for an ill-scaled problem; for problems with a margin see C79.")
c("C40","partial","C40_optimal_partial C40_solution_exact_partial C40_total_partial C40_separated_partial factor_iff_posDef","For every run whose threshold tests are exact; this holds with a zero epsilon, and with any epsilon for conditioned data with separated normals; up to an explicit gap for problems with a margin, see C79.")
c("C41","partial","C41_infeasible_partial C41_never_infeasible_status_partial C40_separated_partial C41_refuted","For every run whose threshold tests are exact; refuted for an ill-scaled problem; for problems with a margin see C79.")
c("C42","partial","C42_terminates_partial C43_in_bounds_partial C42_refuted","Explicit bound on the number of passes for conditioned data and for exact runs; an endless loop is exhibited otherwise.")
c("C43","partial","C43_in_bounds_partial C42_terminates_partial conditioned_of_norms C43_refuted C43_refuted_equalities","For conditioned data and for exact runs; out-of-bounds accesses are exhibited otherwise, and for more equalities than variables.")
c("C44","partial","C44_redundant_partial C44_independent_partial C44_redundant_conditioned_partial","Exact for exact runs, by a margin for conditioned data.")
c("C59","partial","C59_multipliers_partial C59_active_conditioned_partial C59_separated_partial","For every run whose threshold tests are exact; with any epsilon for conditioned data with separated normals (C59_separated_partial); the part about the active set for all conditioned data (C59_active_conditioned_partial).")
c("C45","proved","C45_reuse","for all contents of the work arrays left by earlier calls")
c("C36","proved","C36_problem C36_wrong_size","")
c("C37","partial","C37_refuted","False of the code: a nonempty vector of upper bounds overruns the matrix allocated for the rows; no call with upper bounds returns.")
c("C38","proved","C38_quadprog C38_glpk C38_unknown","")
c("C26","proved","C26_acceleration C26_distance C26_unknown C26_samples","The seven CoM sets; for the set with jerks see C03.")
c("C27","partial","C27_body_partial C27_refuted","The formulas are right, but the test before them always throws (logical instead of bitwise conjunction).")
c("C28","proved","C28_computeCOMTraj C28_fixedSize C28_first","computeCOMTrajFixedSize asserts the representation before the sizes")
c("C29","proved","C29_planned C29_failure C29_success C29_success_iff","")
c("C08","proved","C08_terminal","all flags")
c("C07","partial","C07_boundary_partial C07_jerk_end C07_refuted","Proved for the seven sets of the planner. For the set with jerks it is false: C07_jerk_end gives the point where the curve ends, C07_refuted a problem where it is not c1.")
c("C56","partial","C56_fixedSize_partial C56_timeStep_partial C56_continuous_partial C56_force_partial C56_force_spans_partial C56_fixedSize_tolerance_partial C56_timeStep_tolerance_partial C56_scale_exists C56_continuous_tolerance_partial C56_continuous_scale_exists C56_fixedSize_rounded_partial C56_timeStep_rounded_partial C56_fixedSize_rounded_tolerance_partial C56_timeStep_rounded_tolerance_partial C56_continuous_rounded_tolerance_partial C56_coded_scale_exists C56_force_tolerance_partial C56_force_rounded_tolerance_partial C56_force_scale_exists gripProblem_tolerance sixPhases_tolerance standProblem63_tolerance restPhases_tolerance standProblem_tolerance sixPhases_rest twoPhases_succeeds standProblem_succeeds gripProblem_succeeds sixPhases_succeeds","With the contract of the Cholesky factorisation. The full verdict is proved for epsilon = 0, for the five exact constraint sets, and for the two sets whose coefficients are rounded decimals up to an explicit error; for epsilon > 0 the tolerance theorems give what a returned curve satisfies, for all seven sets, in double description and with forces (epsilon small compared to the scale of the data, which exists for every problem, with forces for phases whose generators span). A failure is only explained when the iteration limit exceeds 2^(number of inequalities). Rounding of the solver's arithmetic: C90. The last theorems show runs that succeed.")
c("C30","proved","C30_stops restProblem_succeeds","")
c("C31","proved","C31_continuous C31_discretised stepCount_example","A time step longer than the motion gives the formulation without discretisation.")
c("C32","proved","C32_waypoints_continuous C32_waypoints_discretised C32_returned C32_none","")
c("C33","proved","C33_angular C33_distance C33_qp_angular C33_qp_distance","")
c("C34","proved","C34_every_instant C34_samples C34_exact C34_kinematics C34_polytope","The code ignores the right-hand side of the polytope; the cone is the one through the origin. The kinematic part is for problems without angular momentum, see C35.")
c("C35","partial","C35_refuted_angular C35_refuted_kinematic C35_refuted_spurious C35_kinematic_partial C35_exact_partial","False of the code: the kinematic constraints are passed again in place of the angular ones. Proved: the kinematic constraints hold when there are at least as many angular rows, and without kinematic constraints only the wrench is constrained.")
c("C60","proved","C60_solves C60_equilibrium C60_closest restProblem_succeeds","In exact arithmetic, with the contract of the Cholesky factorisation; a failure may also mean that the iteration limit is at most 2^(number of rows).")
c("C48","partial","C48_rows C48_bounds_partial C48_refuted C48_end_effector C48_motion_bounds","False of the code for the jerk: the upper rows compare with the velocity bound. C48_rows gives the exact meaning of the rows for all inputs; the claim holds without jerk rows or when both bounds agree. The end effector planner uses the same number for both bounds: C48_end_effector and C48_motion_bounds are unconditional.")
c("C49","partial","C49_distance_samples C49_distance_partial C49_distance_path_partial C49_jerk_samples C49_jerk_partial C49_acceleration_samples_partial C49_velocity_samples_partial C49_distance_refuted C49_velocity_refuted C49_acceleration_refuted","Distance: right for three and five free points, false for one. Jerk: right for one and three. Velocity: the cross terms between the free points are missing. Acceleration: the reported acceleration is not the derivative for one free point.")
c("C50","proved","C50_curve C50_result C50_curve_exists","")
c("C46","partial","C46_in_bounds C46_entries C46_problem C46_refuted","Faithful whenever the constraint matrices have at most 20000 nonzero entries; with more the fixed buffers are overrun (proved undefined).")
c("C47","partial","C47_bounds C47_valid C47_refuted_equal","Correct for bounds with lower < upper on every variable, and for missing bounds; equal bounds give a problem that GLPK rejects (refuted).")
c("C51","proved","C51_x C51_kinematic C51_angular C51_session","")
c("C52","partial","C52_independent C52_defined C52_refuted_null C52_refuted_dangling C52_assignment_shares","Independence holds for all sessions; copying a contact without a phase, or whose phase object was destroyed, is undefined (refuted), and assignment shares the phase.")
c("C61","partial","C61_solves C61_refuted glpkOk_exists","For the linear problem, under the stated GLPK contract; the quadratic part of a cost is ignored (refuted as a quadratic program).")
c("C62","partial","C62_capturability C62_kinematic C62_sizes C62_dropped C62_refuted_kinematic","Exact arithmetic; the kinematic constraints hold without angular momentum and are lost with it (refuted). Mismatched sizes are rejected except an empty kin, with which the rows of Kin are dropped silently (C62_dropped).")
c("C63","proved","C63_velocity_cost C63_not_exact","The precision is that of the decimals in the source: 2e-11, 1e-8 and 6e-7 for one, three and five free points. C63_not_exact shows that the tolerance is needed.")
c("C64","proved","C64_solves C64_motion C64_least_velocity C64_unitMove","The reported acceleration control points are not those of the acceleration (C14), so nothing follows for the acceleration of the motion. In exact arithmetic, with the contract of the Cholesky factorisation; a failure may also mean that the iteration limit is at most 2^(number of rows).")
c("C65","partial","C65_projection C65_identity_partial C65_refuted","The code discards the inverse factor (line 709), so it returns the feasible point nearest to the unconstrained minimiser: proved; the solution when the Hessian is the identity: proved; not the solution in general: refuted.")
c("C66","partial","C66_opposite C66_refuted_sign C66_erased","False of the code: the sign of the unconstrained minimiser is lost, so the answer is that of the opposite linear term (proved for all problems), and an object that has not seen the sizes erases the factor (proved).")
c("C67","partial","C67_sessions C67_size C67_refuted_size","Answers are independent of the history. getActiveSetSize is that of the last call except after redundant equalities, where it is stale (refuted).")
c("C68","proved","C68_meaning C68_reflexive C68_symmetric C68_zero C68_not_transitive C68_ne","The precision of == is that of Eigen for double, 1e-12.")
c("C69","partial","C69_file C69_refuted","True when the file can be opened. The directory is fixed in the source and a failure to open is not reported: refuted.")
c("C70","proved","C70_init C70_goal","")
c("C71","proved","C71_unconstrained_minimiser restPhases_succeeds","")
c("C72","proved","C72_fixedSize C72_timeStep restPhases_succeeds","Exact real arithmetic apart from the thresholds, contract of the Cholesky factorisation. The last theorem is an instance.")
c("C73","partial","C73_terminates C73_fixed C73_absorbed C73_refuted","Proved when the step is not small compared to the rounding of the total duration. When the step is absorbed the loop never ends: C73_absorbed, with an instance in double precision (C73_refuted). Overflow and underflow are not modelled.")
c("C74","partial","C74_exceeds C74_refuted","False of the code: the total is computed by another summation than the ends of the phases; when the accumulated end exceeds it, extract throws. Instance in double precision with four phases (0.5, 0.5, 0.1, 0.1) and a two-lane sum. The positive direction is C25 and C56 in exact arithmetic.")
c("C75","proved","C75_tolerance C75_stays restProblem_tolerance","Exact real arithmetic apart from the thresholds, contract of the Cholesky factorisation. With epsilon = 2^-52 the smallness condition allows data up to 4000 with angular momentum and 10^7 without. The last theorem is an instance that succeeds.")
c("C76","proved","C76_tolerance C76_scale_exists C76_best C76_unitMove","Exact real arithmetic apart from the thresholds, contract of the Cholesky factorisation. A scale exists for every problem; the last theorem is an instance with epsilon = 2^-52 that succeeds.")
c("C77","proved","C77_meaning C77_verdict C77_refuted","The verdict is for epsilon = 0, the distance cost and a fixed number of points. C77_refuted: a success whose start is outside the kinematic polytope.")
c("C78","proved","C78_convex C78_set63 C78_singular","")
c("C79","proved","C79_margin C79_equalities twice_margin","C79_equalities is used on a problem with equalities in gripProblem_plans (C102).")
c("C80","proved","C80_fixedSize C80_timeStep C80_continuous C80_continuous_threshold_exists standProblem_plans C80_fixedSize_rounded C80_timeStep_rounded restPhases_margin sixPhases_margin","The sets with rounded coefficients: for samples the margin must also exceed the explicit error of the coefficients. In the continuous formulation rows that do not depend on the unknown point need no margin, and a small enough threshold always exists.")
c("C81","proved","C81_boundary C81_effector C81_curve constantWaypointsFp_zero C81_answers C81_not_exact","Model of rounding: each operation has a relative error of at most u, chosen freely at each operation; overflow and underflow are not modelled. C81_answers: double precision is an instance. C81_not_exact: the errors do occur.")
c("C82","proved","C82_position C82_acceleration C82_final_velocity evaluateCurveFp_zero evaluateAccelerationFp_zero finalVelocityFp_zero C82_answers","Same model of rounding. The three _zero theorems: without rounding the relations are the functions of the exact model.")
c("C83","partial","C83_com C83_effector C83_com_independent C83_effector_independent C83_refuted","All sets, except the derivatives with five free points, which do not read the last two constant points (C83_refuted).")
c("C84","partial","C84_one C84_more C84_refuted","False of the code. C84_one and C84_more give what the functions return and when that is right. No caller in the library.")
c("C85","partial","C85_one C85_near_partial C85_far C85_refuted C85_margin_partial C85_far_threshold","True for the set with one free point. False for the sets with three and five: one reported acceleration control point depends on the position itself, so the request is refused when a coordinate exceeds about 10000 T^2/90 (10000 T^2/132); an instance is two metres from the origin for a tenth of a second. The first four in exact arithmetic, iteration limit above 2^(number of rows) for the positive parts; C85_margin_partial and C85_far_threshold are the same two answers for every threshold of the solver that is small enough, the positive one unless the iteration limit is reached.")
c("C86","proved","C86_any_arithmetic C86_exact","C86_exact: with exact operations this machine is the one of the other properties. A refused inequality can lead to an endless loop or an access out of range (C42, C43).")
c("C87","proved","C87_rounded C87_left_to_right","C87_left_to_right: rounding each operation and summing from left to right is an instance; the example takes doubles and 1000 passes. Overflow and underflow are not modelled. The factorisation is a parameter: nothing is asked of its accuracy.")
c("C88","proved","C88_optimal C88_constraints C88_independent","Constraints only: the optimality of the point under rounding is not claimed. The radius of the iterates is a hypothesis on the run.")
c("C89","proved","C89_nan_optimal","")
c("C90","proved","C90_samples C90_samples_rounded C90_continuous C90_continuous_rounded C90_scaled C90_scale_exists restPhases_doubles","Constraints only, not optimality. The motion is computed from the returned point in exact arithmetic. The radius of the iterates is a hypothesis on the run, met by some radius for every run (C90_scale_exists).")
c("C91","proved","C91_com C91_fixedSize C91_zero C91_midpoint_reads","C91_midpoint_reads: the exception is real.")
c("C92","proved","C92_all_flags C92_sets","")
c("C93","proved","C93_end_effector C93_zero_step C93_scale_exists restProblem_doubles unitMove_doubles","Constraints only, not optimality. The motion is computed from the returned point in exact arithmetic. The radius of the iterates is a hypothesis on the run, met by some radius for every run (C93_scale_exists).")
c("C94","proved","C94_rows C94_planner C94_scale_exists C94_exact_assembly C94_exact_rounded C94_rounding restPhases_fl","Five of the seven sets: for the other two the wrench of the code is wrong in exact arithmetic already (C04). C94_exact_assembly, C94_exact_rounded: without rounding the assembly is the one of the exact model. C94_rounding: rounding every operation with a function such as rounding to nearest, sums from left to right, is an instance. C94_scale_exists: the bound R of the wrench in the hypotheses exists for all accepted data. C and u0 are not computed. Overflow and underflow are not modelled; the time values of the samples are exact.")
c("C95","proved","C95_rows restPhases_fl_keeps","Five of the seven sets as in C94. C and u0 are not computed. The converse direction of C94: the rows computed with rounding lose no motion with a margin; what the solver answers on them is C88 and C94.")
c("C96","proved","C96_margin C96_equalities C96_independent C96_coefficients_exist C96_samples flArith_tri","With equalities the margin also covers their coefficients in the combination that yields an entering normal (bounded by L along the run, shown to exist for every run). The triangular solver of Eigen is assumed to have a componentwise backward error (Arith.TriRounded); back substitution from left to right has one (flArith_tri). The radius of the iterates is a hypothesis on the run, as in C88 and C90.")
c("C97","proved","C97_near_optimal C97_equalities C97_independent C97_samples C97_multipliers_exist C97_scale_exists nearFactor_diag flArith_subMul","The sign of the final multipliers (up to delta) is a hypothesis on the returned multipliers: with rounding the code does not enforce it. The radius of the iterates and the bound of the multipliers along the run are hypotheses on the run, shown to exist for every run. Errors of the Cholesky factors are a hypothesis (NearFactor), met by diagonal factors as in the planner (nearFactor_diag).")
c("C98","proved","C98_value C98_equalities C98_independent C98_value_exists C98_samples","The radius of the iterates, the bound of the multipliers and the bound of the reported objective along the run are hypotheses on the run, shown to exist for every run (reach_radius, C97_multipliers_exist, C98_value_exists); C97_scale_exists shows the others can be met for every accepted problem. The bound grows with the square of the number of passes.")
c("C99","proved","C99_forces C99_forces_rounded C99_scale_exists C99_case","Phases are nested in the sense of C56 (the force variables of a control point shared by two phases are those of one of them). The radius of the iterates is a hypothesis on the run, shown to exist for every run. The rows given to the solver may differ from the assembled ones by rho; the assembly itself is exact here. C99_scale_exists derives all other hypotheses from the data when the generators span the space of wrenches.")
c("C100","proved","C100_stop C100_end C100_end_threshold_exists backProblem_margin unitMove_margin","solve0step: without angular momentum, with a time step. C79_margin was extended to problems with zero rows for this.")
c("C101","proved","C101_values C101_reads C101_reference C101_dangling C101_contacts C101_call C101_l0 C101_defined C101_overflow C101_new C101_newConstraints","One Python variable per ContactData, ProblemData and Constraints object; an Equilibrium may have several. A number is stored in the enum ConstraintFlag with all its 32 bits.")
c("C102","proved","C102_forces C102_forces_motion C102_forces_motion_rounded C102_threshold_exists gripProblem_margin gripProblem_plans","C102_forces covers all seven sets; what the satisfied rows mean for the motion is stated for the five exact sets in C102_forces_motion, and for the other two, with the error of the printed coefficients, in C102_forces_motion_rounded. The margin is that of the rows, which are conditions on the control points. The iteration limit cannot be excluded.")
c("C103","proved","C103_exact C103_stop spin_stop spinProblem_margin","With angular momentum there must be no kinematic constraint: with them the code constrains other quantities (C35). The iteration limit cannot be excluded.")
c("C104","proved","C104_undefined C104_any_memory C104_slack","No function of the library calls it; it has external linkage.")
c("C105","proved","C105_fixedSize C105_timeStep C105_continuous C105_end C105_stop C105_forces restPhases_near gripProblem_near","Sampled formulation: the five sets whose wrench waypoints are exact. Continuous formulation in double description: all seven sets, requirements stated as the assembled rows (C22, C23 give their meaning). With force variables: the five sets, generators that span the wrenches. solve0step with angular momentum: no kinematic constraints (C35). Costs: distance or acceleration. Real arithmetic; the iteration limit cannot be excluded.")
c("C106","proved","C106_lifetime C106_reference C106_value C106_leak C106_disciplined C106_needed","boost.python is modelled by its documented ownership policies: with_custodian_and_ward keeps the Python object of the argument alive, reference_existing_object does not own. One variable per ContactData.")
c("C107","proved","C107_translate C107_meaning","Exact arithmetic. The Cholesky factor is an exact inverse factor of the Hessian (Factor).")
c("C108","partial","C108_feasible C108_unique C108_fixedSize C108_timeStep C108_margin_refuted pinned_frames","False with a margin (C108_margin_refuted). Without one: the five sets whose wrench waypoints are exact, distance or acceleration cost; the planners with epsilon = 0 and an iteration limit above 2^(number of rows).")
c("C109","proved","C109_all_fixedSize C109_all_timeStep C109_fixedSize C109_timeStep C109_acceleration_refuted sixPhases_turned","All seven constraint sets (acceleration cost not with set 63), no bound on the acceleration; epsilon = 0 and an iteration limit above 2^(number of rows). C109_acceleration_refuted is the false case of the statement. C109_fixedSize and C109_timeStep go through the physical requirements (five sets). ProblemData.rotated: every problem with contact phases can be written in other axes.")
c("C110","proved","C110_all_fixedSize C110_all_timeStep C110_fixedSize C110_timeStep C110_divisor_refuted C110_multiple_refuted sixPhases_still","All seven constraint sets (acceleration cost not with set 63); epsilon = 0 and an iteration limit above 2^(number of rows) in the second call. C110_divisor_refuted and C110_multiple_refuted are the false cases of the statement. C110_fixedSize and C110_timeStep go through the physical requirements (five sets).")
c("C111","proved","C111_all_fixedSize C111_all_timeStep C111_fixedSize C111_timeStep C111_factor_refuted","All seven constraint sets (acceleration cost not with set 63); epsilon = 0 and an iteration limit above 2^(number of rows) in the sampled call. C111_factor_refuted is the false case of the statement. C111_fixedSize and C111_timeStep go through the physical requirements (five sets).")
c("C112","proved","C112_all_fixedSize C112_all_timeStep C112_fixedSize C112_timeStep ProblemData.inUnits UnitsEquilibrium.time C112_margin_refuted sixPhases_units","All seven constraint sets (acceleration cost not with set 63); epsilon = 0 and an iteration limit above 2^(number of rows). C112_margin_refuted is the false case of the statement. C112_fixedSize and C112_timeStep go through the physical requirements (five sets).")
c("C113","proved","C113_all_fixedSize C113_all_timeStep C113_fixedSize C113_timeStep C113_margin_refuted","All seven constraint sets (acceleration cost not with set 63); epsilon = 0 and an iteration limit above 2^(number of rows) in the sampled call. C113_margin_refuted is the false case of the statement. C113_fixedSize and C113_timeStep go through the physical requirements (five sets).")
c("C114","partial","C114_feasible C114_continuous C114_origin_refuted","False when a constant waypoint is at the origin (C114_origin_refuted). Otherwise: no margin, the five sets whose wrench waypoints are exact, distance or acceleration cost; epsilon = 0 and an iteration limit above 2^(number of rows).")
c("C115","proved","C115_feasible C115_continuous C115_merging_refuted","All seven constraint sets (acceleration cost not with set 63), any margin; epsilon = 0 and, for the second call, an iteration limit above 2^(number of rows). C115_merging_refuted is the false converse.")
c("C116","partial","C116_feasible C116_forces_exist C116_continuous C116_far_refuted","False far from the origin (C116_far_refuted). Otherwise all seven constraint sets (acceleration cost not with set 63); epsilon = 0 and an iteration limit above 2^(number of rows and bounds).")
c("C117","partial","C117_feasible C117_continuous C117_nested_refuted","False for phases that are not nested (C117_nested_refuted, stated for the systems). Otherwise all seven constraint sets (acceleration cost not with set 63); epsilon = 0 and, for the second call, an iteration limit above 2^(number of rows and bounds).")
c("C118","proved","C118_admissible C118_frame spin_frames","epsilon = 0 and an iteration limit above 2^(number of rows). spin_frames is an instance with angular momentum in every frame.")
c("C119","proved","C119_admissible C119_looser C119_multiple_refuted","epsilon = 0 and an iteration limit above 2^(number of rows); with angular momentum no kinematic constraints. C119_multiple_refuted shows that the condition on the numbers of steps is needed.")
c("C120","partial","C120_admissible C120_one unitMove_frames C120_exact_refuted C120_verdict_refuted","False exactly (C120_exact_refuted), and for the sets with three and five free points (C120_verdict_refuted). With one free point: the same verdict, and the bound on the displacement for weight 0; epsilon = 0 and an iteration limit above 2^(number of rows).")
c("C121","proved","C121_axes calm_turned C121_axes_refuted C121_units calm_units C121_factor_refuted C121_threshold_refuted","The three conditions are needed (C121_axes_refuted, C121_factor_refuted, C121_threshold_refuted). Epsilon = 0, an iteration limit above 2^(number of rows), and not the acceleration cost with c0_dc0_ddc0_ddc1_dc1_c1.")
c("C122","proved","C122_admissible C122_axes C122_python unitMove_turned C122_angle_refuted C122_vertical_refuted","The two conditions on the axes are needed (C122_angle_refuted, C122_vertical_refuted). Epsilon = 0, an iteration limit above 2^(number of rows).")
c("C123","proved","C123_admissible C123_slower unitMove_slower C123_length_refuted C123_time_refuted","The converse fails (C123_length_refuted, C123_time_refuted). Epsilon = 0, an iteration limit above 2^(number of rows).")
c("C124","partial","C124_rates_partial C124_one_partial unitMove_reversed C124_one_refuted C124_three_refuted C124_five_refuted","False for each of the three sets: a motion at constant acceleration is planned in one direction and refused in the other (C124_one_refuted, C124_three_refuted, C124_five_refuted), because the list of acceleration control points has errors that are not symmetric (C14). What holds: the requirements on velocities, jerks and heights are the same in both directions (C124_rates_partial), and with one free point the verdict is the same when the motion starts and ends at rest, or more generally when the two ends are displaced alike (C124_one_partial). Epsilon = 0, an iteration limit above 2^(number of rows).")
c("C125","proved","C125_verdict C125_motion unitMove_paths C125_fixed C125_step C125_continuous calm_two_solvers C125_stop spin_two_solvers C125_forces clasp_two_solvers","Epsilon = 0; for the verdicts an iteration limit above 2^(number of rows). With forces the limit counts the lower bounds too. computeCOMTraj: not the acceleration cost with c0_dc0_ddc0_ddc1_dc1_c1. solve0step: with angular momentum the problem has no kinematic constraints.")
c("C126","partial","C126_nearer fall_weights C126_rougher C126_one C126_one_refuted","Smoothness: the three sets, proved. Distance: proved for three and five free points; false for one (C126_one_refuted: asked to follow the very motion that it plans without a path, the planner leaves it), because the points compared with the path are displaced by (1-t)^8 (c1 - c0) (C10); of the motion so displaced the claim holds (C126_one), so it holds of motions that end where they start. Epsilon = 0.")
c("C127","proved","C127_admissible C127_between fan_between C127_ends_refuted","C127_ends_refuted shows that the condition on the lower end is needed (one free point, downward jerks of 3326.4 and 3360 at the start, duration 1). The verdicts hold once the solver's iteration limit exceeds a number that depends on the three problems only. Epsilon = 0.")
c("C128","partial","polyEnds_spec C128_one_partial C128_three_partial C128_five_partial polyEndsTen_spec C128_five_ten_partial glide_planned hop_planned C128_more_points_refuted restAt_poly C128_one_refuted","False as stated for the three sets, because of the acceleration points of C14: with one free point, uniform motion over 1000 m in 1 s is refused (C128_one_refuted); with three and five, rest far from the origin is refused (restAt_poly with C85_far). Proved with three and five free points when the accelerations leave a margin of 90 |q|/T^2, respectively 132 (|q| + |q'|)/T^2, where q and q' are the fourth control points from the ends of the curve of the set (motions of degree 10 included, with five: C128_five_ten_partial); and with one free point when the points it checks, the wrong one included, are within the bounds. C128_more_points_refuted: a motion planned with one free point can be refused with three and five, because the derivatives near the ends are not checked. Epsilon = 0.")
