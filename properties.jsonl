{"id": "C01", "title": "Boundary conditions of every CoM constraint set", "statement": "For each of the seven CoM constraint sets, the curve whose control points are the waypoints returned by computeConstantWaypoints with the free slot replaced by x starts at c0 with velocity dc0 (and acceleration ddc0 when INIT_ACC is set) and ends at c1 / dc1 / ddc1 for each END flag that is set.", "quantifier": "all problem data c0,dc0,ddc0,c1,dc1,ddc1, every duration T != 0, every free point x, all seven flag combinations", "why_tests_cant": "ranges over uncountably many real inputs; a test samples finitely many of them", "anchors": ["include/hpp/bezier-com-traj/waypoints/waypoints_*.hh:computeConstantWaypoints", "src/waypoints_definition.cpp:computeConstantWaypoints"]}
{"id": "C02", "title": "Position coefficients describe the curve", "statement": "evaluateCurveAtTime(pi,t) returns (a,s) such that a*x+s is the point at normalized time t of the Bezier curve with control points pi and x in the free slot.", "quantifier": "all control points, all x, all t, every set registered for this call", "why_tests_cant": "ranges over uncountably many real inputs; a test samples finitely many of them", "anchors": ["include/hpp/bezier-com-traj/waypoints/waypoints_*.hh:evaluateCurveAtTime", "src/waypoints_definition.cpp:evaluateCurveAtTime"]}
{"id": "C03", "title": "Acceleration coefficients are the second time derivative", "statement": "evaluateAccelerationCurveAtTime(pi,T,t) returns (a,s) such that a*x+s is the second derivative with respect to time of that curve at time t*T.", "quantifier": "all control points, all x, all t, every T != 0, every registered set", "why_tests_cant": "ranges over uncountably many real inputs; a test samples finitely many of them", "anchors": ["include/hpp/bezier-com-traj/waypoints/waypoints_*.hh:evaluateAccelerationCurveAtTime"]}
{"id": "C04", "title": "Wrench waypoints describe the centroidal wrench curve", "statement": "The control points (matrix, vector) returned by computeWwaypoints define a Bezier curve whose value at t is the 6D vector (c''(t), c(t) x c''(t) + g x c(t)) of the CoM curve c with free point x.", "quantifier": "all boundary data, gravity vectors g, T != 0, x and t, every registered set", "why_tests_cant": "ranges over uncountably many real inputs; a test samples finitely many of them", "anchors": ["include/hpp/bezier-com-traj/waypoints/waypoints_*.hh:computeWwaypoints", "src/waypoints_definition.cpp:computeWwaypoints"]}
{"id": "C05", "title": "Final velocity decomposition", "statement": "computeFinalVelocityPoint returns (a,s) such that a*x+s is the time derivative of the CoM curve at its end time.", "quantifier": "all boundary data, x, T != 0, every registered set", "why_tests_cant": "ranges over uncountably many real inputs; a test samples finitely many of them", "anchors": ["include/hpp/bezier-com-traj/waypoints/waypoints_*.hh:computeFinalVelocityPoint", "src/waypoints_definition.cpp:computeFinalVelocityPoint"]}
{"id": "C06", "title": "Unsupported constraint combinations are rejected", "statement": "Each public waypoint query answers only for the flag values it implements and throws runtime_error for every other flag value; no flag value silently selects another set's formulas.", "quantifier": "all 2^32 flag values and all entry points", "why_tests_cant": "the flag space is too large to enumerate by unit tests and the claim is about every value outside the table", "anchors": ["src/waypoints_definition.cpp", "include/hpp/bezier-com-traj/flags.hh"]}
{"id": "C07", "title": "The returned trajectory meets the requested boundary conditions", "statement": "Whenever computeCOMTraj / computeCOMTrajFixedSize reports success, the returned curve c_of_t_ is defined on [0,sum Ts] and satisfies all initial and final conditions selected by the flag, whatever point the solver chose.", "quantifier": "all problems, durations, phase counts and solver answers, every flag for which the call can succeed", "why_tests_cant": "ranges over uncountably many real inputs; a test samples finitely many of them", "anchors": ["include/hpp/bezier-com-traj/utils.hh:computeBezierCurve", "src/computeCOMTraj.cpp:genTraj"]}
{"id": "C08", "title": "Reported terminal velocity and acceleration", "statement": "On success the fields dc1_ and ddc1_ are the first and second time derivatives of the returned c_of_t_ at its end time.", "quantifier": "all successful calls", "why_tests_cant": "ranges over uncountably many real inputs; a test samples finitely many of them", "anchors": ["src/computeCOMTraj.cpp:computeFinalVelocity", "src/computeCOMTraj.cpp:computeFinalAcceleration", "src/computeCOMTraj.cpp:genTraj"]}
{"id": "C09", "title": "Boundary conditions of the jerk constraint sets", "statement": "For the three end-effector sets (one, three, five free points) the curve built from computeConstantWaypoints and any free points satisfies position, velocity, acceleration and jerk conditions at both ends.", "quantifier": "all boundary data, T != 0 and free points", "why_tests_cant": "ranges over uncountably many real inputs; a test samples finitely many of them", "anchors": ["include/hpp/bezier-com-traj/waypoints/waypoints_c0_dc0_ddc0_j0_*.hh:computeConstantWaypoints"]}
{"id": "C10", "title": "End-effector position decomposition", "statement": "evaluateCurveWaypointAtTime returns (M,s) with M*X+s equal to the curve point at t for the stacked free points X.", "quantifier": "all control points, X and t, the three end-effector sets", "why_tests_cant": "ranges over uncountably many real inputs; a test samples finitely many of them", "anchors": ["include/hpp/bezier-com-traj/waypoints/waypoints_c0_dc0_ddc0_j0_*.hh:evaluateCurveWaypointAtTime"]}
{"id": "C11", "title": "End-effector velocity decomposition", "statement": "evaluateVelocityCurveWaypointAtTime returns (M,s) with M*X+s equal to the first time derivative of the curve.", "quantifier": "all control points, X, t and T != 0, the three end-effector sets", "why_tests_cant": "ranges over uncountably many real inputs; a test samples finitely many of them", "anchors": ["include/hpp/bezier-com-traj/waypoints/waypoints_c0_dc0_ddc0_j0_*.hh:evaluateVelocityCurveWaypointAtTime"]}
{"id": "C12", "title": "End-effector acceleration decomposition", "statement": "evaluateAccelerationCurveWaypointAtTime returns (M,s) with M*X+s equal to the second time derivative of the curve.", "quantifier": "all control points, X, t and T != 0, the three end-effector sets", "why_tests_cant": "ranges over uncountably many real inputs; a test samples finitely many of them", "anchors": ["include/hpp/bezier-com-traj/waypoints/waypoints_c0_dc0_ddc0_j0_*.hh:evaluateAccelerationCurveWaypointAtTime"]}
{"id": "C13", "title": "End-effector jerk decomposition", "statement": "evaluateJerkCurveWaypointAtTime returns (M,s) with M*X+s equal to the third time derivative of the curve.", "quantifier": "all control points, X, t and T != 0, the three end-effector sets", "why_tests_cant": "ranges over uncountably many real inputs; a test samples finitely many of them", "anchors": ["include/hpp/bezier-com-traj/waypoints/waypoints_c0_dc0_ddc0_j0_*.hh:evaluateJerkCurveWaypointAtTime"]}
{"id": "C14", "title": "Derivative control points of the end-effector curve", "statement": "computeVelocityWaypoints, computeAccelerationWaypoints and computeJerkWaypoints return exactly the control points of the first, second and third derivative curves, so bounding them bounds the derivative at every time.", "quantifier": "all control points, X, T != 0, the three end-effector sets", "why_tests_cant": "ranges over uncountably many real inputs; a test samples finitely many of them", "anchors": ["include/hpp/bezier-com-traj/waypoints/waypoints_c0_dc0_ddc0_j0_*.hh:computeVelocityWaypoints, computeAccelerationWaypoints, computeJerkWaypoints"]}
{"id": "C15", "title": "Row normalisation preserves the feasible set", "statement": "Normalize / zero-row removal applied to A x <= b changes neither the set of solutions nor, when it returns a nonnegative count, makes any retained row zero; a -1 answer is given only for infeasible systems.", "quantifier": "all matrices and vectors of any size", "why_tests_cant": "ranges over uncountably many real inputs; a test samples finitely many of them; the row count is unbounded", "anchors": ["src/common_solve_methods.cpp:removeZeroRows", "src/common_solve_methods.cpp:Normalize"]}
{"id": "C16", "title": "Time discretisation by step", "statement": "computeDiscretizedTime terminates for every positive step and returns times that start at 0, are nondecreasing inside [0,total], contain the start and end of every phase tagged with that phase, never skip more than one step, and end exactly at the total duration.", "quantifier": "all phase duration vectors with positive entries and all positive steps", "why_tests_cant": "unbounded number of phases and steps", "anchors": ["src/utils.cpp:computeDiscretizedTime"]}
{"id": "C17", "title": "Time discretisation with fixed points per phase", "statement": "computeDiscretizedTimeFixed returns phases*points+1 samples starting at 0 and ending at the total duration, with the j-th sample of phase i at the expected time.", "quantifier": "all duration vectors and all points-per-phase >= 1", "why_tests_cant": "unbounded number of phases and points", "anchors": ["src/utils.cpp:computeDiscretizedTimeFixed"]}
{"id": "C18", "title": "Discretised constraint assembly is in bounds and complete", "statement": "For every accepted problem the discretised assembly writes only inside the allocated matrices and leaves no row unassigned: the announced number of inequalities equals the number of rows written.", "quantifier": "all numbers of phases, samples, polytope rows and kinematic rows", "why_tests_cant": "sizes are unbounded and combine", "anchors": ["src/computeCOMTraj.cpp:computeNumIneq", "src/computeCOMTraj.cpp:computeConstraintsOneStep", "src/computeCOMTraj.cpp:stepIdPerPhase"]}
{"id": "C19", "title": "Discretised constraints mean what they say", "statement": "x satisfies the assembled inequalities iff at every sampled time the CoM satisfies the kinematic inequalities, the wrench satisfies the stability inequalities with margin, and (if enabled) the acceleration bound, for the phase(s) of that sample.", "quantifier": "all problems, all x", "why_tests_cant": "ranges over uncountably many real inputs; a test samples finitely many of them", "anchors": ["src/computeCOMTraj.cpp:assignStabilityConstraints", "src/computeCOMTraj.cpp:assignKinematicConstraints", "src/computeCOMTraj.cpp:assignAccelerationConstraints"]}
{"id": "C20", "title": "Both phases are enforced at a contact switch", "statement": "At the time where the contact phase changes, the assembled constraints contain the stability and kinematic constraints of the phase that ends and of the phase that begins.", "quantifier": "all phase sequences", "why_tests_cant": "unbounded number of phases", "anchors": ["src/computeCOMTraj.cpp:switchContactPhase", "src/computeCOMTraj.cpp:assignKinematicConstraints"]}
{"id": "C21", "title": "Continuous constraint assembly is in bounds and complete", "statement": "In the continuous formulation the announced numbers of inequalities, equalities and force variables equal the number of rows and columns written, and no write is out of range.", "quantifier": "all numbers of phases and rows, both representations", "why_tests_cant": "sizes are unbounded and combine", "anchors": ["src/computeCOMTraj.cpp:computeNumIneqContinuous", "src/computeCOMTraj.cpp:computeNumEqContinuous", "src/computeCOMTraj.cpp:computeConstraintsContinuous"]}
{"id": "C22", "title": "Continuous constraints guarantee every instant", "statement": "Any x satisfying the assembled continuous constraints yields a trajectory that satisfies the kinematic and stability constraints of each phase at every time of that phase, not only at samples, provided no constant waypoint is the zero vector; a motion starting at the origin is a counterexample otherwise.", "quantifier": "all problems, all feasible x, all times t in [0,T]", "why_tests_cant": "quantifies over a continuum of times", "anchors": ["src/computeCOMTraj.cpp:computeConstraintsContinuous"]}
{"id": "C23", "title": "Force formulation guarantees nonnegative contact forces at every instant", "statement": "Any solution of the equality/bound system of the FORCE representation yields, at every time of every phase, nonnegative force coefficients of that phase generating exactly the wrench required by the trajectory, provided the cones of consecutive phases are nested (contacts are added or removed); at a switch where the support changes completely this fails.", "quantifier": "all problems, all solutions, all times", "why_tests_cant": "quantifies over a continuum of times and unbounded phase sequences", "anchors": ["src/computeCOMTraj.cpp:assignStabilityConstraintsForTimeStepForce", "src/computeCOMTraj.cpp:computeConstraintsContinuous"]}
{"id": "C24", "title": "Stability margin and row scaling", "statement": "Increasing reduce_h_ never enlarges the feasible set, a nonpositive value leaves h unchanged, and for homogeneous cones (h = 0) normalising rows and scaling by the mass does not change the set.", "quantifier": "all polytopes, margins and masses", "why_tests_cant": "ranges over uncountably many real inputs; a test samples finitely many of them", "anchors": ["src/computeCOMTraj.cpp:updateH", "src/computeCOMTraj.cpp:dynamicStabilityConstraints"]}
{"id": "C25", "title": "Acceleration bound at every instant", "statement": "In the continuous formulation every feasible x gives |c''(t)| <= maxAcceleration_ componentwise for all t, up to the factor T^2 that the curve library may leave out of the control points of the derivative (no constant waypoint being the zero vector); in the discretised one the bound holds at the samples iff the option is set.", "quantifier": "all problems, x, t", "why_tests_cant": "continuum of times", "anchors": ["src/computeCOMTraj.cpp:computeConstraintsContinuous", "src/computeCOMTraj.cpp:assignAccelerationConstraints"]}
{"id": "C26", "title": "Cost functions are the documented quadratics", "statement": "For the seven CoM constraint sets: for ACCELERATION the quadratic x'Hx+2g'x differs from the sum of squared sampled accelerations by a constant independent of x; for DISTANCE_TRAVELED from the squared distance to the midpoint of c0 and c1.", "quantifier": "all problems, x", "why_tests_cant": "ranges over uncountably many real inputs; a test samples finitely many of them", "anchors": ["src/costfunction_definition.cpp"]}
{"id": "C27", "title": "Target end velocity cost is available when the end velocity is free", "statement": "With costFunction_ = TARGET_END_VELOCITY the cost is the squared distance between final velocity and dc1_, and it is refused exactly when END_VEL is constrained.", "quantifier": "all flags and problems", "why_tests_cant": "quantifies over all flag values", "anchors": ["src/costfunction_definition.cpp:computeCostEndVelocity"]}
{"id": "C28", "title": "Mismatched phase durations are rejected", "statement": "computeCOMTraj and computeCOMTrajFixedSize throw before doing anything else iff the number of durations differs from the number of contacts.", "quantifier": "all sizes", "why_tests_cant": "unbounded sizes", "anchors": ["src/computeCOMTraj.cpp:computeCOMTraj", "src/computeCOMTraj.cpp:computeCOMTrajFixedSize"]}
{"id": "C29", "title": "Failure leaves a default result", "statement": "When the solver does not report success the returned result has success_ = false, cost_ = -1, an empty x and a default curve; when it does, x and cost are the solver's.", "quantifier": "all solver answers", "why_tests_cant": "all solver outcomes", "anchors": ["src/computeCOMTraj.cpp:genTraj", "src/solve_0_step.cpp:solve0step"]}
{"id": "C30", "title": "Zero-step trajectory stops", "statement": "A successful solve0step returns a curve starting at c0 with velocity dc0 and ending at x with zero velocity at T.", "quantifier": "all problems, durations and solver results", "why_tests_cant": "ranges over uncountably many real inputs; a test samples finitely many of them", "anchors": ["src/solve_0_step.cpp:computeC_of_T", "src/solve_0_step.cpp:solve0step"]}
{"id": "C31", "title": "Zero-step wrench waypoints", "statement": "ComputeAllWaypoints without discretisation returns the control points of the wrench of that curve; with a positive number of steps it returns its value at the N+1 equally spaced instants of [0,T].", "quantifier": "all c0,dc0,g,x,T > 0, timeStep", "why_tests_cant": "ranges over uncountably many real inputs; a test samples finitely many of them", "anchors": ["src/solve_0_step.cpp:w0..w4", "src/solve_0_step.cpp:ComputeAllWaypoints", "src/common_solve_methods.cpp:ComputeDiscretizedWaypoints"]}
{"id": "C32", "title": "Zero-step angular momentum is brought to zero", "statement": "The angular momentum derivative curve returned by solve0step is the derivative of a cubic momentum curve starting at l0 and ending at 0, and its constraint waypoints describe the same curve.", "quantifier": "all l0, xL, T > 0, t", "why_tests_cant": "ranges over uncountably many real inputs; a test samples finitely many of them", "anchors": ["src/solve_0_step.cpp:u0..u4", "src/solve_0_step.cpp:computedL_of_T"]}
{"id": "C33", "title": "Zero-step reported cost", "statement": "With angular momentum the reported cost is T times the integral of the squared norm of the momentum derivative, and the QP minimises it (plus the weighted distance) up to a constant; without it the cost is the distance from c0 to x.", "quantifier": "all l0, x", "why_tests_cant": "ranges over uncountably many real inputs; a test samples finitely many of them", "anchors": ["src/solve_0_step.cpp:computeRealCost", "src/solve_0_step.cpp:computeCostFunction"]}
{"id": "C34", "title": "Zero-step constraints guarantee equilibrium at every instant", "statement": "Any point satisfying the inequalities of compute6dControlPointInequalities (without discretisation) keeps the wrench (plus momentum derivative) in the gravito-inertial cone at every time in [0,T]; the kinematic rows bound x.", "quantifier": "all cones, masses, x, t", "why_tests_cant": "continuum of times", "anchors": ["src/common_solve_methods.cpp:compute6dControlPointInequalities"]}
{"id": "C35", "title": "Angular constraints are honoured by the zero-step problem", "statement": "When useAngularMomentum_ is set, points satisfying the assembled inequalities satisfy Ang*xL <= ang and Kin*x <= kin, and no row constrains anything else.", "quantifier": "all Kin,kin,Ang,ang", "why_tests_cant": "ranges over uncountably many real inputs; a test samples finitely many of them", "anchors": ["src/common_solve_methods.cpp:compute6dControlPointInequalities", "src/common_solve_methods.cpp:addAngularMomentum", "src/common_solve_methods.cpp:addKinematic"]}
{"id": "C36", "title": "Lower bounds passed to the solver", "statement": "A nonempty minBounds adds exactly the constraints x >= minBounds; an empty one adds nothing; A, b, D, d are passed with the right signs.", "quantifier": "all matrices, bounds and x", "why_tests_cant": "ranges over uncountably many real inputs; a test samples finitely many of them", "anchors": ["src/solver-abstract.cpp:addConstraintMinBoundQuadProg", "src/solver-abstract.cpp:solve"]}
{"id": "C37", "title": "Upper bounds passed to the solver", "statement": "A nonempty maxBounds adds exactly the constraints x <= maxBounds without accessing memory out of range.", "quantifier": "all matrices, bounds and x", "why_tests_cant": "ranges over uncountably many real inputs; a test samples finitely many of them", "anchors": ["src/solver-abstract.cpp:addConstraintMaxBoundQuadProg"]}
{"id": "C38", "title": "Meaning of success_ and cost_", "statement": "success_ is true iff the QP solver reports OPTIMAL; cost_ is then the objective value and otherwise -1; an unknown solver type throws.", "quantifier": "all inputs and solver outcomes", "why_tests_cant": "all solver outcomes", "anchors": ["src/solver-abstract.cpp:solve"]}
{"id": "C39", "title": "An OPTIMAL answer is feasible", "statement": "When the QP solver returns OPTIMAL the returned x satisfies all equalities exactly and all inequalities up to the solver's stated tolerance.", "quantifier": "all QPs with positive definite Hessian, any numbers of constraints, all executions", "why_tests_cant": "ranges over uncountably many real inputs; a test samples finitely many of them; the iteration history is unbounded", "anchors": ["src/eiquadprog-fast.cpp:solve_quadprog"]}
{"id": "C40", "title": "An OPTIMAL answer is optimal and its objective is reported", "statement": "When the QP solver returns OPTIMAL, no point satisfying the constraints has a lower objective than the returned x and getObjValue is the objective at x.", "quantifier": "all QPs with positive definite Hessian, all executions", "why_tests_cant": "ranges over uncountably many real inputs; a test samples finitely many of them", "anchors": ["src/eiquadprog-fast.cpp:solve_quadprog"]}
{"id": "C41", "title": "An infeasibility verdict is truthful", "statement": "When the QP solver returns UNBOUNDED (used for infeasible problems) no point satisfies all constraints.", "quantifier": "all QPs with positive definite Hessian, all executions", "why_tests_cant": "ranges over uncountably many real inputs; a test samples finitely many of them", "anchors": ["src/eiquadprog-fast.cpp:solve_quadprog"]}
{"id": "C42", "title": "The QP solver terminates", "statement": "solve_quadprog returns after finitely many steps, at most getMaxIter outer iterations, on every input.", "quantifier": "all QPs, all settings of the iteration limit", "why_tests_cant": "nontermination cannot be observed by a finite test", "anchors": ["src/eiquadprog-fast.cpp:solve_quadprog"]}
{"id": "C43", "title": "The QP solver stays in bounds", "statement": "solve_quadprog never reads or writes outside its work arrays.", "quantifier": "all QPs and executions", "why_tests_cant": "all executions, unbounded sizes", "anchors": ["src/eiquadprog-fast.cpp:solve_quadprog", "src/eiquadprog-fast.cpp:add_constraint", "src/eiquadprog-fast.cpp:delete_constraint"]}
{"id": "C44", "title": "Redundant equality verdict", "statement": "REDUNDANT_EQUALITIES is returned only when the equality normals are linearly dependent, and independent equalities are always accepted.", "quantifier": "all QPs", "why_tests_cant": "ranges over uncountably many real inputs; a test samples finitely many of them", "anchors": ["src/eiquadprog-fast.cpp:solve_quadprog", "src/eiquadprog-fast.cpp:add_constraint"]}
{"id": "C45", "title": "Solver object reuse", "statement": "The answer of solve_quadprog does not depend on which problems the same object solved before.", "quantifier": "all histories of calls", "why_tests_cant": "unbounded histories", "anchors": ["src/eiquadprog-fast.cpp:reset", "src/eiquadprog-fast.cpp:solve_quadprog"]}
{"id": "C46", "title": "LP loading is faithful and in bounds", "statement": "The wrapper loads exactly the nonzero coefficients of [A;D] at their positions with rows bounded above by b / fixed to d, and never overruns its buffers.", "quantifier": "all matrices of any size", "why_tests_cant": "unbounded sizes", "anchors": ["src/glpk-wrapper.cpp:solveglpk"]}
{"id": "C47", "title": "LP variable bounds", "statement": "The bound type given to each LP column admits exactly the values between its lower and upper bound, where |bound| >= 100000 means unbounded.", "quantifier": "all bounds and values", "why_tests_cant": "ranges over uncountably many real inputs; a test samples finitely many of them", "anchors": ["src/glpk-wrapper.cpp:getType"]}
{"id": "C48", "title": "End-effector constraint matrix", "statement": "The rows assembled by computeConstraintsMatrix say exactly that each variable-dependent acceleration, velocity and jerk control point is within its bound and that the height of each free point is at least min of the end heights; the matrix is exactly filled.", "quantifier": "all waypoint lists, bounds and x", "why_tests_cant": "ranges over uncountably many real inputs; a test samples finitely many of them; unbounded list lengths", "anchors": ["include/hpp/bezier-com-traj/solve_end_effector.hh:computeConstraintsMatrix"]}
{"id": "C49", "title": "End-effector cost functions", "statement": "computeDistanceCostFunction gives, for at least three samples and up to positive scaling and an additive constant, the sum of squared distances to the path samples; the discretised smoothness costs give the sum of squared derivative samples.", "quantifier": "all problems, paths, X", "why_tests_cant": "ranges over uncountably many real inputs; a test samples finitely many of them", "anchors": ["include/hpp/bezier-com-traj/solve_end_effector.hh:computeDistanceCostFunction, compute*CostFunctionDiscretized"]}
{"id": "C50", "title": "End-effector result curve", "statement": "A successful solveEndEffector returns a curve that satisfies all eight boundary conditions of its constraint set and interpolates the solver's free points as control points.", "quantifier": "all boundary data, T != 0, X", "why_tests_cant": "ranges over uncountably many real inputs; a test samples finitely many of them", "anchors": ["include/hpp/bezier-com-traj/solve_end_effector.hh:computeC_of_T", "include/hpp/bezier-com-traj/solve_end_effector.hh:solveEndEffector"]}
{"id": "C51", "title": "Python accessors", "statement": "x is readable from Python iff it is nonempty; setKinematicConstraints/setAngularConstraints throw and leave the object unchanged iff sizes differ; after a successful set of at least one row the getter returns what was set; a getter throws when there is nothing to return.", "quantifier": "all objects and arguments", "why_tests_cant": "all argument sizes and call sequences", "anchors": ["python/bezier_com_traj.cpp"]}
{"id": "C52", "title": "Contact data copies are independent", "statement": "addContact stores a copy: later modifications of the original contact phase do not affect the problem, and copying is defined for every object.", "quantifier": "all heaps and call sequences", "why_tests_cant": "aliasing depends on histories", "anchors": ["include/hpp/bezier-com-traj/data.hh:ContactData", "python/bezier_com_traj.cpp:addContact"]}
{"id": "C53", "title": "Symbolic waypoints mark exactly the free points as variable", "statement": "computeConstantWaypointsSymbolic returns the identity matrix for the free waypoint and the constant value for all others.", "quantifier": "all boundary data", "why_tests_cant": "ranges over uncountably many real inputs; a test samples finitely many of them", "anchors": ["src/waypoints_definition.cpp:computeConstantWaypointsSymbolic"]}
{"id": "C54", "title": "Cross product matrix", "statement": "skew(a)*b is the cross product of a and b, is antisymmetric, and vanishes when b is parallel to a.", "quantifier": "all vectors", "why_tests_cant": "ranges over uncountably many real inputs; a test samples finitely many of them", "anchors": ["src/utils.cpp:skew"]}
{"id": "C55", "title": "Bernstein basis", "statement": "For every degree n below 2^32-1 ComputeBersteinPolynoms(n) returns n+1 polynomials that are nonnegative on [0,1] and sum to one, so a curve stays in every half-space containing its control points.", "quantifier": "all degrees and t", "why_tests_cant": "unbounded degree, continuum of t", "anchors": ["src/utils.cpp:ComputeBersteinPolynoms"]}
{"id": "C56", "title": "End-to-end soundness of a successful trajectory", "statement": "If computeCOMTraj succeeds with the quadratic solver, the returned trajectory satisfies at every time (continuous) or sample (discretised) the kinematic, stability and acceleration constraints up to the solver tolerance.", "quantifier": "all problems and times", "why_tests_cant": "composition over a continuum of times and all solver executions", "anchors": ["src/computeCOMTraj.cpp:computeCOMTraj"]}
{"id": "C57", "title": "Waypoint arithmetic", "statement": "Adding, subtracting and scaling waypoints commutes with evaluating them at any x; operands of different sizes are rejected.", "quantifier": "all waypoints and x", "why_tests_cant": "ranges over uncountably many real inputs; a test samples finitely many of them", "anchors": ["src/utils.cpp:operator+,operator-,operator*"]}
{"id": "C58", "title": "A solution that exists is not cut off by the assembly", "statement": "If some x gives a trajectory satisfying all discretised constraints, the assembled system A x <= b has a solution (no spurious constraint is added).", "quantifier": "all problems", "why_tests_cant": "ranges over uncountably many real inputs; a test samples finitely many of them", "anchors": ["src/computeCOMTraj.cpp:computeConstraintsOneStep"]}
{"id": "C59", "title": "Lagrange multipliers and active set", "statement": "After OPTIMAL, the gradient of the objective at x is the combination of the normals of the active set (getActiveSet, first getActiveSetSize entries) with the entries of getLagrangeMultipliers; multipliers of inequalities are nonnegative and every active constraint holds with equality.", "quantifier": "all QPs with positive definite Hessian, all executions", "why_tests_cant": "ranges over uncountably many real inputs; a test samples finitely many of them", "anchors": ["src/eiquadprog-fast.cpp:solve_quadprog"]}
{"id": "C60", "title": "Zero-step planner end to end", "statement": "On a problem with one usable contact phase solve0step returns; on success the returned motion starts as required, stops, keeps the wrench (with the momentum derivative) in the cone, and is the best among all motions satisfying the constraints; on failure no motion satisfies them and the result is the default one.", "quantifier": "all problems with one contact phase, all durations and time steps, exact arithmetic", "why_tests_cant": "composition over a continuum of times and all solver executions", "anchors": ["src/solve_0_step.cpp:solve0step"]}
{"id": "C61", "title": "GLPK front end end to end", "statement": "solve with the GLPK solver returns success exactly when the linear constraints and bounds are feasible and the linear cost is bounded on them, and then x satisfies them and minimises the linear cost.", "quantifier": "all matrices, vectors and bounds", "why_tests_cant": "ranges over uncountably many real inputs; a test samples finitely many of them; all problem sizes", "anchors": ["src/solver-abstract.cpp:solve", "src/glpk-wrapper.cpp:solveglpk"]}
{"id": "C62", "title": "Zero-step planner from Python", "statement": "zeroStepCapturability and its variant with kinematic constraints return, for a usable equilibrium object, a motion that starts with the given position and velocity, stops at the end of the duration, keeps the wrench in the cone at every instant (continuous formulation) and, when kinematic constraints are given, stops at a point that satisfies them; mismatched constraint sizes are never accepted.", "quantifier": "all equilibrium objects, states, durations and constraints, exact arithmetic", "why_tests_cant": "composition over a continuum of times and all solver executions", "anchors": ["python/bezier_com_traj.cpp:zeroStepCapturability, zeroStepCapturabilityWithKinConstraints"]}
{"id": "C63", "title": "Velocity cost of the jerk sets", "statement": "For the three sets with jerks, computeVelocityCost gives, up to a positive factor and an additive constant, the integral of the squared velocity of the curve over its duration, to the precision of the decimals written in the source.", "quantifier": "all boundary data, durations T > 0, constant waypoints and free points", "why_tests_cant": "ranges over uncountably many real inputs; a test samples finitely many of them; the integral is over a continuum of times", "anchors": ["src/waypoints_definition.cpp:computeVelocityCost", "include/hpp/bezier-com-traj/waypoints/waypoints_c0_dc0_ddc0_j0_*_j1_ddc1_dc1_c1.hh:computeVelocityCost"]}
{"id": "C64", "title": "End-effector planner end to end", "statement": "For the three sets with jerks solveEndEffector returns for each T > 0 and each weight in [0,1]; on success the curve meets the boundary conditions, the control points of its derivatives that the library reports and that depend on the free points are within the bounds, the free points are not below the lower end, and its cost is the least among such curves; hence, when the control points imposed by the boundary conditions are within the bounds too, its velocity and its jerk are within 10000 and its height is not below the lower end at every instant (from Python: its integrated squared velocity, to the precision of the decimals); on failure no curve satisfies the constraints and the result is the default one.", "quantifier": "all boundary data, paths, durations, weights and contents of the initial guess, exact arithmetic", "why_tests_cant": "composition over a continuum of times and all solver executions", "anchors": ["include/hpp/bezier-com-traj/solve_end_effector.hh:solveEndEffector", "python/bezier_com_traj.cpp:computeEndEffector"]}
{"id": "C65", "title": "Sparse variant of the quadratic solver", "statement": "solve_quadprog_sparse with a positive definite Hessian returns OPTIMAL exactly with the solution of the problem solved by solve_quadprog.", "quantifier": "all QPs with positive definite sparse Hessian, all executions", "why_tests_cant": "ranges over uncountably many real inputs; a test samples finitely many of them", "anchors": ["src/eiquadprog-fast.cpp:solve_quadprog_sparse"]}
{"id": "C66", "title": "Factor of the Hessian provided by the caller", "statement": "With is_inverse_provided_ set and m_J holding a factor of the inverse of the Hessian, solve_quadprog gives the same answer as when it computes the factor itself.", "quantifier": "all QPs, factors, tolerances and states of the solver object", "why_tests_cant": "ranges over uncountably many real inputs; a test samples finitely many of them; sequences of calls on one object", "anchors": ["src/eiquadprog-fast.cpp:solve_quadprog (OPTIMIZE_UNCONSTR_MINIM, is_inverse_provided_)", "include/hpp/bezier-com-traj/solver/eiquadprog-fast.hpp:m_J,is_inverse_provided_"]}
{"id": "C67", "title": "Solver object over sequences of calls", "statement": "After any sequence of solve_quadprog calls of any sizes and setMaxIter calls, a solver object answers as a new one with the same iteration limit, and getActiveSetSize is the size of the active set of the last call.", "quantifier": "all call sequences, problem sizes, tolerances and contents of the work arrays", "why_tests_cant": "unbounded call sequences over all problems", "anchors": ["src/eiquadprog-fast.cpp:solve_quadprog,reset", "include/hpp/bezier-com-traj/solver/eiquadprog-fast.hpp:setMaxIter,getActiveSetSize"]}
{"id": "C68", "title": "Comparison of waypoints", "statement": "On waypoints of the same sizes == is reflexive and symmetric and != is its negation; isApprox answers whether both parts differ by at most prec times the smaller of the two norms; only a zero waypoint equals a zero waypoint; == is not transitive. Matrices of different sizes violate an assertion.", "quantifier": "all waypoints and precisions", "why_tests_cant": "ranges over uncountably many real inputs; a test samples finitely many of them", "anchors": ["include/hpp/bezier-com-traj/utils.hh:waypoint_t::isApprox,operator==,operator!="]}
{"id": "C69", "title": "Qhull file", "statement": "printQHullFile writes a file that announces as many half spaces as it contains; they describe A x <= b enlarged by 0.001, cut at heights -1 and 3 when asked; an interior point with A x <= b meets what Qhull requires.", "quantifier": "all constraint systems and points", "why_tests_cant": "ranges over uncountably many real inputs; a test samples finitely many of them; all numbers of rows", "anchors": ["src/utils.cpp:printQHullFile"]}
{"id": "C70", "title": "Predefined departure and arrival of the end effector", "statement": "The curve with computeConstantWaypointsInitPredef starts with the given position, velocity and acceleration and with zero jerk; the one with computeConstantWaypointsGoalPredef ends with the given position, velocity and acceleration and with zero jerk; both join the given positions.", "quantifier": "all boundary data and T > 0", "why_tests_cant": "ranges over uncountably many real inputs; a test samples finitely many of them", "anchors": ["include/hpp/bezier-com-traj/solve_end_effector.hh:computeConstantWaypointsInitPredef,computeConstantWaypointsGoalPredef"]}
{"id": "C71", "title": "Inactive constraints", "statement": "Without equalities, when the minimiser of the objective satisfies the inequalities, solve_quadprog returns it with status OPTIMAL and its objective, whatever the value of epsilon and the contents of the work arrays, with any limit of at least two iterations.", "quantifier": "all QPs with positive definite Hessian, all thresholds", "why_tests_cant": "ranges over uncountably many real inputs; a test samples finitely many of them", "anchors": ["src/eiquadprog-fast.cpp:solve_quadprog"]}
{"id": "C72", "title": "The planner keeps the best motion", "statement": "For the five constraint sets whose wrench coefficients are written exactly: if the motion of least cost meets the requirements at all samples, computeCOMTrajFixedSize and computeCOMTraj with a time step succeed and return exactly this motion, whatever the value of epsilon.", "quantifier": "all accepted problems, numbers of phases, numbers of points and time steps, all thresholds", "why_tests_cant": "ranges over uncountably many real inputs; a test samples finitely many of them; composition of all parts of the planner", "anchors": ["src/computeCOMTraj.cpp:computeCOMTraj,computeCOMTrajFixedSize"]}
{"id": "C73", "title": "Time discretisation with rounded arithmetic", "statement": "With every floating-point result rounded to a relative error u, computeDiscretizedTime with a positive step terminates; phase by phase its samples increase from the rounded start to the rounded end of the phase with no step longer than asked up to rounding, and the rounded ends are within the expected factors of the exact ones. computeDiscretizedTimeFixed returns the same number of samples and phases as in exact arithmetic, each sample within one rounding per sample before it, the last one being the computed total.", "quantifier": "all durations, steps, numbers of points, all rounding functions with relative error u", "why_tests_cant": "ranges over uncountably many real inputs; a test samples finitely many of them; termination cannot be observed by a test", "anchors": ["src/utils.cpp:computeDiscretizedTime,computeDiscretizedTimeFixed"]}
{"id": "C74", "title": "Total duration of the continuous formulation", "statement": "The continuous formulation answers for every vector of durations: the end of each phase, accumulated with rounding, stays within the total duration.", "quantifier": "all durations, all roundings and summation orders", "why_tests_cant": "ranges over uncountably many real inputs; a test samples finitely many of them; depends on the last bit of sums", "anchors": ["src/computeCOMTraj.cpp:computeConstraintsContinuous"]}
{"id": "C75", "title": "Zero-step planner with the thresholds of the solver", "statement": "For every epsilon that is small compared to the data (mass, gravity, initial state, duration, kinematic rows): solve0step returns, and a successful result starts as required, stops, and its wrench (with the momentum derivative) satisfies each inequality of the cone up to the norm of the row times 900 (216018 with angular momentum) times epsilon times the number of rows, at every instant without discretisation and at the samples with a time step; without angular momentum the end point satisfies the kinematic constraints up to that number. If stopping at the initial position is admissible, it succeeds and stops there, for every epsilon.", "quantifier": "all problems with one contact phase, all durations and time steps, all thresholds", "why_tests_cant": "composition over a continuum of times and all solver executions", "anchors": ["src/solve_0_step.cpp:solve0step"]}
{"id": "C76", "title": "End-effector planner with the thresholds of the solver", "statement": "For every epsilon that is small compared to the data (influence of the free points on the control points of the derivatives, curvature of the cost): solveEndEffector returns, and a successful result meets the boundary conditions and the velocity, acceleration and jerk control points the library reports and the heights of the free points satisfy their bounds up to an explicit multiple of epsilon. If the free points of least cost satisfy the constraints, it succeeds with them, for every epsilon.", "quantifier": "all boundary data, paths, durations, weights in [0,1], contents of the initial guess, all thresholds", "why_tests_cant": "composition over all solver executions", "anchors": ["include/hpp/bezier-com-traj/solve_end_effector.hh:solveEndEffector"]}
{"id": "C77", "title": "Planner with the set that has jerks", "statement": "computeCOMTrajFixedSize accepts the constraint set with jerks (255). Its assembly stays in bounds, but the kinematic rows constrain c(t) + (1-t/T)^8 (c1-c0) and the acceleration rows c''(t) + 56/T^2 (1-t/T)^6 (c1-c0), not the curve: the planner succeeds iff this system has a solution, and can succeed with a start outside the kinematic polytope.", "quantifier": "all problems with this set, x, samples", "why_tests_cant": "ranges over uncountably many real inputs; a test samples finitely many of them", "anchors": ["src/computeCOMTraj.cpp:computeConstraintsOneStep,computeCOMTrajFixedSize", "include/hpp/bezier-com-traj/waypoints/waypoints_c0_dc0_ddc0_j0_j1_ddc1_dc1_c1.hh:evaluateCurveAtTime,evaluateAccelerationCurveAtTime"]}
{"id": "C78", "title": "When the cost is strictly convex", "statement": "The Hessian handed to the solver is positive definite for DISTANCE_TRAVELED and, for ACCELERATION, with every constraint set but c0_dc0_ddc0_ddc1_dc1_c1, whatever the samples. With this set it is iff some sample is neither the first instant, nor the last, nor one of the two instants where the acceleration does not depend on the free point; with one phase and one point per phase it is zero.", "quantifier": "all accepted problems, discretisations and numbers of further variables", "why_tests_cant": "ranges over uncountably many real inputs; a test samples finitely many of them", "anchors": ["src/costfunction_definition.cpp:computeCostMinAcceleration,computeCostMidPoint", "src/computeCOMTraj.cpp:genCostFunction"]}
{"id": "C79", "title": "Verdict of the QP solver when some point satisfies the inequalities with a margin", "statement": "For a problem in which some point satisfies every inequality with a margin m that is large compared to the threshold (64 maxIter^2 Lam eps F <= lam m^2, F bounding how far the objective there is from its least value, lam and Lam the curvature), solve_quadprog returns OPTIMAL or, having used up its iterations, MAX_ITER_REACHED; it never returns UNBOUNDED. An OPTIMAL answer satisfies the inequalities up to the tolerance of the code and no feasible point is better by more than 8 maxIter^2 Lam eps F^2 / (lam m^2). The rows may be dependent or nearly so. With equalities whose normals are independent by more than the threshold, and which that point satisfies, the same holds; the status is never REDUNDANT_EQUALITIES, and the answer satisfies the equalities.", "quantifier": "all dimensions, strictly convex objectives, lists of inequalities and of independent equalities, thresholds and iteration limits", "why_tests_cant": "ranges over uncountably many real inputs; a test samples finitely many of them", "anchors": ["include/hpp/bezier-com-traj/solver/eiquadprog-fast.hpp", "src/eiquadprog-fast.cpp:solve_quadprog"]}
{"id": "C80", "title": "The planners succeed on problems with a margin", "statement": "With the thresholds of the solver as they are: if some motion meets the requirements at the samples (continuous formulation: the rows) with a margin that is large compared to the threshold and the cost of that motion, computeCOMTrajFixedSize and computeCOMTraj return with success_, or the QP solver answered MAX_ITER_REACHED on the assembled problem; the cost of the returned motion exceeds that of every admissible motion by at most an amount proportional to the threshold.", "quantifier": "all accepted problems in double description, both costs, all discretisations; for the two sets with rounded coefficients the requirements are those of the motion up to an explicit error", "why_tests_cant": "ranges over uncountably many real inputs; a test samples finitely many of them", "anchors": ["src/computeCOMTraj.cpp:computeCOMTraj,computeCOMTrajFixedSize", "src/solver-abstract.cpp:solve", "src/eiquadprog-fast.cpp:solve_quadprog"]}
{"id": "C81", "title": "Boundary conditions with rounded arithmetic", "statement": "With every floating-point operation rounded to a relative error u (11 u < 1), the constant waypoints of each constraint set give, for any free points, a curve that starts and ends exactly at the requested positions and whose velocities, accelerations and jerks at both ends differ from the requested ones by at most gamma(3), gamma(7), gamma(11) times the size of the terms involved (gamma(n) = n u / (1 - n u)); with u = 0 the waypoints are those of exact arithmetic. The curve returned by computeBezierCurve has these properties.", "quantifier": "all sets, boundary data, T > 0, free points, all relative errors u and all ways to round each operation", "why_tests_cant": "ranges over uncountably many real inputs; a test samples finitely many of them; all roundings", "anchors": ["include/hpp/bezier-com-traj/waypoints/waypoints_*.hh:computeConstantWaypoints", "include/hpp/bezier-com-traj/utils.hh:computeBezierCurve"]}
{"id": "C82", "title": "Coefficients of position, acceleration and final velocity with rounded arithmetic", "statement": "With every floating-point operation rounded to a relative error u (30 u < 1): evaluateCurveAtTime and evaluateAccelerationCurveAtTime for a time in [0,1] give the point and the acceleration of the curve on the given control points up to gamma(30) times 3^n M and 4 n (n-1) 3^(n-2) M / T^2, where M bounds the control points and n is the degree; computeFinalVelocityPoint gives the final velocity up to gamma(3) times 2 n M / T.", "quantifier": "the seven CoM sets, all control points, free points, times, durations, all relative errors u", "why_tests_cant": "ranges over uncountably many real inputs; a test samples finitely many of them; all roundings", "anchors": ["src/waypoints_definition.cpp:evaluateCurveAtTime,evaluateAccelerationCurveAtTime,computeFinalVelocityPoint"]}
{"id": "C83", "title": "Points read by the queries", "statement": "evaluateCurveAtTime, evaluateAccelerationCurveAtTime and the evaluate*WaypointAtTime functions return for every vector that holds all constant control points of the curve and read out of range for every shorter one; the answer does not depend on what the vector holds in the place of the free points.", "quantifier": "all sets, vectors of points, durations and times", "why_tests_cant": "ranges over uncountably many real inputs; a test samples finitely many of them; all lengths", "anchors": ["src/waypoints_definition.cpp:evaluateCurveAtTime,evaluateAccelerationCurveAtTime,evaluateCurveWaypointAtTime,evaluateVelocityCurveWaypointAtTime,evaluateAccelerationCurveWaypointAtTime,evaluateJerkCurveWaypointAtTime"]}
{"id": "C84", "title": "Final velocity in the headers of the sets with jerks", "statement": "computeFinalVelocityPoint of the three headers with jerks gives the velocity of the curve at the end of its duration.", "quantifier": "all boundary data and T != 0", "why_tests_cant": "ranges over uncountably many real inputs; a test samples finitely many of them", "anchors": ["include/hpp/bezier-com-traj/waypoints/waypoints_c0_dc0_ddc0_j0_*_j1_ddc1_dc1_c1.hh:computeFinalVelocityPoint"]}
{"id": "C85", "title": "An end effector asked to stay where it is", "statement": "With the same position at both ends and all derivatives zero, solveEndEffector succeeds, whatever the position, the duration, the path and its weight.", "quantifier": "the three sets with jerks, all positions, durations, paths and weights in [0,1]", "why_tests_cant": "ranges over uncountably many real inputs; a test samples finitely many of them", "anchors": ["include/hpp/bezier-com-traj/solve_end_effector.hh:solveEndEffector", "src/waypoints_definition.cpp:computeAccelerationWaypoints", "include/hpp/bezier-com-traj/waypoints/waypoints_c0_dc0_ddc0_j0_x3_j1_ddc1_dc1_c1.hh:computeAccelerationWaypoints"]}
{"id": "C86", "title": "The QP solver in any arithmetic", "statement": "Whatever the results of the floating-point operations (rounding, order of summation, overflow, NaN), as long as zero compares as zero and add_constraint refuses no inequality that was selected with |z.z| > eps, solve_quadprog reads and writes inside its arrays and returns after at most nEqCon + 2 + maxIter (n + 3) passes.", "quantifier": "all number types and operations, all problems with at most n equalities, all contents of the work arrays", "why_tests_cant": "ranges over uncountably many real inputs; a test samples finitely many of them; all roundings; termination cannot be observed by a test", "anchors": ["src/eiquadprog-fast.cpp:solve_quadprog,add_constraint,delete_constraint"]}
{"id": "C87", "title": "The QP solver with rounded arithmetic and well-scaled data", "statement": "With every operation rounded to a relative error u and every sum to g times the sum of the absolute values, and data small compared to 1/eps (2 eps N max(1, 2 N B) <= 1, N bounding the squares of the inverse Cholesky factor and B the squared norms of the rows) and to the number of passes, no inequality is ever refused, so solve_quadprog stays in its arrays and returns.", "quantifier": "all problems, roundings, orders of summation, results of the triangular solver, iteration limits", "why_tests_cant": "ranges over uncountably many real inputs; a test samples finitely many of them; all roundings", "anchors": ["src/eiquadprog-fast.cpp:solve_quadprog,add_constraint,delete_constraint,distance"]}
{"id": "C88", "title": "Meaning of OPTIMAL with rounded arithmetic", "statement": "Under the conditions of C87, when solve_quadprog returns OPTIMAL, every inequality outside the returned active set holds up to the tolerance of the code and the rounding of one evaluation. If the smallest singular value of the inverse Cholesky factor is large compared with the rounding errors, the iterates stay in a ball of radius X and the directions of the equalities pass the test of the code, which they do when the normals of the equalities are independent by an explicit margin, then the equalities and the inequalities of the active set hold up to an explicit multiple of the rounding errors.", "quantifier": "all problems, roundings, orders of summation, iteration limits", "why_tests_cant": "ranges over uncountably many real inputs; a test samples finitely many of them; all roundings", "anchors": ["src/eiquadprog-fast.cpp:solve_quadprog"]}
{"id": "C89", "title": "NaN is not reported", "statement": "If a coordinate of the unconstrained minimiser is NaN, solve_quadprog returns OPTIMAL (REDUNDANT_EQUALITIES if an equality is refused) with this coordinate NaN, whatever the constraints, even if no point satisfies them.", "quantifier": "all problems, all arithmetics in which NaN compares as false and is propagated", "why_tests_cant": "ranges over uncountably many real inputs; a test samples finitely many of them; all constraints", "anchors": ["src/eiquadprog-fast.cpp:solve_quadprog"]}
{"id": "C90", "title": "Planner with a solver that rounds", "statement": "The constraints of computeCOMTraj, on samples or continuous, in double description, are passed to solve_quadprog with rounded arithmetic (C87, C88), every row known up to an error rho, with any factor of the Hessian that is well scaled. The solver returns; success_ is set exactly when it returns OPTIMAL; a curve returned with success_ meets the boundary conditions exactly, and the kinematic and wrench constraints at every sample (at every instant in the continuous formulation, for data with no constant waypoint at the origin) up to an explicit tolerance made of the tolerance of the code, the rounding errors times the radius of the iterates, and rho.", "quantifier": "all accepted problems, seven constraint sets, all roundings, all factors, all iteration limits", "why_tests_cant": "ranges over uncountably many real inputs; a test samples finitely many of them; all roundings", "anchors": ["src/eiquadprog-fast.cpp:solve_quadprog", "src/computeCOMTraj.cpp:computeCOMTraj"]}
{"id": "C91", "title": "Fields that are not selected have no influence", "statement": "computeCOMTraj and computeCOMTrajFixedSize have the same outcome on two problems that agree on the boundary values selected by the flags, on mass, gravity and the description of the admissible wrenches used by the representation, on the kinematic constraints and on the options: the other boundary values, the angular momentum data and the other description are not read; the one exception is the cost DISTANCE_TRAVELED, which reads c0 and c1 even if they are not selected. solve0step reads, besides the contact, c0 and dc0, and l0 (which no constructor initialises) only when the angular momentum is used.", "quantifier": "all pairs of problems, durations, steps, solvers, library behaviours", "why_tests_cant": "The claim is about pairs of runs, on every pair of real data", "anchors": ["src/computeCOMTraj.cpp:computeCOMTraj,computeCOMTrajFixedSize", "src/solve_0_step.cpp:solve0step", "include/hpp/bezier-com-traj/data.hh:ProblemData"]}
{"id": "C92", "title": "Number of free variables", "statement": "dimVar returns three times the largest of 5, 4, 3, 2 whose flag is set and 3 if none is; for every set of constraints of the library this is the number of coordinates of the unknown.", "quantifier": "all 2^32 values of the flags", "why_tests_cant": "2^32 values of the flags", "anchors": ["src/waypoints_definition.cpp:dimVar"]}
{"id": "C93", "title": "Zero step and end effector planners with a solver that rounds", "statement": "solve0step and solveEndEffector with solve_quadprog in rounded arithmetic, every row of the constraints known up to an error rho, with any factor of the Hessian that is well scaled. The solver returns; success is set exactly when it returns OPTIMAL; otherwise the result is the default one. A trajectory returned by solveEndEffector with success meets the boundary conditions exactly and the velocity, acceleration and jerk bounds up to an explicit tolerance; one returned by solve0step starts at c0 with velocity dc0, ends at rest, and its wrenches are admissible at every instant (at every sample if time_step is in (0, T]) up to the tolerance.", "quantifier": "all boundary data, contacts, durations, roundings, factors, iteration limits", "why_tests_cant": "ranges over uncountably many real inputs; a test samples finitely many of them; all roundings", "anchors": ["src/eiquadprog-fast.cpp:solve_quadprog", "src/solve_0_step.cpp:solve0step", "include/hpp/bezier-com-traj/solve_end_effector.hh:solveEndEffector"]}
{"id": "C94", "title": "Planner on samples with everything rounded", "statement": "In computeCOMTraj with a discretisation in time, for the five sets of conditions whose wrench is exact, let every operation that computes waypoints, wrenches, polytope rows, kinematic and acceleration rows, norms and right-hand sides be rounded to a relative error u (sums in any order). There are C and u0 that depend on the data only such that for u <= u0 the assembly returns a system in three unknowns, and if a point satisfies the computed rows up to delta, the curve built from this point and the computed waypoints meets the boundary conditions up to rounding (C81) and the kinematic, wrench and acceleration constraints at every sample up to a multiple of delta plus C u (1 + |x|). With the solver of C88 this holds for the curve that is returned when the solver answers OPTIMAL.", "quantifier": "all accepted problems, five constraint sets, all discretisations, all roundings, all points", "why_tests_cant": "ranges over uncountably many real inputs; a test samples finitely many of them; all roundings", "anchors": ["src/computeCOMTraj.cpp:computeDiscretizedWwaypoints,dynamicStabilityConstraints,updateH,assignStabilityConstraints,assignKinematicConstraints,assignAccelerationConstraints,computeConstraintsOneStep", "src/waypoints_definition.cpp:computeWwaypoints", "src/common_solve_methods.cpp:Normalize"]}
{"id": "C95", "title": "Rows computed with rounding keep motions with a margin", "statement": "In computeCOMTraj with a discretisation in time, for the five sets of conditions whose wrench is exact, let every operation of computeConstraintsOneStep be rounded to a relative error u as in C94. There are C and u0 that depend on the data only such that for u <= u0, if a motion of the planner with free point x meets the kinematic, wrench and acceleration constraints at every sample with a margin of C u (1 + |x|), then x satisfies all rows that are computed, without tolerance. In particular the computed system is feasible whenever some motion meets the requirements with a margin.", "quantifier": "all accepted problems, five constraint sets, all discretisations, all roundings, all motions", "why_tests_cant": "ranges over uncountably many real inputs; a test samples finitely many of them; all roundings", "anchors": ["src/computeCOMTraj.cpp:computeDiscretizedWwaypoints,dynamicStabilityConstraints,updateH,assignStabilityConstraints,assignKinematicConstraints,assignAccelerationConstraints,computeConstraintsOneStep", "src/waypoints_definition.cpp:computeWwaypoints", "src/common_solve_methods.cpp:Normalize"]}
{"id": "C96", "title": "A solver that rounds does not reject a problem with a margin", "statement": "solve_quadprog with rounded arithmetic and well-scaled data, with equalities whose normals are far enough from dependent, or none: if some point of a ball satisfies the equalities up to eta and every inequality with a margin that exceeds an explicit multiple of the rounding errors of eta and of the square root of the threshold eps, the solver returns OPTIMAL or MAX_ITER_REACHED: never UNBOUNDED, the status by which it reports that no point satisfies the constraints, nor REDUNDANT_EQUALITIES. For computeCOMTraj on samples: if some motion meets the requirements with such a margin the run ends with success_ or with MAX_ITER_REACHED, and with success_ the curve meets the requirements up to the tolerance of C90. The rows may be dependent or nearly so, and many.", "quantifier": "all roundings, all numbers of inequalities, all well-scaled problems, all accepted planner problems with one of the five exact sets", "why_tests_cant": "ranges over uncountably many real inputs; a test samples finitely many of them; all roundings", "anchors": ["src/eiquadprog-fast.cpp:solve_quadprog,add_constraint,delete_constraint,update_z,update_r", "src/computeCOMTraj.cpp:computeCOMTraj"]}
{"id": "C97", "title": "The point returned by a solver that rounds is nearly optimal", "statement": "solve_quadprog with rounded arithmetic and well-scaled data, with equalities whose normals are far enough from dependent, or none, with Cholesky factors accurate up to given errors: when it returns OPTIMAL and the returned Lagrange multipliers of the inequalities are at least -delta, the objective at the returned point exceeds the objective at any point that satisfies the constraints by at most an explicit sum of multiples of the rounding errors, of delta, of the errors of the Cholesky factors and of the square root of the threshold eps. For computeCOMTraj on samples: with success_, no motion that meets the requirements, with a margin for the rounding of the rows, costs less than the returned one by more than that.", "quantifier": "all roundings, all numbers of inequalities, all well-scaled problems, all accepted planner problems with one of the five exact sets", "why_tests_cant": "ranges over uncountably many real inputs; a test samples finitely many of them; all roundings", "anchors": ["src/eiquadprog-fast.cpp:solve_quadprog,add_constraint,delete_constraint,update_z,update_r,getLagrangeMultipliers", "src/computeCOMTraj.cpp:computeCOMTraj,genCostFunction"]}
{"id": "C98", "title": "The objective reported by a solver that rounds is the objective at the returned point", "statement": "solve_quadprog with rounded arithmetic and well-scaled data, with equalities whose normals are far enough from dependent, or none, with Cholesky factors accurate up to given errors: whatever status it returns, the objective value it reports, which is accumulated step by step from the step lengths and multipliers, differs from the objective evaluated at the returned point by at most an explicit sum of multiples of the rounding errors, of the errors of the Cholesky factors and of the square root of the threshold eps. For computeCOMTraj on samples: with success_, twice the reported cost_ is the cost of the returned motion less the cost of the motion with the free point at 0, up to that.", "quantifier": "all roundings, all numbers of inequalities, all well-scaled problems, all statuses, all accepted planner problems with one of the five exact sets", "why_tests_cant": "ranges over uncountably many real inputs; a test samples finitely many of them; all roundings", "anchors": ["src/eiquadprog-fast.cpp:solve_quadprog", "src/computeCOMTraj.cpp:computeCOMTraj,genTraj,genCostFunction"]}
{"id": "C99", "title": "The planner with force variables and a solver that rounds", "statement": "computeCOMTraj with the force formulation (forces as variables, continuous formulation) and solve_quadprog with rounded arithmetic and rows known up to rho: the solver ends with a status, and when it reports success_ the curve meets the boundary conditions, at all times of every phase the wrench of the robot differs from a non-negative combination of the generators by at most the mass times an explicit tolerance, the kinematic constraints and the bound on the acceleration hold up to it. The tolerance is a multiple of the rounding errors and of rho. The force variables exist only at the control points of the wrench: the statement is about all times. For the sets with rounded decimals the error of the coefficients is added. The hypotheses on the solver follow from the data: when the generators of every phase span the space of wrenches, they are met by every small enough threshold, rounding unit and rho.", "quantifier": "all accepted problems with nested phases and one of the seven sets, all roundings, all numbers of generators, all times", "why_tests_cant": "ranges over uncountably many real inputs; a test samples finitely many of them; all roundings; all times", "anchors": ["src/eiquadprog-fast.cpp:solve_quadprog", "src/computeCOMTraj.cpp:computeCOMTraj,genTraj,genCostFunction,computeConstraintsContinuous", "src/solver-abstract.cpp:solve,addConstraintMinBoundQuadProg"]}
{"id": "C100", "title": "The zero step planner and the end effector planner succeed on problems with a margin", "statement": "With the thresholds of the solver as they are. solve0step without angular momentum and with a time step: if the robot can stop at some point where the kinematic constraints hold with a margin, with a wrench at the samples that keeps the same distance from the border of the cone, and the margin is large compared to the threshold and the distance of that point to c0, then solve0step returns with success_, or the QP solver answered MAX_ITER_REACHED on the assembled problem; the motion is admissible up to the tolerance, and the square of the returned cost exceeds the squared distance of every admissible stop by at most an amount proportional to the threshold. solveEndEffector: the same when some free points keep the constraints with a margin; the rows of zeros that the code adds do not need one.", "quantifier": "all problems with one usable contact phase, all durations and time steps; all boundary data, paths, durations and weights of the three sets with jerks; all thresholds", "why_tests_cant": "ranges over uncountably many real inputs; a test samples finitely many of them", "anchors": ["src/solve_0_step.cpp:solve0step", "include/hpp/bezier-com-traj/solve_end_effector.hh:solveEndEffector,computeConstraintsMatrix", "src/solver-abstract.cpp:solve", "src/eiquadprog-fast.cpp:solve_quadprog"]}
{"id": "C101", "title": "ProblemData and Constraints objects of a Python session", "statement": "In a Python session with any number of ProblemData and Constraints objects: a setter changes the value it names, of the object it names, to the given value, and nothing else; a getter returns the current value and changes nothing; an out-of-range flag_ raises OverflowError and changes nothing. p.constraints_ is a reference: as long as p lives, reading through it gives the values with which the planner is called on p; assigning to p.constraints_ copies. addContact makes the problem see the current value of the contact after those it saw, clearContacts empties it, nothing else changes the contacts a problem sees, in particular nothing done to another problem. When a planner is called, every contact phase of the problem exists, the jerks are zero, l0_ is uninitialised, and every other member is what Python reads; computeCOMTraj does not depend on l0_. After any session a command returns or raises; its behaviour is undefined exactly when it changes an Equilibrium that was destroyed, adds a contact whose phase is null or destroyed, or uses a reference to the constraints_ of a problem that was deleted (the reference does not keep the problem alive).", "quantifier": "all sessions, all commands, all numbers of objects, all growth policies of the vector", "why_tests_cant": "Sessions are unbounded sequences of commands on any number of objects", "anchors": ["python/bezier_com_traj.cpp:get_Flag,set_Flag,get_ConstrainAcc,set_ConstrainAcc,get_MaxAcc,set_MaxAcc,get_ReduceH,set_ReduceH,get_c0_,set_c0_,get_useAngularMomentum_,set_useAngularMomentum_,get_costFunction_,set_costFunction_,get_GIWC_representation_,set_GIWC_representation_,get_constraints_,set_constraints_,addContact,clearContacts", "include/hpp/bezier-com-traj/data.hh:ProblemData,Constraints,ContactData"]}
{"id": "C102", "title": "The planner with force variables succeeds on problems with a margin", "statement": "computeCOMTraj with the force formulation and the thresholds of the solver as they are: if some motion and some contact forces at the control points satisfy the equations of motion, and the kinematic and acceleration rows and the signs of the forces with a margin that is large compared to the threshold and the cost of that motion and those forces, the call returns with success_, or the QP solver answered MAX_ITER_REACHED on the assembled problem (never UNBOUNDED or REDUNDANT_EQUALITIES). After success_ the equations hold exactly, the rows and signs up to the tolerance, the curve meets the boundary conditions, at all times the wrench is close to the cone of the phase, and the cost exceeds that of every motion with forces that satisfies all constraints by at most an amount proportional to the threshold. When the generators of every phase span the space of wrenches and a motion with forces has some margin, every small enough threshold is covered.", "quantifier": "all accepted problems with force variables, both costs, all thresholds and iteration limits", "why_tests_cant": "ranges over uncountably many real inputs; a test samples finitely many of them", "anchors": ["src/computeCOMTraj.cpp:computeCOMTraj,computeConstraintsContinuous", "src/solver-abstract.cpp:solve,addConstraintMinBoundQuadProg", "src/eiquadprog-fast.cpp:solve_quadprog"]}
{"id": "C103", "title": "The zero step planner with angular momentum, with and without a time step, on problems with a margin", "statement": "The inequalities of solve0step, with or without angular momentum (then without kinematic constraints), hold at a point exactly when the motion it stands for satisfies the kinematic constraints and its wrench is in the cone: at the samples with a time step, at its five control points without. With the thresholds of the solver as they are: if some such motion satisfies the constraints with a margin that is large compared to the threshold and to how far its cost is from the least cost without constraints, solve0step returns with success_, or the QP solver answered MAX_ITER_REACHED on the assembled problem; the returned motion is admissible up to the tolerance (at every instant without a time step), and its cost (the integral of the squared norm of the derivative of the momentum plus 0.0001 times the squared distance from c0, or the squared distance) exceeds that of every admissible motion by at most an amount proportional to the threshold.", "quantifier": "all problems with one usable contact phase, all durations and time steps, with and without angular momentum, all thresholds", "why_tests_cant": "ranges over uncountably many real inputs; a test samples finitely many of them", "anchors": ["src/solve_0_step.cpp:solve0step,computeCostFunction,ComputeAllWaypoints,ComputeAllWaypointsAngularMomentum", "src/common_solve_methods.cpp:compute6dControlPointInequalities", "src/solver-abstract.cpp:solve", "src/eiquadprog-fast.cpp:solve_quadprog"]}
{"id": "C104", "title": "The unused variant of the stability rows reads memory that was never assigned", "statement": "dynamicStabilityConstraints_cross, called with at least one inequality, normalises a matrix whose fourth column has not been assigned yet: its behaviour is undefined whatever the arguments. If reading that memory is harmless, then whatever it contained: there is one row per inequality, the coefficient of the slack variable is one, and with a zero slack the rows hold exactly when the wrench of the position and acceleration (affine in the unknown) satisfies every inequality of the polytope; but the amount of slack a row allows depends on the previous contents of the memory.", "quantifier": "all inequality systems, gravities, affine positions and accelerations, all contents of the memory", "why_tests_cant": "The function has no caller and no declaration in a header, and a test would see whatever the allocator returns.", "anchors": ["src/computeCOMTraj.cpp:dynamicStabilityConstraints_cross", "src/common_solve_methods.cpp:Normalize"]}
{"id": "C105", "title": "With smaller thresholds the planners approach the requested motion", "statement": "If some motion meets the requirements with a margin, then for every requested accuracy and every iteration limit there is a positive threshold of the solver, depending on the problem only, such that with this or any smaller threshold (and any factorisation routine that is a Cholesky factorisation) the planner returns success_, or the QP solver answered MAX_ITER_REACHED on the assembled problem; every motion it returns meets the requirements up to the accuracy, and no motion that meets the requirements has a cost lower by more than the accuracy. This holds for computeCOMTrajFixedSize, computeCOMTraj with a time step, without a time step in double description and with force variables, solveEndEffector and solve0step.", "quantifier": "all problems with a margin, all accuracies, all iteration limits, all implementations of the numerical library that meet its contract", "why_tests_cant": "It is a statement about a limit: a test uses the one threshold that is compiled in.", "anchors": ["src/computeCOMTraj.cpp:computeCOMTraj", "src/computeCOMTraj.cpp:computeCOMTrajFixedSize", "include/hpp/bezier-com-traj/solve_end_effector.hh:solveEndEffector", "src/solve_0_step.cpp:solve0step", "src/eiquadprog-fast.cpp:EiquadprogFast::solve_quadprog"]}
{"id": "C106", "title": "Lifetime of Equilibrium objects in Python sessions", "statement": "In every Python session with any number of Equilibrium, ContactData, ProblemData and Constraints objects: an Equilibrium made by Python exists as long as a variable owns it or a living ContactData was constructed from a variable that owned it, and the command after which neither holds destroys it; it changes only through a variable that holds it. A session that neither reads nor assigns contactPhase_, makes no ContactData of None, and either deletes no problem or reads the constraints_ of none, has no undefined behaviour, whatever else it creates, aliases, changes, adds, clears and deletes; each of these conditions is needed. Every addContact allocates two Equilibrium objects, plus one per contact already there when the vector grows, and none of these is ever destroyed, not by clearContacts nor by the deletion of the problem.", "quantifier": "all sequences of commands, all objects, all growth policies of std::vector", "why_tests_cant": "Dangling pointers and leaks have no visible effect in most runs; a test runs one order of creation and deletion.", "anchors": ["python/bezier_com_traj.cpp:addContact", "python/bezier_com_traj.cpp:getContactPhase_", "python/bezier_com_traj.cpp:setContactPhase_", "include/hpp/bezier-com-traj/data.hh:ContactData"]}
{"id": "C107", "title": "The QP solver does not depend on the origin of the unknowns", "statement": "For every problem with an invertible Hessian, every shift p of the unknowns, every threshold, iteration limit and every contents of the work arrays: solve_quadprog on the problem written in the unknowns y = x + p makes the same choices as on the problem in x. It ends in the same way; the status, the active set and the multipliers are the same, the solution is the solution plus p, and the objective is the objective plus the constant g.p - p.Gp/2, which is the difference of the two objectives at every point.", "quantifier": "all problems, shifts, thresholds, work arrays and fuel", "why_tests_cant": "A test runs finitely many problems; the claim is that two executions take the same branches for all problems and shifts.", "anchors": ["src/eiquadprog-fast.cpp:solve_quadprog"]}
{"id": "C108", "title": "Plans do not depend on the origin of the frame", "statement": "If a problem is expressed from another origin (positions shifted by p, kinematic polytopes shifted, wrench cones transported, each row with any positive scale), then without a margin (reduce_h <= 0) the admissible motions of the sampled formulation are the shifted ones; the motion that the planner looks for is unique; and computeCOMTrajFixedSize and computeCOMTraj give the same verdict and the shifted motion. With a margin this is false: for every 0 < reduce_h <= 1 (the default is 1e-3) there is a problem which is solved in one frame and refused in another, because the margin is multiplied with the norm of the rows, which depends on the origin.", "quantifier": "all problems, shifts, scales of the rows, discretisations", "why_tests_cant": "A relation between two runs on different inputs; a test would compare a few frames near the origin, where the effect of the default margin is small.", "anchors": ["src/computeCOMTraj.cpp:computeConstraintsOneStep", "src/computeCOMTraj.cpp:computeCOMTrajFixedSize", "src/computeCOMTraj.cpp:computeCOMTraj", "include/hpp/bezier-com-traj/data.hh:reduce_h_"]}
{"id": "C109", "title": "Plans do not depend on the axes of the frame, the mass, or the scale of the rows", "statement": "If a problem of the sampled formulation is expressed in rotated axes, and each phase has another mass of the same sign and its stability rows another positive scale (the right-hand sides kept, since the code takes them for rows of norm 1), then for every margin reduce_h, without a bound on the acceleration, computeCOMTrajFixedSize and computeCOMTraj give the same verdict and the rotated motion. With constraintAcceleration_ this is false: the bound is on each coordinate, and there is a problem that is refused in one frame and solved in a rotated one.", "quantifier": "all problems (seven constraint sets; the acceleration cost not with six boundary conditions), rotations, masses, scales of the rows, margins, discretisations, in exact arithmetic with an iteration limit that is not reached", "why_tests_cant": "A relation between two runs on different inputs, for all rotations and masses.", "anchors": ["src/computeCOMTraj.cpp:computeConstraintsOneStep", "src/computeCOMTraj.cpp:computeCOMTrajFixedSize", "src/computeCOMTraj.cpp:computeCOMTraj", "include/hpp/bezier-com-traj/data.hh:Constraints"]}
{"id": "C110", "title": "Looser requirements never lose a plan", "statement": "If a problem of the sampled formulation is made looser (rows of the wrench cones or of the kinematic polytopes removed or their bounds raised, a smaller margin reduce_h, a larger bound on the acceleration or none) and the number of points per phase is replaced by a divisor, then computeCOMTrajFixedSize succeeds whenever it did on the first problem, and the cost of its motion at the samples of the second call is at most that of the first motion. Likewise computeCOMTraj with a multiple of the time step. For a number that is not a divisor, or a step that is not a multiple, this is false: there is a problem that is solved with six points and refused with four, and solved with a step of 1/6 s and refused with 1/4 s.", "quantifier": "all pairs of problems, one looser than the other (seven constraint sets; the acceleration cost not with six boundary conditions), all numbers of points and multiples, in exact arithmetic with an iteration limit that is not reached", "why_tests_cant": "A relation between two runs on different inputs; the solver goes through other active sets in the second run, and tests see a few pairs.", "anchors": ["src/computeCOMTraj.cpp:computeConstraintsOneStep", "src/computeCOMTraj.cpp:computeCOMTrajFixedSize", "src/computeCOMTraj.cpp:computeCOMTraj", "src/utils.cpp:computeDiscretizedTimeFixed", "src/utils.cpp:computeDiscretizedTime"]}
{"id": "C111", "title": "What the continuous formulation solves, the sampled formulation solves", "statement": "If computeCOMTraj with timeStep <= 0 succeeds (double description, no constant waypoint at the origin, no bound on the acceleration or control points of the second derivative scaled at least like 1/T^2), then computeCOMTrajFixedSize succeeds on the same problem with any number of points per phase, and computeCOMTraj with any positive time step at most half of every phase; the cost at the samples is at most that of the motion of the continuous formulation. If the control points of the second derivative carry no factor 1/T^2 and the acceleration is bounded this is false: there is a problem of half a second that is solved with timeStep = -1 and refused with every number of points.", "quantifier": "all problems (seven constraint sets; the acceleration cost not with six boundary conditions), numbers of points, time steps, in exact arithmetic with an iteration limit that is not reached", "why_tests_cant": "Relates two formulations with different rows and different solver runs, for every discretisation.", "anchors": ["src/computeCOMTraj.cpp:computeConstraintsContinuous", "src/computeCOMTraj.cpp:computeCOMTraj", "src/computeCOMTraj.cpp:computeCOMTrajFixedSize"]}
{"id": "C112", "title": "Plans do not depend on the units of length and time", "statement": "If a problem of the sampled formulation is written in other units of length and time (positions, velocities, accelerations, gravity, kinematic bounds, the bound on the acceleration, durations and the time step converted; each stability row converted, with any positive scale, its right-hand side less the margin being the converted one for a row of norm 1), then computeCOMTrajFixedSize and computeCOMTraj give the same verdict and the converted motion. Every problem can be converted for any margin, by the choice of the right-hand sides; with another unit of time only, the margin and the right-hand sides are converted like accelerations. With another unit of length and cones (right-hand sides 0) this is false: whatever margin is chosen in the new unit, there is a problem with another verdict, because the norm of a row adds squares of force and of torque coefficients.", "quantifier": "all problems (seven constraint sets; the acceleration cost not with six boundary conditions), units, margins, discretisations, in exact arithmetic with an iteration limit that is not reached", "why_tests_cant": "A relation between two runs on different inputs; tests use metres and seconds only.", "anchors": ["src/computeCOMTraj.cpp:computeConstraintsOneStep", "src/computeCOMTraj.cpp:computeCOMTrajFixedSize", "src/computeCOMTraj.cpp:computeCOMTraj", "include/hpp/bezier-com-traj/data.hh:reduce_h_"]}
{"id": "C113", "title": "What the formulation with forces solves, the sampled formulation with polytopes solves", "statement": "If computeCOMTraj with timeStep <= 0 and representation_ = FORCE succeeds (generators of every phase spanning the space of wrenches, positive masses, nested phases, no constant waypoint at the origin, no bound on the acceleration or control points of the second derivative scaled at least like 1/T^2), and every row of the polytope of each phase holds of all its generators with a right-hand side at least the margin, then with DOUBLE_DESCRIPTION computeCOMTrajFixedSize succeeds with any number of points per phase, and computeCOMTraj with any positive time step at most half of every phase; the cost at the samples is at most that of the motion found with forces. For cones (right-hand sides 0) and a positive margin this is false, since the formulation with forces does not know the margin: there is a problem that is solved with forces and refused with polytopes for every number of points.", "quantifier": "all problems (seven constraint sets; the acceleration cost not with six boundary conditions), numbers of points, time steps, in exact arithmetic with an iteration limit that is not reached", "why_tests_cant": "Relates two representations of the contacts, with other unknowns and other constraints, for every discretisation.", "anchors": ["src/computeCOMTraj.cpp:computeConstraintsContinuous", "src/computeCOMTraj.cpp:computeConstraintsOneStep", "src/computeCOMTraj.cpp:computeCOMTraj", "src/computeCOMTraj.cpp:computeCOMTrajFixedSize", "include/hpp/bezier-com-traj/data.hh:reduce_h_"]}
{"id": "C114", "title": "Plans of the continuous formulation and the origin of the frame", "statement": "If a problem is expressed from another origin (as in C108), without a margin and in double description, and no constant waypoint is at the origin of either frame, then the systems that computeConstraintsContinuous assembles in the two frames are the same up to the shift, and computeCOMTraj with timeStep <= 0 gives the same verdict and the shifted motion. If a constant waypoint is at the origin this is false: there is a motion that starts at the origin, outside its reachable polytope, which is accepted, and which is refused when seen from another origin.", "quantifier": "all problems, shifts, scales of the rows, durations", "why_tests_cant": "A relation between two runs on different inputs; the exception needs a waypoint within 1e-12 of the origin, where test data are often taken for other reasons.", "anchors": ["src/computeCOMTraj.cpp:computeConstraintsContinuous", "src/computeCOMTraj.cpp:computeCOMTraj", "src/waypoints_definition.cpp:computeConstantWaypointsSymbolic"]}
{"id": "C115", "title": "Continuous formulation: splitting phases or asking for less never loses a plan", "statement": "Let a second problem have the same boundary conditions, flag and total duration, let each of its phases be contained in a phase of the first problem, with fewer or looser rows of the contact and reachability polytopes, a margin that is not larger and an acceleration bound that is not smaller. In double description, every point that satisfies the system that computeConstraintsContinuous assembles for the first problem satisfies that of the second one; hence if computeCOMTraj with timeStep <= 0 succeeds on the first problem it succeeds on the second one, and with the same phases and cost its cost is not larger. The converse is false even when the requirements are identical: there is a motion solved as two halves and refused as a single phase.", "quantifier": "all pairs of problems so related, all durations, all scales of the second derivative", "why_tests_cant": "A relation between two runs with different numbers of phases; the reason it holds is that control points of a part of a curve are convex combinations of those of the curve.", "anchors": ["src/computeCOMTraj.cpp:computeConstraintsContinuous", "src/computeCOMTraj.cpp:computeCOMTraj"]}
{"id": "C116", "title": "Continuous formulation: forces and polytopes agree", "statement": "Let the generators of every phase span the space of wrenches, the masses be positive and the phases nested, and call computeCOMTraj with timeStep <= 0 once with representation_ = FORCE and once with DOUBLE_DESCRIPTION. If every row of the polytope of each phase holds of all its generators with a right-hand side at least the margin, then success with forces implies success with polytopes, at no larger cost of the motion. If every wrench admitted by the polytope is generated, then success with polytopes by a point none of whose coordinates is below -100000 implies success with forces. Without that condition the second claim is false: far from the origin, a phase that can produce every wrench is solved with polytopes and refused with forces, because of the lower bounds of the unknowns.", "quantifier": "all problems, durations, scales of the second derivative", "why_tests_cant": "A relation between two formulations with different unknowns, over all problems; the existence of force variables is not visible in the result.", "anchors": ["src/computeCOMTraj.cpp:computeConstraintsContinuous", "src/computeCOMTraj.cpp:computeCOMTraj"]}
{"id": "C117", "title": "Continuous formulation with forces: splitting phases or allowing more wrenches never loses a plan", "statement": "As C115 with representation_ = FORCE: if each phase of the second problem is contained in a phase of the first one, with a cone of wrenches that contains that of the first one and looser reachability rows, and the acceleration bound is not smaller, then every motion that has forces in the system of the first problem has forces in that of the second one, and if computeCOMTraj with timeStep <= 0 succeeds on the first problem it succeeds on the second one (positive masses, nested phases, generators of the first problem spanning the space of wrenches). Nesting is needed: there is a problem, with phases that are not nested, and a motion that has forces, and has none after the first phase is split.", "quantifier": "all pairs of problems so related, all durations, all scales of the second derivative", "why_tests_cant": "A relation between two runs with different numbers of phases and of unknowns; the exception shows only at the control point of a switch that is not checked.", "anchors": ["src/computeCOMTraj.cpp:computeConstraintsContinuous", "src/computeCOMTraj.cpp:computeCOMTraj"]}
{"id": "C118", "title": "The stopping planner gives the same answer in every frame", "statement": "If the problem given to solve0step is written in another frame (a rotation and another origin: initial position, velocity, angular momentum, gravity, kinematic rows and contact cone converted; each row of the cone with any positive scale), then solve0step, in double description, with or without a time step, gives the same verdict, the same motion and the same angular momentum seen from the other frame, and the same cost_. With angular momentum the problem has no kinematic constraints.", "quantifier": "all problems, rotations, origins, durations, time steps", "why_tests_cant": "A relation between two runs on different inputs, over all frames; it holds although the assembled systems and the iterations of the solver differ.", "anchors": ["src/solve_0_step.cpp:solve0step", "src/solve_0_step.cpp:compute6dControlPointInequalities", "src/solve_0_step.cpp:computeCostFunction"]}
{"id": "C119", "title": "The stopping planner never loses a plan when asked for less", "statement": "Let a second call of solve0step have the same initial state and duration, fewer rows of the contact cone (or rescaled ones), looser kinematic rows, and a time step whose requirements are among those of the first call: the first call checks control points, or its number of steps is a multiple of that of the second call. If the first call succeeds so does the second one, the effort that is minimised is not larger, and without angular momentum neither is cost_. A larger time step alone is not asking for less: there is a problem of one second that is solved with time step 0.3 and refused with 0.5.", "quantifier": "all pairs of problems so related, all durations, all time steps", "why_tests_cant": "A relation between two runs on different inputs and samples, over all problems.", "anchors": ["src/solve_0_step.cpp:solve0step", "src/solve_0_step.cpp:compute6dControlPointInequalities"]}
{"id": "C120", "title": "The end effector planner and the origin of the frame", "statement": "If both ends of the motion given to solveEndEffector are moved by the same vector, the verdict is the same and the motion is moved by that vector. For the set with one free point the admissible motions and the verdict are the same in both frames, for all paths and weights; with the smoothness cost alone the motions differ, at every instant, by at most 3e-11 times the length of the vector, and they do differ: asked to stay at the origin the end effector stays, asked to stay at (1,0,0) it moves, because the decimals of the cost do not cancel. For the sets with three and five free points the verdict is not the same.", "quantifier": "all boundary conditions, vectors, durations, paths, weights", "why_tests_cant": "A relation between two runs on different inputs; the displacement is below the tolerance of any test.", "anchors": ["include/hpp/bezier-com-traj/solve_end_effector.hh:solveEndEffector", "include/hpp/bezier-com-traj/waypoints/waypoints_c0_dc0_ddc0_j0_j1_ddc1_dc1_c1.hh:computeVelocityCost", "include/hpp/bezier-com-traj/waypoints/waypoints_c0_dc0_ddc0_j0_x3_j1_ddc1_dc1_c1.hh:computeAccelerationWaypoints"]}
{"id": "C121", "title": "Continuous formulation: axes, mass, scale and units", "statement": "Call computeCOMTraj with timeStep <= 0 in double description. If the axes are exchanged or reversed by a rotation, the mass is changed and the rows of the polytopes rescaled, the verdict is the same and the motion is the turned one. If the units of length and time are changed (the problem as in C112) and the second derivative of the curve is taken with respect to time, the verdict is the same and the motion is the converted one, provided no waypoint crosses, by the conversion, the threshold 1e-12 under which it is taken for a free one. Each condition is needed: the continuous formulation bounds the coordinates of the acceleration even with constraintAcceleration_ = false, so a turn by another angle changes the verdict of some problem; with a second derivative whose factor does not depend on the duration a change of the unit of time does; and so does a change of the unit of length for a motion that starts 1e-12 from the origin.", "quantifier": "all problems, all seven constraint sets with the distance cost (all but c0_dc0_ddc0_ddc1_dc1_c1 with the acceleration cost), durations, axes, units", "why_tests_cant": "A relation between two runs on different inputs, over all problems and units; the exceptions show only for unusual angles or at the origin.", "anchors": ["src/computeCOMTraj.cpp:computeConstraintsContinuous", "src/computeCOMTraj.cpp:computeCOMTraj", "src/waypoints_definition.cpp:computeConstantWaypointsSymbolic"]}
{"id": "C122", "title": "End effector planner and the horizontal axes", "statement": "Call solveEndEffector on a problem and on the same problem after horizontal axes are exchanged or reversed (boundary conditions and path alike): with an iteration limit above 2^(number of rows) the verdict is the same, and the second motion is the first one in the other axes. The same of computeEndEffector of the Python module. Both conditions on the axes are needed: after a turn about the vertical by another angle a refused motion is planned, because each coordinate of the jerk is compared with 10000; and after a quarter turn about a horizontal axis a planned motion is refused, because the free points may not be lower than the lower end.", "quantifier": "all boundary conditions, the three end effector sets, paths, weights in [0, 1], positive durations, exchanges and reversals of horizontal axes", "why_tests_cant": "A relation between two runs on different inputs, over all problems, paths and weights; a test has one problem.", "anchors": ["include/hpp/bezier-com-traj/solve_end_effector.hh:solveEndEffector", "include/hpp/bezier-com-traj/solve_end_effector.hh:computeEndEffectorCost", "include/hpp/bezier-com-traj/solve_end_effector.hh:computeConstraintsMatrix"]}
{"id": "C123", "title": "End effector planner: slower or smaller motions are never refused", "statement": "If solveEndEffector plans a motion, it also plans the motion with all times multiplied by l >= 1 and all lengths by 0 <= m <= 1 (velocities, accelerations and jerks of the boundary conditions converted accordingly), whatever the paths and the weights in [0, 1], with an iteration limit above 2^(number of rows). The converse fails, because the bound 10000 has no unit: the move of length 35 in one second is planned and that of length 70 is refused; the move of length 1 is planned in one second and refused in a fifth of a second. So a change of the unit of length or of time changes the verdict.", "quantifier": "all boundary conditions, the three end effector sets, paths, weights, positive durations, factors l >= 1 and m in [0, 1]", "why_tests_cant": "A relation between two runs on different inputs, over all problems and factors.", "anchors": ["include/hpp/bezier-com-traj/solve_end_effector.hh:solveEndEffector", "include/hpp/bezier-com-traj/solve_end_effector.hh:computeEndEffectorConstraints", "include/hpp/bezier-com-traj/solve_end_effector.hh:computeConstraintsMatrix"]}
{"id": "C124", "title": "End effector planner and the direction of time", "statement": "Call solveEndEffector on a motion and on the reversed motion (ends exchanged, velocities and jerks negated): the verdict is the same.", "quantifier": "all boundary conditions, the three end effector sets, paths, weights, positive durations", "why_tests_cant": "A relation between two runs on different inputs, over all problems.", "anchors": ["include/hpp/bezier-com-traj/solve_end_effector.hh:solveEndEffector", "include/hpp/bezier-com-traj/waypoints/waypoints_c0_dc0_ddc0_j0_j1_ddc1_dc1_c1.hh:computeAccelerationWaypoints", "include/hpp/bezier-com-traj/waypoints/waypoints_c0_dc0_ddc0_j0_x3_j1_ddc1_dc1_c1.hh:computeAccelerationWaypoints", "include/hpp/bezier-com-traj/waypoints/waypoints_c0_dc0_ddc0_j0_x5_j1_ddc1_dc1_c1.hh:computeAccelerationWaypoints"]}
{"id": "C125", "title": "What the answers of the planners depend on", "statement": "The verdict of solveEndEffector depends on the boundary conditions, the set and the duration only: with an iteration limit above 2^(number of rows) it is the same for all paths, weights in [0, 1], initial guesses and solvers that meet the contract of the library. The motion depends in addition on the weight and on the path at the 50 instants i/49 only, and not on the path when the weight is 0: two calls that agree on these, both successful, return the same curve, whatever the initial guesses and solvers. In the same way the verdict and the motion of computeCOMTraj in double description (samples per phase, time step, continuous formulation), and with forces when the generators of each phase span the space of wrenches (continuous formulation), are the same for all solvers that meet the contract, and so are the verdict, the motion, the angular momentum and cost_ of solve0step.", "quantifier": "all problems, all paths, weights, initial guesses, and all pairs of solvers that meet the contract", "why_tests_cant": "Quantifies over all solvers and all paths; a test links one solver. A path with a detour between two of the 50 instants looks like a use case the planner would follow.", "anchors": ["include/hpp/bezier-com-traj/solve_end_effector.hh:solveEndEffector", "include/hpp/bezier-com-traj/solve_end_effector.hh:computeDistanceCostFunction", "include/hpp/bezier-com-traj/solve_end_effector.hh:computeEndEffectorCost", "src/computeCOMTraj.cpp:computeCOMTraj", "src/computeCOMTraj.cpp:computeCOMTrajFixedSize", "src/solve_0_step.cpp:solve0step"]}
{"id": "C126", "title": "End effector planner: what the weight of the path trades", "statement": "Call solveEndEffector twice on the same problem and path, with weights w < w' in [0, 1]. If both calls succeed, the second motion is not farther from the path: the sum of the squared distances at the 50 instants i/49 of the motion is not larger. And the first motion is at least as smooth: the integral of its squared velocity is not larger, to the precision of the decimals in the source.", "quantifier": "all boundary conditions, the three end effector sets, paths, positive durations, pairs of weights, initial guesses and solvers that meet the contract", "why_tests_cant": "A relation between two runs on different inputs, over all paths and weights. A path that starts and ends at the same place, or three free points, does not show the error of the set with one free point.", "anchors": ["include/hpp/bezier-com-traj/solve_end_effector.hh:solveEndEffector", "include/hpp/bezier-com-traj/solve_end_effector.hh:computeEndEffectorCost", "include/hpp/bezier-com-traj/solve_end_effector.hh:computeDistanceCostFunction", "include/hpp/bezier-com-traj/waypoints/waypoints_c0_dc0_ddc0_j0_j1_ddc1_dc1_c1.hh:evaluateCurveWaypointAtTime"]}
{"id": "C127", "title": "End effector planner: motions between two planned motions are planned", "statement": "Take two end effector problems with the same set of constraints and the same duration, whose eight boundary vectors are d and d', and in which the same end is the lower one (both rise or stay level, or both descend or stay level). If solveEndEffector plans both, it plans the problem with boundary vectors (1 - s) d + s d' for every s in [0, 1], whatever the three paths, weights and initial guesses. Without the condition on the lower end this is not so: a motion up and a motion down can both be planned and the one half way between be refused, because the free points must stay above the lower end.", "quantifier": "all pairs of boundary conditions with the same lower end, fractions, the three end effector sets, positive durations, paths, weights, initial guesses and solvers that meet the contract", "why_tests_cant": "A relation between three runs, over all pairs of problems; the exception needs a large jerk at the start.", "anchors": ["include/hpp/bezier-com-traj/solve_end_effector.hh:solveEndEffector", "include/hpp/bezier-com-traj/solve_end_effector.hh:computeConstraintsMatrix"]}
{"id": "C128", "title": "End effector planner: a motion that exists is not refused", "statement": "Take a polynomial motion of degree 8 for which the control points of the velocity, the acceleration and the jerk are between -10000 and 10000, and whose control points are not lower than its lower end. Called with the positions, velocities, accelerations and jerks of this motion at its ends and with its duration, solveEndEffector succeeds, with one, three or five free points; with five, the same holds of motions of degree 10.", "quantifier": "all control points of degree 8 or 10 within the bounds, positive durations, the three end effector sets, paths, weights, initial guesses and solvers that meet the contract", "why_tests_cant": "A claim about every motion that exists, found or not; tests look at motions of a few decimetres near the origin, where the errors in the accelerations do not show.", "anchors": ["include/hpp/bezier-com-traj/solve_end_effector.hh:solveEndEffector", "include/hpp/bezier-com-traj/waypoints/waypoints_c0_dc0_ddc0_j0_j1_ddc1_dc1_c1.hh:computeAccelerationWaypoints", "include/hpp/bezier-com-traj/waypoints/waypoints_c0_dc0_ddc0_j0_x3_j1_ddc1_dc1_c1.hh:computeAccelerationWaypoints", "include/hpp/bezier-com-traj/waypoints/waypoints_c0_dc0_ddc0_j0_x5_j1_ddc1_dc1_c1.hh:computeAccelerationWaypoints"]}
