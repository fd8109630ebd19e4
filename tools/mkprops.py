#!/usr/bin/env python3
# Regenerates /verif/properties.jsonl from the table below.
import json, os
P=[]
def p(id,title,statement,quantifier,why,anchors):
    P.append(dict(id=id,title=title,statement=statement,quantifier=quantifier,why_tests_cant=why,anchors=anchors))
W="include/hpp/bezier-com-traj/waypoints/"
CT="src/computeCOMTraj.cpp"
CS="src/common_solve_methods.cpp"
Z="src/solve_0_step.cpp"
EQ="src/eiquadprog-fast.cpp"
SA="src/solver-abstract.cpp"
EE="include/hpp/bezier-com-traj/solve_end_effector.hh"
WD="src/waypoints_definition.cpp"
PY="python/bezier_com_traj.cpp"
real="ranges over uncountably many real inputs; a test samples finitely many of them"
p("C01","Boundary conditions of every CoM constraint set",
 "For each of the seven CoM constraint sets, the curve whose control points are the waypoints returned by computeConstantWaypoints with the free slot replaced by x starts at c0 with velocity dc0 (and acceleration ddc0 when INIT_ACC is set) and ends at c1 / dc1 / ddc1 for each END flag that is set.",
 "all problem data c0,dc0,ddc0,c1,dc1,ddc1, every duration T != 0, every free point x, all seven flag combinations",real,
 [W+"waypoints_*.hh:computeConstantWaypoints",WD+":computeConstantWaypoints"])
p("C02","Position coefficients describe the curve",
 "evaluateCurveAtTime(pi,t) returns (a,s) such that a*x+s is the point at normalized time t of the Bezier curve with control points pi and x in the free slot.",
 "all control points, all x, all t, every set registered for this call",real,
 [W+"waypoints_*.hh:evaluateCurveAtTime",WD+":evaluateCurveAtTime"])
p("C03","Acceleration coefficients are the second time derivative",
 "evaluateAccelerationCurveAtTime(pi,T,t) returns (a,s) such that a*x+s is the second derivative with respect to time of that curve at time t*T.",
 "all control points, all x, all t, every T != 0, every registered set",real,
 [W+"waypoints_*.hh:evaluateAccelerationCurveAtTime"])
p("C04","Wrench waypoints describe the centroidal wrench curve",
 "The control points (matrix, vector) returned by computeWwaypoints define a Bezier curve whose value at t is the 6D vector (c''(t), c(t) x c''(t) + g x c(t)) of the CoM curve c with free point x.",
 "all boundary data, gravity vectors g, T != 0, x and t, every registered set",real,
 [W+"waypoints_*.hh:computeWwaypoints",WD+":computeWwaypoints"])
p("C05","Final velocity decomposition",
 "computeFinalVelocityPoint returns (a,s) such that a*x+s is the time derivative of the CoM curve at its end time.",
 "all boundary data, x, T != 0, every registered set",real,
 [W+"waypoints_*.hh:computeFinalVelocityPoint",WD+":computeFinalVelocityPoint"])
p("C06","Unsupported constraint combinations are rejected",
 "Each public waypoint query answers only for the flag values it implements and throws runtime_error for every other flag value; no flag value silently selects another set's formulas.",
 "all 2^32 flag values and all entry points","the flag space is too large to enumerate by unit tests and the claim is about every value outside the table",
 [WD,"include/hpp/bezier-com-traj/flags.hh"])
p("C07","The returned trajectory meets the requested boundary conditions",
 "Whenever computeCOMTraj / computeCOMTrajFixedSize reports success, the returned curve c_of_t_ is defined on [0,sum Ts] and satisfies all initial and final conditions selected by the flag, whatever point the solver chose.",
 "all problems, durations, phase counts and solver answers, every flag for which the call can succeed",real,
 ["include/hpp/bezier-com-traj/utils.hh:computeBezierCurve",CT+":genTraj"])
p("C08","Reported terminal velocity and acceleration",
 "On success the fields dc1_ and ddc1_ are the first and second time derivatives of the returned c_of_t_ at its end time.",
 "all successful calls",real,[CT+":computeFinalVelocity",CT+":computeFinalAcceleration",CT+":genTraj"])
p("C09","Boundary conditions of the jerk constraint sets",
 "For the three end-effector sets (one, three, five free points) the curve built from computeConstantWaypoints and any free points satisfies position, velocity, acceleration and jerk conditions at both ends.",
 "all boundary data, T != 0 and free points",real,
 [W+"waypoints_c0_dc0_ddc0_j0_*.hh:computeConstantWaypoints"])
p("C10","End-effector position decomposition",
 "evaluateCurveWaypointAtTime returns (M,s) with M*X+s equal to the curve point at t for the stacked free points X.",
 "all control points, X and t, the three end-effector sets",real,[W+"waypoints_c0_dc0_ddc0_j0_*.hh:evaluateCurveWaypointAtTime"])
p("C11","End-effector velocity decomposition",
 "evaluateVelocityCurveWaypointAtTime returns (M,s) with M*X+s equal to the first time derivative of the curve.",
 "all control points, X, t and T != 0, the three end-effector sets",real,[W+"waypoints_c0_dc0_ddc0_j0_*.hh:evaluateVelocityCurveWaypointAtTime"])
p("C12","End-effector acceleration decomposition",
 "evaluateAccelerationCurveWaypointAtTime returns (M,s) with M*X+s equal to the second time derivative of the curve.",
 "all control points, X, t and T != 0, the three end-effector sets",real,[W+"waypoints_c0_dc0_ddc0_j0_*.hh:evaluateAccelerationCurveWaypointAtTime"])
p("C13","End-effector jerk decomposition",
 "evaluateJerkCurveWaypointAtTime returns (M,s) with M*X+s equal to the third time derivative of the curve.",
 "all control points, X, t and T != 0, the three end-effector sets",real,[W+"waypoints_c0_dc0_ddc0_j0_*.hh:evaluateJerkCurveWaypointAtTime"])
p("C14","Derivative control points of the end-effector curve",
 "computeVelocityWaypoints, computeAccelerationWaypoints and computeJerkWaypoints return exactly the control points of the first, second and third derivative curves, so bounding them bounds the derivative at every time.",
 "all control points, X, T != 0, the three end-effector sets",real,[W+"waypoints_c0_dc0_ddc0_j0_*.hh:computeVelocityWaypoints, computeAccelerationWaypoints, computeJerkWaypoints"])
p("C15","Row normalisation preserves the feasible set",
 "Normalize / zero-row removal applied to A x <= b changes neither the set of solutions nor, when it returns a nonnegative count, makes any retained row zero; a -1 answer is given only for infeasible systems.",
 "all matrices and vectors of any size",real+"; the row count is unbounded",[CS+":removeZeroRows",CS+":Normalize"])
p("C16","Time discretisation by step",
 "computeDiscretizedTime terminates for every positive step and returns times that start at 0, are nondecreasing inside [0,total], contain the start and end of every phase tagged with that phase, never skip more than one step, and end exactly at the total duration.",
 "all phase duration vectors with positive entries and all positive steps","unbounded number of phases and steps",["src/utils.cpp:computeDiscretizedTime"])
p("C17","Time discretisation with fixed points per phase",
 "computeDiscretizedTimeFixed returns phases*points+1 samples starting at 0 and ending at the total duration, with the j-th sample of phase i at the expected time.",
 "all duration vectors and all points-per-phase >= 1","unbounded number of phases and points",["src/utils.cpp:computeDiscretizedTimeFixed"])
p("C18","Discretised constraint assembly is in bounds and complete",
 "For every accepted problem the discretised assembly writes only inside the allocated matrices and leaves no row unassigned: the announced number of inequalities equals the number of rows written.",
 "all numbers of phases, samples, polytope rows and kinematic rows","sizes are unbounded and combine",[CT+":computeNumIneq",CT+":computeConstraintsOneStep",CT+":stepIdPerPhase"])
p("C19","Discretised constraints mean what they say",
 "x satisfies the assembled inequalities iff at every sampled time the CoM satisfies the kinematic inequalities, the wrench satisfies the stability inequalities with margin, and (if enabled) the acceleration bound, for the phase(s) of that sample.",
 "all problems, all x",real,[CT+":assignStabilityConstraints",CT+":assignKinematicConstraints",CT+":assignAccelerationConstraints"])
p("C20","Both phases are enforced at a contact switch",
 "At the time where the contact phase changes, the assembled constraints contain the stability and kinematic constraints of the phase that ends and of the phase that begins.",
 "all phase sequences","unbounded number of phases",[CT+":switchContactPhase",CT+":assignKinematicConstraints"])
p("C21","Continuous constraint assembly is in bounds and complete",
 "In the continuous formulation the announced numbers of inequalities, equalities and force variables equal the number of rows and columns written, and no write is out of range.",
 "all numbers of phases and rows, both representations","sizes are unbounded and combine",[CT+":computeNumIneqContinuous",CT+":computeNumEqContinuous",CT+":computeConstraintsContinuous"])
p("C22","Continuous constraints guarantee every instant",
 "Any x satisfying the assembled continuous constraints yields a trajectory that satisfies the kinematic and stability constraints of each phase at every time of that phase, not only at samples, provided no constant waypoint is the zero vector; a motion starting at the origin is a counterexample otherwise.",
 "all problems, all feasible x, all times t in [0,T]","quantifies over a continuum of times",[CT+":computeConstraintsContinuous"])
p("C23","Force formulation guarantees nonnegative contact forces at every instant",
 "Any solution of the equality/bound system of the FORCE representation yields, at every time of every phase, nonnegative force coefficients of that phase generating exactly the wrench required by the trajectory, provided the cones of consecutive phases are nested (contacts are added or removed); at a switch where the support changes completely this fails.",
 "all problems, all solutions, all times","quantifies over a continuum of times and unbounded phase sequences",[CT+":assignStabilityConstraintsForTimeStepForce",CT+":computeConstraintsContinuous"])
p("C24","Stability margin and row scaling",
 "Increasing reduce_h_ never enlarges the feasible set, a nonpositive value leaves h unchanged, and for homogeneous cones (h = 0) normalising rows and scaling by the mass does not change the set.",
 "all polytopes, margins and masses",real,[CT+":updateH",CT+":dynamicStabilityConstraints"])
p("C25","Acceleration bound at every instant",
 "In the continuous formulation every feasible x gives |c''(t)| <= maxAcceleration_ componentwise for all t, up to the factor T^2 that the curve library may leave out of the control points of the derivative (no constant waypoint being the zero vector); in the discretised one the bound holds at the samples iff the option is set.",
 "all problems, x, t","continuum of times",[CT+":computeConstraintsContinuous",CT+":assignAccelerationConstraints"])
p("C26","Cost functions are the documented quadratics",
 "For the seven CoM constraint sets: for ACCELERATION the quadratic x'Hx+2g'x differs from the sum of squared sampled accelerations by a constant independent of x; for DISTANCE_TRAVELED from the squared distance to the midpoint of c0 and c1.",
 "all problems, x",real,["src/costfunction_definition.cpp"])
p("C27","Target end velocity cost is available when the end velocity is free",
 "With costFunction_ = TARGET_END_VELOCITY the cost is the squared distance between final velocity and dc1_, and it is refused exactly when END_VEL is constrained.",
 "all flags and problems","quantifies over all flag values",["src/costfunction_definition.cpp:computeCostEndVelocity"])
p("C28","Mismatched phase durations are rejected",
 "computeCOMTraj and computeCOMTrajFixedSize throw before doing anything else iff the number of durations differs from the number of contacts.",
 "all sizes","unbounded sizes",[CT+":computeCOMTraj",CT+":computeCOMTrajFixedSize"])
p("C29","Failure leaves a default result",
 "When the solver does not report success the returned result has success_ = false, cost_ = -1, an empty x and a default curve; when it does, x and cost are the solver's.",
 "all solver answers","all solver outcomes",[CT+":genTraj",Z+":solve0step"])
p("C30","Zero-step trajectory stops",
 "A successful solve0step returns a curve starting at c0 with velocity dc0 and ending at x with zero velocity at T.",
 "all problems, durations and solver results",real,[Z+":computeC_of_T",Z+":solve0step"])
p("C31","Zero-step wrench waypoints",
 "ComputeAllWaypoints without discretisation returns the control points of the wrench of that curve; with a positive number of steps it returns its value at the N+1 equally spaced instants of [0,T].",
 "all c0,dc0,g,x,T > 0, timeStep",real,[Z+":w0..w4",Z+":ComputeAllWaypoints",CS+":ComputeDiscretizedWaypoints"])
p("C32","Zero-step angular momentum is brought to zero",
 "The angular momentum derivative curve returned by solve0step is the derivative of a cubic momentum curve starting at l0 and ending at 0, and its constraint waypoints describe the same curve.",
 "all l0, xL, T > 0, t",real,[Z+":u0..u4",Z+":computedL_of_T"])
p("C33","Zero-step reported cost",
 "With angular momentum the reported cost is T times the integral of the squared norm of the momentum derivative, and the QP minimises it (plus the weighted distance) up to a constant; without it the cost is the distance from c0 to x.",
 "all l0, x",real,[Z+":computeRealCost",Z+":computeCostFunction"])
p("C34","Zero-step constraints guarantee equilibrium at every instant",
 "Any point satisfying the inequalities of compute6dControlPointInequalities (without discretisation) keeps the wrench (plus momentum derivative) in the gravito-inertial cone at every time in [0,T]; the kinematic rows bound x.",
 "all cones, masses, x, t","continuum of times",[CS+":compute6dControlPointInequalities"])
p("C35","Angular constraints are honoured by the zero-step problem",
 "When useAngularMomentum_ is set, points satisfying the assembled inequalities satisfy Ang*xL <= ang and Kin*x <= kin, and no row constrains anything else.",
 "all Kin,kin,Ang,ang",real,[CS+":compute6dControlPointInequalities",CS+":addAngularMomentum",CS+":addKinematic"])
p("C36","Lower bounds passed to the solver",
 "A nonempty minBounds adds exactly the constraints x >= minBounds; an empty one adds nothing; A, b, D, d are passed with the right signs.",
 "all matrices, bounds and x",real,[SA+":addConstraintMinBoundQuadProg",SA+":solve"])
p("C37","Upper bounds passed to the solver",
 "A nonempty maxBounds adds exactly the constraints x <= maxBounds without accessing memory out of range.",
 "all matrices, bounds and x",real,[SA+":addConstraintMaxBoundQuadProg"])
p("C38","Meaning of success_ and cost_",
 "success_ is true iff the QP solver reports OPTIMAL; cost_ is then the objective value and otherwise -1; an unknown solver type throws.",
 "all inputs and solver outcomes","all solver outcomes",[SA+":solve"])
p("C39","An OPTIMAL answer is feasible",
 "When the QP solver returns OPTIMAL the returned x satisfies all equalities exactly and all inequalities up to the solver's stated tolerance.",
 "all QPs with positive definite Hessian, any numbers of constraints, all executions",real+"; the iteration history is unbounded",[EQ+":solve_quadprog"])
p("C40","An OPTIMAL answer is optimal and its objective is reported",
 "When the QP solver returns OPTIMAL, no point satisfying the constraints has a lower objective than the returned x and getObjValue is the objective at x.",
 "all QPs with positive definite Hessian, all executions",real,[EQ+":solve_quadprog"])
p("C41","An infeasibility verdict is truthful",
 "When the QP solver returns UNBOUNDED (used for infeasible problems) no point satisfies all constraints.",
 "all QPs with positive definite Hessian, all executions",real,[EQ+":solve_quadprog"])
p("C42","The QP solver terminates",
 "solve_quadprog returns after finitely many steps, at most getMaxIter outer iterations, on every input.",
 "all QPs, all settings of the iteration limit","nontermination cannot be observed by a finite test",[EQ+":solve_quadprog"])
p("C43","The QP solver stays in bounds",
 "solve_quadprog never reads or writes outside its work arrays.",
 "all QPs and executions","all executions, unbounded sizes",[EQ+":solve_quadprog",EQ+":add_constraint",EQ+":delete_constraint"])
p("C44","Redundant equality verdict",
 "REDUNDANT_EQUALITIES is returned only when the equality normals are linearly dependent, and independent equalities are always accepted.",
 "all QPs",real,[EQ+":solve_quadprog",EQ+":add_constraint"])
p("C45","Solver object reuse",
 "The answer of solve_quadprog does not depend on which problems the same object solved before.",
 "all histories of calls","unbounded histories",[EQ+":reset",EQ+":solve_quadprog"])
p("C46","LP loading is faithful and in bounds",
 "The wrapper loads exactly the nonzero coefficients of [A;D] at their positions with rows bounded above by b / fixed to d, and never overruns its buffers.",
 "all matrices of any size","unbounded sizes",["src/glpk-wrapper.cpp:solveglpk"])
p("C47","LP variable bounds",
 "The bound type given to each LP column admits exactly the values between its lower and upper bound, where |bound| >= 100000 means unbounded.",
 "all bounds and values",real,["src/glpk-wrapper.cpp:getType"])
p("C48","End-effector constraint matrix",
 "The rows assembled by computeConstraintsMatrix say exactly that each variable-dependent acceleration, velocity and jerk control point is within its bound and that the height of each free point is at least min of the end heights; the matrix is exactly filled.",
 "all waypoint lists, bounds and x",real+"; unbounded list lengths",[EE+":computeConstraintsMatrix"])
p("C49","End-effector cost functions",
 "computeDistanceCostFunction gives, for at least three samples and up to positive scaling and an additive constant, the sum of squared distances to the path samples; the discretised smoothness costs give the sum of squared derivative samples.",
 "all problems, paths, X",real,[EE+":computeDistanceCostFunction, compute*CostFunctionDiscretized"])
p("C50","End-effector result curve",
 "A successful solveEndEffector returns a curve that satisfies all eight boundary conditions of its constraint set and interpolates the solver's free points as control points.",
 "all boundary data, T != 0, X",real,[EE+":computeC_of_T",EE+":solveEndEffector"])
p("C51","Python accessors",
 "x is readable from Python iff it is nonempty; setKinematicConstraints/setAngularConstraints throw and leave the object unchanged iff sizes differ; after a successful set of at least one row the getter returns what was set; a getter throws when there is nothing to return.",
 "all objects and arguments","all argument sizes and call sequences",[PY])
p("C52","Contact data copies are independent",
 "addContact stores a copy: later modifications of the original contact phase do not affect the problem, and copying is defined for every object.",
 "all heaps and call sequences","aliasing depends on histories",["include/hpp/bezier-com-traj/data.hh:ContactData",PY+":addContact"])
p("C53","Symbolic waypoints mark exactly the free points as variable",
 "computeConstantWaypointsSymbolic returns the identity matrix for the free waypoint and the constant value for all others.",
 "all boundary data",real,[WD+":computeConstantWaypointsSymbolic"])
p("C54","Cross product matrix",
 "skew(a)*b is the cross product of a and b, is antisymmetric, and vanishes when b is parallel to a.",
 "all vectors",real,["src/utils.cpp:skew"])
p("C55","Bernstein basis",
 "For every degree n below 2^32-1 ComputeBersteinPolynoms(n) returns n+1 polynomials that are nonnegative on [0,1] and sum to one, so a curve stays in every half-space containing its control points.",
 "all degrees and t","unbounded degree, continuum of t",["src/utils.cpp:ComputeBersteinPolynoms"])
p("C56","End-to-end soundness of a successful trajectory",
 "If computeCOMTraj succeeds with the quadratic solver, the returned trajectory satisfies at every time (continuous) or sample (discretised) the kinematic, stability and acceleration constraints up to the solver tolerance.",
 "all problems and times","composition over a continuum of times and all solver executions",[CT+":computeCOMTraj"])
p("C57","Waypoint arithmetic",
 "Adding, subtracting and scaling waypoints commutes with evaluating them at any x; operands of different sizes are rejected.",
 "all waypoints and x",real,["src/utils.cpp:operator+,operator-,operator*"])
p("C58","A solution that exists is not cut off by the assembly",
 "If some x gives a trajectory satisfying all discretised constraints, the assembled system A x <= b has a solution (no spurious constraint is added).",
 "all problems",real,[CT+":computeConstraintsOneStep"])
p("C59","Lagrange multipliers and active set",
 "After OPTIMAL, the gradient of the objective at x is the combination of the normals of the active set (getActiveSet, first getActiveSetSize entries) with the entries of getLagrangeMultipliers; multipliers of inequalities are nonnegative and every active constraint holds with equality.",
 "all QPs with positive definite Hessian, all executions",real,[EQ+":solve_quadprog"])
p("C60","Zero-step planner end to end",
 "On a problem with one usable contact phase solve0step returns; on success the returned motion starts as required, stops, keeps the wrench (with the momentum derivative) in the cone, and is the best among all motions satisfying the constraints; on failure no motion satisfies them and the result is the default one.",
 "all problems with one contact phase, all durations and time steps, exact arithmetic","composition over a continuum of times and all solver executions",[Z+":solve0step"])
p("C61","GLPK front end end to end",
 "solve with the GLPK solver returns success exactly when the linear constraints and bounds are feasible and the linear cost is bounded on them, and then x satisfies them and minimises the linear cost.",
 "all matrices, vectors and bounds",real+"; all problem sizes",["src/solver-abstract.cpp:solve","src/glpk-wrapper.cpp:solveglpk"])
p("C62","Zero-step planner from Python",
 "zeroStepCapturability and its variant with kinematic constraints return, for a usable equilibrium object, a motion that starts with the given position and velocity, stops at the end of the duration, keeps the wrench in the cone at every instant (continuous formulation) and, when kinematic constraints are given, stops at a point that satisfies them; mismatched constraint sizes are never accepted.",
 "all equilibrium objects, states, durations and constraints, exact arithmetic","composition over a continuum of times and all solver executions",[PY+":zeroStepCapturability, zeroStepCapturabilityWithKinConstraints"])
p("C63","Velocity cost of the jerk sets",
 "For the three sets with jerks, computeVelocityCost gives, up to a positive factor and an additive constant, the integral of the squared velocity of the curve over its duration, to the precision of the decimals written in the source.",
 "all boundary data, durations T > 0, constant waypoints and free points",real+"; the integral is over a continuum of times",[WD+":computeVelocityCost","include/hpp/bezier-com-traj/waypoints/waypoints_c0_dc0_ddc0_j0_*_j1_ddc1_dc1_c1.hh:computeVelocityCost"])
p("C64","End-effector planner end to end",
 "For the three sets with jerks solveEndEffector returns for each T > 0 and each weight in [0,1]; on success the curve meets the boundary conditions, the control points of its derivatives that the library reports and that depend on the free points are within the bounds, the free points are not below the lower end, and its cost is the least among such curves; hence, when the control points imposed by the boundary conditions are within the bounds too, its velocity and its jerk are within 10000 and its height is not below the lower end at every instant (from Python: its integrated squared velocity, to the precision of the decimals); on failure no curve satisfies the constraints and the result is the default one.",
 "all boundary data, paths, durations, weights and contents of the initial guess, exact arithmetic","composition over a continuum of times and all solver executions",[EE+":solveEndEffector",PY+":computeEndEffector"])
p("C65","Sparse variant of the quadratic solver",
 "solve_quadprog_sparse with a positive definite Hessian returns OPTIMAL exactly with the solution of the problem solved by solve_quadprog.",
 "all QPs with positive definite sparse Hessian, all executions",real,[EQ+":solve_quadprog_sparse"])
p("C66","Factor of the Hessian provided by the caller",
 "With is_inverse_provided_ set and m_J holding a factor of the inverse of the Hessian, solve_quadprog gives the same answer as when it computes the factor itself.",
 "all QPs, factors, tolerances and states of the solver object",real+"; sequences of calls on one object",[EQ+":solve_quadprog (OPTIMIZE_UNCONSTR_MINIM, is_inverse_provided_)","include/hpp/bezier-com-traj/solver/eiquadprog-fast.hpp:m_J,is_inverse_provided_"])
p("C67","Solver object over sequences of calls",
 "After any sequence of solve_quadprog calls of any sizes and setMaxIter calls, a solver object answers as a new one with the same iteration limit, and getActiveSetSize is the size of the active set of the last call.",
 "all call sequences, problem sizes, tolerances and contents of the work arrays","unbounded call sequences over all problems",[EQ+":solve_quadprog,reset","include/hpp/bezier-com-traj/solver/eiquadprog-fast.hpp:setMaxIter,getActiveSetSize"])
p("C68","Comparison of waypoints",
 "On waypoints of the same sizes == is reflexive and symmetric and != is its negation; isApprox answers whether both parts differ by at most prec times the smaller of the two norms; only a zero waypoint equals a zero waypoint; == is not transitive. Matrices of different sizes violate an assertion.",
 "all waypoints and precisions",real,["include/hpp/bezier-com-traj/utils.hh:waypoint_t::isApprox,operator==,operator!="])
p("C69","Qhull file",
 "printQHullFile writes a file that announces as many half spaces as it contains; they describe A x <= b enlarged by 0.001, cut at heights -1 and 3 when asked; an interior point with A x <= b meets what Qhull requires.",
 "all constraint systems and points",real+"; all numbers of rows",["src/utils.cpp:printQHullFile"])
p("C70","Predefined departure and arrival of the end effector",
 "The curve with computeConstantWaypointsInitPredef starts with the given position, velocity and acceleration and with zero jerk; the one with computeConstantWaypointsGoalPredef ends with the given position, velocity and acceleration and with zero jerk; both join the given positions.",
 "all boundary data and T > 0",real,[EE+":computeConstantWaypointsInitPredef,computeConstantWaypointsGoalPredef"])
p("C71","Inactive constraints",
 "Without equalities, when the minimiser of the objective satisfies the inequalities, solve_quadprog returns it with status OPTIMAL and its objective, whatever the value of epsilon and the contents of the work arrays, with any limit of at least two iterations.",
 "all QPs with positive definite Hessian, all thresholds",real,[EQ+":solve_quadprog"])
p("C72","The planner keeps the best motion",
 "For the five constraint sets whose wrench coefficients are written exactly: if the motion of least cost meets the requirements at all samples, computeCOMTrajFixedSize and computeCOMTraj with a time step succeed and return exactly this motion, whatever the value of epsilon.",
 "all accepted problems, numbers of phases, numbers of points and time steps, all thresholds",real+"; composition of all parts of the planner",["src/computeCOMTraj.cpp:computeCOMTraj,computeCOMTrajFixedSize"])
p("C73","Time discretisation with rounded arithmetic",
 "With every floating-point result rounded to a relative error u, computeDiscretizedTime with a positive step terminates; phase by phase its samples increase from the rounded start to the rounded end of the phase with no step longer than asked up to rounding, and the rounded ends are within the expected factors of the exact ones. computeDiscretizedTimeFixed returns the same number of samples and phases as in exact arithmetic, each sample within one rounding per sample before it, the last one being the computed total.",
 "all durations, steps, numbers of points, all rounding functions with relative error u",real+"; termination cannot be observed by a test",["src/utils.cpp:computeDiscretizedTime,computeDiscretizedTimeFixed"])
p("C74","Total duration of the continuous formulation",
 "The continuous formulation answers for every vector of durations: the end of each phase, accumulated with rounding, stays within the total duration.",
 "all durations, all roundings and summation orders",real+"; depends on the last bit of sums",[CT+":computeConstraintsContinuous"])
p("C75","Zero-step planner with the thresholds of the solver",
 "For every epsilon that is small compared to the data (mass, gravity, initial state, duration, kinematic rows): solve0step returns, and a successful result starts as required, stops, and its wrench (with the momentum derivative) satisfies each inequality of the cone up to the norm of the row times 900 (216018 with angular momentum) times epsilon times the number of rows, at every instant without discretisation and at the samples with a time step; without angular momentum the end point satisfies the kinematic constraints up to that number. If stopping at the initial position is admissible, it succeeds and stops there, for every epsilon.",
 "all problems with one contact phase, all durations and time steps, all thresholds","composition over a continuum of times and all solver executions",[Z+":solve0step"])
p("C76","End-effector planner with the thresholds of the solver",
 "For every epsilon that is small compared to the data (influence of the free points on the control points of the derivatives, curvature of the cost): solveEndEffector returns, and a successful result meets the boundary conditions and the velocity, acceleration and jerk control points the library reports and the heights of the free points satisfy their bounds up to an explicit multiple of epsilon. If the free points of least cost satisfy the constraints, it succeeds with them, for every epsilon.",
 "all boundary data, paths, durations, weights in [0,1], contents of the initial guess, all thresholds","composition over all solver executions",[EE+":solveEndEffector"])
p("C77","Planner with the set that has jerks",
 "computeCOMTrajFixedSize accepts the constraint set with jerks (255). Its assembly stays in bounds, but the kinematic rows constrain c(t) + (1-t/T)^8 (c1-c0) and the acceleration rows c''(t) + 56/T^2 (1-t/T)^6 (c1-c0), not the curve: the planner succeeds iff this system has a solution, and can succeed with a start outside the kinematic polytope.",
 "all problems with this set, x, samples",real,["src/computeCOMTraj.cpp:computeConstraintsOneStep,computeCOMTrajFixedSize",W+"waypoints_c0_dc0_ddc0_j0_j1_ddc1_dc1_c1.hh:evaluateCurveAtTime,evaluateAccelerationCurveAtTime"])
p("C78","When the cost is strictly convex",
 "The Hessian handed to the solver is positive definite for DISTANCE_TRAVELED and, for ACCELERATION, with every constraint set but c0_dc0_ddc0_ddc1_dc1_c1, whatever the samples. With this set it is iff some sample is neither the first instant, nor the last, nor one of the two instants where the acceleration does not depend on the free point; with one phase and one point per phase it is zero.",
 "all accepted problems, discretisations and numbers of further variables",real,["src/costfunction_definition.cpp:computeCostMinAcceleration,computeCostMidPoint","src/computeCOMTraj.cpp:genCostFunction"])
p("C79","Verdict of the QP solver when some point satisfies the inequalities with a margin",
 "For a problem in which some point satisfies every inequality with a margin m that is large compared to the threshold (64 maxIter^2 Lam eps F <= lam m^2, F bounding how far the objective there is from its least value, lam and Lam the curvature), solve_quadprog returns OPTIMAL or, having used up its iterations, MAX_ITER_REACHED; it never returns UNBOUNDED. An OPTIMAL answer satisfies the inequalities up to the tolerance of the code and no feasible point is better by more than 8 maxIter^2 Lam eps F^2 / (lam m^2). The rows may be dependent or nearly so. With equalities whose normals are independent by more than the threshold, and which that point satisfies, the same holds; the status is never REDUNDANT_EQUALITIES, and the answer satisfies the equalities.",
 "all dimensions, strictly convex objectives, lists of inequalities and of independent equalities, thresholds and iteration limits",real,["include/hpp/bezier-com-traj/solver/eiquadprog-fast.hpp","src/eiquadprog-fast.cpp:solve_quadprog"])
p("C80","The planners succeed on problems with a margin",
 "With the thresholds of the solver as they are: if some motion meets the requirements at the samples (continuous formulation: the rows) with a margin that is large compared to the threshold and the cost of that motion, computeCOMTrajFixedSize and computeCOMTraj return with success_, or the QP solver answered MAX_ITER_REACHED on the assembled problem; the cost of the returned motion exceeds that of every admissible motion by at most an amount proportional to the threshold.",
 "all accepted problems in double description, both costs, all discretisations; for the two sets with rounded coefficients the requirements are those of the motion up to an explicit error",real,["src/computeCOMTraj.cpp:computeCOMTraj,computeCOMTrajFixedSize","src/solver-abstract.cpp:solve","src/eiquadprog-fast.cpp:solve_quadprog"])
p("C81","Boundary conditions with rounded arithmetic",
 "With every floating-point operation rounded to a relative error u (11 u < 1), the constant waypoints of each constraint set give, for any free points, a curve that starts and ends exactly at the requested positions and whose velocities, accelerations and jerks at both ends differ from the requested ones by at most gamma(3), gamma(7), gamma(11) times the size of the terms involved (gamma(n) = n u / (1 - n u)); with u = 0 the waypoints are those of exact arithmetic. The curve returned by computeBezierCurve has these properties.",
 "all sets, boundary data, T > 0, free points, all relative errors u and all ways to round each operation",real+"; all roundings",[W+"waypoints_*.hh:computeConstantWaypoints","include/hpp/bezier-com-traj/utils.hh:computeBezierCurve"])
p("C82","Coefficients of position, acceleration and final velocity with rounded arithmetic",
 "With every floating-point operation rounded to a relative error u (30 u < 1): evaluateCurveAtTime and evaluateAccelerationCurveAtTime for a time in [0,1] give the point and the acceleration of the curve on the given control points up to gamma(30) times 3^n M and 4 n (n-1) 3^(n-2) M / T^2, where M bounds the control points and n is the degree; computeFinalVelocityPoint gives the final velocity up to gamma(3) times 2 n M / T.",
 "the seven CoM sets, all control points, free points, times, durations, all relative errors u",real+"; all roundings",[WD+":evaluateCurveAtTime,evaluateAccelerationCurveAtTime,computeFinalVelocityPoint"])
p("C83","Points read by the queries",
 "evaluateCurveAtTime, evaluateAccelerationCurveAtTime and the evaluate*WaypointAtTime functions return for every vector that holds all constant control points of the curve and read out of range for every shorter one; the answer does not depend on what the vector holds in the place of the free points.",
 "all sets, vectors of points, durations and times",real+"; all lengths",[WD+":evaluateCurveAtTime,evaluateAccelerationCurveAtTime,evaluateCurveWaypointAtTime,evaluateVelocityCurveWaypointAtTime,evaluateAccelerationCurveWaypointAtTime,evaluateJerkCurveWaypointAtTime"])
p("C84","Final velocity in the headers of the sets with jerks",
 "computeFinalVelocityPoint of the three headers with jerks gives the velocity of the curve at the end of its duration.",
 "all boundary data and T != 0",real,[W+"waypoints_c0_dc0_ddc0_j0_*_j1_ddc1_dc1_c1.hh:computeFinalVelocityPoint"])
p("C85","An end effector asked to stay where it is",
 "With the same position at both ends and all derivatives zero, solveEndEffector succeeds, whatever the position, the duration, the path and its weight.",
 "the three sets with jerks, all positions, durations, paths and weights in [0,1]",real,[EE+":solveEndEffector",WD+":computeAccelerationWaypoints",W+"waypoints_c0_dc0_ddc0_j0_x3_j1_ddc1_dc1_c1.hh:computeAccelerationWaypoints"])
p("C86","The QP solver in any arithmetic",
 "Whatever the results of the floating-point operations (rounding, order of summation, overflow, NaN), as long as zero compares as zero and add_constraint refuses no inequality that was selected with |z.z| > eps, solve_quadprog reads and writes inside its arrays and returns after at most nEqCon + 2 + maxIter (n + 3) passes.",
 "all number types and operations, all problems with at most n equalities, all contents of the work arrays",real+"; all roundings; termination cannot be observed by a test",[EQ+":solve_quadprog,add_constraint,delete_constraint"])
p("C87","The QP solver with rounded arithmetic and well-scaled data",
 "With every operation rounded to a relative error u and every sum to g times the sum of the absolute values, and data small compared to 1/eps (2 eps N max(1, 2 N B) <= 1, N bounding the squares of the inverse Cholesky factor and B the squared norms of the rows) and to the number of passes, no inequality is ever refused, so solve_quadprog stays in its arrays and returns.",
 "all problems, roundings, orders of summation, results of the triangular solver, iteration limits",real+"; all roundings",[EQ+":solve_quadprog,add_constraint,delete_constraint,distance"])
p("C88","Meaning of OPTIMAL with rounded arithmetic",
 "Under the conditions of C87, when solve_quadprog returns OPTIMAL, every inequality outside the returned active set holds up to the tolerance of the code and the rounding of one evaluation. If the smallest singular value of the inverse Cholesky factor is large compared with the rounding errors, the iterates stay in a ball of radius X and the directions of the equalities pass the test of the code, which they do when the normals of the equalities are independent by an explicit margin, then the equalities and the inequalities of the active set hold up to an explicit multiple of the rounding errors.",
 "all problems, roundings, orders of summation, iteration limits",real+"; all roundings",[EQ+":solve_quadprog"])
p("C89","NaN is not reported",
 "If a coordinate of the unconstrained minimiser is NaN, solve_quadprog returns OPTIMAL (REDUNDANT_EQUALITIES if an equality is refused) with this coordinate NaN, whatever the constraints, even if no point satisfies them.",
 "all problems, all arithmetics in which NaN compares as false and is propagated",real+"; all constraints",[EQ+":solve_quadprog"])
p("C90","Planner with a solver that rounds",
 "The constraints of computeCOMTraj, on samples or continuous, in double description, are passed to solve_quadprog with rounded arithmetic (C87, C88), every row known up to an error rho, with any factor of the Hessian that is well scaled. The solver returns; success_ is set exactly when it returns OPTIMAL; a curve returned with success_ meets the boundary conditions exactly, and the kinematic and wrench constraints at every sample (at every instant in the continuous formulation, for data with no constant waypoint at the origin) up to an explicit tolerance made of the tolerance of the code, the rounding errors times the radius of the iterates, and rho.",
 "all accepted problems, seven constraint sets, all roundings, all factors, all iteration limits",real+"; all roundings",[EQ+":solve_quadprog","src/computeCOMTraj.cpp:computeCOMTraj"])
p("C91","Fields that are not selected have no influence",
 "computeCOMTraj and computeCOMTrajFixedSize have the same outcome on two problems that agree on the boundary values selected by the flags, on mass, gravity and the description of the admissible wrenches used by the representation, on the kinematic constraints and on the options: the other boundary values, the angular momentum data and the other description are not read; the one exception is the cost DISTANCE_TRAVELED, which reads c0 and c1 even if they are not selected. solve0step reads, besides the contact, c0 and dc0, and l0 (which no constructor initialises) only when the angular momentum is used.",
 "all pairs of problems, durations, steps, solvers, library behaviours","The claim is about pairs of runs, on every pair of real data",["src/computeCOMTraj.cpp:computeCOMTraj,computeCOMTrajFixedSize","src/solve_0_step.cpp:solve0step","include/hpp/bezier-com-traj/data.hh:ProblemData"])
p("C92","Number of free variables",
 "dimVar returns three times the largest of 5, 4, 3, 2 whose flag is set and 3 if none is; for every set of constraints of the library this is the number of coordinates of the unknown.",
 "all 2^32 values of the flags","2^32 values of the flags",[WD+":dimVar"])
p("C93","Zero step and end effector planners with a solver that rounds",
 "solve0step and solveEndEffector with solve_quadprog in rounded arithmetic, every row of the constraints known up to an error rho, with any factor of the Hessian that is well scaled. The solver returns; success is set exactly when it returns OPTIMAL; otherwise the result is the default one. A trajectory returned by solveEndEffector with success meets the boundary conditions exactly and the velocity, acceleration and jerk bounds up to an explicit tolerance; one returned by solve0step starts at c0 with velocity dc0, ends at rest, and its wrenches are admissible at every instant (at every sample if time_step is in (0, T]) up to the tolerance.",
 "all boundary data, contacts, durations, roundings, factors, iteration limits",real+"; all roundings",[EQ+":solve_quadprog","src/solve_0_step.cpp:solve0step","include/hpp/bezier-com-traj/solve_end_effector.hh:solveEndEffector"])
p("C94","Planner on samples with everything rounded",
 "In computeCOMTraj with a discretisation in time, for the five sets of conditions whose wrench is exact, let every operation that computes waypoints, wrenches, polytope rows, kinematic and acceleration rows, norms and right-hand sides be rounded to a relative error u (sums in any order). There are C and u0 that depend on the data only such that for u <= u0 the assembly returns a system in three unknowns, and if a point satisfies the computed rows up to delta, the curve built from this point and the computed waypoints meets the boundary conditions up to rounding (C81) and the kinematic, wrench and acceleration constraints at every sample up to a multiple of delta plus C u (1 + |x|). With the solver of C88 this holds for the curve that is returned when the solver answers OPTIMAL.",
 "all accepted problems, five constraint sets, all discretisations, all roundings, all points",real+"; all roundings",["src/computeCOMTraj.cpp:computeDiscretizedWwaypoints,dynamicStabilityConstraints,updateH,assignStabilityConstraints,assignKinematicConstraints,assignAccelerationConstraints,computeConstraintsOneStep",WD+":computeWwaypoints","src/common_solve_methods.cpp:Normalize"])
p("C95","Rows computed with rounding keep motions with a margin",
 "In computeCOMTraj with a discretisation in time, for the five sets of conditions whose wrench is exact, let every operation of computeConstraintsOneStep be rounded to a relative error u as in C94. There are C and u0 that depend on the data only such that for u <= u0, if a motion of the planner with free point x meets the kinematic, wrench and acceleration constraints at every sample with a margin of C u (1 + |x|), then x satisfies all rows that are computed, without tolerance. In particular the computed system is feasible whenever some motion meets the requirements with a margin.",
 "all accepted problems, five constraint sets, all discretisations, all roundings, all motions",real+"; all roundings",["src/computeCOMTraj.cpp:computeDiscretizedWwaypoints,dynamicStabilityConstraints,updateH,assignStabilityConstraints,assignKinematicConstraints,assignAccelerationConstraints,computeConstraintsOneStep",WD+":computeWwaypoints","src/common_solve_methods.cpp:Normalize"])
p("C96","A solver that rounds does not reject a problem with a margin",
 "solve_quadprog with rounded arithmetic and well-scaled data, with equalities whose normals are far enough from dependent, or none: if some point of a ball satisfies the equalities up to eta and every inequality with a margin that exceeds an explicit multiple of the rounding errors of eta and of the square root of the threshold eps, the solver returns OPTIMAL or MAX_ITER_REACHED: never UNBOUNDED, the status by which it reports that no point satisfies the constraints, nor REDUNDANT_EQUALITIES. For computeCOMTraj on samples: if some motion meets the requirements with such a margin the run ends with success_ or with MAX_ITER_REACHED, and with success_ the curve meets the requirements up to the tolerance of C90. The rows may be dependent or nearly so, and many.",
 "all roundings, all numbers of inequalities, all well-scaled problems, all accepted planner problems with one of the five exact sets",real+"; all roundings",[EQ+":solve_quadprog,add_constraint,delete_constraint,update_z,update_r","src/computeCOMTraj.cpp:computeCOMTraj"])
p("C97","The point returned by a solver that rounds is nearly optimal",
 "solve_quadprog with rounded arithmetic and well-scaled data, with equalities whose normals are far enough from dependent, or none, with Cholesky factors accurate up to given errors: when it returns OPTIMAL and the returned Lagrange multipliers of the inequalities are at least -delta, the objective at the returned point exceeds the objective at any point that satisfies the constraints by at most an explicit sum of multiples of the rounding errors, of delta, of the errors of the Cholesky factors and of the square root of the threshold eps. For computeCOMTraj on samples: with success_, no motion that meets the requirements, with a margin for the rounding of the rows, costs less than the returned one by more than that.",
 "all roundings, all numbers of inequalities, all well-scaled problems, all accepted planner problems with one of the five exact sets",real+"; all roundings",[EQ+":solve_quadprog,add_constraint,delete_constraint,update_z,update_r,getLagrangeMultipliers","src/computeCOMTraj.cpp:computeCOMTraj,genCostFunction"])
p("C98","The objective reported by a solver that rounds is the objective at the returned point",
 "solve_quadprog with rounded arithmetic and well-scaled data, with equalities whose normals are far enough from dependent, or none, with Cholesky factors accurate up to given errors: whatever status it returns, the objective value it reports, which is accumulated step by step from the step lengths and multipliers, differs from the objective evaluated at the returned point by at most an explicit sum of multiples of the rounding errors, of the errors of the Cholesky factors and of the square root of the threshold eps. For computeCOMTraj on samples: with success_, twice the reported cost_ is the cost of the returned motion less the cost of the motion with the free point at 0, up to that.",
 "all roundings, all numbers of inequalities, all well-scaled problems, all statuses, all accepted planner problems with one of the five exact sets",real+"; all roundings",[EQ+":solve_quadprog","src/computeCOMTraj.cpp:computeCOMTraj,genTraj,genCostFunction"])
p("C99","The planner with force variables and a solver that rounds",
 "computeCOMTraj with the force formulation (forces as variables, continuous formulation) and solve_quadprog with rounded arithmetic and rows known up to rho: the solver ends with a status, and when it reports success_ the curve meets the boundary conditions, at all times of every phase the wrench of the robot differs from a non-negative combination of the generators by at most the mass times an explicit tolerance, the kinematic constraints and the bound on the acceleration hold up to it. The tolerance is a multiple of the rounding errors and of rho. The force variables exist only at the control points of the wrench: the statement is about all times. For the sets with rounded decimals the error of the coefficients is added. The hypotheses on the solver follow from the data: when the generators of every phase span the space of wrenches, they are met by every small enough threshold, rounding unit and rho.",
 "all accepted problems with nested phases and one of the seven sets, all roundings, all numbers of generators, all times",real+"; all roundings; all times",[EQ+":solve_quadprog","src/computeCOMTraj.cpp:computeCOMTraj,genTraj,genCostFunction,computeConstraintsContinuous","src/solver-abstract.cpp:solve,addConstraintMinBoundQuadProg"])
p("C100","The zero step planner and the end effector planner succeed on problems with a margin",
 "With the thresholds of the solver as they are. solve0step without angular momentum and with a time step: if the robot can stop at some point where the kinematic constraints hold with a margin, with a wrench at the samples that keeps the same distance from the border of the cone, and the margin is large compared to the threshold and the distance of that point to c0, then solve0step returns with success_, or the QP solver answered MAX_ITER_REACHED on the assembled problem; the motion is admissible up to the tolerance, and the square of the returned cost exceeds the squared distance of every admissible stop by at most an amount proportional to the threshold. solveEndEffector: the same when some free points keep the constraints with a margin; the rows of zeros that the code adds do not need one.",
 "all problems with one usable contact phase, all durations and time steps; all boundary data, paths, durations and weights of the three sets with jerks; all thresholds",real,[Z+":solve0step",EE+":solveEndEffector,computeConstraintsMatrix","src/solver-abstract.cpp:solve","src/eiquadprog-fast.cpp:solve_quadprog"])
p("C101","ProblemData and Constraints objects of a Python session",
 "In a Python session with any number of ProblemData and Constraints objects: a setter changes the value it names, of the object it names, to the given value, and nothing else; a getter returns the current value and changes nothing; an out-of-range flag_ raises OverflowError and changes nothing. p.constraints_ is a reference: as long as p lives, reading through it gives the values with which the planner is called on p; assigning to p.constraints_ copies. addContact makes the problem see the current value of the contact after those it saw, clearContacts empties it, nothing else changes the contacts a problem sees, in particular nothing done to another problem. When a planner is called, every contact phase of the problem exists, the jerks are zero, l0_ is uninitialised, and every other member is what Python reads; computeCOMTraj does not depend on l0_. After any session a command returns or raises; its behaviour is undefined exactly when it changes an Equilibrium that was destroyed, adds a contact whose phase is null or destroyed, or uses a reference to the constraints_ of a problem that was deleted (the reference does not keep the problem alive).",
 "all sessions, all commands, all numbers of objects, all growth policies of the vector","Sessions are unbounded sequences of commands on any number of objects",["python/bezier_com_traj.cpp:get_Flag,set_Flag,get_ConstrainAcc,set_ConstrainAcc,get_MaxAcc,set_MaxAcc,get_ReduceH,set_ReduceH,get_c0_,set_c0_,get_useAngularMomentum_,set_useAngularMomentum_,get_costFunction_,set_costFunction_,get_GIWC_representation_,set_GIWC_representation_,get_constraints_,set_constraints_,addContact,clearContacts","include/hpp/bezier-com-traj/data.hh:ProblemData,Constraints,ContactData"])
p("C102","The planner with force variables succeeds on problems with a margin",
 "computeCOMTraj with the force formulation and the thresholds of the solver as they are: if some motion and some contact forces at the control points satisfy the equations of motion, and the kinematic and acceleration rows and the signs of the forces with a margin that is large compared to the threshold and the cost of that motion and those forces, the call returns with success_, or the QP solver answered MAX_ITER_REACHED on the assembled problem (never UNBOUNDED or REDUNDANT_EQUALITIES). After success_ the equations hold exactly, the rows and signs up to the tolerance, the curve meets the boundary conditions, at all times the wrench is close to the cone of the phase, and the cost exceeds that of every motion with forces that satisfies all constraints by at most an amount proportional to the threshold. When the generators of every phase span the space of wrenches and a motion with forces has some margin, every small enough threshold is covered.",
 "all accepted problems with force variables, both costs, all thresholds and iteration limits",real,["src/computeCOMTraj.cpp:computeCOMTraj,computeConstraintsContinuous","src/solver-abstract.cpp:solve,addConstraintMinBoundQuadProg","src/eiquadprog-fast.cpp:solve_quadprog"])
p("C103","The zero step planner with angular momentum, with and without a time step, on problems with a margin",
 "The inequalities of solve0step, with or without angular momentum (then without kinematic constraints), hold at a point exactly when the motion it stands for satisfies the kinematic constraints and its wrench is in the cone: at the samples with a time step, at its five control points without. With the thresholds of the solver as they are: if some such motion satisfies the constraints with a margin that is large compared to the threshold and to how far its cost is from the least cost without constraints, solve0step returns with success_, or the QP solver answered MAX_ITER_REACHED on the assembled problem; the returned motion is admissible up to the tolerance (at every instant without a time step), and its cost (the integral of the squared norm of the derivative of the momentum plus 0.0001 times the squared distance from c0, or the squared distance) exceeds that of every admissible motion by at most an amount proportional to the threshold.",
 "all problems with one usable contact phase, all durations and time steps, with and without angular momentum, all thresholds",real,[Z+":solve0step,computeCostFunction,ComputeAllWaypoints,ComputeAllWaypointsAngularMomentum","src/common_solve_methods.cpp:compute6dControlPointInequalities","src/solver-abstract.cpp:solve","src/eiquadprog-fast.cpp:solve_quadprog"])
p("C104","The unused variant of the stability rows reads memory that was never assigned",
 "dynamicStabilityConstraints_cross, called with at least one inequality, normalises a matrix whose fourth column has not been assigned yet: its behaviour is undefined whatever the arguments. If reading that memory is harmless, then whatever it contained: there is one row per inequality, the coefficient of the slack variable is one, and with a zero slack the rows hold exactly when the wrench of the position and acceleration (affine in the unknown) satisfies every inequality of the polytope; but the amount of slack a row allows depends on the previous contents of the memory.",
 "all inequality systems, gravities, affine positions and accelerations, all contents of the memory","The function has no caller and no declaration in a header, and a test would see whatever the allocator returns.",["src/computeCOMTraj.cpp:dynamicStabilityConstraints_cross","src/common_solve_methods.cpp:Normalize"])
p("C105","With smaller thresholds the planners approach the requested motion",
 "If some motion meets the requirements with a margin, then for every requested accuracy and every iteration limit there is a positive threshold of the solver, depending on the problem only, such that with this or any smaller threshold (and any factorisation routine that is a Cholesky factorisation) the planner returns success_, or the QP solver answered MAX_ITER_REACHED on the assembled problem; every motion it returns meets the requirements up to the accuracy, and no motion that meets the requirements has a cost lower by more than the accuracy. This holds for computeCOMTrajFixedSize, computeCOMTraj with a time step, without a time step in double description and with force variables, solveEndEffector and solve0step.",
 "all problems with a margin, all accuracies, all iteration limits, all implementations of the numerical library that meet its contract","It is a statement about a limit: a test uses the one threshold that is compiled in.",["src/computeCOMTraj.cpp:computeCOMTraj","src/computeCOMTraj.cpp:computeCOMTrajFixedSize","include/hpp/bezier-com-traj/solve_end_effector.hh:solveEndEffector","src/solve_0_step.cpp:solve0step","src/eiquadprog-fast.cpp:EiquadprogFast::solve_quadprog"])
p("C106","Lifetime of Equilibrium objects in Python sessions",
 "In every Python session with any number of Equilibrium, ContactData, ProblemData and Constraints objects: an Equilibrium made by Python exists as long as a variable owns it or a living ContactData was constructed from a variable that owned it, and the command after which neither holds destroys it; it changes only through a variable that holds it. A session that neither reads nor assigns contactPhase_, makes no ContactData of None, and either deletes no problem or reads the constraints_ of none, has no undefined behaviour, whatever else it creates, aliases, changes, adds, clears and deletes; each of these conditions is needed. Every addContact allocates two Equilibrium objects, plus one per contact already there when the vector grows, and none of these is ever destroyed, not by clearContacts nor by the deletion of the problem.",
 "all sequences of commands, all objects, all growth policies of std::vector","Dangling pointers and leaks have no visible effect in most runs; a test runs one order of creation and deletion.",["python/bezier_com_traj.cpp:addContact","python/bezier_com_traj.cpp:getContactPhase_","python/bezier_com_traj.cpp:setContactPhase_","include/hpp/bezier-com-traj/data.hh:ContactData"])
p("C107","The QP solver does not depend on the origin of the unknowns",
 "For every problem with an invertible Hessian, every shift p of the unknowns, every threshold, iteration limit and every contents of the work arrays: solve_quadprog on the problem written in the unknowns y = x + p makes the same choices as on the problem in x. It ends in the same way; the status, the active set and the multipliers are the same, the solution is the solution plus p, and the objective is the objective plus the constant g.p - p.Gp/2, which is the difference of the two objectives at every point.",
 "all problems, shifts, thresholds, work arrays and fuel","A test runs finitely many problems; the claim is that two executions take the same branches for all problems and shifts.",["src/eiquadprog-fast.cpp:solve_quadprog"])
p("C108","Plans do not depend on the origin of the frame",
 "If a problem is expressed from another origin (positions shifted by p, kinematic polytopes shifted, wrench cones transported, each row with any positive scale), then without a margin (reduce_h <= 0) the admissible motions of the sampled formulation are the shifted ones; the motion that the planner looks for is unique; and computeCOMTrajFixedSize and computeCOMTraj give the same verdict and the shifted motion. With a margin this is false: for every 0 < reduce_h <= 1 (the default is 1e-3) there is a problem which is solved in one frame and refused in another, because the margin is multiplied with the norm of the rows, which depends on the origin.",
 "all problems, shifts, scales of the rows, discretisations","A relation between two runs on different inputs; a test would compare a few frames near the origin, where the effect of the default margin is small.",["src/computeCOMTraj.cpp:computeConstraintsOneStep","src/computeCOMTraj.cpp:computeCOMTrajFixedSize","src/computeCOMTraj.cpp:computeCOMTraj","include/hpp/bezier-com-traj/data.hh:reduce_h_"])
p("C109","Plans do not depend on the axes of the frame, the mass, or the scale of the rows",
 "If a problem of the sampled formulation is expressed in rotated axes, and each phase has another mass of the same sign and its stability rows another positive scale (the right-hand sides kept, since the code takes them for rows of norm 1), then for every margin reduce_h, without a bound on the acceleration, computeCOMTrajFixedSize and computeCOMTraj give the same verdict and the rotated motion. With constraintAcceleration_ this is false: the bound is on each coordinate, and there is a problem that is refused in one frame and solved in a rotated one.",
 "all problems (seven constraint sets; the acceleration cost not with six boundary conditions), rotations, masses, scales of the rows, margins, discretisations, in exact arithmetic with an iteration limit that is not reached","A relation between two runs on different inputs, for all rotations and masses.",["src/computeCOMTraj.cpp:computeConstraintsOneStep","src/computeCOMTraj.cpp:computeCOMTrajFixedSize","src/computeCOMTraj.cpp:computeCOMTraj","include/hpp/bezier-com-traj/data.hh:Constraints"])
p("C110","Looser requirements never lose a plan",
 "If a problem of the sampled formulation is made looser (rows of the wrench cones or of the kinematic polytopes removed or their bounds raised, a smaller margin reduce_h, a larger bound on the acceleration or none) and the number of points per phase is replaced by a divisor, then computeCOMTrajFixedSize succeeds whenever it did on the first problem, and the cost of its motion at the samples of the second call is at most that of the first motion. Likewise computeCOMTraj with a multiple of the time step. For a number that is not a divisor, or a step that is not a multiple, this is false: there is a problem that is solved with six points and refused with four, and solved with a step of 1/6 s and refused with 1/4 s.",
 "all pairs of problems, one looser than the other (seven constraint sets; the acceleration cost not with six boundary conditions), all numbers of points and multiples, in exact arithmetic with an iteration limit that is not reached","A relation between two runs on different inputs; the solver goes through other active sets in the second run, and tests see a few pairs.",["src/computeCOMTraj.cpp:computeConstraintsOneStep","src/computeCOMTraj.cpp:computeCOMTrajFixedSize","src/computeCOMTraj.cpp:computeCOMTraj","src/utils.cpp:computeDiscretizedTimeFixed","src/utils.cpp:computeDiscretizedTime"])
p("C111","What the continuous formulation solves, the sampled formulation solves",
 "If computeCOMTraj with timeStep <= 0 succeeds (double description, no constant waypoint at the origin, no bound on the acceleration or control points of the second derivative scaled at least like 1/T^2), then computeCOMTrajFixedSize succeeds on the same problem with any number of points per phase, and computeCOMTraj with any positive time step at most half of every phase; the cost at the samples is at most that of the motion of the continuous formulation. If the control points of the second derivative carry no factor 1/T^2 and the acceleration is bounded this is false: there is a problem of half a second that is solved with timeStep = -1 and refused with every number of points.",
 "all problems (seven constraint sets; the acceleration cost not with six boundary conditions), numbers of points, time steps, in exact arithmetic with an iteration limit that is not reached","Relates two formulations with different rows and different solver runs, for every discretisation.",["src/computeCOMTraj.cpp:computeConstraintsContinuous","src/computeCOMTraj.cpp:computeCOMTraj","src/computeCOMTraj.cpp:computeCOMTrajFixedSize"])
p("C112","Plans do not depend on the units of length and time",
 "If a problem of the sampled formulation is written in other units of length and time (positions, velocities, accelerations, gravity, kinematic bounds, the bound on the acceleration, durations and the time step converted; each stability row converted, with any positive scale, its right-hand side less the margin being the converted one for a row of norm 1), then computeCOMTrajFixedSize and computeCOMTraj give the same verdict and the converted motion. Every problem can be converted for any margin, by the choice of the right-hand sides; with another unit of time only, the margin and the right-hand sides are converted like accelerations. With another unit of length and cones (right-hand sides 0) this is false: whatever margin is chosen in the new unit, there is a problem with another verdict, because the norm of a row adds squares of force and of torque coefficients.",
 "all problems (seven constraint sets; the acceleration cost not with six boundary conditions), units, margins, discretisations, in exact arithmetic with an iteration limit that is not reached","A relation between two runs on different inputs; tests use metres and seconds only.",["src/computeCOMTraj.cpp:computeConstraintsOneStep","src/computeCOMTraj.cpp:computeCOMTrajFixedSize","src/computeCOMTraj.cpp:computeCOMTraj","include/hpp/bezier-com-traj/data.hh:reduce_h_"])
p("C113","What the formulation with forces solves, the sampled formulation with polytopes solves",
 "If computeCOMTraj with timeStep <= 0 and representation_ = FORCE succeeds (generators of every phase spanning the space of wrenches, positive masses, nested phases, no constant waypoint at the origin, no bound on the acceleration or control points of the second derivative scaled at least like 1/T^2), and every row of the polytope of each phase holds of all its generators with a right-hand side at least the margin, then with DOUBLE_DESCRIPTION computeCOMTrajFixedSize succeeds with any number of points per phase, and computeCOMTraj with any positive time step at most half of every phase; the cost at the samples is at most that of the motion found with forces. For cones (right-hand sides 0) and a positive margin this is false, since the formulation with forces does not know the margin: there is a problem that is solved with forces and refused with polytopes for every number of points.",
 "all problems (seven constraint sets; the acceleration cost not with six boundary conditions), numbers of points, time steps, in exact arithmetic with an iteration limit that is not reached","Relates two representations of the contacts, with other unknowns and other constraints, for every discretisation.",["src/computeCOMTraj.cpp:computeConstraintsContinuous","src/computeCOMTraj.cpp:computeConstraintsOneStep","src/computeCOMTraj.cpp:computeCOMTraj","src/computeCOMTraj.cpp:computeCOMTrajFixedSize","include/hpp/bezier-com-traj/data.hh:reduce_h_"])
p("C114","Plans of the continuous formulation and the origin of the frame",
 "If a problem is expressed from another origin (as in C108), without a margin and in double description, and no constant waypoint is at the origin of either frame, then the systems that computeConstraintsContinuous assembles in the two frames are the same up to the shift, and computeCOMTraj with timeStep <= 0 gives the same verdict and the shifted motion. If a constant waypoint is at the origin this is false: there is a motion that starts at the origin, outside its reachable polytope, which is accepted, and which is refused when seen from another origin.",
 "all problems, shifts, scales of the rows, durations","A relation between two runs on different inputs; the exception needs a waypoint within 1e-12 of the origin, where test data are often taken for other reasons.",["src/computeCOMTraj.cpp:computeConstraintsContinuous","src/computeCOMTraj.cpp:computeCOMTraj","src/waypoints_definition.cpp:computeConstantWaypointsSymbolic"])
p("C115","Continuous formulation: splitting phases or asking for less never loses a plan",
 "Let a second problem have the same boundary conditions, flag and total duration, let each of its phases be contained in a phase of the first problem, with fewer or looser rows of the contact and reachability polytopes, a margin that is not larger and an acceleration bound that is not smaller. In double description, every point that satisfies the system that computeConstraintsContinuous assembles for the first problem satisfies that of the second one; hence if computeCOMTraj with timeStep <= 0 succeeds on the first problem it succeeds on the second one, and with the same phases and cost its cost is not larger. The converse is false even when the requirements are identical: there is a motion solved as two halves and refused as a single phase.",
 "all pairs of problems so related, all durations, all scales of the second derivative","A relation between two runs with different numbers of phases; the reason it holds is that control points of a part of a curve are convex combinations of those of the curve.",["src/computeCOMTraj.cpp:computeConstraintsContinuous","src/computeCOMTraj.cpp:computeCOMTraj"])
p("C116","Continuous formulation: forces and polytopes agree",
 "Let the generators of every phase span the space of wrenches, the masses be positive and the phases nested, and call computeCOMTraj with timeStep <= 0 once with representation_ = FORCE and once with DOUBLE_DESCRIPTION. If every row of the polytope of each phase holds of all its generators with a right-hand side at least the margin, then success with forces implies success with polytopes, at no larger cost of the motion. If every wrench admitted by the polytope is generated, then success with polytopes by a point none of whose coordinates is below -100000 implies success with forces. Without that condition the second claim is false: far from the origin, a phase that can produce every wrench is solved with polytopes and refused with forces, because of the lower bounds of the unknowns.",
 "all problems, durations, scales of the second derivative","A relation between two formulations with different unknowns, over all problems; the existence of force variables is not visible in the result.",["src/computeCOMTraj.cpp:computeConstraintsContinuous","src/computeCOMTraj.cpp:computeCOMTraj"])
p("C117","Continuous formulation with forces: splitting phases or allowing more wrenches never loses a plan",
 "As C115 with representation_ = FORCE: if each phase of the second problem is contained in a phase of the first one, with a cone of wrenches that contains that of the first one and looser reachability rows, and the acceleration bound is not smaller, then every motion that has forces in the system of the first problem has forces in that of the second one, and if computeCOMTraj with timeStep <= 0 succeeds on the first problem it succeeds on the second one (positive masses, nested phases, generators of the first problem spanning the space of wrenches). Nesting is needed: there is a problem, with phases that are not nested, and a motion that has forces, and has none after the first phase is split.",
 "all pairs of problems so related, all durations, all scales of the second derivative","A relation between two runs with different numbers of phases and of unknowns; the exception shows only at the control point of a switch that is not checked.",["src/computeCOMTraj.cpp:computeConstraintsContinuous","src/computeCOMTraj.cpp:computeCOMTraj"])
p("C118","The stopping planner gives the same answer in every frame",
 "If the problem given to solve0step is written in another frame (a rotation and another origin: initial position, velocity, angular momentum, gravity, kinematic rows and contact cone converted; each row of the cone with any positive scale), then solve0step, in double description, with or without a time step, gives the same verdict, the same motion and the same angular momentum seen from the other frame, and the same cost_. With angular momentum the problem has no kinematic constraints.",
 "all problems, rotations, origins, durations, time steps","A relation between two runs on different inputs, over all frames; it holds although the assembled systems and the iterations of the solver differ.",["src/solve_0_step.cpp:solve0step","src/solve_0_step.cpp:compute6dControlPointInequalities","src/solve_0_step.cpp:computeCostFunction"])
p("C119","The stopping planner never loses a plan when asked for less",
 "Let a second call of solve0step have the same initial state and duration, fewer rows of the contact cone (or rescaled ones), looser kinematic rows, and a time step whose requirements are among those of the first call: the first call checks control points, or its number of steps is a multiple of that of the second call. If the first call succeeds so does the second one, the effort that is minimised is not larger, and without angular momentum neither is cost_. A larger time step alone is not asking for less: there is a problem of one second that is solved with time step 0.3 and refused with 0.5.",
 "all pairs of problems so related, all durations, all time steps","A relation between two runs on different inputs and samples, over all problems.",["src/solve_0_step.cpp:solve0step","src/solve_0_step.cpp:compute6dControlPointInequalities"])
p("C120","The end effector planner and the origin of the frame",
 "If both ends of the motion given to solveEndEffector are moved by the same vector, the verdict is the same and the motion is moved by that vector. For the set with one free point the admissible motions and the verdict are the same in both frames, for all paths and weights; with the smoothness cost alone the motions differ, at every instant, by at most 3e-11 times the length of the vector, and they do differ: asked to stay at the origin the end effector stays, asked to stay at (1,0,0) it moves, because the decimals of the cost do not cancel. For the sets with three and five free points the verdict is not the same.",
 "all boundary conditions, vectors, durations, paths, weights","A relation between two runs on different inputs; the displacement is below the tolerance of any test.",["include/hpp/bezier-com-traj/solve_end_effector.hh:solveEndEffector","include/hpp/bezier-com-traj/waypoints/waypoints_c0_dc0_ddc0_j0_j1_ddc1_dc1_c1.hh:computeVelocityCost","include/hpp/bezier-com-traj/waypoints/waypoints_c0_dc0_ddc0_j0_x3_j1_ddc1_dc1_c1.hh:computeAccelerationWaypoints"])
p("C121","Continuous formulation: axes, mass, scale and units",
 "Call computeCOMTraj with timeStep <= 0 in double description. If the axes are exchanged or reversed by a rotation, the mass is changed and the rows of the polytopes rescaled, the verdict is the same and the motion is the turned one. If the units of length and time are changed (the problem as in C112) and the second derivative of the curve is taken with respect to time, the verdict is the same and the motion is the converted one, provided no waypoint crosses, by the conversion, the threshold 1e-12 under which it is taken for a free one. Each condition is needed: the continuous formulation bounds the coordinates of the acceleration even with constraintAcceleration_ = false, so a turn by another angle changes the verdict of some problem; with a second derivative whose factor does not depend on the duration a change of the unit of time does; and so does a change of the unit of length for a motion that starts 1e-12 from the origin.",
 "all problems, all seven constraint sets with the distance cost (all but c0_dc0_ddc0_ddc1_dc1_c1 with the acceleration cost), durations, axes, units","A relation between two runs on different inputs, over all problems and units; the exceptions show only for unusual angles or at the origin.",["src/computeCOMTraj.cpp:computeConstraintsContinuous","src/computeCOMTraj.cpp:computeCOMTraj","src/waypoints_definition.cpp:computeConstantWaypointsSymbolic"])
p("C122","End effector planner and the horizontal axes",
 "Call solveEndEffector on a problem and on the same problem after horizontal axes are exchanged or reversed (boundary conditions and path alike): with an iteration limit above 2^(number of rows) the verdict is the same, and the second motion is the first one in the other axes. The same of computeEndEffector of the Python module. Both conditions on the axes are needed: after a turn about the vertical by another angle a refused motion is planned, because each coordinate of the jerk is compared with 10000; and after a quarter turn about a horizontal axis a planned motion is refused, because the free points may not be lower than the lower end.",
 "all boundary conditions, the three end effector sets, paths, weights in [0, 1], positive durations, exchanges and reversals of horizontal axes","A relation between two runs on different inputs, over all problems, paths and weights; a test has one problem.",["include/hpp/bezier-com-traj/solve_end_effector.hh:solveEndEffector","include/hpp/bezier-com-traj/solve_end_effector.hh:computeEndEffectorCost","include/hpp/bezier-com-traj/solve_end_effector.hh:computeConstraintsMatrix"])
p("C123","End effector planner: slower or smaller motions are never refused",
 "If solveEndEffector plans a motion, it also plans the motion with all times multiplied by l >= 1 and all lengths by 0 <= m <= 1 (velocities, accelerations and jerks of the boundary conditions converted accordingly), whatever the paths and the weights in [0, 1], with an iteration limit above 2^(number of rows). The converse fails, because the bound 10000 has no unit: the move of length 35 in one second is planned and that of length 70 is refused; the move of length 1 is planned in one second and refused in a fifth of a second. So a change of the unit of length or of time changes the verdict.",
 "all boundary conditions, the three end effector sets, paths, weights, positive durations, factors l >= 1 and m in [0, 1]","A relation between two runs on different inputs, over all problems and factors.",["include/hpp/bezier-com-traj/solve_end_effector.hh:solveEndEffector","include/hpp/bezier-com-traj/solve_end_effector.hh:computeEndEffectorConstraints","include/hpp/bezier-com-traj/solve_end_effector.hh:computeConstraintsMatrix"])
p("C124","End effector planner and the direction of time",
 "Call solveEndEffector on a motion and on the reversed motion (ends exchanged, velocities and jerks negated): the verdict is the same.",
 "all boundary conditions, the three end effector sets, paths, weights, positive durations","A relation between two runs on different inputs, over all problems.",["include/hpp/bezier-com-traj/solve_end_effector.hh:solveEndEffector","include/hpp/bezier-com-traj/waypoints/waypoints_c0_dc0_ddc0_j0_j1_ddc1_dc1_c1.hh:computeAccelerationWaypoints","include/hpp/bezier-com-traj/waypoints/waypoints_c0_dc0_ddc0_j0_x3_j1_ddc1_dc1_c1.hh:computeAccelerationWaypoints","include/hpp/bezier-com-traj/waypoints/waypoints_c0_dc0_ddc0_j0_x5_j1_ddc1_dc1_c1.hh:computeAccelerationWaypoints"])
p("C125","What the answers of the planners depend on",
 "The verdict of solveEndEffector depends on the boundary conditions, the set and the duration only: with an iteration limit above 2^(number of rows) it is the same for all paths, weights in [0, 1], initial guesses and solvers that meet the contract of the library. The motion depends in addition on the weight and on the path at the 50 instants i/49 only, and not on the path when the weight is 0: two calls that agree on these, both successful, return the same curve, whatever the initial guesses and solvers. In the same way the verdict and the motion of computeCOMTraj in double description (samples per phase, time step, continuous formulation), and with forces when the generators of each phase span the space of wrenches (continuous formulation), are the same for all solvers that meet the contract, and so are the verdict, the motion, the angular momentum and cost_ of solve0step.",
 "all problems, all paths, weights, initial guesses, and all pairs of solvers that meet the contract","Quantifies over all solvers and all paths; a test links one solver. A path with a detour between two of the 50 instants looks like a use case the planner would follow.",["include/hpp/bezier-com-traj/solve_end_effector.hh:solveEndEffector","include/hpp/bezier-com-traj/solve_end_effector.hh:computeDistanceCostFunction","include/hpp/bezier-com-traj/solve_end_effector.hh:computeEndEffectorCost","src/computeCOMTraj.cpp:computeCOMTraj","src/computeCOMTraj.cpp:computeCOMTrajFixedSize","src/solve_0_step.cpp:solve0step"])
p("C126","End effector planner: what the weight of the path trades",
 "Call solveEndEffector twice on the same problem and path, with weights w < w' in [0, 1]. If both calls succeed, the second motion is not farther from the path: the sum of the squared distances at the 50 instants i/49 of the motion is not larger. And the first motion is at least as smooth: the integral of its squared velocity is not larger, to the precision of the decimals in the source.",
 "all boundary conditions, the three end effector sets, paths, positive durations, pairs of weights, initial guesses and solvers that meet the contract","A relation between two runs on different inputs, over all paths and weights. A path that starts and ends at the same place, or three free points, does not show the error of the set with one free point.",["include/hpp/bezier-com-traj/solve_end_effector.hh:solveEndEffector","include/hpp/bezier-com-traj/solve_end_effector.hh:computeEndEffectorCost","include/hpp/bezier-com-traj/solve_end_effector.hh:computeDistanceCostFunction","include/hpp/bezier-com-traj/waypoints/waypoints_c0_dc0_ddc0_j0_j1_ddc1_dc1_c1.hh:evaluateCurveWaypointAtTime"])
p("C127","End effector planner: motions between two planned motions are planned",
 "Take two end effector problems with the same set of constraints and the same duration, whose eight boundary vectors are d and d', and in which the same end is the lower one (both rise or stay level, or both descend or stay level). If solveEndEffector plans both, it plans the problem with boundary vectors (1 - s) d + s d' for every s in [0, 1], whatever the three paths, weights and initial guesses. Without the condition on the lower end this is not so: a motion up and a motion down can both be planned and the one half way between be refused, because the free points must stay above the lower end.",
 "all pairs of boundary conditions with the same lower end, fractions, the three end effector sets, positive durations, paths, weights, initial guesses and solvers that meet the contract","A relation between three runs, over all pairs of problems; the exception needs a large jerk at the start.",["include/hpp/bezier-com-traj/solve_end_effector.hh:solveEndEffector","include/hpp/bezier-com-traj/solve_end_effector.hh:computeConstraintsMatrix"])
p("C128","End effector planner: a motion that exists is not refused",
 "Take a polynomial motion of degree 8 for which the control points of the velocity, the acceleration and the jerk are between -10000 and 10000, and whose control points are not lower than its lower end. Called with the positions, velocities, accelerations and jerks of this motion at its ends and with its duration, solveEndEffector succeeds, with one, three or five free points; with five, the same holds of motions of degree 10.",
 "all control points of degree 8 or 10 within the bounds, positive durations, the three end effector sets, paths, weights, initial guesses and solvers that meet the contract","A claim about every motion that exists, found or not; tests look at motions of a few decimetres near the origin, where the errors in the accelerations do not show.",["include/hpp/bezier-com-traj/solve_end_effector.hh:solveEndEffector","include/hpp/bezier-com-traj/waypoints/waypoints_c0_dc0_ddc0_j0_j1_ddc1_dc1_c1.hh:computeAccelerationWaypoints","include/hpp/bezier-com-traj/waypoints/waypoints_c0_dc0_ddc0_j0_x3_j1_ddc1_dc1_c1.hh:computeAccelerationWaypoints","include/hpp/bezier-com-traj/waypoints/waypoints_c0_dc0_ddc0_j0_x5_j1_ddc1_dc1_c1.hh:computeAccelerationWaypoints"])
open(os.path.join(os.path.dirname(os.path.abspath(__file__)),"..","properties.jsonl"),"w").write("".join(json.dumps(x)+"\n" for x in P))
print(len(P))
