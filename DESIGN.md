# Formal model of hpp-bezier-com-traj

Lean 4.33 / Mathlib; Lake project in `lean/`, modules under `lean/Verif/`. The C++ sources in `/repo` were read as
text; nothing of the project was built or run. `properties.jsonl` lists the properties, `MANIFEST.json` the theorems
that settle them, `seeded/LOG.jsonl` the wrong programs the theorems were tried on.

## 1. Trusted base

1. **Lean's kernel** (no `sorry`, no `native_decide`/`bv_decide`, no axiom of our own, no plugin).
2. **Axioms.** Every theorem named in `MANIFEST.json` depends on exactly `propext`, `Classical.choice` and
   `Quot.sound`, except `C55_max_degree_diverges` and `C92_sets`, which need only `propext` and `Quot.sound`
   (`#print axioms` on each of them). The reals of Mathlib are classical, hence the second one.
3. **The reading of the C++ text**: each definition of `Verif/Model` and `Verif/Waypoints` cites the file and the
   lines it models and says where it simplifies. Nothing connects the two mechanically. The transcription of the long
   formulas of the ten `waypoints_*.hh` headers was done by a script (`tools/gen_waypoints.py`, a parser for the C++
   expressions) to avoid typing errors; its output is what is committed and checked.
4. **The contracts of external code**, section 3. They are parameters or hypotheses of the theorems, never axioms; each
   has a proof that it can be met (`exactLib_ok`, `factor_iff_posDef`, `glpkOk_exists`, or an example).
5. **The statements.** Specifications are in `Verif/Spec*.lean`, and use neither the model's helpers nor its data
   layout where that can be avoided.

## 2. The model

**Numbers.** `double` is modelled by the reals, decimals by the rationals they denote. Rounding, overflow, NaN, infinity
are not modelled, except that the time discretisation and the phase times of the continuous formulation also have a
version where every result is rounded (`Model/Rounded`, C73, C74: any rounding with a bounded relative error, and
rounding to nearest in double precision). The formulas of the headers for the constant waypoints, position, acceleration
and final velocity also exist as floating-point expressions (`Model/Fp`, `Waypoints/Fp`, `Model/WaypointsFp`; C81, C82):
`FExp.Computes u` relates an expression to every value it may take when each operation has a relative error of at most
`u`, chosen afresh at each operation, so contraction to FMA and extended precision are covered; a subexpression that the
code computes once may take two values (more results than the code, never fewer); operations on vectors are taken
component by component in the order of the source; no overflow or underflow. The QP solver exists a second time over an
arbitrary number type and arbitrary operations (`Model/QuadprogFp`, C86–C90); with exact operations it is the same
machine (`C86_exact`), `Arith.Rounded` says what rounding may do (relative error `u` per operation, `g` times the sum of
the absolute values for the vector operations in any order, FMA allowed, triangular solver arbitrary). The assembly of the constraints on samples also
exists with rounding (`Model/FpVec`, `Waypoints/FpW`, `Model/OneStepFp`, C94): `RowFns` are its numerical parts, `RowFns.Rounded` the results that
rounding allows (a Bernstein polynomial of ndcurves has a relative error of at most 64 roundings), `RowFns.exact` those of the exact model. Where the code would divide by a zero norm, the model fails with `assertFail` and says so. Signed
32-bit conversions are checked (`computeNumSteps`), flags are `BitVec 32`, `unsigned` loop counters wrap.

**Outcomes.** `Out α` is `ok`, `throw` (C++ exception), `assertFail` (`assert`, `eigen_assert`, `abort` in GLPK), `ub`
(access out of range, null or dangling pointer, use of an indeterminate value) or `diverge` (fuel exhausted). Loops
without syntactic bound take fuel: a termination theorem gives a bound after which the answer is the same for every
fuel, a nontermination theorem says `diverge` for every fuel.

**Matrices.** `Buf` is an allocated matrix whose coefficients may be unassigned; `write`, `writeRows`, `writeSeg` check
the range; `value` fails when a coefficient is unassigned. `Mat` is a fully assigned matrix.

**Memory.** Values are values, except where sharing is observable: the Python model has a heap of `Equilibrium` objects,
`ContactData` holds an address, and a session is a list of commands (`PyState.step`). The solver object is modelled by
the state left by earlier calls (`Work`, `QPObj`); theorems quantify over it.

**QP solver.** `solve_quadprog` is a machine with one state per label of the C++ function (`eq i`, `l1`, `l2`, `l2a`,
`ret`), over all its arrays. `eps` (machine epsilon), the iteration limit and the contents of the work arrays are
parameters. Hypotheses used:
* `Factor G J`: `J J'` is the inverse of `G` (equivalent to `G` positive definite for some `J`: `factor_iff_posDef`).
* `ExactRun`: every threshold test (`|z.z| > eps`, `|d(iq)| > eps * R_norm`) of the run answers as with `eps = 0`. It
  holds for `eps = 0` (`exactRun_zero`), and for every `eps` on `Conditioned` (eigenvalues and norms in a range) and
  `Separated` (normals dependent, or independent by a margin) data (`exactRun_of_separated`). Without it the claims are
  false: `C39_refuted`, `C41_refuted`, `C42_refuted`, `C43_refuted`.

**What simplifications could hide.** Matrices with block structure `scalar * identity` are stored by their scalars
(`WpB`, `BlockCost`); the loop over `z` rows in `computeConstraintsMatrix` is written in closed form; the Eigen
expression temporaries and aliasing are not modelled (each expression is evaluated before it is assigned); `std::vector`
growth is a parameter (`grows`) where it matters (copies of `ContactData`).

## 3. Contracts of external code

| code | contract | where |
|---|---|---|
| ndcurves `bezier_curve` | control points and duration; value = Bernstein sum, derivative = hodograph, extraction = de Casteljau: all modelled and proved, not assumed. Extraction throws when a time exceeds the duration. `compute_derivate(2).waypoints()` carries a factor `κ` (the degree factors, which ndcurves versions treat differently): a parameter, `C25_*` say what follows for each value. `Bezier::zero`: the zero curve. | `Model/Basic`, `Model/Utils`, `Model/Continuous` |
| ndcurves `Bern` | `C(n,i) t^i (1-t)^(n-i)` | `Model/Utils` |
| centroidal-dynamics `Equilibrium` | a record: mass, gravity, the inequalities `(H, h)` that `getPolytopeInequalities` returns and whether it succeeds, the algorithm, the generators `m_G_centr` | `Model/Data` |
| Eigen `LLT` | `LibOk`: a factor for each positive definite Hessian | `Lemmas/SolveExact` |
| Eigen `SimplicialLLT::solve` | the unconstrained minimiser, a parameter | `Model/QuadprogMore` |
| GLPK | `GlpkOk`: `GLP_OPT` with a minimiser exactly when the loaded problem is valid and has one | `SpecLP` |
| boost.python | keeps alive what `with_custodian_and_ward` says; converts arguments | `Model/Python` |

`exactLib` is a library record that meets them. The end-to-end theorems (C56, C60, C62, C64) take `lib.eps = 0` and
`LibOk lib`; a failure of the solver then means that there is no solution, or that the iteration limit is at most
2^(number of rows) (the number of active sets). For `lib.eps > 0`, `C56_*_tolerance_partial` bound how far a returned
curve can be from the requirements, in terms of the scale of the data (`DataScale`, `CodedScale`, `ContScale`, `ForceScale`); `C75`, `C76` do the
same for the zero step and the end effector; `C71`, `C72` hold for every `eps`; `C79`, `C80`, `C100`, `C102`, `C103` give the verdict on problems with a margin.

## 4. Coverage of /repo

| file | modelled | not modelled |
|---|---|---|
| `flags.hh`, `data.hh`, `definitions.hh` | all types with behaviour (`Model/Data`, `Model/Com`, `Model/Python` for copies) | |
| `utils.hh`, `utils.cpp` | `computeBezierCurve`, waypoint operators, `initwp`, `skew`, `ComputeBersteinPolynoms`, both `computeDiscretizedTime*`, `waypoint_t::isApprox`/`==`, `printQHullFile` (`Model/Utils`, `Model/UtilsMore`) | the formatting of numbers in the file |
| `waypoints_*.hh` (10 headers) | every function (`Waypoints/*`) | |
| `waypoints_definition.cpp` | all fourteen dispatch functions (`Model/Dispatch`) | |
| `common_solve_methods.{hh,inl,cpp}` | everything that is defined (`Model/Rows`, `Model/OneStep`, `Model/ZeroStep`, `Model/Solver`) | `initMatrixD` (no caller); `compute6dControlPointEqualities` and two overloads of `solve` are declared but not defined |
| `computeCOMTraj.cpp` | everything (`Model/OneStep`, `Model/Continuous`, `Model/Com`; `dynamicStabilityConstraints_cross`, which has no caller, in `Model/Cross`) | timers, debug output |
| `costfunction_definition.cpp` | everything (`Model/Cost`) | |
| `solve_0_step.cpp` | everything (`Model/ZeroStep`) | |
| `solve_end_effector.hh` | everything (`Model/EndEffector`) | debug output |
| `solver-abstract.cpp` | everything (`Model/Solver`) | NaN assertions |
| `eiquadprog-fast.{hpp,cpp}` | `solve_quadprog`, `solve_quadprog_sparse`, `add_constraint`, `delete_constraint`, `reset`, object state, accessors (`Model/Quadprog`, `Model/QuadprogMore`) | `TRACE_SOLVER` output, profiler; branches removed by the `OPTIMIZE_*` macros that the header defines |
| `glpk-wrapper.cpp` | everything up to the call of the simplex (`Model/Solver`) | GLPK |
| `python/bezier_com_traj.cpp` | every exported function and accessor with a body of its own (`Model/Python`; accessors and lifetime of `ProblemData` and `Constraints` in `Model/PySession`) | boost registration, conversion, several variables for one `ContactData` or `ProblemData` |
| tests, CMake | | all |

## 5. Where things are

* `Verif/Model`, `Verif/Waypoints`: the model. `Verif/Spec*.lean`: specifications.
* `Verif/Lemmas`: proofs about the model. `Verif/Props`: the theorems, one file per group of properties, each with a
  concrete case that meets its hypotheses (`example`, or a theorem such as `twoPhases_succeeds`,
  `standProblem_succeeds`, `gripProblem_succeeds`, `restProblem_succeeds`, `C64_unitMove`).
* Generated and committed: `Waypoints/*` (`gen_waypoints.py`), `Model/Dispatch` (`gen_dispatch.py`),
  parts of the wrench expansions (`gen_expand.py`, `gen_wrounded.py`), `Lemmas/VelCost` (`gen_velcost.py`).
* `tools/mkprops.py`, `tools/mkmanifest.py`, `tools/claims.py` write `properties.jsonl`, `MANIFEST.json`, `Verif.lean`.

## 6. How the proofs go

| properties | proof |
|---|---|
| C01–C05, C09–C14, C31, C32, C63 | both sides are polynomials in time; identities by `ring` per constraint set, derivatives as `HasDerivAt` of the Bernstein sum, integrals by the Bernstein product formula; where the source has truncated decimals an explicit error bound |
| C06 | case analysis over all 2^32 flags through the dispatch tables |
| C15–C18, C21, C46 | loop invariants by induction on the remaining iterations |
| C19, C20, C22, C23, C25, C34, C35, C48, C58 | the filled matrices are lists of rows; the solution set is a conjunction over samples or control points; convex hull property for continuous time |
| C39–C45, C59, C65–C67 | factorisation invariant `J J' = G^-1`, `N' J = R'`, KKT invariant, dual value strictly increases, hence no active set repeats; simulation for states that differ in irrelevant arrays |
| C28, C29, C36–C38, C56, C60–C62, C64 | composition |
| C56 (tolerances) | row norms are bounded by the scale, hence the problem is conditioned and C39, C43 apply; each row is then undone to the requirement it stands for; control points of sub-curves are convex combinations, so their bounds are those of the whole curve; with forces the equations hold exactly when they are independent by a margin, and coefficients that are nonnegative up to the tolerance give a wrench close to the cone |
| C56 (rounded sets) | C19 gives the coded rows, C04 the difference to the physical wrench, in both directions; with `eps > 0` the two errors add up |
| C71, C72 | the first passes of the solver |
| C75, C76 | the trace of the Hessian and the diagonal of its factor bound the threshold; rows are unit vectors times waypoint matrices; convexity between the samples of the continuous formulation |
| C77, C78 | the rows of C19 for a set whose coefficients have a known error; the Hessian is a sum of squares of the coefficients of the free point |
| C79, C80 | invariant of the run: the gradient condition holds up to a residual; every direction taken for zero adds to it at most its image times the step, and the margin bounds the steps |
| C81, C82 | standard error analysis of an expression: `|computed - exact| <= gamma(n) * (the expression on absolute values)`, then the magnitudes per constraint set |
| C83, C84 | case analysis over the sets |
| C86, C87 | the invariant on the integer arrays does not depend on the arithmetic; a bound on the entries of `m_J` that grows by `1 + 120 u` per rotation, and the norm of the tail of `d` kept by the rotations up to `1 ± 12 u` each, exclude a refusal |
| C88 | the last pass before the return; the normal of each active constraint times `m_J` is its column of `R` up to an error that grows with each rotation, and the smallest singular value of `m_J` stays above half of the initial one, so a move changes the values of the active constraints by at most a multiple of the rounding errors |
| C89 | the last pass before the return |
| C90 | C88 for the rows of the constraints, then the meaning of the rows for the motion as in C56; the hypotheses on the scale from bounds on the data; a run without refusals visits finitely many states, hence lies in a ball |
| C91 | every function of the planner commutes with erasing the fields that are not selected |
| C92 | bits of the flags, cases |
| C93 | C88 for the rows of the two planners, then C75 and C76 for the meaning of the rows |
| C94 | every computed number is a continuous function of the roundings near zero (calculus of `Ev`, `CloseTo`), sample by sample; then the meaning of the rows as in C56, and C88 for the solver |
| C95 | the calculus of C94 in the other direction: a normalised row moves by at most `ε (1 + |x|)`, so a margin of that size in the exact requirement is enough |
| C96 | at the exit `UNBOUNDED` the normal of the violated inequality is, up to an error, a combination with coefficients `≤ 0` of those of the active inequalities, which hold with equality up to the residual of C88; the point with the margin contradicts this. Needs the componentwise backward error of the triangular solver (`TriRounded`), met by back substitution. With equalities their coefficients have any sign: a bound `L` of them multiplies the residuals (`C96_equalities`) |
| C97 | invariant of the run: `x - x0` equals `J0 J0ᵀ` times the combination of the active normals with the multipliers, up to an error that grows by `statD` at each step (`Dual`, `ScaledFp.dual_reach`); the rotations keep `J Jᵀ` up to rounding (`Gr`). At the exit this gives the gradient, convexity gives the bound. The final signs of the multipliers are a hypothesis on the result: rounding can make them slightly negative. The equality steps are dual steps too: they enter with the multiplier computed by `eqLen` (`stepEq_cases`). |
| C98 | the change of the objective in one move is the mean of the two gradients times the move (exact for a quadratic). Both gradients are known from the invariant of C97, the products with the active normals are at most `drift`, so only the new constraint contributes, and its contribution is what the code adds to `f_value`. Steps that do not move the point change neither. |
| C99 | the rows of the wrench equalities are independent (every block has its own generators, which span), so by finite dimension they are independent by a margin; when the margin exceeds the rounding errors a direction that fails the test of eiquadprog-fast.cpp:346 would be a short combination of the normals. C88 then bounds the residual of the equalities; with weights `1 / m` and the bound of the generators the residual of a block is a residual of the wrench at a control point, and the wrench along the curve is a convex combination of the control points. |
| C100 | the invariant of C79 with rows that may be zero (such a row is never the most violated one, and adds nothing when active); the assembled rows hold with the margin exactly when the motion does; after the normalisation of the code the Hessian of the end effector cost has norm at most one |
| C101 | values are read through places (`PyLoc`); each command has one law for all places; the invariant of C52 with the contacts of all problems together, and ownership of the `Constraints` objects; undefinedness is characterised command by command from the invariant |
| C102 | the invariant of C79 extended to equalities: their multipliers have any sign but their normals are orthogonal to the displacement between two points that satisfy them; bounds are rows that keep the margin; the scale from C56 |
| C103 | the control points of a curve of degree four are unique, so the waypoints of the code are those of the wrench; rows of zeros (of the ignored angular constraints) need no margin; the cost is the integral plus a constant |
| C104 | an unassigned coefficient of the buffer is read; for the rest the rows are computed with arbitrary contents in its place and C15 applies |
| C105 | C80, C100, C102, C103 with the existence of the scales (C56, C76): every bound is the threshold times a number that depends on the problem only, so finitely many of them are small together |
| C106 | an object is kept iff a variable owns it or a living `ContactData` is its custodian; `LifeLaw` says what one command does to kept, unkept and new objects, and is preserved by every command; the copies of `addContact` are at addresses no Python object ever gets |
| C107 | simulation: one iteration of the machine commutes with the shift of the state (`qpStep_mv`), by induction so does the run; the starting points correspond because the factor inverts the Hessian |
| C108 | the wrench of the shifted motion is the transported wrench, so the cones agree; C56 gives the best motion in both frames, and the best motion is unique by the curvature of the cost; refutation: one phase that fixes the position, one row whose norm grows with the distance to the origin |
| C109 | as C108, with a linear map that preserves dot and cross products; for all seven sets the coded wrench waypoints are compared term by term (`WpRot`) and the assembled systems through C19; scale and mass cancel in the row of norm 1; refutation: an initial acceleration along an axis |
| C110 | the samples of a divisor are samples (`fixed_constrained`, `step_constrained` list them); the found motion meets the looser requirements, and C56 says the second call finds a motion at least as good; refutation: a wave in a slab, whose crests are nearer to quarters than to sixths; for all seven sets (`C110_all_*`) the same comparison is made between the assembled systems (C19), whose wrench waypoints are the same |
| C111 | a success of the continuous formulation meets the requirements at every instant (C22, C25), so at every sample; C56 for the sampled call; all seven sets (`C111_all_*`): every solution of the continuous system solves the system of every sampling (`continuous_sat`); refutation: the problem of half a second of C25 |
| C112 | as C108, with the scaled curve of the scaled time; for all seven sets the coded wrench waypoints are compared term by term (`WpUnits`) and the assembled systems through C19; the samples scale by induction over the loops; the costs are proportional; refutation: the thresholds of two cones (force only, force and torque) ask for different margins |
| C113 | soundness of the formulation with forces (C23, C56) gives a wrench in the cone at every instant; a nonnegative sum of generators satisfies every row; then as C111; all seven sets (`C113_all_*`): C116_feasible and `continuous_sat`; refutation: a foot with margin 12 |
| C114 | a Bernstein sum determines its control points, so C04 gives the wrench waypoints of the moved problem; affine relations between control points are inherited by sub-curves; then as C108 with the systems in place of the samples; refutation: the problem of C22_refuted_zero |
| C115 | the sub-curve over a part of a phase is a sub-curve of the sub-curve over the phase (a Bernstein sum determines its control points), so its control points are convex combinations; reachability, acceleration and (head, tail) wrench constraints are convex sets; refutation of the converse by `barrierProblem` |
| C116 | the solutions of the formulation with forces are the points above the bounds whose wrenches at all control points are in the cones (`force_controls` from C23 and nesting; `force_solution` packs the coefficients of the blocks into the unknowns); then as C113 for the systems; refutation by `claspProblem (-200000)` |
| C117 | as C115 with the convex set of wrenches in a cone, and `force_solution` for the second problem; refutation: `swapProblem` of C23_refuted with its first phase split |
| C118 | C103 says that the planner finds the best admissible motion; admissibility (`StopTol`, over derivatives and wrenches) and effort are the same in both frames; the best motion is unique by the curvature of the effort |
| C119 | the requirements of the second call follow from those of the first one (samples of a divisor are samples; control points imply every sample); C103 for both calls; refutation: a foot edge crossed between samples |
| C120 | the coefficients of every control point that depends on the free point sum to zero, so admissibility is shifted; both results are projections on the same convex set (`near_best`), of points that differ by the error of the decimals; refutations: the cost at a point slightly beyond, and C85 |
| C121 | the control points, wrench waypoints and second derivatives of each phase of one problem are the images under linear maps of those of the other (`ContRaw.transport`), so the systems have corresponding solutions; then as C109 and C112; refutations: `shoveProblem`, whose system is only the bound on the acceleration |
| C122 | an exchange of axes is a permutation of the coordinates with signs, so all lists of control points and both costs are the images of those of the other problem; the best free points are unique because the cost is positive definite; refutations: `jerkyMove`, whose requirements are written out for each coordinate |
| C123 | the control points of the derivative of order i of the stretched motion are those of the motion multiplied by m / l^i, and no point depends on the free points that did not; the verdict is that some free points meet the requirements (`end_verdict`) |
| C124 | the lists of velocity and jerk control points of the reversed motion are those of the motion in the opposite order with the opposite sign; refutations: motions at constant acceleration (`fallMove`) for which the wrong acceleration point vanishes in one direction only |
| C125 | the set of admissible motions does not mention path, weight, guess or solver; the cost reads the path through `samplePath 50` only; the minimiser is unique (`block_unique`, `sys_unique`, `stop_unique`) |
| C126 | two minimisers of combinations of the same two costs (`weight_tradeoff`), the costs being those of C49 and C63; refutation: the path is the motion planned with weight 0, the gradient of the distance cost there is a sum of 50 rationals |
| C127 | every control point is affine in the boundary vectors and the free points jointly (`controls*_between`), so the requirements are jointly convex, except the height of the lower end, which is concave; the verdict is their solvability (`end_verdict`, C122) |
| C128 | degree elevation: the same motion written with degree 10 or 12 has derivative control points that are convex combinations of those of degree 8 or 10 (`raised10_*`, `raised12_*`, `raisedTen_*`), up to the wrong acceleration rows; the verdict is `end_verdict` (C122) |
| C85 | C64 and the rows of the reported control points at rest |
| C73, C74 | progress of the rounded time by a fixed amount; relative errors multiply |
| C68–C70 | direct, from the meaning of the comparisons, of a half space, of a Bezier curve |
| C51, C52 | invariant of all sessions: heap cells owned by the problem are unreachable from Python variables |

## 7. Defects found in the code

Each is a theorem whose name contains `refuted` (or is named below), with a concrete input.

| where | what | theorem |
|---|---|---|
| costfunction_definition.cpp:27 | `&&` for `&`: the target end velocity cost always throws | `C27_refuted` |
| solver-abstract.cpp:62 | matrix too small by three rows: any upper bound is written out of range | `C37_refuted` |
| common_solve_methods.cpp:127 | kinematic constraints passed in place of angular ones | `C35_refuted_*`, `C62_refuted_kinematic` |
| solve_end_effector.hh:184 | jerk compared with the velocity bound | `C48_refuted` |
| solve_end_effector.hh:296 | velocity cost without cross terms | `C49_velocity_refuted` |
| waypoints j0_j1, x3, x5 | position, velocity, acceleration, jerk formulas that are not those of the curve | `C10_refuted`–`C14_*refuted`, `C49_*refuted` |
| waypoints j0_j1 (:30, :89) | position and acceleration coefficients use `pi[8]` for `pi[0]`, wrench waypoints of another curve; the planner accepts the set | `C02_refuted`, `C03_refuted`, `C04_jerk_refuted`, `C77_refuted` |
| waypoints j0_j1, x3, x5: `computeFinalVelocityPoint` | formula of another set (3/4 of the velocity, or zero) | `C84_refuted`, `C84_one`, `C84_more` |
| waypoints x3, x5: `computeAccelerationWaypoints` | one point depends on the position itself: far from the origin `solveEndEffector` refuses to stay at rest | `C85_far`, `C85_refuted` |
| `addKinematic` (src/common_solve_methods.cpp) | an empty `kin_` drops the rows of `Kin_` | `C62_dropped` |
| waypoints x5 | derivatives read the points of the set with three free points | `C83_refuted` |
| costfunction_definition.cpp | acceleration cost with one point per phase: zero Hessian | `C78_singular` |
| waypoints 31, 63, velocity costs | truncated decimals | `C04_not_exact`, `C63_not_exact` |
| utils.hh:105 | set with jerks: curve does not end at `c1` | `C07_refuted` |
| waypoints_definition.cpp (symbolic) | a constant waypoint at the origin is taken for the free one | `C53_refuted_zero`, `C22_refuted_zero` |
| computeCOMTraj.cpp | default kinematic constraints or no contact: sizes disagree | `C21_refuted_*`, `C18_*` |
| computeCOMTraj.cpp | forces at a switch use the generators of one phase only | `C23_refuted` |
| computeCOMTraj.cpp | polytope right-hand side scaled wrongly unless zero | `C24_nonhomogeneous_refuted` |
| utils.cpp:77 | endless loop for the largest degree | `C55_max_degree_diverges` |
| glpk-wrapper.cpp:47 | buffers of 20000 entries | `C46_refuted` |
| glpk-wrapper.cpp:28 | equal bounds become an invalid interval | `C47_refuted_equal` |
| solver-abstract.cpp | GLPK ignores the quadratic part | `C61_refuted` |
| eiquadprog-fast.cpp | a rejected constraint is taken again for ever, or an array is overrun; infeasible or suboptimal answers on badly scaled data | `C39_refuted`, `C41_refuted`, `C42_refuted`, `C43_refuted` |
| eiquadprog-fast.cpp | a NaN in the point is returned as `OPTIMAL`, whatever the constraints | `C89_nan_optimal` |
| eiquadprog-fast.cpp:709 | the sparse solver drops the inverse factor | `C65_refuted` |
| eiquadprog-fast.cpp:307 | provided inverse: wrong sign, erased by `reset` | `C66_refuted_sign`, `C66_erased` |
| eiquadprog-fast.cpp:365 | stale active set size | `C67_refuted_size` |
| utils.cpp:111 | endless loop when the rounding absorbs the time step | `C73_refuted` |
| computeCOMTraj.cpp:462 | the accumulated end of the last phase may exceed `Ts.sum()` by a rounding: `extract` throws | `C74_refuted` |
| utils.cpp:124 | fixed directory, failure to open not reported | `C69_refuted` |
| data.hh:36 | copying a `ContactData` without phase dereferences null; assignment shares | `C52_refuted_*`, `C52_assignment_shares` |

Also read in the code: `ProblemData::l0_` is never initialised and cannot be set from Python (`C91_zero`: harmless
without angular momentum); without a theorem:
`compute6dControlPointEqualities` is declared and not defined.

## 8. Testing the theorems

`seeded/LOG.jsonl` has one line per wrong program: the definition, the edit, the claim it breaks, the theorems that no
longer check (directly or through a lemma that no longer checks) and those that were tightened. Edits that repair a
defect must break the theorem that refutes the claim; they are in the log as well.
