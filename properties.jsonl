{"id": "C01", "title": "Prediction equals simulation", "statement": "Once a PreviewSystem accepted by system() has been updated, Phi*x0 + Psi*U + xi is exactly the stacked state sequence obtained by simulating x_{k+1} = A x_k + B u_k + d from x0 under the controls U, for every step 0..N.", "quantifier": "all A, B, d, x0, all horizons N>=1, all dimensions (including zero), all control vectors U", "why_tests_cant": "A test fixes one system, one horizon and a few controls; the claim is an identity over all matrices and horizons.", "anchors": ["src/PreviewSystem.cpp: PreviewSystem::system, PreviewSystem::updateSystem", "include/PreviewSystem.h"]}
{"id": "C02", "title": "Prediction matrices depend only on the current system", "statement": "After any sequence of accepted or rejected system() calls, xInit() calls, in-place changes of A, B, d followed by isUpdated=false, and updates, the prediction matrices after the next update are those of the current A, B, d, N alone: nothing computed for an earlier system survives, and updating again changes nothing.", "quantifier": "all finite histories of PreviewSystem operations", "why_tests_cant": "Staleness shows only for particular histories; a test exercises one.", "anchors": ["src/PreviewSystem.cpp: PreviewSystem::system, PreviewSystem::updateSystem", "include/PreviewSystem.h: isUpdated, xInit"]}
{"id": "C03", "title": "Causality of the prediction", "statement": "The predicted state x_k does not depend on any control u_j with j >= k; the initial block of the trajectory is x0 itself.", "quantifier": "all accepted systems, all steps k, all pairs of control vectors agreeing before k", "why_tests_cant": "Needs all systems and all pairs of control sequences.", "anchors": ["src/PreviewSystem.cpp: PreviewSystem::updateSystem"]}
{"id": "C04", "title": "system() accepts exactly the consistent data and is atomic", "statement": "system() accepts exactly when xInit, state, control and bias have the same number of rows, state is square and the number of steps is positive; every other call throws std::domain_error and leaves the PreviewSystem exactly as it was. (The derived dimensions are int: data for which they overflow is undefined behaviour.)", "quantifier": "all argument shapes, all step counts (negative, zero, huge), all prior PreviewSystem states", "why_tests_cant": "Unit tests try five bad shapes; the claim is an exact characterisation plus state preservation.", "anchors": ["src/PreviewSystem.cpp: PreviewSystem::system"]}
{"id": "C05", "title": "Updating an accepted system never reads or writes out of bounds", "statement": "After an accepted system() call, updateSystem() (and any number of repetitions) performs only in-range block accesses with matching dimensions, for every dimension and horizon, including N=1 and zero-dimensional state or control.", "quantifier": "all accepted systems and all repetition counts", "why_tests_cant": "Out-of-range block writes appear only at boundary dimensions and are silent in release builds.", "anchors": ["src/PreviewSystem.cpp: PreviewSystem::updateSystem"]}
{"id": "C06", "title": "xInit needs no system update", "statement": "Changing the initial state through xInit() leaves the prediction matrices valid: the next prediction and every constraint/cost right-hand side built from it are those of the new initial state, without a new system update.", "quantifier": "all systems, all old and new initial states of the system dimension", "why_tests_cant": "Quantifies over all pairs of initial states.", "anchors": ["include/PreviewSystem.h: xInit", "src/LMPC.cpp: LMPC::updateSystem"]}
{"id": "C07", "title": "AutoSpan::spanVector repeats", "statement": "spanVector(v, n) succeeds exactly when n is a multiple of v.rows(), the result has n rows and is v repeated; it is the identity when n = v.rows(); it throws domain_error and leaves v unchanged otherwise; only an empty v with n != 0 is undefined (integer division by zero).", "quantifier": "all vectors and all target dimensions", "why_tests_cant": "All sizes and contents.", "anchors": ["src/AutoSpan.cpp: AutoSpan::spanVector"]}
{"id": "C08", "title": "AutoSpan::spanMatrix builds a block-diagonal matrix", "statement": "spanMatrix(M, n, addCols) succeeds exactly when n is a multiple of M.rows(); the result is block diagonal with n/M.rows() copies of M followed by addCols*M.cols() zero columns; identity when n = M.rows(); throws domain_error and leaves M unchanged otherwise; only a 0-row M with n != 0 is undefined.", "quantifier": "all matrices, target dimensions, addCols", "why_tests_cant": "All sizes and contents.", "anchors": ["src/AutoSpan.cpp: AutoSpan::spanMatrix", "include/AutoSpan.h"]}
{"id": "C09", "title": "autoSpan keeps the meaning of trajectory and control constraints", "statement": "Calling autoSpan() on a trajectory (resp. control) constraint given by a per-step matrix and a horizon-long vector yields a constraint that holds exactly when E x_k (<=|=) f_k (resp. G u_k (<=|=) f_k) holds at every step with that step's slice of the vector; with a horizon-long block-diagonal matrix and a per-step vector it is the same vector at every step.", "quantifier": "all systems, horizons, matrices, vectors, trajectories", "why_tests_cant": "Semantic equivalence over all inputs.", "anchors": ["src/constraints.cpp: TrajectoryConstraint::autoSpan, ControlConstraint::autoSpan", "src/AutoSpan.cpp"]}
{"id": "C10", "title": "autoSpan keeps the meaning of mixed constraints", "statement": "Calling autoSpan() on a mixed constraint with per-step E, G and a horizon-long vector yields a constraint that holds exactly when E x_k + G u_k (<=|=) f_k for every control step k = 0..N-1; likewise for any combination of per-step and horizon-long E, G and vector, each per-step part being the same at every control step.", "quantifier": "all systems, horizons, matrices, vectors, trajectories", "why_tests_cant": "The additional zero columns for x_N and off-by-one errors only show for particular dimensions.", "anchors": ["src/constraints.cpp: MixedConstraint::autoSpan", "src/AutoSpan.cpp: AutoSpan::spanMatrix addCols"]}
{"id": "C11", "title": "autoSpan keeps the meaning of trajectory bounds", "statement": "Calling autoSpan() on a TrajectoryBoundConstraint whose lower and upper vectors have different (per-step and horizon-long) lengths yields a constraint that bounds every step of the trajectory by the corresponding entries.", "quantifier": "all systems, horizons, bound vectors", "why_tests_cant": "The existing test only checks that adding the constraint does not throw, not which rows are produced.", "anchors": ["src/constraints.cpp: TrajectoryBoundConstraint::autoSpan"]}
{"id": "C12", "title": "autoSpan keeps the meaning of cost functions", "statement": "Calling autoSpan() on a trajectory, control or mixed cost with per-step matrices and a horizon-long target vector gives the cost sum_k w_k-weighted squared distance of the per-step quantity to that step's slice of the target; for mixed costs also with any combination of per-step and horizon-long matrices, target and weights.", "quantifier": "all systems, horizons, matrices, targets, weights", "why_tests_cant": "Semantic equivalence over all inputs.", "anchors": ["src/costFunctions.cpp: TrajectoryCost::autoSpan, ControlCost::autoSpan, MixedCost::autoSpan"]}
{"id": "C13", "title": "autoSpan after a successful add changes nothing", "statement": "Once a cost or constraint has been accepted by a controller, calling autoSpan() on it any number of times succeeds and changes nothing; autoSpan is idempotent whenever it succeeds.", "quantifier": "all costs and constraints of every kind, all systems accepting them", "why_tests_cant": "A later autoSpan would silently invalidate the registered row counts.", "anchors": ["src/constraints.cpp: *::autoSpan, *::initializeConstraint", "src/costFunctions.cpp: *::autoSpan, *::initializeCost"]}
{"id": "C14", "title": "Trajectory constraint rows are exact", "statement": "When a TrajectoryConstraint is registered and solved, a control vector U satisfies the rows handed to the QP exactly when the trajectory simulated from the initial state satisfies E x_k (<=|=) f at every step k = 0..N (per-step data), or E X (<=|=) f for the stacked trajectory (full-size data).", "quantifier": "all systems, initial states, E, f (f may contain +-infinity), all U, equality and inequality", "why_tests_cant": "Equivalence of two infinite sets of control vectors, for all data.", "anchors": ["src/constraints.cpp: TrajectoryConstraint::initializeConstraint, TrajectoryConstraint::update"]}
{"id": "C15", "title": "Control constraint rows are exact", "statement": "U satisfies the rows of a registered ControlConstraint exactly when G u_k (<=|=) f at every step k = 0..N-1 (per-step data), or G U (<=|=) f (full-size data).", "quantifier": "all systems, G, f, all U, equality and inequality, any number of updates", "why_tests_cant": "Equivalence over all data; the full-size path moves the user's data.", "anchors": ["src/constraints.cpp: ControlConstraint::initializeConstraint, ControlConstraint::update"]}
{"id": "C16", "title": "Mixed constraint rows are exact", "statement": "U satisfies the rows of a registered MixedConstraint exactly when E x_k + G u_k (<=|=) f at every step k = 0..N-1 (per-step data), or E X + G U (<=|=) f (full-size data), with x simulated from the initial state.", "quantifier": "all systems, initial states, E, G, f, all U, equality and inequality, any number of updates", "why_tests_cant": "The code reuses shifted blocks of earlier rows; correctness depends on the Toeplitz structure for every horizon.", "anchors": ["src/constraints.cpp: MixedConstraint::initializeConstraint, MixedConstraint::update"]}
{"id": "C17", "title": "Trajectory bound rows are exact", "statement": "U satisfies the rows of a registered TrajectoryBoundConstraint exactly when lower <= x_k <= upper componentwise at every step (per-step data) or lower <= X <= upper (full-size data), infinite bounds meaning no bound.", "quantifier": "all systems, initial states, bound vectors with infinities, all U", "why_tests_cant": "Every shipped test uses only -infinity lower bounds (finite ones are commented out with 'TODO why does this fail?').", "anchors": ["include/constraints.h: TrajectoryBoundConstraint", "src/constraints.cpp: TrajectoryBoundConstraint::initializeConstraint, TrajectoryBoundConstraint::update"]}
{"id": "C18", "title": "Control bounds are exact", "statement": "With one registered ControlBoundConstraint the bounds handed to the QP are, at every step, the user's lower and upper vectors (per-step data) or the user's full vectors (full-size data).", "quantifier": "all systems, bound vectors (with infinities), any number of updates", "why_tests_cant": "All dimensions and horizons; the full-size path moves the user's data.", "anchors": ["src/constraints.cpp: ControlBoundConstraint::initializeConstraint, ControlBoundConstraint::update", "src/LMPC.cpp: LMPC::makeQPForm"]}
{"id": "C19", "title": "Constraints are accepted exactly when their dimensions fit", "statement": "addConstraint succeeds exactly when the constraint's matrices/vectors have equal row counts and match either the per-step or the full-horizon dimension of the system; otherwise it throws std::domain_error and neither controller nor constraint changes.", "quantifier": "all constraint kinds, all shapes, all systems, all controller states", "why_tests_cant": "Exact characterisation over all shapes.", "anchors": ["src/constraints.cpp: *::initializeConstraint", "src/LMPC.cpp: LMPC::addConstraint"]}
{"id": "C20", "title": "Control and control-bound constraints are single use", "statement": "Once a ControlConstraint or ControlBoundConstraint has been accepted by any controller, every later addConstraint with it (same or other controller, after removal or not) throws std::runtime_error and changes nothing.", "quantifier": "all such constraints, all later systems and controllers", "why_tests_cant": "All later histories.", "anchors": ["src/constraints.cpp: ControlConstraint::initializeConstraint, ControlBoundConstraint::initializeConstraint"]}
{"id": "C21", "title": "Constraint rows do not depend on history", "statement": "The rows produced for a registered constraint by a solve depend only on the user's data and on the current preview system and initial state, not on how many solves happened before, on earlier initial states, or on uninitialised memory.", "quantifier": "all constraint kinds, all numbers of previous updates with any same-dimension systems, all contents of freshly allocated memory", "why_tests_cant": "All histories.", "anchors": ["src/constraints.cpp: *::update"]}
{"id": "C22", "title": "Trajectory cost value is exact", "statement": "After being added and updated once, a TrajectoryCost's Q, c satisfy: 1/2 U'QU + c'U equals, up to a U-independent constant, one half of sum_k sum_r w_r ((M x_k)_r - p_r)^2 over k = 0..N (per-step data) or the full-size analogue; and its E, f give the same for every initial state.", "quantifier": "all systems, M, p, weights, initial states, U", "why_tests_cant": "Identity of quadratic functions over all data.", "anchors": ["src/costFunctions.cpp: TrajectoryCost::initializeCost, TrajectoryCost::update"]}
{"id": "C23", "title": "Target cost value is exact", "statement": "A TargetCost's Q, c represent one half of sum_r w_r ((M x_N)_r - p_r)^2 up to a constant, for every initial state, after any number of updates.", "quantifier": "all systems, M, p, weights, initial states, U, update counts", "why_tests_cant": "Identity of quadratic functions over all data.", "anchors": ["src/costFunctions.cpp: TargetCost::initializeCost, TargetCost::update"]}
{"id": "C24", "title": "Control cost value is exact", "statement": "A ControlCost's Q, c represent one half of sum_k sum_r w_r ((N u_k)_r - p_r)^2 over k = 0..N-1 (or the full-size analogue) up to a constant, after any number of updates.", "quantifier": "all systems, N, p, weights, U, update counts", "why_tests_cant": "Identity of quadratic functions over all data.", "anchors": ["src/costFunctions.cpp: ControlCost::initializeCost, ControlCost::update"]}
{"id": "C25", "title": "Mixed cost value is exact", "statement": "After being added and updated once, a MixedCost's Q, c represent one half of sum_k sum_r w_r ((M x_k + N u_k)_r - p_r)^2 over k = 0..N-1 (or the full-size analogue) up to a constant, for every initial state.", "quantifier": "all systems, M, N, p, weights, initial states, U", "why_tests_cant": "Identity of quadratic functions over all data.", "anchors": ["src/costFunctions.cpp: MixedCost::initializeCost, MixedCost::update"]}
{"id": "C26", "title": "Costs are convex", "statement": "With nonnegative weights every cost's Q is symmetric positive semidefinite, whatever the number of updates.", "quantifier": "all cost kinds, systems, data, nonnegative weights, update counts", "why_tests_cant": "All data and all test directions.", "anchors": ["src/costFunctions.cpp: *::update"]}
{"id": "C27", "title": "Solving again solves the same problem", "statement": "Solving an unchanged controller repeatedly hands the same QP to the solver every time.", "quantifier": "all controllers, all numbers of solves", "why_tests_cant": "Drift across repeated solves only shows when several solves are compared; shipped tests re-solve but compare only loose features.", "anchors": ["src/costFunctions.cpp: TrajectoryCost::update, MixedCost::update", "src/LMPC.cpp: LMPC::solve"]}
{"id": "C28", "title": "weights() repeats its argument or rejects it", "statement": "weights(v) accepts exactly vectors whose size equals or divides the cost's target size, sets the weights to v repeated, never changes the number of weights, and otherwise throws domain_error leaving the weights unchanged (an empty v on a non-empty cost is undefined). In every reachable cost the number of weights equals the number of target entries.", "quantifier": "all weight vectors and all histories of weights/weight/autoSpan/initialize calls", "why_tests_cant": "All sizes and histories.", "anchors": ["include/costFunctions.h: CostFunction::weights, CostFunction::weight", "src/costFunctions.cpp: *::autoSpan"]}
{"id": "C29", "title": "The QP Hessian is always symmetric positive definite", "statement": "With nonnegative weights, every solve of an LMPC hands the solver a symmetric positive definite Q, whatever costs are registered and however many solves happened; hence the QP has at most one minimiser and the answer does not depend on the solver.", "quantifier": "all controllers, histories, costs, nonnegative weights", "why_tests_cant": "Positive definiteness for all data and histories.", "anchors": ["src/LMPC.cpp: LMPC::updateSystem, LMPC::makeQPForm"]}
{"id": "C30", "title": "The QP feasible set is the intersection of the registered constraints", "statement": "A control vector (representable as finite doubles) is feasible for the QP handed to the solver exactly when the simulated trajectory and controls satisfy every registered constraint.", "quantifier": "all controllers reachable by histories of API calls of any length with fixed dimensions and at most one registered control-bound constraint (excluding three defects that have their own properties: trajectory bounds with lower entries other than -infinity, C17; trajectory bounds auto-spanned with vectors of different lengths, C11; a control bound that was registered during an earlier solve, was removed since, and none registered now, C37), all U", "why_tests_cant": "Row offsets, block stacking and sizes must be right for every combination of constraints.", "anchors": ["src/LMPC.cpp: LMPC::makeQPForm, LMPC::updateConstraintMatrixSize, Constraints::updateNr"]}
{"id": "C31", "title": "Several control bound constraints can be combined", "statement": "Adding two or more control bound constraints restricts the controls to the intersection of the bounds.", "quantifier": "all numbers of control bound constraints", "why_tests_cant": "Not exercised by any test; the failure is an out-of-bounds write.", "anchors": ["src/LMPC.cpp: LMPC::makeQPForm"]}
{"id": "C32", "title": "The QP objective is the sum of the costs", "statement": "The objective handed to the solver equals one half of the sum of the registered costs' values plus 0.5e-6*|U|^2, up to a constant independent of U.", "quantifier": "all controllers reachable by histories of API calls of any length with fixed dimensions whose per-step trajectory and mixed costs are each registered once and not updated since they were accepted (see C27 for the others), all U", "why_tests_cant": "All combinations of costs.", "anchors": ["src/LMPC.cpp: LMPC::updateSystem, LMPC::makeQPForm"]}
{"id": "C33", "title": "A solver optimum is an MPC optimum", "statement": "If the QP solver returns a feasible minimiser of the QP it was given, then control() satisfies all registered constraints under the simulated dynamics, and no other admissible control sequence has smaller total cost (sum of costs plus the 1e-6 regularisation).", "quantifier": "all controllers as in C30 whose per-step trajectory and mixed costs are each registered once and not yet updated (C27), all solver answers meeting the solver contract, all competing control sequences", "why_tests_cant": "End-to-end statement over all problems.", "anchors": ["src/LMPC.cpp: LMPC::solve, LMPC::updateResults"]}
{"id": "C34", "title": "Constraint counters match the registered constraints", "statement": "nrEqConstr() and nrIneqConstr() always equal the number of rows of the currently registered equality and inequality constraints, and after every solve equal the row counts of the matrices handed to the solver.", "quantifier": "all operation histories", "why_tests_cant": "All histories of add/remove/clear/solve.", "anchors": ["src/LMPC.cpp: Constraints::updateNr, LMPC::addConstraintByType, LMPC::removeConstraint, LMPC::checkDeleteCostsAndConstraints"]}
{"id": "C35", "title": "Registries stay consistent and removal is safe", "statement": "In every reachable controller the list of all constraints is partitioned by kind into the equality, inequality and bound lists (with multiplicity), so removeConstraint never erases a non-existent element.", "quantifier": "all histories of add/remove/clear/solve, any external reference counts", "why_tests_cant": "All histories.", "anchors": ["src/LMPC.cpp: LMPC::addConstraintByType, LMPC::removeConstraint, LMPC::clearConstraints, LMPC::checkDeleteCostsAndConstraints"]}
{"id": "C36", "title": "remove undoes add", "statement": "removeCost/removeConstraint of an element just added restores the registered costs/constraints; removing an element that is not registered changes nothing; other registered elements keep their order.", "quantifier": "all controllers, all elements", "why_tests_cant": "All states.", "anchors": ["src/LMPC.cpp: LMPC::removeCost, LMPC::removeConstraint"]}
{"id": "C37", "title": "A removed control bound no longer applies", "statement": "After a control bound constraint is removed (or dropped by its owner and auto-removed), later solves no longer impose its bounds.", "quantifier": "all controllers with a control bound constraint, all later solves", "why_tests_cant": "Needs a solve after removal with an active bound; no test does that.", "anchors": ["src/LMPC.cpp: LMPC::removeConstraint, LMPC::updateConstraintMatrixSize, LMPC::makeQPForm"]}
{"id": "C38", "title": "clearConstraints and clearCosts restore the unconstrained, cost-free controller", "statement": "After clearConstraints() (resp. clearCosts()) the controller is, as far as later solves can observe, a controller with no constraint, infinite-like bounds and zero counters (resp. no cost).", "quantifier": "all controllers", "why_tests_cant": "All states.", "anchors": ["src/LMPC.cpp: LMPC::clearConstraints, LMPC::clearCosts"]}
{"id": "C39", "title": "Elements abandoned by their owner are dropped, owned ones never", "statement": "A solve removes from the controller exactly the costs and constraints that nobody outside the controller references any more, and keeps all others in order.", "quantifier": "all controllers, all external reference counts", "why_tests_cant": "Depends on shared_ptr counts over all histories.", "anchors": ["src/LMPC.cpp: LMPC::checkDeleteCostsAndConstraints"]}
{"id": "C40", "title": "Results change only on success", "statement": "If solve() returns false, control() and trajectory() are unchanged; if it returns true, control() is the solver's answer and trajectory() is the trajectory simulated from the current initial state under control().", "quantifier": "all controllers, all solver answers", "why_tests_cant": "All solver answers.", "anchors": ["src/LMPC.cpp: LMPC::solve, LMPC::updateResults"]}
{"id": "C41", "title": "QuadProg wrapper solves the given QP", "statement": "The problem handed to QuadProg (bounds rewritten as 2n extra inequalities, SI_problem sizes) has exactly the feasible set and objective of the QP given to SI_solve.", "quantifier": "all QPs with consistent dimensions, any infinities in bounds", "why_tests_cant": "Equivalence over all QPs.", "anchors": ["src/QuadProgSolver.cpp: QuadProgDenseSolver::SI_problem, QuadProgDenseSolver::SI_solve"]}
{"id": "C42", "title": "LSSOL and OSQP wrappers solve the given QP", "statement": "The two-sided problems handed to LSSOL and OSQP (equalities as bl=bu, inequalities with -infinity or -DBL_MAX lower side) have exactly the feasible set of the QP given to SI_solve (for OSQP, among points whose row values are finite doubles).", "quantifier": "all QPs with consistent dimensions", "why_tests_cant": "Equivalence over all QPs.", "anchors": ["src/LSSOLSolver.cpp: LSSOLSolver::SI_problem, LSSOLSolver::SI_solve", "src/OSQPSolver.cpp: OSQPSolver::SI_problem, OSQPSolver::SI_solve"]}
{"id": "C43", "title": "The solver factories return the requested solver", "statement": "For every build configuration and every flag available in it, solverFactory and pythonSolverFactory return the same kind of solver, the one named by the flag, DEFAULT meaning QuadProgDense.", "quantifier": "all build configurations (subsets of optional solvers), all flags", "why_tests_cant": "A test binary is compiled in one configuration.", "anchors": ["src/solverUtils.cpp: solverFactory, pythonSolverFactory", "include/solverUtils.h: SolverFlag"]}
{"id": "C44", "title": "Initial-state controller: constraint rows are exact jointly", "statement": "For an InitialStateLMPC, a pair (x0, U) is feasible for the rows handed to the solver exactly when the trajectory simulated from that x0 under U satisfies every registered constraint and x0, U satisfy their bounds.", "quantifier": "all systems, all InitialStateLMPC controllers reachable by histories as in C30 (same three excluded defects: C11, C17, C37; with C17 dropped for the as-built version), all pairs (x0, U)", "why_tests_cant": "Equivalence over all data.", "anchors": ["src/InitialStateLMPC.cpp: InitialStateLMPC::makeQPForm", "src/constraints.cpp: *::update"]}
{"id": "C45", "title": "Initial-state controller: Hessian is positive definite", "statement": "With nonnegative weights the Hessian handed to the solver is symmetric positive semidefinite whenever R is, positive definite whenever R is, and, as documented, positive definite with the default R.", "quantifier": "all systems, costs, weights, R", "why_tests_cant": "All data and directions.", "anchors": ["src/InitialStateLMPC.cpp: InitialStateLMPC::makeQPForm, InitialStateLMPC::InitialStateLMPC", "include/InitialStateLMPC.h: R_"]}
{"id": "C46", "title": "Initial-state controller pinned to x0 is the plain controller", "statement": "With the initial-state bounds equal to the system's initial state, an InitialStateLMPC and an LMPC with the same costs and constraints have the same feasible controls and rank controls identically, so they have the same optimal controls. An InitialStateLMPC constructed for a preview system is pinned this way from the start, and stays so until its initial-state bounds or the system's initial state are changed, or it is given another system.", "quantifier": "all systems, all pairs of controllers reachable by histories as in C30 and C32 (at most one control bound, per-step state costs registered once and not yet solved, no autoSpan of trajectory bounds with vectors of different lengths, no control bound removed after a solve), trajectory bounds included", "why_tests_cant": "All data; shipped test compares one system with zero initial state.", "anchors": ["src/InitialStateLMPC.cpp: InitialStateLMPC::makeQPForm, InitialStateLMPC::InitialStateLMPC"]}
{"id": "C47", "title": "initialState() is the start of the trajectory", "statement": "For an InitialStateLMPC after a successful solve, initialState() is within the configured bounds (solver contract) and trajectory() is the simulation from initialState() under control(); trajectory() always starts with initialState().", "quantifier": "all controllers, all histories of solves (including failed ones)", "why_tests_cant": "Needs failed solves after successful ones.", "anchors": ["src/InitialStateLMPC.cpp: InitialStateLMPC::initialState, InitialStateLMPC::updateResults"]}
{"id": "C48", "title": "A default-constructed InitialStateLMPC is usable after initializeController", "statement": "As documented for the default constructor, calling initializeController(ps) is enough to make the controller solvable.", "quantifier": "all systems", "why_tests_cant": "Not exercised by the tests.", "anchors": ["src/InitialStateLMPC.cpp: InitialStateLMPC::InitialStateLMPC, InitialStateLMPC::makeQPForm", "include/LMPC.h"]}
{"id": "C49", "title": "xInit moves the initial state of an InitialStateLMPC", "statement": "After ps->xInit(x) an InitialStateLMPC whose initial-state bounds were never reset solves for trajectories starting at x.", "quantifier": "all systems, all new initial states", "why_tests_cant": "Not exercised by the tests.", "anchors": ["src/InitialStateLMPC.cpp: InitialStateLMPC::InitialStateLMPC", "include/PreviewSystem.h: xInit"]}
{"id": "C50", "title": "Solving is free of undefined behaviour", "statement": "In every history of API calls that keeps the system dimensions fixed, uses initial states of the right size and at most one control-bound constraint, solve() performs only in-range, dimension-consistent matrix operations and the QP handed to the solver has consistent dimensions.", "quantifier": "all such histories of any length", "why_tests_cant": "All histories; out-of-range writes are silent in release builds.", "anchors": ["src/LMPC.cpp: LMPC::solve and everything it calls"]}
{"id": "C51", "title": "Costs and constraints are order independent", "statement": "The order in which costs (resp. constraints) were added does not change the QP objective (resp. feasible set).", "quantifier": "all permutations of the registered costs and constraints", "why_tests_cant": "All permutations.", "anchors": ["src/LMPC.cpp: LMPC::makeQPForm"]}
{"id": "C52", "title": "Reported times are consistent", "statement": "After a solve, 0 <= solveTime() <= solveAndBuildTime(), provided the clock does not go backwards.", "quantifier": "all clock readings", "why_tests_cant": "Timing values of all runs.", "anchors": ["src/LMPC.cpp: LMPC::solve, LMPC::solveTime, LMPC::solveAndBuildTime"]}
{"id": "C53", "title": "Dimension error messages identify the culprit", "statement": "The message of a domain_error for a row mismatch names both offending arguments and states their row counts.", "quantifier": "all names and shapes", "why_tests_cant": "Tests only check the exception type.", "anchors": ["src/debugUtils.cpp: throwMsgOnRows, throwMsgOnRowsAskAutoSpan, throwMsgOnRowsOnPSxDim", "src/PreviewSystem.cpp: PreviewSystem::system", "src/costFunctions.cpp: TargetCost::initializeCost"]}
{"id": "C54", "title": "initializeController is enough after a dimension change", "statement": "As documented, calling initializeController again each time the system dimension changes keeps the controller (with its registered costs and constraints) usable.", "quantifier": "all controllers and systems", "why_tests_cant": "Not exercised by the tests.", "anchors": ["include/LMPC.h: initializeController", "src/LMPC.cpp: LMPC::initializeController, LMPC::makeQPForm"]}
{"id": "C55", "title": "Solver settings can be read back", "statement": "For every solver wrapper, a tolerance/iteration/warm-start setting that can be set through the interface is returned by the corresponding getter.", "quantifier": "all wrappers, all values", "why_tests_cant": "All values; optional solvers are not built in tests.", "anchors": ["src/SolverInterface.cpp", "src/QLDSolver.cpp", "src/OSQPSolver.cpp", "src/LSSOLSolver.cpp"]}
{"id": "C56", "title": "No uninitialised data reaches the solver", "statement": "The matrices and vectors handed to the solver never depend on the contents of freshly allocated (uninitialised) memory.", "quantifier": "all contents of uninitialised memory, all histories as in the safety property", "why_tests_cant": "Uninitialised reads usually happen to be zero in tests.", "anchors": ["src/LMPC.cpp: LMPC::updateConstraintMatrixSize, LMPC::updateQPMatrixSize", "src/constraints.cpp: *::initializeConstraint", "src/costFunctions.cpp: CostFunction::initializeCost"]}
{"id": "C57", "title": "The problem handed to the solver depends only on the current declarations", "statement": "Two controllers that currently have the same system, initial state, and the same constraints and costs (same user-given data) in the same order hand the solver the same QP, whatever calls, solves, removals or memory contents preceded.", "quantifier": "all pairs of operation histories of any length with fixed dimensions, all contents of uninitialised memory; per-step trajectory and mixed costs registered once and not yet solved (C27), no control bound removed after a solve (C37), no autoSpan of trajectory bounds (C11)", "why_tests_cant": "Quantifies over pairs of unbounded histories.", "anchors": ["src/LMPC.cpp: LMPC::solve, LMPC::updateSystem, LMPC::makeQPForm", "src/InitialStateLMPC.cpp: InitialStateLMPC::makeQPForm", "src/constraints.cpp: *::update", "src/costFunctions.cpp: *::update"]}
{"id": "C58", "title": "Initial-state controller ranks controls by the declared costs at every initial state", "statement": "For an InitialStateLMPC and any fixed initial state, the objective handed to the solver differs from one half of the sum of the declared costs of the trajectory simulated from that initial state, plus 0.5e-6*|U|^2, by a constant that does not depend on the controls, so candidate controls are ranked exactly by the declared costs with that regularisation.", "quantifier": "all systems, initial-state cost data, initial states, control sequences, dimensions and horizons, all operation histories with costs as in C32", "why_tests_cant": "Quantifies over all initial states and controls; tests compare one solution.", "anchors": ["src/InitialStateLMPC.cpp: InitialStateLMPC::makeQPForm", "include/InitialStateLMPC.h"]}
{"id": "C59", "title": "A back-end optimum is an MPC optimum", "statement": "In every history and with every selectable solver, the wrapper prepares the third-party solver's own arguments without out-of-range access; and if that third-party solver returns a minimiser of the problem it was actually handed (not of the QP copra had in mind), then control() satisfies every registered constraint under the simulated dynamics, trajectory() is that simulation, and no other admissible control sequence has smaller total cost.", "quantifier": "all histories of API calls, all solver back ends (QuadProg, LSSOL, OSQP, QLD, user-defined), all dimensions and data, all contents of uninitialised memory", "why_tests_cant": "The composition of assembly and of four wrapper conventions must be right for every problem; tests compare a handful of solutions.", "anchors": ["src/LMPC.cpp: LMPC::solve", "src/QuadProgSolver.cpp: SI_solve", "src/LSSOLSolver.cpp: SI_solve", "src/OSQPSolver.cpp: SI_solve", "src/QLDSolver.cpp: SI_solve"]}
{"id": "C60", "title": "Initial-state controller, end to end", "statement": "If the third-party solver of an InitialStateLMPC returns a minimiser of the problem its wrapper handed to it, then initialState() is within the configured bounds, trajectory() is the simulation from initialState() under control() and satisfies every registered constraint, and no other controls admissible from that initial state have a smaller total cost.", "quantifier": "all histories of API calls, all solver back ends, all dimensions and data", "why_tests_cant": "Ranges over all problems and all alternative control sequences.", "anchors": ["src/InitialStateLMPC.cpp: makeQPForm, updateResults, initialState"]}
{"id": "C61", "title": "The initial state is chosen to minimise the declared costs", "statement": "For an InitialStateLMPC, the solver's problem is to minimise over the initial state and the controls together the declared costs of the resulting trajectory plus the initial-state cost 1/2 x'Rx + r'x.", "quantifier": "all histories of API calls, all initial states and controls, all data", "why_tests_cant": "Tests fix R and bounds so that the initial state is pinned or check only feasibility.", "anchors": ["src/InitialStateLMPC.cpp: InitialStateLMPC::makeQPForm", "include/InitialStateLMPC.h"]}
{"id": "C62", "title": "Several controllers sharing objects: each one's problem stays exact", "statement": "In a program with any number of LMPC controllers that share preview systems, constraints and costs, however calls on them interleave: every controller's solve() is defined and hands its solver a well-formed problem; if the back end returns a minimiser of it, that controller's control() satisfies exactly the constraints registered with it, its trajectory() is the simulation, and no admissible sequence has a smaller total cost; its registries stay consistent; its solve() drops an object exactly when neither the client nor another controller still holds it.", "quantifier": "any number of controllers, all interleavings of calls on them and on shared objects, all dimensions and data", "why_tests_cant": "Interleavings are unbounded; the repository's tests use one controller at a time.", "anchors": ["src/LMPC.cpp: addCost, addConstraint, initializeController, solve, checkDeleteCostsAndConstraints", "include/LMPC.h: spCost_, constraints_"]}
{"id": "C63", "title": "Isolation between controllers", "statement": "Calls on other controllers (adding, removing, clearing, initialising, solving), even with shared systems, constraints and costs, change neither a controller's registries and results nor the problem its next solve() hands to the solver.", "quantifier": "any number of controllers, any number of calls on the others, all sharing patterns", "why_tests_cant": "Ranges over all interleavings; no test has two controllers.", "anchors": ["src/LMPC.cpp: solve, updateSystem", "src/costFunctions.cpp: TrajectoryCost::update, MixedCost::update"]}
{"id": "C64", "title": "Declared data changes only through its own declaring calls", "statement": "The data a user declared (matrices, bounds and kind of a constraint; matrices, reference and weights of a cost; dynamics and initial state of a system) changes only through that object's own autoSpan, weights, weight, system, xInit and assignments; adding, removing, initialising, updating, solving, and calls on other objects never change it, whether they return or throw. Once a controller accepted a constraint or cost, autoSpan does not change it either. Likewise a controller's class and system change only by constructing it or initializeController, and its initial-state cost and bounds only by constructing it or the corresponding reset call.", "quantifier": "all histories of API calls", "why_tests_cant": "A frame condition over every call and every object in every history.", "anchors": ["src/constraints.cpp", "src/costFunctions.cpp", "src/PreviewSystem.cpp", "src/LMPC.cpp"]}
{"id": "C65", "title": "A rejected call has no effect", "statement": "A call that throws leaves the program as it was: the controller, the systems, the declared data of every constraint and cost, and the problem of the next solve.", "quantifier": "all histories of API calls and all rejected calls", "why_tests_cant": "Ranges over all states in which a call can be rejected; tests only check that it throws.", "anchors": ["src/LMPC.cpp: addCost, addConstraint", "src/constraints.cpp: initializeConstraint, autoSpan", "src/costFunctions.cpp: initializeCost, autoSpan"]}
{"id": "C66", "title": "What a receding-horizon loop optimises", "statement": "In a loop of xInit(x_t); solve() of any length, the t-th problem has as feasible points exactly the controls admissible from x_t, and as objective half the sum of the contributions of the registered costs plus the regularisation: a cost on the controls or on the last state, or one given for the whole horizon, contributes its declared value from x_t; a per-step trajectory cost contributes t+1 times that; a per-step mixed cost has its quadratic part counted t+1 times and its linear part summed over all earlier initial states with weights 1, 2, .., t+1. In the first solve every cost contributes its declared value, and loops without per-step trajectory or mixed costs never drift.", "quantifier": "all loop lengths, all sequences of initial states, all mixes of costs and constraints (a cost may be registered several times)", "why_tests_cant": "Ranges over all lengths of the loop; the tests solve once.", "anchors": ["src/LMPC.cpp: solve, updateSystem, makeQPForm", "src/costFunctions.cpp: TrajectoryCost::update, MixedCost::update", "src/PreviewSystem.cpp: xInit"]}
{"id": "C67", "title": "The regularisation costs at most 1e-6 |V|^2", "statement": "With an optimal back end, the declared costs of the returned control exceed those of any admissible control sequence V by at most 1e-6 (|V|^2 - |control()|^2); among the admissible control sequences of equal declared cost the returned one has the smallest norm.", "quantifier": "all programs, all admissible V, every back end", "why_tests_cant": "Compares the answer with every admissible control sequence.", "anchors": ["src/LMPC.cpp: makeQPForm", "src/solverUtils.cpp"]}
{"id": "C68", "title": "The answer is determined by the declarations", "statement": "Two programs whose controllers hold the same system, initial state, constraints and costs - registered in any order, after any histories, with any two optimal back ends - get the same control() and trajectory(); for InitialStateLMPC with equal settings and a positive definite initial-state cost also the same initialState().", "quantifier": "all pairs of histories, all registration orders, all pairs of back ends", "why_tests_cant": "Quantifies over pairs of histories and over back ends that are not installed together.", "anchors": ["src/LMPC.cpp", "src/InitialStateLMPC.cpp", "src/*Solver.cpp"]}
{"id": "C69", "title": "Weights scale the cost in the next problem", "statement": "After weight(a) on a registered cost the next problem counts it a times its unit-weight value; after an accepted weights(v) it weighs row r by v(r mod v.rows()); every other cost counts as before. weight(0) gives the same objective as removeCost.", "quantifier": "all programs, all costs, all weights", "why_tests_cant": "Ranges over all weights and all mixes of costs.", "anchors": ["include/costFunctions.h: weights, weight", "src/costFunctions.cpp: update", "src/LMPC.cpp: makeQPForm, removeCost"]}
{"id": "C70", "title": "Replanning on the remaining horizon reproduces the plan", "statement": "Let one controller plan for N+1 steps; apply its first control and give a second controller the same system, the same per-step constraints, per-step costs and target costs (in any order), N steps and the state reached as its initial state. If both solves succeed with minimisers, the second control() is the rest of the first one and the second trajectory() the rest of the first one.", "quantifier": "all pairs of histories, all systems, horizons, constraints and costs, all pairs of back ends", "why_tests_cant": "Quantifies over all horizons and all problem data; a test fixes one receding-horizon run.", "anchors": ["src/LMPC.cpp: solve, makeQPForm", "src/PreviewSystem.cpp: system, updateSystem", "src/constraints.cpp: update", "src/costFunctions.cpp: update"]}
{"id": "C71", "title": "Solver tolerances carry over to the declared problem", "statement": "A control vector violates the rows and bounds of the problem handed to the solver by at most delta exactly when it, and the trajectory simulated with it, violate every declared constraint by at most delta. If solve() succeeds with an answer that violates its problem by at most delta and is within eps of the best feasible value, the plan violates every declared constraint by at most delta and costs at most eps more than any admissible one; with delta = 0 it is within sqrt(4e6 eps) of every optimal control sequence.", "quantifier": "all programs, all tolerances, all answers", "why_tests_cant": "Ranges over all tolerances and all answers a numerical solver may return.", "anchors": ["src/LMPC.cpp: makeQPForm, solve", "include/SolverInterface.h: SI_tolerance", "src/constraints.cpp: update"]}
{"id": "C72", "title": "Adding a constraint never improves the plan", "statement": "Let two controllers differ only in that the second has more constraints (in particular one controller before and after addConstraint). If both solves succeed with minimisers, the second plan does not cost less; and if the first plan satisfies the added constraints, control() and trajectory() are the same. The same for two InitialStateLMPC with the same initial-state cost and bounds, in the objective they share, and then initialState() is the same too.", "quantifier": "all pairs of histories, all added constraints, all pairs of back ends", "why_tests_cant": "Quantifies over pairs of programs and all constraint data.", "anchors": ["src/LMPC.cpp: addConstraint, makeQPForm, solve"]}
{"id": "C73", "title": "solve() succeeds exactly when the declared constraints can be met", "statement": "If the third-party back end reports success exactly when the problem handed to it has a solution, then solve() returns true exactly when some control sequence (for an InitialStateLMPC: some initial state within the configured bounds and some controls) satisfies every registered constraint under the simulated dynamics; in particular, if the client can exhibit an admissible plan, solve() does not fail.", "quantifier": "all programs, all constraint data, all back ends", "why_tests_cant": "Infeasibility is a statement about all control sequences, for all constraint data.", "anchors": ["src/LMPC.cpp: makeQPForm, solve", "src/InitialStateLMPC.cpp: makeQPForm", "src/QuadProgSolver.cpp: SI_solve", "src/LSSOLSolver.cpp: SI_solve", "src/OSQPSolver.cpp: SI_solve", "src/QLDSolver.cpp: SI_solve"]}
{"id": "C74", "title": "Only the meaning of the declarations matters", "statement": "Two controllers whose systems have the same simulations, whose constraints admit the same control sequences and whose costs differ by a constant - whatever constraint and cost classes, per-step or full-size data, number of objects, order of calls and solvers were used to declare them - return the same control() and trajectory() when their back ends succeed with minimisers. For instance a ControlBoundConstraint and the ControlConstraint [I;-I], or a TargetCost and the full-size TrajectoryCost with zero columns before the last step. With InitialStateLMPC, for which the costs may differ by a constant depending on the initial state, the same declared meaning gives solvers the same objective and gives the same initialState(), control() and trajectory().", "quantifier": "all pairs of histories with equivalent declarations, all pairs of back ends", "why_tests_cant": "Quantifies over pairs of programs and over all equivalent ways to declare the same problem.", "anchors": ["src/LMPC.cpp: makeQPForm, solve, updateResults", "src/constraints.cpp: update", "src/costFunctions.cpp: update"]}
{"id": "C75", "title": "The accessors show the solved problem until it is rebuilt", "statement": "After every solve(), successful or not, Q(), c(), Aeq(), beq(), Aineq(), bineq(), lb(), ub(), nrEqConstr() and nrIneqConstr() are the problem that was handed to the solver. They keep these values, whatever calls are made and whether they return or throw, until the next solve() or initializeController() (the constraint accessors also until clearConstraints()); control(), trajectory() and the times keep theirs until the next solve(), except that the counters follow addConstraint (C34).", "quantifier": "all program states, all sequences of calls", "why_tests_cant": "Ranges over all call sequences after a solve, including calls that throw.", "anchors": ["include/LMPC.h: Q, c, Aineq, bineq, Aeq, beq, lb, ub, control, trajectory, solveTime", "src/LMPC.cpp: solve"]}
{"id": "C76", "title": "Controllers can be moved and destroyed", "statement": "In a program that constructs controllers, moves them (construction and assignment) and destroys them, with objects shared between them: every guarantee of C59/C60, C30 and C50 holds for every living controller; a controller that was moved into an empty place behaves on every later call exactly as the original would have; a move assignment keeps the problem, the answer and the results; moving or destroying a controller changes no preview system, constraint, cost or other controller, nor what the others solve; and destroyed or moved-from controllers keep no object alive (a solve drops exactly what neither the client nor another living controller holds).", "quantifier": "all interleavings of constructions, calls, moves and destructions of any number of controllers, of any length", "why_tests_cant": "All histories of lifetimes and sharing; reference counts depend on everything that happened before.", "anchors": ["include/LMPC.h: LMPC(LMPC&&), operator=(LMPC&&), ~LMPC", "src/LMPC.cpp: checkDeleteCostsAndConstraints, solve"]}
{"id": "C77", "title": "No call that keeps the rules is undefined behaviour", "statement": "Whatever calls were made before, a further public API call that (a) keeps the rules about sizes, (b) is made on a controller that was given a system, (c) leaves nothing empty where the library divides by a number of rows (autoSpan, weights), and (d) asks for row and variable counts that fit into an int, either returns or throws: no out-of-range access, null dereference, size mismatch, division by zero, signed overflow or erase of end(). This holds for one controller, for several controllers sharing objects, and when controllers are moved and destroyed. Each of (b), (c), (d) is necessary.", "quantifier": "all histories of API calls of any length, all calls, all argument values", "why_tests_cant": "Undefined behaviour need not show up in a test run; whether it is reachable depends on every history and argument size.", "anchors": ["src/LMPC.cpp", "src/InitialStateLMPC.cpp", "src/constraints.cpp", "src/costFunctions.cpp", "src/PreviewSystem.cpp", "src/AutoSpan.cpp", "include/costFunctions.h: weights"]}
{"id": "C78", "title": "Debug builds announce every element a solve drops", "statement": "In a debug build, a solve prints on stderr exactly one message for every cost and constraint it drops from the controller, constraints first, each in the order of registration and with the element's name, and nothing else; in a release build it prints nothing.", "quantifier": "all histories, all solves, all reference counts, both build types", "why_tests_cant": "Depends on shared_ptr counts over all histories; stderr of debug builds is not captured by the tests.", "anchors": ["include/debugUtils.h: CONSTRAINT_DELETION_WARN", "src/LMPC.cpp: LMPC::checkDeleteCostsAndConstraints"]}
{"id": "C79", "title": "The name of an element identifies its class", "statement": "name() never changes during the life of a cost or constraint, and two elements with the same name have the same class and, for constraints, the same type (equality, inequality, bound).", "quantifier": "all constructor arguments, all call sequences", "why_tests_cant": "Must hold for all objects and all call sequences.", "anchors": ["include/constraints.h: Constraint::name and the constructors", "include/costFunctions.h: CostFunction::name and the constructors"]}
{"id": "C80", "title": "No solver setting is silently ignored", "statement": "For every solver wrapper and every setting (maximum number of iterations, tolerance, warm start, print level): a setter either prints nothing and stores the value where the back end reads it, or prints a notice and changes nothing; a getter either prints nothing and returns the value set last, or prints a notice and returns a fixed placeholder.", "quantifier": "all wrappers that compile, all settings, all values", "why_tests_cant": "Ranges over all wrappers and values; most wrappers are not built in a given configuration.", "anchors": ["src/SolverInterface.cpp", "include/QLDSolver.h", "include/OSQPSolver.h", "include/LSSOLSolver.h", "include/QuadProgSolver.h"]}
{"id": "C81", "title": "inform() tells success from failure", "statement": "The text that inform() prints for the QuadProg and QLD wrappers is the success text exactly when the back end's failure code is 0, and distinguishes the documented codes.", "quantifier": "all failure codes", "why_tests_cant": "The failure codes come from the back end and cannot all be provoked.", "anchors": ["src/QuadProgSolver.cpp: QuadProgDenseSolver::SI_inform", "src/QLDSolver.cpp: QLDSolver::SI_inform"]}
{"id": "C82", "title": "Size errors state what was found and what is accepted", "statement": "The message of every domain_error for a column, weight, squareness or span mismatch names the offending argument where there is one, states the size it has and the sizes that are accepted; the text of the exception also gives the place of the throw.", "quantifier": "all arguments and systems", "why_tests_cant": "Tests only check the exception type.", "anchors": ["src/debugUtils.cpp", "include/debugUtils.h: fancy_throw", "src/constraints.cpp: initializeConstraint", "src/costFunctions.cpp: initializeCost", "include/costFunctions.h: CostFunction::weights", "src/AutoSpan.cpp"]}
{"id": "C83", "title": "Recursive feasibility of the closed loop", "statement": "If the constraints are given per step, every admissible plan can be continued by one more admissible step, and some plan is admissible from the current state, then with a solver that succeeds whenever the problem has a solution the loop solve(); xInit(next predicted state) succeeds at every iteration; every state visited and every control applied satisfies every registered constraint, and the states follow the dynamics.", "quantifier": "all histories, constraint sets, systems, dimensions, and loops of any length", "why_tests_cant": "A test runs a finite loop for one system; the claim is an induction over the loop for all of them.", "anchors": ["src/LMPC.cpp: solve, makeQPForm, updateResults", "src/PreviewSystem.cpp: xInit, updateSystem", "src/constraints.cpp: update"]}
{"id": "C84", "title": "Between two initial states the controller succeeds and costs no more than the average", "statement": "If solve() succeeds from two initial states, it succeeds from every state between them with the same system, constraints and costs; and with nonnegative weights the plan returned there costs at most the corresponding average of the costs of the plans returned for the two states.", "quantifier": "all histories, pairs of initial states, interpolation factors in [0,1], dimensions", "why_tests_cant": "It is a relation between three runs over a continuum of initial states.", "anchors": ["src/LMPC.cpp: solve, makeQPForm", "src/constraints.cpp: update", "src/costFunctions.cpp: update"]}
{"id": "C85", "title": "Independent clients do not interfere, whatever the schedule", "statement": "When clients of one program share no controller, preview system, constraint or cost, every interleaving of their calls is equivalent to any other with the same order of calls per client: each client observes of each of its calls (exceptions, solve()'s result and the problem handed to the solver) and finds in its controllers and objects exactly what it would running alone, the final program state is the same, and no interleaving has undefined behaviour if no client alone has.", "quantifier": "all programs with any number of clients, controllers and objects, all call sequences, all schedules (call by call)", "why_tests_cant": "The number of schedules grows exponentially with the calls; a test executes one of them.", "anchors": ["src/LMPC.cpp: solve, checkDeleteCostsAndConstraints, addCost, addConstraint, removeConstraint", "src/constraints.cpp: update, initializeConstraint", "src/costFunctions.cpp: update, initializeCost"]}
{"id": "C86", "title": "A solver that throws does not damage the controller", "statement": "If the solver throws out of solve() (SI_problem or SI_solve, e.g. a user-defined solver) and the client catches the exception, then control(), trajectory(), the time measurements, the registered constraints and costs, their declared data, the systems and all reference counts are as before the call; all later calls are as well defined as after a solve that reported failure, later successful solves return the optimum of what is declared (C59/C60), and calling solve() again hands the solver the same problem (unless a per-step trajectory or mixed cost is registered, see C27).", "quantifier": "all histories with any number of aborted solves at any points, dimensions, costs, constraints, contents of uninitialised memory, solvers", "why_tests_cant": "The exception may occur after any history and any calls may follow; a test tries one crash point.", "anchors": ["src/LMPC.cpp: solve", "include/SolverInterface.h: SI_problem, SI_solve", "include/LMPC.h: useSolver"]}
{"id": "C87", "title": "Every problem has exactly one best answer if its constraints can be met", "statement": "With nonnegative weights, whenever some control sequence satisfies all registered constraints there is one of least total cost (declared costs plus regularisation), and it is unique; hence with a back end that succeeds exactly on problems that have a minimiser, solve() returns true if and only if the constraints can be met, and control() is then the best plan. For an InitialStateLMPC solve() likewise succeeds if and only if some admissible pair exists, when the initial-state cost is positive definite or both initial-state bounds are equal (as after construction).", "quantifier": "all histories, dimensions, systems, costs, constraints, back ends", "why_tests_cant": "Existence of a minimiser among infinitely many control sequences, and uniqueness against all of them.", "anchors": ["src/LMPC.cpp: makeQPForm, solve", "src/InitialStateLMPC.cpp: makeQPForm", "src/costFunctions.cpp: update"]}
{"id": "C88", "title": "The closed loop decreases its cost and converges", "statement": "If no registered cost is given per step on the state and every admissible plan V from a state x can be replaced, in the state its first control leads to, by a plan cheaper by at least l(x, V) (the usual MPC terminal condition), then with an exact solver the loop solve(); xInit(next state) started from a state with an admissible plan never fails, every plan is the best one from its state, the cost of the plans decreases by at least l in each pass, the sum of l over all passes is at most the cost of any plan admissible at the start; if l is nonnegative, the number of passes with l >= eps is bounded by that cost divided by eps, for loops of any length.", "quantifier": "all systems, constraints, costs, stage costs l, loops of every length", "why_tests_cant": "Concerns loops of unbounded length and comparison with all plans in every pass.", "anchors": ["src/LMPC.cpp: solve, control, trajectory", "src/PreviewSystem.cpp: xInit", "src/costFunctions.cpp: update"]}
{"id": "C89", "title": "The control depends Lipschitz-continuously on the initial state", "statement": "For every system, set of constraints on the controls (bounds, inequalities, equalities) and set of costs with nonnegative weights there is one constant L such that for any two initial states the controls returned by successful solves with exact solvers satisfy |u1 - u2|^2 <= L |x1 - x2|^2, however the constraints and costs were added and whatever happened before: measurement noise in xInit is amplified by at most a fixed factor, and the control never jumps.", "quantifier": "all systems, control constraints, costs, pairs of initial states and histories", "why_tests_cant": "A bound over all pairs of real initial states; a test sees finitely many.", "anchors": ["src/LMPC.cpp: solve, makeQPForm, control", "src/PreviewSystem.cpp: xInit", "src/costFunctions.cpp: update"]}
{"id": "C90", "title": "The library behaves like an abstract machine of declarations", "statement": "Observed through its API, copra is a machine whose state is only what the client has declared (the data and initial state of every preview system, the data of every constraint and cost, the weights, what was added to the controller and in which order, its system, its initial-state cost and bounds, which single-use constraints were accepted, the client's references): every call returns or throws exactly as that machine does, throws the same kind of exception, and changes the declared data exactly as the machine does (a setter stores its own argument and nothing else, autoSpan repeats every member up to the largest row count, solve() only drops the abandoned elements, a call that throws changes nothing except that a refused autoSpan may stop half way); and with a correct back end a successful solve() returns an optimal solution of the machine's problem.", "quantifier": "all programs: all histories of API calls of any length with fixed dimensions, returning and throwing calls, all data, all uninitialised memory, every back end (the answers part with the exclusions of C59)", "why_tests_cant": "A refinement between every execution of the library and an abstract machine, over unbounded histories.", "anchors": ["include/PreviewSystem.h", "src/PreviewSystem.cpp: system", "src/constraints.cpp: autoSpan, initializeConstraint", "src/costFunctions.cpp: autoSpan, initializeCost", "include/costFunctions.h: weights, weight", "src/LMPC.cpp: addCost, addConstraint, removeCost, removeConstraint, clear*, checkDeleteCostsAndConstraints", "src/InitialStateLMPC.cpp: resetInitialStateCost, resetInitialStateBounds"]}
{"id": "C91", "title": "User-defined constraint and cost classes take part in the problem exactly as their objects say", "statement": "A client may derive its own constraint and cost classes. A solve() calls update() of every registered user-defined object, once for each time it is registered, with the up-to-date preview system; the feasible set of the problem handed to the solver is exactly the controls (and, for InitialStateLMPC, initial states) that satisfy the library's constraints as declared and the rows A U = b / A U <= b (with Y and z for InitialStateLMPC) these objects hold; its objective is the library's costs as declared plus their quadratic forms; with an exact back end the returned controls are optimal among the admissible ones; and the library's objects and the controller behave exactly as in the same program without the user-defined objects.", "quantifier": "all user-defined classes (arbitrary overriding functions and data members) whose update() leaves matrices of the sizes they announced, all histories of API calls and of calls of the classes' own functions, all data, every back end", "why_tests_cant": "Ranges over all classes a client could write and over unbounded histories; a test instantiates a few.", "anchors": ["include/constraints.h: Constraint, EqIneqConstraint", "include/costFunctions.h: CostFunction", "src/LMPC.cpp: addCost, addConstraint, updateSystem, makeQPForm, solve", "src/InitialStateLMPC.cpp: makeQPForm"]}
{"id": "C92", "title": "Any class derived from Constraint can be added", "statement": "\"Any derived class of this one can be added to the MPC\": when addConstraint returns without an exception, the constraint is registered, and solve() updates it and imposes it, whatever ConstraintFlag its class reports.", "quantifier": "all user-defined constraint classes and all histories", "why_tests_cant": "Ranges over all classes a client could write and all histories.", "anchors": ["include/constraints.h: ConstraintFlag, Constraint", "src/LMPC.cpp: addConstraint, addConstraintByType"]}
{"id": "C93", "title": "The choice of state-space model does not matter", "statement": "Two programs describe the same plant with states x and T x (other units, other coordinates, irrelevant states left out; T need not be invertible: A2 T = T A1, B2 = T B1, d2 = T d1, x0' = T x0) and declare constraints and costs that say the same about the states and the controls, in any order. Then the problems handed to the solver have the same variables, the same admissible control sequences, the same objective and the same minimisers, and when both solvers return minimisers both programs get the same control() and the second trajectory() is the image under T of the first one.", "quantifier": "all systems, all matrices T (any shape), all registered constraints except trajectory bounds, all costs, all pairs of histories leading to them, all back ends that return minimisers", "why_tests_cant": "Relates two arbitrary programs through an arbitrary matrix; a test compares two models of one plant.", "anchors": ["src/PreviewSystem.cpp: system, updateSystem", "src/LMPC.cpp: updateSystem, makeQPForm, solve", "src/constraints.cpp: update", "src/costFunctions.cpp: update"]}
{"id": "C94", "title": "Without active inequalities the controller is an affine feedback law", "statement": "Two solves from initial states x1 and x2, with the same system, constraints and costs, return minimisers at which no inequality constraint and no bound is active. Then, for every number a (inside or outside [0, 1]), from the initial state a x1 + (1 - a) x2 the combination a control1 + (1 - a) control2 is a minimiser, provided it satisfies the inequality constraints and bounds; when that solve returns a minimiser, its control() and trajectory() are this combination of the first two.", "quantifier": "all systems, constraints, costs, histories, pairs of initial states and real coefficients a; any back ends that return minimisers", "why_tests_cant": "A law over all initial states and all coefficients; tests sample a few states.", "anchors": ["src/LMPC.cpp: makeQPForm, solve", "src/costFunctions.cpp: update", "src/constraints.cpp: update", "src/PreviewSystem.cpp: updateSystem, xInit"]}
{"id": "C95", "title": "Dropping constraints that are not active does not change the answer", "statement": "A controller's solve returns a minimiser at which some of its constraints hold with a margin. A controller with the same system, initial state and costs without those constraints (for example after removeConstraint) has the same minimiser, and when its solver returns a minimiser both return the same control() and the same trajectory(). The same for an InitialStateLMPC, including initialState().", "quantifier": "all systems, constraints, costs, histories and subsets of inactive constraints", "why_tests_cant": "Ranges over every combination of constraints and states; depends on convexity of the whole assembled problem.", "anchors": ["src/LMPC.cpp: removeConstraint, makeQPForm, solve", "src/constraints.cpp: update"]}
{"id": "C96", "title": "Assignments to a preview system's public members take effect at its next recomputation, and only then", "statement": "A program may assign the public members A, B, d, x0 and isUpdated = false of its preview systems one at a time, at any point, also after solves and without resetting isUpdated. Each system then has dynamics in force: its current members while isUpdated is false, otherwise the members as they were at the last recomputation (a solve of the controller using it while stale, or updateSystem()). Every solve is defined, imposes the registered constraints on, minimises the declared costs along, and returns as trajectory() the simulation of, the dynamics in force from x0; assigning A, B or d of an up-to-date system changes nothing until isUpdated = false, system() or updateSystem(); a solve never changes the dynamics in force.", "quantifier": "all programs mixing API calls with assignments of right-sized members, of any length and order; all systems, constraints and costs", "why_tests_cant": "The claim is about every interleaving of assignments, flag resets and solves; a test fixes one.", "anchors": ["include/PreviewSystem.h: isUpdated, x0, A, B, d", "src/PreviewSystem.cpp: updateSystem, system", "src/LMPC.cpp: updateSystem", "binding/python/CopraBindings.cpp: PreviewSystem"]}
{"id": "C97", "title": "Sizes, exceptions and definedness do not depend on the arithmetic", "statement": "Whether a call returns, throws (and what) or is undefined behaviour, the sizes and lists it leaves, and which memory it copies depend on the sizes of the data, the infinite bounds and the solver's answers' sizes only, not on the values or on how the machine computes: two programs on any two arithmetics (rounding, overflow, NaN, any order of summation) that make the same calls with data of the same sizes have the same outcomes. So on IEEE doubles too: no call that keeps to the rules on sizes is undefined behaviour, solve() always returns, hands over a well-sized problem with exactly the rows of the registered constraints, drops exactly the objects nobody else holds, sizes control() and trajectory() by the horizon, leaves both bit for bit unchanged when it fails and makes control() the solver's answer bit for bit when it succeeds.", "quantifier": "all scalar types with +, -, unary -, *, 0, 1 and any product function, in particular doubles with NaN and infinities; all programs of any length, all data and solver answers", "why_tests_cant": "Tests run one arithmetic on chosen finite values; the claim covers every value including NaN and every way to evaluate a product.", "anchors": ["src/LMPC.cpp: solve, makeQPForm, updateResults, addConstraint, checkDeleteCostsAndConstraints", "src/InitialStateLMPC.cpp", "src/constraints.cpp", "src/costFunctions.cpp", "src/PreviewSystem.cpp", "include/AutoSpan.h"]}
{"id": "C98", "title": "Rounding errors of the assembled problem and of the returned trajectory are bounded", "statement": "On any machine arithmetic that obeys the standard model of rounding errors (relative error u, absolute error eta, overflow threshold; IEEE binary64 with round-to-nearest is shown to obey it) run the same program on numbers with error bars (running error analysis). Then at every point of every program each machine number lies within its error bar of the number the exact program has, both programs have the same sizes, lists and exceptions, and: each entry of the problem handed to the solver is within its bar of the exact problem's; a point that satisfies the machine's problem up to tau satisfies the declared constraints, along the exact simulation of the given system, up to tau plus the bars of the rows at that point; a point within eps of the best value of the machine's problem costs at most eps plus the bars more than any controls that satisfy the declared constraints with that margin; trajectory() is the exact simulation of control() from the current state up to its bars.", "quantifier": "all machine arithmetics with the standard model, in particular binary64; all programs of any length, all data, all solver answers; LMPC (for InitialStateLMPC the parts that go through Eigen's inverse get no bar)", "why_tests_cant": "A test sees the rounding errors of one data set; the bound must hold for every data set, every horizon and every order of summation.", "anchors": ["src/PreviewSystem.cpp: updateSystem", "src/LMPC.cpp: makeQPForm, solve, updateResults", "src/constraints.cpp", "src/costFunctions.cpp"]}
{"id": "C99", "title": "An exception thrown by the update() of a user-defined constraint or cost does not damage the controller", "statement": "solve() may be left by an exception from the update() of any registered user-defined constraint or cost, in whatever state that function leaves its object, any number of times at any points of a program. What the controller answers (control(), trajectory(), the registered objects), the declared contents of the library's objects and of the systems, and all unregistered objects are then unchanged; the user-defined objects in front of the throwing one were updated as often as they are registered. No state arises that a program without such exceptions could not reach, apart from scratch matrices and row counters that the next solve() rebuilds; so the next solve() is defined, imposes exactly the registered constraints, minimises the total cost, and the end-to-end guarantee of C91 holds again (a trajectory cost given per step that was already updated in the aborted call counts twice, the defect of C27).", "quantifier": "all programs with any number of aborted solves, all positions of the throwing object, all states it leaves behind, all user-defined classes, all back ends; LMPC and InitialStateLMPC", "why_tests_cant": "The exception may come at any position of either loop and at any point of any history.", "anchors": ["src/LMPC.cpp: solve, updateSystem, makeQPForm", "src/InitialStateLMPC.cpp: updateSystem", "include/constraints.h: Constraint::update", "include/costFunctions.h: CostFunction::update"]}
{"id": "C100", "title": "Copies of constraints, costs and preview systems are as good as the originals", "statement": "Constraints, costs and preview systems may be copied at any time, whatever their state: never used, spanned, reweighted, added to a controller, updated by any number of solves, left behind by a rejected call. Every call on the copy has the outcome it would have had on the original; original and copy share nothing afterwards; a copy of a control or control-bound constraint that has been accepted is refused with runtime_error like the original; a copied preview system goes on predicting the trajectories of the moment of the copy when the original changes. A program that copies reaches no state that a program without copies cannot reach, so all guarantees proved for programs without copies hold for it, among them that control() satisfies all registered constraints and minimises the total cost, and that the problem handed to the solver depends on the declared data only.", "quantifier": "all programs with any number of copies of objects in any state at any points, copies of copies, assignment of a preview system over one that controllers use; all back ends; LMPC and InitialStateLMPC", "why_tests_cant": "The state of the copied object depends on the whole history before; the guarantee is about everything that happens afterwards.", "anchors": ["include/constraints.h: implicit copy constructors of TrajectoryConstraint, ControlConstraint, MixedConstraint, TrajectoryBoundConstraint, ControlBoundConstraint", "include/costFunctions.h: implicit copy constructors", "include/PreviewSystem.h: implicit copy constructor and assignment"]}
{"id": "C101", "title": "An InitialStateLMPC moved into an LMPC is an LMPC once it is initialised", "statement": "An InitialStateLMPC may be moved into an LMPC at any time. Until initializeController is called on the LMPC, its matrices keep the size of the joint problem: if the moved controller had been given its system, solve() has undefined behaviour when a cost is registered, and without costs hands the solver a problem whose matrices do not fit together. After initializeController the LMPC is indistinguishable from one that never was an InitialStateLMPC: with the constraints and costs registered before and after the move it hands the solver the problem that such an LMPC would, solve() is defined, and on success control() satisfies all registered constraints, trajectory() is its simulation and the total cost is minimal.", "quantifier": "all histories of the InitialStateLMPC before the move (any solves, registered objects, initial-state costs and bounds), all calls on the objects and the LMPC after it; all back ends", "why_tests_cant": "The state that is moved depends on the whole history of the InitialStateLMPC, and the claims are about everything that happens afterwards.", "anchors": ["include/LMPC.h: LMPC(LMPC&&), operator=(LMPC&&)", "include/InitialStateLMPC.h: InitialStateLMPC", "src/LMPC.cpp: LMPC::initializeController, LMPC::solve, LMPC::makeQPForm", "src/InitialStateLMPC.cpp: clearConstraintMatrices, updateQPMatrixSize"]}
{"id": "C102", "title": "A program may supply its own prediction matrices", "statement": "Phi, Psi, xi and isUpdated of a PreviewSystem are public. A program may assign them at any time, provided the sizes fit, Phi leaves the initial state alone, xi does not move it, and no state depends on present or future controls through Psi. The prediction in force is: while isUpdated is false the simulation of the current A, B, d; otherwise Phi x0 + Psi U + xi for the current matrices, whoever wrote them. A solve is then always defined, never rewrites supplied matrices, admits exactly the controls under which the prediction in force satisfies every registered constraint, minimises the declared costs of that prediction, and trajectory() is that prediction under control(). In particular, matrices computed by the obvious recursion control the time-varying system x_{k+1} = A_k x_k + B_k u_k + v_k: control() is admissible and optimal for it and trajectory() is its simulation. For an InitialStateLMPC the same holds of the pair initialState(), control(), with the initial-state bounds among the constraints and the costs compared for the chosen initial state. With nonnegative weights the problem has at most one minimiser, and one exactly if some controls are admissible. Replacing one of Phi, Psi, xi of a system that is up to date takes effect at the next solve; on a stale system it has no effect. One exception: a per-step MixedConstraint is imposed correctly only if the effect of a control on a later state (other than the last) depends on the delay alone; otherwise the solver may be given a problem that admits controls violating it.", "quantifier": "all programs of API calls mixed with assignments to A, B, d, x0, Phi, Psi, xi, isUpdated; all dimensions, horizons, supplied entries, registered constraints and costs, and answers of the solver", "why_tests_cant": "The supplied matrices are arbitrary and can be written between any two calls; tests only ever use matrices computed by updateSystem.", "anchors": ["include/PreviewSystem.h: PreviewSystem (Phi, Psi, xi, isUpdated)", "src/LMPC.cpp: LMPC::updateSystem, LMPC::updateResults", "src/constraints.cpp: MixedConstraint::update, TrajectoryConstraint::update, TrajectoryBoundConstraint::update", "src/costFunctions.cpp: update functions", "binding/python/CopraBindings.cpp: PreviewSystem"]}
{"id": "C103", "title": "Assigning over a constraint, cost or preview system in use replaces what the next solve works with", "statement": "`*j = *i` for two constraints, costs or preview systems of the same class may be executed at any time, also while the controller holds j: for a constraint if i has been initialised (by a controller or by the user) and has the type (equality, inequality or bound) of j, whatever its number of rows; for a cost if i has been initialised, or is a TargetCost that fits the dimensions, which need not have been initialised. Every later solve is then defined, admits exactly the controls that satisfy the constraints as last assigned, and minimises the costs as last assigned (so the reference of a TargetCost of a running controller can be changed by assigning TargetCost(M, p_new) over it). Assigning an object that was just constructed over a constraint or cost in use makes the next solve undefined behaviour, except for target costs and for trajectory bounds that bound nothing. This holds in combination with all API calls and with assignments to the public members of the preview system. With nonnegative weights the problem has at most one minimiser, and one exactly if some controls are admissible.", "quantifier": "all programs of API calls, assignments to members of preview systems and assignments of whole constraints, costs and preview systems; all dimensions, data and answers of the solver; both controllers", "why_tests_cant": "An assignment may happen in any state of source and target (fresh, initialised, updated by several solves, with other numbers of rows) and in any order with other calls; no test of the repository assigns over an object in use.", "anchors": ["include/constraints.h: implicit copy assignments of the five classes", "include/costFunctions.h: implicit copy assignments of the four classes", "include/PreviewSystem.h: PreviewSystem", "src/LMPC.cpp: LMPC::updateSystem, Constraints::updateNr", "src/constraints.cpp: update functions", "src/costFunctions.cpp: update functions"]}
{"id": "C104", "title": "A change of units changes the answer by the same factor and nothing else", "statement": "Measure all states and controls in a unit that is s times smaller: multiply the initial state, the bias of the dynamics, the right-hand sides and bounds of the constraints (an infinite bound stays infinite) and the references of the costs by s > 0, keep all matrices and weights, declare the constraints and costs in any order, after any history, with any solver. Then the objective of the problem handed to the solver satisfies objective2(s U) = s^2 objective1(U), s U is feasible exactly when U is, and when both solvers return minimisers control() and trajectory() are s times those of the first program; in particular the regularisation and the finite stand-ins for infinite bounds introduce no unit-dependent bias as long as they do not bind. The same for InitialStateLMPC with r, x0lb, x0ub multiplied by s and R kept, including initialState().", "quantifier": "all pairs of histories with proportional declarations, all positive factors, all dimensions and data, all pairs of back ends", "why_tests_cant": "A relation between two programs for every factor and all data; a hard-coded absolute tolerance or an unscaled term anywhere would break it only for some factors.", "anchors": ["src/LMPC.cpp: makeQPForm, updateConstraints, solve, updateResults", "src/InitialStateLMPC.cpp: makeQPForm", "src/constraints.cpp: update", "src/costFunctions.cpp: update"]}
{"id": "C105", "title": "Plants that do not interact are controlled independently by one controller", "statement": "Take two LMPC controllers, each with its own plant, initial state, constraints and costs, and one controller whose system is block diagonal (the states of the first plant followed by those of the second, likewise the controls) and whose constraints and costs are those of both, each with zero columns for the other plant (one control bound constraint for both bounds). After any histories and with any solvers, the objective of the joint problem is the sum of the two objectives, joint controls within the solver's range are feasible exactly when both parts are feasible, and when the three solvers return minimisers, the joint control() and trajectory() are, step by step, those of the two controllers side by side: the declarations of one plant do not leak into the answer for the other. For InitialStateLMPC with the bounds on the initial states of both plants, the same holds of feasibility and of the ranking of controls, per initial state.", "quantifier": "all triples of histories with such declarations, all dimensions, horizons and data, all back ends", "why_tests_cant": "A relation between three programs over all dimensions; a wrong stride or offset in the stacking only shows for particular combinations of state and control sizes.", "anchors": ["src/PreviewSystem.cpp: updateSystem", "src/LMPC.cpp: makeQPForm, updateConstraints, updateResults", "src/constraints.cpp: update", "src/costFunctions.cpp: update"]}
{"id": "C106", "title": "A solver that throws damages neither its own controller nor those it shares objects with", "statement": "Several controllers of either kind share systems, constraints and costs, in any interleaving of calls, and any solve() of any of them may be aborted by an exception from its solver that the client catches. Then no state is reached (up to the time measurements) that solves that merely fail could not reach; an aborted solve() changes no other controller at all and keeps the results, registrations and data of its own controller and everything declared to the objects; every later solve() of every controller is free of undefined behaviour and, with an honest back end, gives the documented optimum; other controllers hand over the same problem as before, and the controller whose solver threw hands over the aborted problem again, whatever the others did meanwhile (costs given per step on the trajectory excepted: C27, C63).", "quantifier": "all numbers of controllers, all interleavings of calls and aborted solves, all sharing patterns, all dimensions and data, all solvers", "why_tests_cant": "The damage would show only for particular interleavings of an exception with calls on other controllers that share the half-updated objects.", "anchors": ["src/LMPC.cpp: LMPC::solve, updateSystem, checkDeleteCostsAndConstraints", "include/LMPC.h: LMPC", "include/solverUtils.h: SolverInterface"]}
{"id": "C107", "title": "A longer horizon never does better", "statement": "If two controllers are given the same system, initial state, constraints (per step) and costs (per step, with nonnegative weights), and the second plans over at least as many steps, then the start of every plan that is feasible for the second is feasible for the first, and costs at most as much; so when the second solve() succeeds with a feasible plan the first succeeds too, and the plan it returns costs no more. For InitialStateLMPC the same holds of the pairs of initial state and controls, when the bounds on the initial state are the same.", "quantifier": "all horizons, dimensions, systems, constraints and costs given per step, all histories and registration orders, all solvers", "why_tests_cant": "It relates two problems of different sizes for every feasible point of the larger one.", "anchors": ["src/LMPC.cpp: LMPC::solve, makeQPForm", "src/constraints.cpp: update of every constraint", "src/costFunctions.cpp: update of every cost"]}
{"id": "C108", "title": "Symmetric problems have symmetric answers", "statement": "Let a mirror image exchange the components of the controls at every step, change the signs of some of them, and map the states by a matrix T. If a second program, with any history, declares the mirror image of the first (dynamics, constraints, costs, in any number, order and form) and starts at the mirror image of its initial state, then the mirror image of a control sequence has the same objective and is feasible exactly when the sequence is, and when both solvers return minimisers the second control() and trajectory() are the mirror images of the first. In particular a program that is its own mirror image gets a symmetric plan: no component of the controls, no sign and no order of declaration is preferred. For InitialStateLMPC the same holds of feasibility and of the ranking of the controls at each initial state.", "quantifier": "all permutations and signs of the control components, all matrices T (invertible or not), all declarations and histories, all solvers returning minimisers", "why_tests_cant": "Relates all control sequences of two programs through an arbitrary exchange of components; a test tries one exchange on one problem.", "anchors": ["src/LMPC.cpp: makeQPForm, solve, updateResults", "src/PreviewSystem.cpp: updateSystem", "src/costFunctions.cpp: update", "src/constraints.cpp: update"]}
{"id": "C109", "title": "Turning up a weight never makes that cost worse", "statement": "Two programs declare the same system, initial state, constraints and costs, in any order and after any history, except that one cost has its weights multiplied by a in the first and by a larger b in the second (for instance weight(a) and weight(b)). The feasible controls are the same; when both solvers return minimisers the second plan does at least as well in that cost (counted with the same weights), and for a >= 0 the first plan does at least as well in the other costs and the regularisation together. A large weight acts as a soft constraint: the plan is worse in that cost than any feasible control sequence y by at most twice what y costs otherwise, divided by the weight.", "quantifier": "all programs, all costs, all pairs of weights, all feasible control sequences, all solvers returning minimisers", "why_tests_cant": "Relates the minimisers of two problems for all weights; a test tries a few weights on one problem.", "anchors": ["include/costFunctions.h: weights, weight", "src/costFunctions.cpp: update of every cost", "src/LMPC.cpp: makeQPForm, solve"]}
{"id": "C110", "title": "Loosening a limit never makes the plan worse", "statement": "Two programs declare the same system, initial state and costs, in any order and after any history, and every constraint of the second is one of the first with limits that are not tighter (larger right-hand sides of inequalities, wider bounds), or has been dropped. Then every feasible control sequence stays feasible, solve() keeps succeeding, the plan does not cost more, and if it happens to keep the tighter limits control() and trajectory() are those of the first program. With limits and an initial state that are the weighted averages of those of two programs, solve() succeeds if it did for both, and the plan costs at most the same average of their costs: relaxing a limit further gains less and less. Two InitialStateLMPC behave in the same way, also with looser bounds on the initial state.", "quantifier": "all programs, all limits (infinite ones included), all averages, all solvers returning minimisers", "why_tests_cant": "Relates the minimisers of two or three problems for all limits; a test tries a few limits on one problem.", "anchors": ["include/constraints.h: constructors of the five constraints", "src/constraints.cpp: update of every constraint", "src/LMPC.cpp: makeQPForm, solve"]}
{"id": "C111", "title": "Moving a reference moves the plan no further", "statement": "Two programs declare the same system, initial state, constraints and costs, in any order and after any history, except that the references p of the costs differ. The feasible controls are the same; when both solvers return minimisers, the outputs that the costs compare with their references (M x, N u, M x + N u, at every step where they are compared) move by no more than the references, both measured with the weights of the costs: sum of w (y1 - y2)^2 <= sum of w (p1 - p2)^2. The controls move by at most 500 times that distance whatever the costs are, because of the regularisation. Moreover every feasible control sequence costs more than the plan by at least half the weighted squared distance of its outputs and controls from those of the plan.", "quantifier": "all programs, all references, all solvers returning minimisers, all feasible control sequences", "why_tests_cant": "A bound with a constant that depends on nothing, over all pairs of references and all constraints; a test tries finitely many.", "anchors": ["include/costFunctions.h: constructors of the four costs", "src/costFunctions.cpp: update of every cost", "src/LMPC.cpp: makeQPForm, solve"]}
{"id": "C112", "title": "Between two plans that touch the same limits the control is affine in the initial state", "statement": "Two solves from initial states x1 and x2, with the same system, constraints and costs, in any order and after any history, return minimisers that meet the same limits with equality (the same rows, at the same steps, of the same constraints; the same control or state bounds). Then, from every initial state a x1 + (1 - a) x2 with 0 <= a <= 1, a control1 + (1 - a) control2 is a minimiser and touches the same limits; when that solve returns a minimiser, its control() and trajectory() are this average of the first two. So along every segment of initial states the control law is affine on an interval for every set of limits touched: it is piecewise affine, with at most one piece for each set of limits.", "quantifier": "all systems, constraints, costs, histories, pairs of initial states whose plans touch the same limits, and weights between 0 and 1; any back ends that return minimisers", "why_tests_cant": "A law for every state between two states and every combination of active limits; tests sample a few states.", "anchors": ["src/LMPC.cpp: makeQPForm, solve", "src/constraints.cpp: update", "src/costFunctions.cpp: update", "src/PreviewSystem.cpp: updateSystem, xInit"]}
{"id": "C113", "title": "Back-end tolerances survive the wrappers", "statement": "A point violates the problem that a wrapper hands to its third-party solver (bounds turned into inequality rows for QuadProg, rows stacked into two-sided ones for LSSOL and OSQP) by at most delta exactly when it violates the problem the wrapper was given by at most delta (OSQP: and no inequality row is more than delta below -DBL_MAX). So if the third-party solver reports success with a point that violates its own problem by at most delta, at a cost at most eps above the best of that problem, then the plan violates every declared constraint by at most delta, trajectory() is the simulation under control(), and no admissible control sequence is cheaper by more than eps; the same for an InitialStateLMPC from the initial state it returns, which violates its bounds by at most delta.", "quantifier": "all histories of API calls, all solver back ends, all tolerances, all answers, all contents of uninitialised memory", "why_tests_cant": "Ranges over all problems, tolerances and answers; a wrapper that scaled or duplicated rows would loosen the tolerance only for some problems.", "anchors": ["src/QuadProgSolver.cpp: SI_solve", "src/LSSOLSolver.cpp: SI_solve", "src/OSQPSolver.cpp: SI_solve", "src/QLDSolver.cpp: SI_solve", "src/LMPC.cpp: LMPC::solve", "src/InitialStateLMPC.cpp: updateResults"]}
{"id": "C114", "title": "The calls into client code follow a protocol", "statement": "A solve() that is not interrupted makes these virtual calls and no others: update of every registered constraint in the order they were added, then of every registered cost, each with one and the same preview system, which has the controller's dimensions, is up to date, and predicts the plant as it is at that moment exactly for every initial state and all controls; then one SI_problem with the sizes of the problem; then one SI_solve with matrices of exactly these sizes; and SI_result if and only if SI_solve returned true (once, twice for an InitialStateLMPC). A solve aborted by a user-defined update makes these calls up to the one that threw, and calls the solver not at all; a solve aborted by the solver makes no SI_result. So over the whole life of a program, whatever calls, aborted solves and caught exceptions it consists of, every SI_solve directly follows an SI_problem announcing the sizes of its arguments, and SI_result is only called right after an SI_solve that returned true.", "quantifier": "all histories of API calls with user-defined constraints and costs whose update may throw, all preview sizes, all sets of registered objects, all solver answers", "why_tests_cant": "It is a property of call sequences over unbounded histories with exceptions at any point; a mock in a test sees one sequence.", "anchors": ["include/SolverInterface.h: SI_problem", "include/SolverInterface.h: SI_solve", "include/SolverInterface.h: SI_result", "include/constraints.h: update", "include/costFunctions.h: update", "src/LMPC.cpp: LMPC::solve", "src/LMPC.cpp: LMPC::updateSystem", "src/LMPC.cpp: LMPC::updateResults", "src/InitialStateLMPC.cpp: updateResults"]}
{"id": "C115", "title": "No exception from client code inside solve() damages the controller", "statement": "solve() calls code of the client in two places: the update functions of user-defined constraints and costs, and the solver, which may be the client's own SolverInterface. Whichever of them throws, at whatever calls of solve() and however often, and the client catches it: the controller keeps its previous results, time measurements, registered objects and settings, the objects of the library keep their declared contents and the systems theirs; objects that are not registered are not touched; every solve() that follows is defined, is given the problem that imposes exactly the registered constraints with the total cost as objective, and its results are feasible and optimal, provided the per-step trajectory and mixed costs were initialized again, as after any solve() (C27). No state is reached that a program whose client code never throws cannot reach, but for the time measurements, the problem under construction and row counters that every solve() computes anew. Calling solve() again right after the solver threw hands over a problem with the same feasible controls and the same ranking of controls, if the user-defined update functions are idempotent.", "quantifier": "all histories of API calls with user-defined constraints and costs, in which any solve() is aborted by any user-defined update or by the solver; all contents the throwing update leaves in its object; all results the solver reports afterwards; all sizes", "why_tests_cant": "The interleavings of exceptions from two kinds of client code with the life of the controller are unbounded; a test throws once at one place.", "anchors": ["src/LMPC.cpp: LMPC::solve", "src/LMPC.cpp: LMPC::updateSystem", "include/SolverInterface.h: SI_problem", "include/SolverInterface.h: SI_solve", "include/constraints.h: update", "include/costFunctions.h: update", "src/InitialStateLMPC.cpp"]}
{"id": "C116", "title": "Idle actuators stay idle", "statement": "An actuator that has no effect on the system (its column of the input matrix is zero) and that no registered constraint or cost looks at, except control bounds that contain zero, is not moved: with a solver that returns a minimiser its control is exactly zero in every step of every successful solve(), for LMPC and InitialStateLMPC, from any initial state; with a solver that returns a feasible point at most e above the minimum, the sum of the squares of its controls is at most 2e6 times e. The same holds for any set of entries of the control vector for which switching them off breaks no registered constraint and raises no registered cost. (The library leaves no control without a price: the regularisation reaches every step of every actuator.)", "quantifier": "all systems, horizons and sizes, all registered constraints and costs of all kinds, in per-step and full-horizon form; all histories of API calls; all sets of entries; all answers of the solver that are feasible and nearly optimal", "why_tests_cant": "The price of an unused control is 1e-6, below the tolerance of any test; whether it reaches every entry of the control vector for every size and cost cannot be sampled.", "anchors": ["src/LMPC.cpp: LMPC::updateSystem", "src/LMPC.cpp: LMPC::makeQPForm", "src/InitialStateLMPC.cpp: InitialStateLMPC::makeQPForm", "src/costFunctions.cpp", "src/constraints.cpp"]}
