# Formal model of copra in Lean 4 — design

copra turns a linear system, costs and constraints into a QP and hands it to an external solver.  Everything up to the
solver is matrix bookkeeping plus a small object registry; that is what is modelled, function by function, in
`lean/Verif/Model/`.  Properties are stated against a separate specification (`Spec.lean`, `SpecHist.lean`,
`SpecSolvers.lean`) and proved in `lean/Verif/Props/`; `lean/Verif/Proofs/` holds the lemmas.

## 1. Trusted base

* Lean 4.33's kernel.  No axioms of our own, no `native_decide`/`bv_decide`.  `tools/axioms.sh` prints the axioms of every
  theorem in MANIFEST.json: all depend on at most `propext`, `Classical.choice`, `Quot.sound`.
* The reading of the C++: that each definition in `Model/` does what the cited lines do.  Nothing was compiled or run.
* The reading of Eigen: that the checked operations of `Eigen.lean` (product, sum, block, segment, resize, setZero, ...)
  behave as Eigen's, and that everything Eigen asserts on is one of their checks.
* The English reading of the specification files: simulation `sim`, `Row`/`ConstrData.Holds`, `CostData.value`, `QP`
  feasibility/objective, histories `Hist`.

## 2. Representation

* **Scalars**: the model runs on any type `K` with the operations `+ - * 0 1` of `double` and a product function `Arith.dot`
  (what Eigen computes for an entry of a matrix product, in any order of summation).  Theorems about values take `K` to be a
  linearly ordered field (exact arithmetic); C97 holds for every `K`, doubles with rounding, overflow and NaN included; C98 bounds the
  difference between the two.
  Bounds and right-hand sides live in `Ext K` (`-inf`, finite, `+inf`) because the code branches on infinities.
  `std::numeric_limits<double>::max()` is an arbitrary `dmax : K`.
* **Eigen**: dynamic matrices/vectors are records `rows`, `cols`, entry function.  Every operation that asserts on dimensions
  returns `Option`; `none` is "Eigen assertion / out-of-bounds", i.e. undefined behaviour of a release build.  The contents
  after `resize` are an arbitrary "junk" function, quantified over in every theorem.
* **Exceptions**: `Res α = ok a | thrown e a | ub`; `thrown` carries the (possibly partially mutated) object.
* **int**: dimensions computed as `int` products or sums are checked against `INT_MAX`; overflow is undefined behaviour.
* **Classes**: a hierarchy is one record plus a kind tag; virtual dispatch is a match on the tag.
* **shared_ptr**: identity is a number; the heap is a function from numbers to objects; the number of owners outside the
  controller is part of the state (the automatic removal in `checkDeleteCostsAndConstraints` reads it).
* **Client**: `Op` lists the public calls, `World.step` executes one, `Hist` is any sequence of calls of any length that keeps
  to the rules written in `OpOk` (fixed dimensions, sizes right, at most one control bound, solver returns a vector of the
  right size).  Exceptions are caught by the client and the history goes on.
* **External calls**: the QP solver is an arbitrary function from problems to answers, chosen anew at every solve;
  `Matrix::inverse()` likewise; clock readings are arbitrary integers.  Theorems that need a meaningful answer take the
  contract as a hypothesis (`SolveContract`, `IsMinimiser`, `TrueInverse`).

## 3. What is modelled

| Source | Model | Covered |
|---|---|---|
| src/PreviewSystem.cpp, include/PreviewSystem.h | Model/PreviewSystem | both constructors, `system` with its checks, `updateSystem`, `xInit`, direct assignment of `A`,`B`,`d` |
| src/AutoSpan.cpp | Model/AutoSpan | `spanMatrix`, `spanVector` |
| src/constraints.cpp, include/constraints.h | Model/Constraints | five constraint classes: constructors, `autoSpan`, `initializeConstraint`, `update`, `constraintType`, `nrConstr`, result getters |
| src/costFunctions.cpp, include/costFunctions.h | Model/Costs | four cost classes: constructors, `weights`, `weight`, `autoSpan`, `initializeCost`, `update` |
| src/LMPC.cpp, include/LMPC.h | Model/LMPC | constructors, `selectQPSolver`/`useSolver`, `initializeController`, `solve`, `control`, `trajectory`, times, `addCost`, `addConstraint`, `removeCost`, `removeConstraint`, `clearCosts`, `clearConstraints`, all private helpers |
| src/InitialStateLMPC.cpp | Model/LMPC (`isInit`) | both constructors, `resetInitialStateCost`, `resetInitialStateBounds`, `initialState`, overrides of the matrix sizing, `makeQPForm`, `updateResults` |
| src/LMPC.cpp with several controllers | Model/Multi | `n` controllers sharing preview systems, constraints and costs; `use_count()` seen by one controller includes the others' `shared_ptr`s |
| include/LMPC.h 51-55 | Model/Lifetime | move construction, move assignment and destruction of controllers in a program with `n` places for them (moved-from vectors and pointers are empty; slicing: see Model/Slice; no self-move) |
| src/QuadProgSolver.cpp, LSSOLSolver.cpp, OSQPSolver.cpp, QLDSolver.cpp | Model/Solvers | what each wrapper passes to its back end, as a function of the `SI_solve` arguments; settings setters/getters incl. the inherited ones of src/SolverInterface.cpp |
| src/GUROBISolver.cpp | Model/Solvers | `SI_problem`, `SI_solve` as written |
| src/solverUtils.cpp | Model/Solvers | `solverFactory`, `pythonSolverFactory` per build configuration |
| src/debugUtils.cpp, include/debugUtils.h | Model/Messages | the text of the dimension error messages thrown by `system`, constraints, costs and AutoSpan and by `weights`; the text `fancy_throw` builds |
| include/debugUtils.h 14-20, `name_` | Model/Warnings | names of costs and constraints, output of `CONSTRAINT_DELETION_WARN` during `solve` |
| src/SolverInterface.cpp, `SI_inform`, `SI_printLevel` | Model/Notices | texts printed by settings calls and by `SI_inform` of the QuadProg and QLD wrappers |
| `Constraint`, `EqIneqConstraint`, `CostFunction` as base classes | Model/UserDefined | user-defined classes with arbitrary overriding functions and members; `addCost`, `addConstraint`, `updateSystem`, `solve` with virtual calls to them. A user-defined `SolverInterface` is covered by the arbitrary `answer` of every solve |
| public data members `A`, `B`, `d`, `x0`, `isUpdated` of `PreviewSystem` | Model/Fields | single assignments at any point of a program (`isUpdated` to false) |
| public data members `Phi`, `Psi`, `xi`, `isUpdated = true` of `PreviewSystem` | Model/Supplied | single assignments at any point of a program; assignments to the dimensions are not modelled |
| src/LMPC.cpp 79-101 when the solver throws | Model/Abort, Model/MultiAbort | the state in which the exception leaves `solve` |
| src/LMPC.cpp 79-101, 225-248 when a user-defined `update` throws | Model/UserAbort | the state in which the exception leaves `solve` |
| src/LMPC.cpp 79-91 when the solver throws, with user-defined objects | Model/UserThrow | the state in which the exception leaves `solve` |
| src/LMPC.cpp 79-101, 225-248, 284, src/InitialStateLMPC.cpp 43, 126-127: the virtual calls made | Model/Calls | the calls are recorded; otherwise Model/UserDefined and Model/UserAbort |
| implicit copy constructors and copy assignments of the constraint and cost classes and of `PreviewSystem` (include/constraints.h 114-307, include/costFunctions.h 103-219, include/PreviewSystem.h 22-68) | Model/Copies | memberwise |
| include/LMPC.h 53, 55 with an `InitialStateLMPC` as argument | Model/Slice | the `LMPC` part of the controller is moved |

Not modelled: the settings of `src/GUROBISolver.cpp` (the file does not compile at this commit: undeclared `tol`, missing
returns); the third-party solvers themselves; `SI_inform` of LSSOL and OSQP (delegated to the back end);
the perfect-forwarding templates of the constructors (argument types are taken to be
matrices/vectors); user-defined classes whose functions change other objects; assignments between different constraint or cost classes through references to a base class (they copy the members of the base class only); NaN as a *user-supplied bound* (`Ext`: the comparisons
with infinity are on the given bounds, and `±inf - x` is `±inf`);
memory exhaustion; threads; the Python bindings except `pythonSolverFactory` (they do not compile at this commit either:
binding/python/CopraBindings.cpp 286 refers to `LMPC::resetConstraints`, which include/LMPC.h does not declare).

## 4. Properties: how each is modelled and proved

Statements are in properties.jsonl, theorem names and notes in MANIFEST.json.  "False" means the property as a user would
expect it does not hold of the code: a machine-checked counterexample is proved together with the strongest statement found
that does hold (suffix `_partial`), so the claim is marked partial.

| Property | Method |
|---|---|
| C01–C06 prediction | closed form of the `updateSystem` loops by loop invariants (`Proofs/PreviewSystem`), then induction on the step against `sim`; C04/C05 by execution of the checks |
| C07, C08 AutoSpan | loop invariants over the block writes |
| C09, C10, C12, C13 autoSpan of constraints and costs | meaning (`ConstrData.Holds`, `CostData.value`) of the data before and after, block indices by `Nat` div/mod |
| C11 | **false**: line sets are not recomputed. Counterexample and partial; what the spanned constraint imposes instead is proved for all data and later histories (`c11_lower_as_built`, `c11_upper_as_built`: the spanned side binds the initial state only) |
| C14–C18 constraint rows | every row after `update` is the declared row composed with the prediction (`RowIs`), linearity. C17 **false** (finite lower bounds not negated): counterexample, `as_built`, partial |
| C19, C20 acceptance | case analysis on initialisation, over reachable states |
| C21 | rows depend only on current data and system |
| C22–C26 costs | update closed forms (`Cost.Updated`) with accumulation, quadratic identities over `Finset.sum` |
| C27 | **false** (per-step costs accumulate over solves): reachable counterexample; partial by induction on the number of solves |
| C28 | case analysis |
| C29, C30, C32, C33 the QP | invariant `Good` by induction over histories (`Proofs/Compat`), then assembly (`Proofs/MakeQP`, `Proofs/Assemble`) and the row/cost theorems |
| C31 | **false** (second control bound: out-of-bounds writes, for every controller); partial for one |
| C34 | **false** after removals; proved after solve, `≥` always, `=` without removals |
| C35, C36, C38 registries | invariant `LMPC.Partition` by induction over histories |
| C37 | **false** (bounds stay after removal, for every controller and later history); two partial theorems |
| C39 | **false** for elements registered twice; exact characterisation `c39_as_built` |
| C40, C52 results, times | frame lemmas of `solve` |
| C41, C42, C43, C55 wrappers | equality of feasible sets and objectives between the `SI_solve` problem and the back-end problem; C55 **false** for two tolerances |
| C44–C49, C58 initial-state controller | joint decision vector; C45 (default `R`), C47 (failed solve), C48, C49 **false** in part, with general negative theorems and partials |
| C50 | `solve` defined in every history |
| C51, C57 | determinacy: the QP is a function of the declared data; pairs of histories |
| C53 | **false** (message overwritten / wrong name): counterexamples and partial |
| C54 | **false** (objects keep old sizes, for every controller); partial: clearing first suffices |
| C59, C60 | composition of C30/C32 (C44/C58) with the wrapper theorems C41/C42 |
| C61 | **false**: exact description of the objective by completing the square (`c61_as_built`), reachable counterexample |
| C62 | programs with `n` controllers sharing one heap (`MWorld`); forward simulation: the history of all controllers, seen from controller `k`, is a history of `k` alone in which the others' effects are calls on the objects themselves (`MHist.view`); then C59, C30, C29, C35, C39 |
| C63 | C64 for every interleaved call, then C57; **false** for shared per-step trajectory/mixed costs (counterexample) |
| C64 | case analysis over all calls with the history invariant `Good` |
| C65 | case analysis over all throwing calls, then C57; **false** for a rejected `autoSpan` (counterexample) |
| C66 | induction over the loop: after t solves the accumulated form of a per-step cost is t times its declared form; evenness splits quadratic from linear part |
| C67 | algebra from C59 |
| C68 | C51 (same problem), C29/C45 (strictly convex), C41-C42 (back ends), midpoint argument; C40 for the results |
| C69 | C32 for the state after the setter, C28 for the tiling |
| C70 | cost and constraints of a plan split into the first step and the rest (`sim_tail`); exchange argument in both directions; uniqueness from the positive definite Hessian |
| C71 | rows of registered constraints under an arbitrary scalar relation (`rows_each`), so the residuals coincide (also for an `InitialStateLMPC`, `Props/InitVariants`); strong convexity from the `1e-6` regularisation for the distance |
| C72 | feasible-set inclusion from C30, equal objectives from C32; uniqueness from the positive definite Hessian; for `InitialStateLMPC` equality of the handed objectives entry by entry (`c72_same_objective_init`) |
| C73 | C30/C44 (feasible set) and C41-C42 (the wrappers' feasible sets), both directions |
| C74 | as C72, with the inclusion of the admissible sets replaced by their equality on representable controls; for `InitialStateLMPC` the joint objectives differ, by C58, by a function of the initial state, so all coefficients but those of the state alone agree, and those of the state alone are the user's `R`, `r` |
| C75 | inversion of `solve`, then a frame lemma for each of the other calls and induction over the call sequence |
| C76 | as C62, for places that may be empty: the invariant says that the content of a place, or for an empty place any controller at all, is in a history of its own (`LWorld.Inv`); a move or destruction is, for the others, a change of reference counts; equality of views for a moved controller |
| C77 | case distinction over the calls: the invariant of histories (`Good`) gives sizes, registries and counters; each function's acceptance lemma says when it is defined; what remains are the conditions of `OpSafe` (SpecSafe.lean), each shown necessary by a concrete history |
| C78 | the walk of `check` prints exactly for what it erases (loop invariant of C39), then the registries before and after `solve` |
| C79 | names are a function of class and sense; these never change (frame lemmas). **False** for `MixedConstraint`: counterexample and partial |
| C82 | inversion of the checks; **false** for target costs and bound constraints |
| C83 | `closedLoop` (a client of the modelled API); induction over its length with C30, C40, C50; the shifted plan is admissible |
| C84 | convexity of the declared constraints and costs in (trajectory, controls), affinity of the simulation, C30, C32 |
| C85 | every call commutes with hiding the objects of other clients (`solo_step`), leaves them alone (`step_outside`), and controllers hold only objects of their client; induction over the schedule |
| C86 | an aborted solve is shown equal, up to the two clocks, to a failing solve during which the client holds every registered object (`aborted_failed`); all calls commute with changing the clocks (`clock_step`); so histories with aborts simulate ordinary ones (`ahist_hist`) and the theorems about these transfer |
| C87 | Proofs/Existence: a quadratic function positive definite on a subspace has a minimiser on every nonempty polyhedron in a translate of it, by linear algebra and induction on the inequalities (over every ordered field); with C29/C45 (Hessian), C30/C44 (feasible set), C32 (objective), C41/C42 (wrappers) |
| C88 | induction on the loop; each pass by C87's existence theorem, C30, C32, C40; the next pass starts from the state that C40 says `trajectory()` contains. Example: a spanned stage cost with a terminal cost, `|x|^2/2` decreases |
| C89 | the mixed second difference of the cost in the state and the controls is bilinear; the regularisation makes the cost strongly convex, so the midpoint of the two plans bounds their distance by that difference; Cauchy-Schwarz. C30, C32, C40 carry it to `solve()`. Example: two solves of the double integrator whose controls differ |
| C90 | SpecDecl: an abstract machine whose state is the declared data only (`Declared`), with `Rejects` (which calls throw what), `Effect`, `FailedEffect`; `declared` reads that state off a world. `c90_step` by cases on the call from the frame theorems (C04, C07, C08, C19, C20, C28, C39, C64, C65), `c90_refines` by induction on the execution, `c90_answer` composes C59. Example: the program of ExWorld and a refused second `addConstraint` |
| C91 | Model/UserDefined: a world in which some constraints and costs are objects of classes given by arbitrary functions (`ConstrClass`, `CostClass`). A simulation (`projects`) shows every history runs beside a history of the plain world without those objects (`Beside`), so C30, C32, C40, C44, C47, C58 carry over; the user-defined rows and terms are added from the assembly lemmas (`both`). `c91_solve_defined` from the sizes the classes promise (`Conforming`). Examples: a budget constraint and a smoothness cost, in an `LMPC` and an `InitialStateLMPC` |
| C92 | Same model. `c92_registered_partial` by unfolding `addConstraint`; false of the code for `ConstraintFlag::Constraint` (`c92_ignored` for every class and state, `c92_false` concrete) |
| C93 | `SpecRep.lean` says when two programs describe the same plant through a matrix `T` (`SameThrough`). `sim_through`: induction over the steps; then every declared constraint and cost reads the same (`holds_through`, `value_through`), and C30, C32, C29, C40 finish |
| C94 | `NoActive`/`HoldsWithMargin` in Props/AffineLaw. The cost along a line is `f + t g + t² h` with `g` affine in the state and the controls (`Curve`), the slope vanishes at a minimiser without active inequalities (`small_steps`, `slope_zero`), equality constraints are affine (`holds_mix_eq`) |
| C95 | Converse of C72: a short step from the minimiser towards any competitor keeps the inactive constraints, and the cost is convex (`totalCost_mix`); for `InitialStateLMPC` the handed objective is (`objective_mix`, C45) |
| C96 | Simulation: every such program is matched, call by call, by a program of `Hist` in which the members are the dynamics in force (`FHist.hist`); the functions of the model other than `updateSystem` do not read A, B, d |
| C97 | parametricity: `SpecParam.lean` says when two states, calls, environments correspond up to a relation of the scalars; every function of the model respects it (`Proofs/Param*.lean`, `WorldR.step`). With the trivial relation, every program on any arithmetic has a shadow over ℚ (`hist_R`), and C34, C35, C39, C40, C50, C77 carry over. Example on Lean's `Float`, with NaNs |
| C98 | parametricity (C97) twice: machine numbers enclosed by numbers with error bars (`scalar_encloses`, from the standard model), error bars project to exact numbers (`scalar_exact`); then C71 (residuals), C32 (objective), C40 (trajectory) on the exact program and perturbation of feasibility and objective. `c98_binary64`: rounding error of `fl64`, induction over left-to-right sums |
| C99 | `patch`: the scratch fields of the controller after an aborted `solve` are replaced by those of a state without; every call of the library commutes with it (`PatchFollows.step`), so every history with exceptions is the patch of one without (`auhist_uhist`), and C91 applies |
| C100 | every object of a history is the result of a chain of calls on it (`BuiltPs`, `BuiltC`, `BuiltK`); the chain is replayed on the new object, with the preview systems of the time rebuilt and restored (`replayPs`, `replayConstr`, `replayCost`), after the unused object was replaced by a fresh one (`frameConstr`, `frameCost`); so a history with copies ends in a state of a history without (`chist_hist`) |
| C101 | every program with an `InitialStateLMPC` has a twin with an `LMPC` that agrees on everything but the matrices, results and initial-state data (`plainTwin_exists`: solves are matched by failing solves with the same stored result); `initializeController` makes the matrices equal too (`sliced_plain`), and results and initial-state data do not influence what an `LMPC` does (`graft_step`, `graft_solve`); before it, sizes are tracked (`sliced_sizes`) |
| C102 | histories with assignments to every member but the dimensions (`SHist`, Model/Supplied, SpecSupply); the invariant of C50 without the closed form of the matrices (`GoodRaw`) is preserved, rows and costs are computed from whatever matrices are there (`SolvedRaw`), so every claim holds for `predC` of the matrices after the solve, which is the prediction in force (`SolvedRaw.predNow`); the recursion predicts the time-varying simulation by induction on the step |
| C103 | histories with element assignments (`EHist`, SpecAssign); the invariant of C102 is kept by a world in which the controller's row counters are recomputed (`recount`), since a solve does not read them (`solve_setNr`) and every call but `addConstraint` does the same whatever they are (`step_setNr`); then the lemmas of C102 (Proofs/Now) apply. For objects just constructed the first write of `update` is out of range (`fresh_none`) |
| C104 | two programs related by SpecScale.lean (`InUnits`, `InitInUnits`); constraints and costs scale entry by entry; C30/C32 (C44/C58) turn both problems into their declarations; objective without constant because it vanishes at 0; for `InitialStateLMPC` the blocks of the joint Hessian agree by C58 and the initial-state block by `hxx_init`; uniqueness by positive definiteness |
| C105 | three programs related by SpecPlants.lean (`TwoPlants`, `OnPlant`); a block-diagonal system simulates as its parts; C30/C32 turn the three problems into their declarations; the joint Hessian is positive definite, so the minimiser is unique; for InitialStateLMPC the same per initial state from C44/C58 |
| C106 | `solveThrow` on views of several controllers; an aborted solve is a failed one after the client copied all `shared_ptr`s (`mlater_aborted`), and time measurements do not influence calls (`mclock_out`), so C62/C63 and C57 apply |
| C107 | `Longer` states the relation between the two worlds; trajectories agree on the shorter horizon (`sim_horizon`), per-step constraints are conjunctions over steps, per-step costs are sums of nonnegative terms; C30/C32/C44 |
| C108 | `Mirrored` states the relation by the meaning of the declarations; the simulation commutes with the mirror image (`sim_mirror`, from C93), the regularisation is invariant (`mirror_norm`); C30/C32/C44/C58 and uniqueness of the minimiser (C29) |
| C109 | `Turned` states the relation; the two minimality inequalities are added up (`turned_compare`); C30/C32, C69 for `weight` |
| C110 | `Loosened`, `LimitsBetween` state the relations; `holds_looser` and `holds_between` go through the five kinds; C30/C32/C44 and convexity |
| C111 | `Retargeted`, `outputsMoved`, `refMoved` state the relation; exact curvature of the cost along a segment (`totalCost_mix_eq`), growth at both minimisers added up, `wsq_exchange` |
| C112 | `SpecLimits`: `Touches`, `SameTouched`; one-sided small steps (`Soon`) from each of the two plans towards what is admissible in between (`feasible_soon`), slopes of the quadratic cost are affine in state and control (`Curve` of C94) |
| C113 | `SpecBackTol`: residuals and near-optimality of the back end's own problem (`BackEndResidual`, `BackEndNear`); rows of each wrapper under an arbitrary relation, then C71 |
| C114 | `Model/Calls` writes down each virtual call; erasing the record gives Model/UserDefined and Model/UserAbort (`c114_same`); `SpecCalls`: `PredictsNow`, `Protocol`, histories with a record (`Logged`); induction over histories |
| C115 | `Model/UserThrow`; `SpecUserThrow`: histories `XHist` in which any client code throws inside `solve`; a `solve` aborted by the solver is simulated by one that fails while the client holds references to everything, up to the time measurements, which no other step reads; then C99. Trying again: the objects after the second round of updates are those after the first |
| C116 | `SpecIdle`: `IdleActuator` in terms of the declared data, `IdleEntries` for any set of entries; switching off is compared with the answer through C30/C32 (C44/C58 for the chosen initial state), the regularisation gives the gap |
| C80, C81 | case analysis over wrappers, settings and codes |
| C56 | lockstep invariant of two executions that differ in the contents of uninitialised memory |

## 5. Checking the theorems against wrong programs

`seeded/LOG.jsonl` records the mutations: each edits one definition of the model the way a realistic bug would, the whole
project is rebuilt in a scratch copy, and the theorems (of the manifest) that no longer prove are listed.
