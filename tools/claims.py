claim("C01", "proved", ["Copra.c01_prediction_is_simulation"])
claim("C02", "proved", ["Copra.c02_history_independent"])
claim("C03", "proved", ["Copra.c03_causal"])
claim("C04", "proved", ["Copra.c04_system_accepts_iff"])
claim("C05", "proved", ["Copra.c05_update_in_bounds"])
claim("C06", "proved", ["Copra.c06_xInit_no_update", "Copra.World.c06_next_problem"], "c06_next_problem: same exclusions as C33. For an InitialStateLMPC see C49.")
claim("C07", "proved", ["Copra.c07_spanVector"])
claim("C08", "proved", ["Copra.c08_spanMatrix"])
claim("C09", "proved", ["Copra.Constr.c09_trajectory_autoSpan", "Copra.Constr.c09_trajectory_autoSpan_vector", "Copra.Constr.c09_control_autoSpan", "Copra.Constr.c09_control_autoSpan_vector", "Copra.Constr.rows_exact_data"])
claim("C10", "proved", ["Copra.Constr.c10_mixed_autoSpan", "Copra.Constr.c10_mixed_autoSpan_parts", "Copra.Constr.rows_exact_data"])
claim("C11", "partial", ["Copra.Constr.c11_trajBound_autoSpan_partial", "Copra.Constr.c11_false", "Copra.Constr.c11_lower_as_built", "Copra.Constr.c11_upper_as_built"], "False of the code: autoSpan never recomputes the recorded finite lines (src/constraints.cpp 247-260 compares sizes after the spans). c11_false is a machine-checked counterexample; the partial theorem covers a spanned side without finite entries; c11_lower_as_built and c11_upper_as_built say exactly what the spanned constraint imposes, for all data: the spanned side at step 0 only.")
claim("C14", "proved", ["Copra.Constr.c14_trajectory_rows_exact", "Copra.World.c14_rows_in_problem"])
claim("C15", "proved", ["Copra.Constr.c15_control_rows_exact", "Copra.World.c14_rows_in_problem"])
claim("C16", "proved", ["Copra.Constr.c16_mixed_rows_exact", "Copra.World.c14_rows_in_problem"])
claim("C17", "partial", ["Copra.Constr.c17_trajBound_rows_exact_partial", "Copra.Constr.c17_rows_as_built", "Copra.Constr.c17_false", "Copra.World.c14_rows_in_problem"], "False of the code: finite lower bounds are imposed as upper bounds (src/constraints.cpp 289-296 does not negate). c17_false is a counterexample; c17_rows_as_built characterises the rows for all data; the partial theorem covers bounds without finite lower entries.")
claim("C18", "proved", ["Copra.Constr.c18_control_bounds_exact", "Copra.World.c18_bounds_in_problem"])
claim("C21", "proved", ["Copra.Constr.c21_rows_history_independent"])
claim("C12", "proved", ["Copra.Cost.c12_trajectory_autoSpan", "Copra.Cost.c12_control_autoSpan", "Copra.Cost.c12_mixed_autoSpan", "Copra.Cost.c12_mixed_autoSpan_parts", "Copra.Cost.c12_trajectory_autoSpan_vector", "Copra.Cost.c12_control_autoSpan_vector", "Copra.Cost.c12_spanned_cost_exact"])
claim("C13", "proved", ["Copra.Constr.c13_constraint_autoSpan_noop", "Copra.Constr.c13_constraint_autoSpan_idempotent", "Copra.Cost.c13_cost_autoSpan_noop", "Copra.Cost.c13_cost_autoSpan_idempotent"])
claim("C22", "proved", ["Copra.Cost.c22_trajectory_value_exact", "Copra.Cost.c22_trajectory_full_any_update"])
claim("C23", "proved", ["Copra.Cost.c23_target_value_exact"])
claim("C24", "proved", ["Copra.Cost.c24_control_value_exact"])
claim("C25", "proved", ["Copra.Cost.c25_mixed_value_exact", "Copra.Cost.c25_mixed_full_any_update"])
claim("C26", "proved", ["Copra.Cost.c26_costs_convex"])
claim("C19", "proved", ["Copra.World.c19_addConstraint_accepts_iff"])
claim("C20", "proved", ["Copra.World.c20_single_use"])
claim("C28", "proved", ["Copra.Cost.c28_weights", "Copra.World.c28_weights_count"])
claim("C35", "proved", ["Copra.World.c35_registries_consistent"])
claim("C36", "proved", ["Copra.World.c36_remove_undoes_add_constraint", "Copra.World.c36_remove_undoes_add_cost", "Copra.World.c36_remove_any"])
claim("C39", "partial", ["Copra.World.c39_drops_abandoned_partial", "Copra.World.c39_as_built", "Copra.Ex.c39_false"], "The partial theorem covers registries without duplicates; c39_as_built says exactly what is dropped.")
claim("C29", "proved", ["Copra.World.c29_hessian", "Copra.World.c29_unique_minimiser"])
claim("C30", "proved", ["Copra.World.c30_feasible_set", "Copra.World.c30_feasible_set_as_built"], "c30_feasible_set_as_built drops the restriction on trajectory bounds and says what is imposed instead.")
claim("C32", "proved", ["Copra.World.c32_objective"])
claim("C33", "proved", ["Copra.World.c33_optimum"])
claim("C34", "partial", ["Copra.World.c34_after_solve", "Copra.World.c34_counters_ge", "Copra.World.c34_counters_partial", "Copra.Ex.c34_false"], "False of the code after removeConstraint or an automatic drop: the counters are only recomputed by the next solve. Proved: equal right after each solve's assembly; never smaller; equal in histories without removals.")
claim("C38", "proved", ["Copra.World.c38_clearConstraints", "Copra.World.c38_clearCosts", "Copra.World.c38_clearCosts_init"])
claim("C40", "proved", ["Copra.World.c40_failure_keeps_results", "Copra.World.c40_success", "Copra.World.c40_control_is_answer"])
claim("C50", "proved", ["Copra.World.c50_solve_defined"])
claim("C52", "proved", ["Copra.World.c52_times"])
claim("C27", "partial", ["Copra.World.c27_same_problem_partial", "Copra.Ex.c27_false", "Copra.Ex.c27_answer_false"], "False of the code: per-step trajectory and mixed costs accumulate into Q and c at every update without resetting (src/costFunctions.cpp 72-81, 202-213); c27_false is a reachable counterexample, and c27_answer_false one where the optimal control itself changes (about -2, then -3). The partial theorem covers every other mix of costs, any number of solves; C66 gives the exact law.")
claim("C57", "proved", ["Copra.World.c57_problem_determined", "Copra.World.c57_problem_determined_init"])
claim("C41", "proved", ["Copra.c41_quadProg"])
claim("C42", "proved", ["Copra.c42_lssol", "Copra.c42_osqp"])
claim("C43", "proved", ["Copra.c43_factories", "Copra.c43_flags_exist"])
claim("C53", "partial", ["Copra.Messages.c53_system_partial", "Copra.Messages.c53_second_partial", "Copra.Messages.c53_false_bias", "Copra.Messages.c53_false_autoSpan", "Copra.Messages.systemMessage_iff", "Copra.Messages.constrMessage_iff", "Copra.Messages.costMessage_iff"], "False of the code for the bias (src/PreviewSystem.cpp 29 names the wrong argument) and for every mismatch reported by constraints and costs (src/debugUtils.cpp 21-22 overwrites the message). Counterexamples proved; the partial theorems cover the other mismatches of PreviewSystem::system, and the row count of the right-hand side for constraints and costs.")
claim("C55", "partial", ["Copra.c55_settings_partial", "Copra.c55_false"], "False of the code for the tolerance of QLDSolver and OSQPSolver (setter overridden, getter not). Proved for the other settings. GUROBISolver does not compile and is not modelled.")
claim("C44", "proved", ["Copra.World.c44_joint_feasible", "Copra.World.c44_joint_feasible_as_built"])
claim("C45", "partial", ["Copra.World.c45_hessian_partial", "Copra.World.c45_zero_R_not_pd", "Copra.Ex.c45_false"], "False of the code as stated: with the R = 0 the constructor sets, the Hessian is singular (c45_zero_R_not_pd, c45_false). Proved: symmetric positive semidefinite for PSD R and positive definite for PD R, given a correct Matrix::inverse.")
claim("C46", "proved", ["Copra.World.c46_pinned", "Copra.World.c46_constructed"])
claim("C47", "partial", ["Copra.World.c47_initial_state_partial", "Copra.Ex.c47_false"], "False of the code after a failed solve (initialState() reads the solver's last answer, trajectory() the last successful one) - c47_false. Proved after each successful solve.")
claim("C48", "partial", ["Copra.World.c48_with_resets_partial", "Copra.World.c48_default_constructed_unusable"], "False of the code: default construction followed by initializeController leaves the initial-state data empty, so the first solve is undefined behaviour (c48_default_constructed_unusable). Proved when both resets are called.")
claim("C49", "partial", ["Copra.World.c49_with_reset_partial", "Copra.World.c49_xInit_ignored"], "False of the code: xInit after construction is ignored by an InitialStateLMPC (c49_xInit_ignored). Proved when resetInitialStateBounds is called with the new state.")
claim("C58", "proved", ["Copra.World.c58_objective_per_state"])
claim("C31", "partial", ["Copra.World.c31_single_bound_partial", "Copra.World.c31_two_bounds_undefined", "Copra.Ex.c31_false"], "False of the code: a second control bound is accepted, and every later solve writes past the end of the bound vectors (src/LMPC.cpp, makeQPForm, nrBoundConstr offset) - proved for every controller (c31_two_bounds_undefined) and exhibited (c31_false). The partial theorem covers one control bound.")
claim("C37", "partial", ["Copra.World.c37_still_imposed", "Copra.World.c37_unsolved_partial", "Copra.World.c37_replaced_partial", "Copra.Ex.c37_false"], "False of the code: the controller's bound vectors are only overwritten, never reset, when a control bound goes away - c37_still_imposed proves it for every controller and any number of later calls, c37_false exhibits it. True when no solve happened before the removal, or when another control bound is registered now.")
claim("C51", "proved", ["Copra.World.c51_order_independent", "Copra.World.c51_order_independent_init"], "Same exclusions as C57 (defects C11, C27, C37).")
claim("C54", "partial", ["Copra.World.c54_reuse_partial", "Copra.World.c54_stale_undefined", "Copra.Ex.c54_false"], "False of the code: initializeController only resizes the controller's own matrices; a constraint or cost whose results were sized when it was added keeps the old sizes, and the next solve is undefined behaviour - proved for every controller (c54_stale_undefined), exhibited (c54_false). What holds: if costs and constraints are cleared first, every further history over the new dimensions, re-adding per-step objects or adding new ones, keeps solve defined (c54_reuse_partial).")
claim("C56", "proved", ["Copra.c56_same_outcome", "Copra.c56_same_problem", "Copra.c56_same_results"], "Two executions of the same calls, with different contents of every uninitialised allocation: same outcome of each call, same problem for the solver, same results.")
claim("C59", "proved", ["Copra.World.c59_wrapper_defined", "Copra.World.c59_end_to_end"], "Same exclusions as C33 (defects C11, C17, C27, C31, C37). OSQP: compared with sequences whose inequality rows do not underflow -DBL_MAX. Sizes must fit an int.")
claim("C60", "proved", ["Copra.World.c60_initial_state_end_to_end"], "Same exclusions as C59.")
claim("C61", "partial", ["Copra.World.c61_as_built", "Copra.Ex.c61_false"], "False of the code: the quadratic term of the initial state is R + E Q^-1 E' instead of R plus the costs' own term, so the declared costs count only through the excess over the best controls from that initial state; c61_false exhibits a minimiser that is beaten by a feasible pair, c61_as_built states exactly what is minimised, for every controller.")
claim("C62", "proved", ["Copra.MWorld.c62_solve_defined", "Copra.MWorld.c62_end_to_end", "Copra.MWorld.c62_feasible_set", "Copra.MWorld.c62_hessian", "Copra.MWorld.c62_registries", "Copra.MWorld.c62_drops", "Copra.MWorld.c62_feasible_set_init", "Copra.MWorld.c62_end_to_end_init"], "Same exclusions as C59, now also across controllers: a per-step trajectory or mixed cost must not have been updated by another controller since it was added (defect C27).")
claim("C63", "partial", ["Copra.MWorld.c63_isolated", "Copra.MWorld.c63_isolation_partial", "Copra.Ex.Multi.c63_false"], "False of the code: a solve of one controller accumulates into a shared per-step trajectory or mixed cost and so changes the other's problem (c63_false). Proved: registries, results and declared data are always isolated; so is the problem when no such cost is shared with a controller that solved meanwhile.")
claim("C64", "proved", ["Copra.World.c64_declared", "Copra.World.c64_accepted", "Copra.World.c64_controller"])
claim("C65", "partial", ["Copra.World.c65_rejected_partial", "Copra.World.c65_same_problem", "Copra.Ex.Frame.c65_false"], "False of the code: a rejected autoSpan of a mixed constraint or cost may already have spanned one of the two matrices (c65_false). Proved: everything else is unchanged by any call that throws, and so is the next problem.")
claim("C66", "proved", ["Copra.World.c66_receding_horizon", "Copra.World.c66_no_drift", "Copra.World.drifted_first", "Copra.World.drifted_declared", "Copra.World.drifted_mixed"], "Plain LMPC; the loop starts with costs accepted and not yet updated.")
claim("C67", "proved", ["Copra.World.c67_regularisation", "Copra.World.c67_regularisation_init"], "Exact arithmetic; the back end is assumed optimal for its own problem.")
claim("C68", "proved", ["Copra.World.c68_answer_determined", "Copra.World.c68_answer_determined_init"], "Per-step trajectory/mixed costs not updated since accepted (C27); back ends assumed optimal for their own problem.")
claim("C69", "proved", ["Copra.World.c69_weight", "Copra.World.c69_weights", "Copra.World.c69_zero_weight", "Copra.World.c69_weight_init", "Copra.World.c69_weights_init", "Copra.World.c69_zero_weight_init"], "Costs accepted and not yet updated (C27).")
claim("C70", "proved", ["Copra.World.c70_replanning"], "Plain LMPC; same exclusions as C59 (defects C11, C17, C27, C31, C37); bound constraints registered the same way in both; back ends assumed optimal for their own problem.")
claim("C71", "proved", ["Copra.World.c71_residuals", "Copra.World.c71_tolerance", "Copra.World.c71_distance", "Copra.World.c71_residuals_init", "Copra.World.c71_tolerance_init"], "Distance bound: plain LMPC; tolerance stated for the QP handed to SI_solve; same exclusions as C59 (defects C11, C17, C27, C31, C37).")
claim("C72", "proved", ["Copra.World.c72_more_constraints", "Copra.World.c72_addConstraint", "Copra.World.c72_solve", "Copra.World.c72_same_objective_init", "Copra.World.c72_more_constraints_init"], "Same exclusions as C59/C60; back ends assumed optimal. For an InitialStateLMPC the objective compared is the one handed to the solver (C61 is false of the code); declared costs are compared when both choose the same initial state.")
claim("C73", "proved", ["Copra.World.c73_success_iff", "Copra.World.c73_success_iff_init", "Copra.World.c73_exhibited"], "The back end is assumed complete for its own problem; OSQP additionally excludes points whose inequality rows are below -DBL_MAX (C42); same exclusions as C30/C44 (defects C11, C17, C37).")
claim("C74", "proved", ["Copra.World.c74_same_meaning", "Copra.bound_as_control", "Copra.target_as_trajectory", "Copra.World.c74_same_objective_init", "Copra.World.c74_same_meaning_init"], "Same exclusions as C59 and C60; back ends assumed optimal for their own problem. For InitialStateLMPC the costs may differ by a constant that depends on the initial state.")
claim("C75", "proved", ["Copra.World.c75_after_solve", "Copra.World.c75_between"])
claim("C76", "proved", ["Copra.LWorld.c76_solve_defined", "Copra.LWorld.c76_end_to_end", "Copra.LWorld.c76_end_to_end_init", "Copra.LWorld.c76_feasible_set", "Copra.LWorld.c76_move", "Copra.LWorld.c76_move_solve", "Copra.LWorld.c76_others", "Copra.LWorld.c76_drops"], "Same exclusions as C59/C60. Moving an InitialStateLMPC into an LMPC (slicing) and self-moves are excluded; the source of a vector move assignment is taken to be empty.")
claim("C77", "proved", ["Copra.World.c77_defined", "Copra.World.c77_run", "Copra.MWorld.c77_defined", "Copra.LWorld.c77_defined", "Copra.Ex.c77_no_system_counterexample", "Copra.Ex.c77_empty_weights_counterexample", "Copra.Ex.c77_empty_part_counterexample", "Copra.Ex.c77_overflow_counterexample", "Copra.Ex.c77_dims_counterexample"], "Undefined behaviour as modelled: what Eigen, vectors, shared_ptr and int arithmetic require of the modelled functions; memory exhaustion and the back ends are outside the model. The counterexample theorems show that each condition is needed.")
claim("C78", "proved", ["Copra.World.c78_warnings", "Copra.World.c78_named_once"])
claim("C79", "partial", ["Copra.World.c79_name_stable", "Copra.World.c79_constraint_name_partial", "Copra.World.c79_cost_name", "Copra.World.c79_false_mixed"], "False of the code for MixedConstraint, which passes the qualifier \"Control\" (include/constraints.h 204), so it has the name of a ControlConstraint (c79_false_mixed). Proved for all other constraints and for all costs; names never change.")
claim("C80", "proved", ["Copra.c80_setters", "Copra.c80_getters"], "GUROBISolver does not compile and is excluded. The back ends' accessors are assumed to store and return the value.")
claim("C81", "proved", ["Copra.c81_quadProg", "Copra.c81_qld"], "The LSSOL and OSQP wrappers delegate to the back end and are not modelled.")
claim("C82", "partial", ["Copra.Messages.c82_constraint_partial", "Copra.Messages.c82_cost_partial", "Copra.Messages.c82_square", "Copra.Messages.c82_weights", "Copra.Messages.c82_span", "Copra.Messages.c82_what", "Copra.Messages.weightsMessage_iff", "Copra.Messages.spanMessage_iff", "Copra.Messages.spanMessage_vector_iff", "Copra.Messages.c82_false_target", "Copra.Messages.c82_false_target_concrete", "Copra.Messages.c82_false_bounds"], "False of the code for target costs (src/costFunctions.cpp 96 reports rows for a column mismatch) and for bound constraints (src/constraints.cpp 275, 353 report columns for a row mismatch). Proved for the rest.")
claim("C83", "proved", ["Copra.World.c83_recursive_feasibility", "Copra.World.extendable_of_viable"], "The loop is a client program over the modelled API (closedLoop); induction over its length.")
claim("C84", "proved", ["Copra.World.c84_feasible_between", "Copra.World.c84_cost_between"], "Cost part for fresh costs (C27).")
claim("C85", "proved", ["Copra.MWorld.c85_alone", "Copra.MWorld.c85_defined", "Copra.MWorld.c85_schedules"], "Interleaving at the granularity of API calls; data races inside concurrent calls are outside the model.")
claim("C86", "proved", ["Copra.World.c86_no_new_states", "Copra.World.c86_defined", "Copra.World.c86_abort_keeps", "Copra.World.c86_retry", "Copra.World.c86_end_to_end", "Copra.World.c86_end_to_end_init", "Copra.Ex.c86_retry_false"], "Same exclusions as C59/C60 for the end-to-end part. The exclusion of per-step costs in the retry is necessary (c86_retry_false): the aborted call already accumulated them.")
claim("C87", "proved", ["Copra.World.c87_one_best_plan", "Copra.World.c87_exact_success", "Copra.World.c87_exact_result", "Copra.World.c87_exact_success_init"], "c87_exact_result excludes OSQP (its clamped rows are spelled out in c87_exact_success). Existence is proved over every ordered field, without completeness (Proofs/Existence).")
claim("C88", "proved", ["Copra.World.c88_cost_decreases", "Copra.World.c88_converges"], "Per-step state costs are excluded because they drift (C66); costs spanned over the whole trajectory are covered.")
claim("C89", "proved", ["Copra.World.c89_lipschitz"], "Constraints on the controls only: with state constraints the admissible set itself moves with the initial state. Exact solvers (minimisers), fresh costs (C32).")
claim("C90", "proved", ["Copra.World.c90_step", "Copra.World.c90_refines", "Copra.World.c90_answer"], "The machine is SpecDecl.lean (Declared, Rejects, Effect, FailedEffect), written without any helper of the model but the API call type and the data views. autoSpan is specified entry by entry inside the new sizes. c90_answer has the exclusions of C59.")
claim("C91", "proved", ["Copra.UWorld.c91_undisturbed", "Copra.UWorld.c91_updated", "Copra.UWorld.c91_solve_defined", "Copra.UWorld.c91_feasible", "Copra.UWorld.c91_feasible_from", "Copra.UWorld.c91_objective", "Copra.UWorld.c91_objective_from", "Copra.UWorld.c91_end_to_end", "Copra.UWorld.c91_end_to_end_from"], "Overriding functions change their own object only and an overriding update does not throw. Same exclusions as C30/C32/C59/C60 for the library's objects.")
claim("C92", "partial", ["Copra.UWorld.c92_registered_partial", "Copra.UWorld.c92_ignored", "Copra.Ex.User.c92_false"], "False of the code: addConstraintByType drops a constraint whose type is ConstraintFlag::Constraint (src/LMPC.cpp 193-194, default: return) without an error (c92_ignored, c92_false). Proved for equality and inequality classes. A user-defined class of type BoundConstraint is cast to a class it is not (src/LMPC.cpp 190): undefined.")
claim("C93", "proved", ["Copra.World.c93_same_problem", "Copra.World.c93_same_answer"], "Plain LMPC, fresh costs (C32), same exclusions as C30. Trajectory bounds are excluded because a bound on a state is not a bound on one state of another representation; the same limits stated as trajectory constraints are covered.")
claim("C94", "proved", ["Copra.World.c94_affine", "Copra.World.c94_affine_results"], "Plain LMPC, nonnegative weights, fresh costs (C32), exclusions of C30. 'Not active' means: holds with a positive margin in the trajectory and the controls (HoldsWithMargin), so it is not tied to how the rows are built.")
claim("C95", "proved", ["Copra.World.c95_inactive", "Copra.World.c95_same_results", "Copra.World.c95_removeConstraint", "Copra.World.c95_inactive_init", "Copra.World.c95_same_results_init"], "Nonnegative weights, fresh costs (C32), exclusions of C30 and C37 (a removed control bound leaves stale bounds).")
claim("C96", "proved", ["Copra.World.c96_history", "Copra.World.c96_defined", "Copra.World.c96_feasible", "Copra.World.c96_objective", "Copra.World.c96_optimum", "Copra.World.c96_trajectory", "Copra.World.c96_rule_A", "Copra.World.c96_rule_B", "Copra.World.c96_rule_d", "Copra.World.c96_rule_stale", "Copra.World.c96_rule_updateSystem", "Copra.World.c96_rule_solve", "Copra.World.c96_rule_system"], "Histories with single-member assignments; the dynamics in force are specified in SpecFields.lean. Assignments to the dimensions, Phi, Psi, xi and isUpdated = true are outside.")
claim("C97", "proved", ["Copra.World.c97_outcome", "Copra.World.c97_defined", "Copra.World.c97_run", "Copra.World.c97_solve", "Copra.World.c97_rows", "Copra.World.c97_registries", "Copra.World.c97_dropped", "Copra.World.c97_results", "Copra.World.c97_failure_keeps_results", "Copra.World.c97_control_is_answer"], "The model runs on any scalar type with the operations of double (class Arith in Eigen.lean). Examples on Lean's Float with NaN data.")
claim("C98", "proved", ["Copra.World.c98_state", "Copra.World.c98_step", "Copra.World.c98_problem", "Copra.World.c98_after", "Copra.World.c98_exists", "Copra.World.c98_same_answer", "Copra.World.c98_feasible", "Copra.World.c98_cost", "Copra.World.c98_trajectory", "Copra.Spec.c98_binary64"], "SpecRound.lean: error bars and programs side by side; SpecIeee.lean: rounding to binary64. Example: a double integrator with sampling time 0.1 in double precision, bars below 1e-14, computed in the kernel.")
claim("C99", "proved", ["Copra.UWorld.c99_no_new_states", "Copra.UWorld.c99_keeps", "Copra.UWorld.c99_updates", "Copra.UWorld.c99_defined", "Copra.UWorld.c99_feasible", "Copra.UWorld.c99_objective", "Copra.UWorld.c99_end_to_end", "Copra.UWorld.c99_end_to_end_from", "Copra.UWorld.c99_prefix"], "Model/UserAbort.lean: the state in which such an exception leaves solve(); SpecUserAbort.lean: histories with such exceptions.")
claim("C100", "proved", ["Copra.World.c100_no_new_states", "Copra.World.c100_constr_alike", "Copra.World.c100_cost_alike", "Copra.World.c100_independent", "Copra.World.c100_system_alike", "Copra.World.c100_single_use", "Copra.World.c100_end_to_end", "Copra.World.c100_end_to_end_init", "Copra.World.c100_same_problem"], "Model/Copies.lean: memberwise copies; SpecCopies.lean: histories with copies (constraints and costs are copied to new objects; preview systems may also be assigned).")
claim("C101", "proved", ["Copra.World.c101_move_keeps", "Copra.World.c101_not_ready", "Copra.World.c101_like_plain", "Copra.World.c101_solve_defined", "Copra.World.c101_end_to_end"], "Model/Slice.lean: the members of LMPC are kept, those of InitialStateLMPC dropped; SpecSlice.lean: histories with one such move.")
claim("C102", "proved", ["Copra.World.c102_defined", "Copra.World.c102_matrices", "Copra.World.c102_feasible", "Copra.World.c102_objective", "Copra.World.c102_trajectory", "Copra.World.c102_optimum", "Copra.World.c102_varying", "Copra.World.c102_varying_fits", "Copra.World.c102_varying_trajectory", "Copra.World.c102_varying_optimum", "Copra.World.c102_supply_then_solve", "Copra.World.c102_replace_one", "Copra.World.c102_replace_stale", "Copra.World.c102_unique_minimiser", "Copra.World.c102_end_to_end", "Copra.World.c102_init_end_to_end", "Copra.World.c102_init_feasible", "Copra.World.c102_init_objective", "Copra.World.c102_init_trajectory", "Copra.World.c102_init_optimum", "Copra.Ex.c102_per_step_mixed_wrong"], "For an LMPC; c102_init_* for an InitialStateLMPC. The exception for per-step mixed constraints is the hypothesis MixedSuits; c102_per_step_mixed_wrong shows it is needed.")
claim("C103", "proved", ["Copra.World.c103_defined", "Copra.World.c103_feasible", "Copra.World.c103_objective", "Copra.World.c103_trajectory", "Copra.World.c103_optimum", "Copra.World.c103_init_feasible", "Copra.World.c103_init_objective", "Copra.World.c103_init_trajectory", "Copra.World.c103_init_optimum", "Copra.World.c103_unique_minimiser", "Copra.World.c103_end_to_end", "Copra.World.c103_init_end_to_end", "Copra.World.c103_assign_constraint_then_solve", "Copra.World.c103_assign_cost_then_solve", "Copra.World.c103_assign_system_then_solve", "Copra.World.c103_assign_system_feasible", "Copra.World.c103_uninitialised_constraint", "Copra.World.c103_uninitialised_cost"], "The rows of the registered constraints must remain countable by an int after each assignment and addConstraint (RowCountsFit). Hypotheses CostsFresh, Honest, MixedSuits and NoBoundSpan as in C102.")
claim("C104", "proved", ["Copra.World.c104_same_problem", "Copra.World.c104_same_results", "Copra.World.c104_same_objective_init", "Copra.World.c104_same_results_init"], "Exact arithmetic; back ends assumed to return minimisers; exclusions of C30/C32/C44 (defects C11, C17, C27, C31, C37). Controllers without any bound constraint: the answers must lie within +-DBL_MAX in both units.")
claim("C105", "proved", ["Copra.World.c105_same_problem", "Copra.World.c105_same_results", "Copra.c105_constraint_on_plant", "Copra.c105_cost_on_plant", "Copra.c105_bounds_of_both", "Copra.World.c105_feasible_init", "Copra.World.c105_objective_init"], "Exact arithmetic; back ends assumed to return minimisers; the results for LMPC, feasibility and the ranking of controls per initial state also for InitialStateLMPC (which initial state it picks is code defect C61); exclusions of C30/C32 (defects C11, C17, C27, C31, C37). The first two theorems are stated for any joint declarations with the meaning of both plants' declarations (`TwoPlants`); the last three show that zero columns and a merged control bound have that meaning. Controllers without bounds: within +-DBL_MAX.")
claim("C106", "proved", ["Copra.MWorld.c106_no_new_states", "Copra.MWorld.c106_defined", "Copra.MWorld.c106_abort_keeps", "Copra.MWorld.c106_isolated", "Copra.MWorld.c106_isolation", "Copra.MWorld.c106_retry", "Copra.MWorld.c106_feasible_set", "Copra.MWorld.c106_end_to_end", "Copra.MWorld.c106_end_to_end_init"], "An aborted solve() stops at src/LMPC.cpp 88 or 91. End to end: exact arithmetic, an honest back end, exclusions of C30/C32 (defects C11, C17, C27, C31, C37). The problem-level theorems except the costs given per step on the trajectory that were solved meanwhile (code defects C27, C63).")
claim("C107", "proved", ["Copra.World.c107_cost", "Copra.World.c107_feasible", "Copra.World.c107_success", "Copra.World.c107_optimum", "Copra.World.c107_feasible_init"], "Exact arithmetic; constraints given per step and costs given per step (no target cost, whose last step differs); exclusions of C30/C32. The optimum needs a solver returning a minimiser for the shorter problem.")
claim("C108", "proved", ["Copra.World.c108_same_problem", "Copra.World.c108_same_results", "Copra.World.c108_symmetric", "Copra.World.c108_feasible_init", "Copra.World.c108_objective_init"], "Exact arithmetic; exclusions of C30/C32/C44/C58. Which initial state an InitialStateLMPC chooses is not covered (defect C61).")
claim("C109", "proved", ["Copra.World.c109_feasible", "Copra.World.c109_turned_up", "Copra.World.c109_penalty", "Copra.World.c109_weight"], "Exact arithmetic, LMPC; exclusions of C30/C32.")
claim("C110", "proved", ["Copra.World.c110_feasible", "Copra.World.c110_success", "Copra.World.c110_optimum", "Copra.World.c110_same", "Copra.World.c110_feasible_between", "Copra.World.c110_success_between", "Copra.World.c110_between", "Copra.World.c110_feasible_init", "Copra.World.c110_optimum_init"], "Exact arithmetic; exclusions of C30/C32. If a control bound is dropped altogether, the plan must lie in the range [-dmax, dmax] that the controller then uses (InRange).")
claim("C111", "proved", ["Copra.World.c111_feasible", "Copra.World.c111_growth", "Copra.World.c111_retargeted"], "Exact arithmetic, LMPC; exclusions of C30/C32.")
claim("C112", "proved", ["Copra.World.c112_affine", "Copra.World.c112_limits", "Copra.World.c112_results"], "Exact arithmetic, LMPC; exclusions of C30/C32. Without registered control bounds the two plans must stay strictly inside the largest representable number.")
claim("C113", "proved", ["Copra.c113_residuals", "Copra.World.c113_end_to_end", "Copra.World.c113_end_to_end_init"], "Same exclusions as C59. OSQP: compared with sequences whose inequality rows do not underflow -DBL_MAX. Sizes must fit an int.")
claim("C114", "proved", ["Copra.UWorld.c114_pattern", "Copra.UWorld.c114_aborted", "Copra.UWorld.c114_thrown", "Copra.UWorld.c114_protocol", "Copra.UWorld.c114_same", "Copra.UWorld.c114_histories"], "The registered user-defined classes keep to their obligations on sizes (as in C91). After a solve aborted by the solver the program is not continued in the recorded histories (C86, C106 and C115 treat these exceptions).")
claim("C115", "proved", ["Copra.UWorld.c115_no_new_states", "Copra.UWorld.c115_keeps", "Copra.UWorld.c115_defined", "Copra.UWorld.c115_same_problem", "Copra.UWorld.c115_feasible", "Copra.UWorld.c115_objective", "Copra.UWorld.c115_end_to_end", "Copra.UWorld.c115_end_to_end_from", "Copra.UWorld.c115_calls", "Copra.UWorld.c115_library", "Copra.UWorld.c115_retry", "Copra.UWorld.c115_retry_from"], "The retry theorems: costs of the library given per step on the trajectory excluded (C27), user-defined objects whose update settles. Unites C86 (a solver that throws, no user-defined objects) and C99 (user-defined objects that throw, a solver that does not).")
claim("C116", "proved", ["Copra.World.c116_actuator", "Copra.World.c116_idle", "Copra.World.c116_exactly_idle", "Copra.World.c116_rests", "Copra.World.c116_idle_init", "Copra.World.c116_rests_init"], "In exact arithmetic, for back ends that are feasible and (nearly) optimal; the exclusions of C30, C32, C44 and C58 apply.")
