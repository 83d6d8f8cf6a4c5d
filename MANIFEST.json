{
 "claims": [
  {
   "property": "C01",
   "status": "proved",
   "theorems": [
    "Copra.c01_prediction_is_simulation"
   ],
   "note": ""
  },
  {
   "property": "C02",
   "status": "proved",
   "theorems": [
    "Copra.c02_history_independent"
   ],
   "note": ""
  },
  {
   "property": "C03",
   "status": "proved",
   "theorems": [
    "Copra.c03_causal"
   ],
   "note": ""
  },
  {
   "property": "C04",
   "status": "proved",
   "theorems": [
    "Copra.c04_system_accepts_iff"
   ],
   "note": ""
  },
  {
   "property": "C05",
   "status": "proved",
   "theorems": [
    "Copra.c05_update_in_bounds"
   ],
   "note": ""
  },
  {
   "property": "C06",
   "status": "proved",
   "theorems": [
    "Copra.c06_xInit_no_update",
    "Copra.World.c06_next_problem"
   ],
   "note": "c06_next_problem: same exclusions as C33. For an InitialStateLMPC see C49."
  },
  {
   "property": "C07",
   "status": "proved",
   "theorems": [
    "Copra.c07_spanVector"
   ],
   "note": ""
  },
  {
   "property": "C08",
   "status": "proved",
   "theorems": [
    "Copra.c08_spanMatrix"
   ],
   "note": ""
  },
  {
   "property": "C09",
   "status": "proved",
   "theorems": [
    "Copra.Constr.c09_trajectory_autoSpan",
    "Copra.Constr.c09_trajectory_autoSpan_vector",
    "Copra.Constr.c09_control_autoSpan",
    "Copra.Constr.c09_control_autoSpan_vector",
    "Copra.Constr.rows_exact_data"
   ],
   "note": ""
  },
  {
   "property": "C10",
   "status": "proved",
   "theorems": [
    "Copra.Constr.c10_mixed_autoSpan",
    "Copra.Constr.c10_mixed_autoSpan_parts",
    "Copra.Constr.rows_exact_data"
   ],
   "note": ""
  },
  {
   "property": "C11",
   "status": "partial",
   "theorems": [
    "Copra.Constr.c11_trajBound_autoSpan_partial",
    "Copra.Constr.c11_false",
    "Copra.Constr.c11_lower_as_built",
    "Copra.Constr.c11_upper_as_built"
   ],
   "note": "False of the code: autoSpan never recomputes the recorded finite lines (src/constraints.cpp 247-260 compares sizes after the spans). c11_false is a machine-checked counterexample; the partial theorem covers a spanned side without finite entries; c11_lower_as_built and c11_upper_as_built say exactly what the spanned constraint imposes, for all data: the spanned side at step 0 only."
  },
  {
   "property": "C12",
   "status": "proved",
   "theorems": [
    "Copra.Cost.c12_trajectory_autoSpan",
    "Copra.Cost.c12_control_autoSpan",
    "Copra.Cost.c12_mixed_autoSpan",
    "Copra.Cost.c12_mixed_autoSpan_parts",
    "Copra.Cost.c12_trajectory_autoSpan_vector",
    "Copra.Cost.c12_control_autoSpan_vector",
    "Copra.Cost.c12_spanned_cost_exact"
   ],
   "note": ""
  },
  {
   "property": "C13",
   "status": "proved",
   "theorems": [
    "Copra.Constr.c13_constraint_autoSpan_noop",
    "Copra.Constr.c13_constraint_autoSpan_idempotent",
    "Copra.Cost.c13_cost_autoSpan_noop",
    "Copra.Cost.c13_cost_autoSpan_idempotent"
   ],
   "note": ""
  },
  {
   "property": "C14",
   "status": "proved",
   "theorems": [
    "Copra.Constr.c14_trajectory_rows_exact",
    "Copra.World.c14_rows_in_problem"
   ],
   "note": ""
  },
  {
   "property": "C15",
   "status": "proved",
   "theorems": [
    "Copra.Constr.c15_control_rows_exact",
    "Copra.World.c14_rows_in_problem"
   ],
   "note": ""
  },
  {
   "property": "C16",
   "status": "proved",
   "theorems": [
    "Copra.Constr.c16_mixed_rows_exact",
    "Copra.World.c14_rows_in_problem"
   ],
   "note": ""
  },
  {
   "property": "C17",
   "status": "partial",
   "theorems": [
    "Copra.Constr.c17_trajBound_rows_exact_partial",
    "Copra.Constr.c17_rows_as_built",
    "Copra.Constr.c17_false",
    "Copra.World.c14_rows_in_problem"
   ],
   "note": "False of the code: finite lower bounds are imposed as upper bounds (src/constraints.cpp 289-296 does not negate). c17_false is a counterexample; c17_rows_as_built characterises the rows for all data; the partial theorem covers bounds without finite lower entries."
  },
  {
   "property": "C18",
   "status": "proved",
   "theorems": [
    "Copra.Constr.c18_control_bounds_exact",
    "Copra.World.c18_bounds_in_problem"
   ],
   "note": ""
  },
  {
   "property": "C19",
   "status": "proved",
   "theorems": [
    "Copra.World.c19_addConstraint_accepts_iff"
   ],
   "note": ""
  },
  {
   "property": "C20",
   "status": "proved",
   "theorems": [
    "Copra.World.c20_single_use"
   ],
   "note": ""
  },
  {
   "property": "C21",
   "status": "proved",
   "theorems": [
    "Copra.Constr.c21_rows_history_independent"
   ],
   "note": ""
  },
  {
   "property": "C22",
   "status": "proved",
   "theorems": [
    "Copra.Cost.c22_trajectory_value_exact",
    "Copra.Cost.c22_trajectory_full_any_update"
   ],
   "note": ""
  },
  {
   "property": "C23",
   "status": "proved",
   "theorems": [
    "Copra.Cost.c23_target_value_exact"
   ],
   "note": ""
  },
  {
   "property": "C24",
   "status": "proved",
   "theorems": [
    "Copra.Cost.c24_control_value_exact"
   ],
   "note": ""
  },
  {
   "property": "C25",
   "status": "proved",
   "theorems": [
    "Copra.Cost.c25_mixed_value_exact",
    "Copra.Cost.c25_mixed_full_any_update"
   ],
   "note": ""
  },
  {
   "property": "C26",
   "status": "proved",
   "theorems": [
    "Copra.Cost.c26_costs_convex"
   ],
   "note": ""
  },
  {
   "property": "C27",
   "status": "partial",
   "theorems": [
    "Copra.World.c27_same_problem_partial",
    "Copra.Ex.c27_false",
    "Copra.Ex.c27_answer_false"
   ],
   "note": "False of the code: per-step trajectory and mixed costs accumulate into Q and c at every update without resetting (src/costFunctions.cpp 72-81, 202-213); c27_false is a reachable counterexample, and c27_answer_false one where the optimal control itself changes (about -2, then -3). The partial theorem covers every other mix of costs, any number of solves; C66 gives the exact law."
  },
  {
   "property": "C28",
   "status": "proved",
   "theorems": [
    "Copra.Cost.c28_weights",
    "Copra.World.c28_weights_count"
   ],
   "note": ""
  },
  {
   "property": "C29",
   "status": "proved",
   "theorems": [
    "Copra.World.c29_hessian",
    "Copra.World.c29_unique_minimiser"
   ],
   "note": ""
  },
  {
   "property": "C30",
   "status": "proved",
   "theorems": [
    "Copra.World.c30_feasible_set",
    "Copra.World.c30_feasible_set_as_built"
   ],
   "note": "c30_feasible_set_as_built drops the restriction on trajectory bounds and says what is imposed instead."
  },
  {
   "property": "C31",
   "status": "partial",
   "theorems": [
    "Copra.World.c31_single_bound_partial",
    "Copra.World.c31_two_bounds_undefined",
    "Copra.Ex.c31_false"
   ],
   "note": "False of the code: a second control bound is accepted, and every later solve writes past the end of the bound vectors (src/LMPC.cpp, makeQPForm, nrBoundConstr offset) - proved for every controller (c31_two_bounds_undefined) and exhibited (c31_false). The partial theorem covers one control bound."
  },
  {
   "property": "C32",
   "status": "proved",
   "theorems": [
    "Copra.World.c32_objective"
   ],
   "note": ""
  },
  {
   "property": "C33",
   "status": "proved",
   "theorems": [
    "Copra.World.c33_optimum"
   ],
   "note": ""
  },
  {
   "property": "C34",
   "status": "partial",
   "theorems": [
    "Copra.World.c34_after_solve",
    "Copra.World.c34_counters_ge",
    "Copra.World.c34_counters_partial",
    "Copra.Ex.c34_false"
   ],
   "note": "False of the code after removeConstraint or an automatic drop: the counters are only recomputed by the next solve. Proved: equal right after each solve's assembly; never smaller; equal in histories without removals."
  },
  {
   "property": "C35",
   "status": "proved",
   "theorems": [
    "Copra.World.c35_registries_consistent"
   ],
   "note": ""
  },
  {
   "property": "C36",
   "status": "proved",
   "theorems": [
    "Copra.World.c36_remove_undoes_add_constraint",
    "Copra.World.c36_remove_undoes_add_cost",
    "Copra.World.c36_remove_any"
   ],
   "note": ""
  },
  {
   "property": "C37",
   "status": "partial",
   "theorems": [
    "Copra.World.c37_still_imposed",
    "Copra.World.c37_unsolved_partial",
    "Copra.World.c37_replaced_partial",
    "Copra.Ex.c37_false"
   ],
   "note": "False of the code: the controller's bound vectors are only overwritten, never reset, when a control bound goes away - c37_still_imposed proves it for every controller and any number of later calls, c37_false exhibits it. True when no solve happened before the removal, or when another control bound is registered now."
  },
  {
   "property": "C38",
   "status": "proved",
   "theorems": [
    "Copra.World.c38_clearConstraints",
    "Copra.World.c38_clearCosts",
    "Copra.World.c38_clearCosts_init"
   ],
   "note": ""
  },
  {
   "property": "C39",
   "status": "partial",
   "theorems": [
    "Copra.World.c39_drops_abandoned_partial",
    "Copra.World.c39_as_built",
    "Copra.Ex.c39_false"
   ],
   "note": "The partial theorem covers registries without duplicates; c39_as_built says exactly what is dropped."
  },
  {
   "property": "C40",
   "status": "proved",
   "theorems": [
    "Copra.World.c40_failure_keeps_results",
    "Copra.World.c40_success",
    "Copra.World.c40_control_is_answer"
   ],
   "note": ""
  },
  {
   "property": "C41",
   "status": "proved",
   "theorems": [
    "Copra.c41_quadProg"
   ],
   "note": ""
  },
  {
   "property": "C42",
   "status": "proved",
   "theorems": [
    "Copra.c42_lssol",
    "Copra.c42_osqp"
   ],
   "note": ""
  },
  {
   "property": "C43",
   "status": "proved",
   "theorems": [
    "Copra.c43_factories",
    "Copra.c43_flags_exist"
   ],
   "note": ""
  },
  {
   "property": "C44",
   "status": "proved",
   "theorems": [
    "Copra.World.c44_joint_feasible",
    "Copra.World.c44_joint_feasible_as_built"
   ],
   "note": ""
  },
  {
   "property": "C45",
   "status": "partial",
   "theorems": [
    "Copra.World.c45_hessian_partial",
    "Copra.World.c45_zero_R_not_pd",
    "Copra.Ex.c45_false"
   ],
   "note": "False of the code as stated: with the R = 0 the constructor sets, the Hessian is singular (c45_zero_R_not_pd, c45_false). Proved: symmetric positive semidefinite for PSD R and positive definite for PD R, given a correct Matrix::inverse."
  },
  {
   "property": "C46",
   "status": "proved",
   "theorems": [
    "Copra.World.c46_pinned",
    "Copra.World.c46_constructed"
   ],
   "note": ""
  },
  {
   "property": "C47",
   "status": "partial",
   "theorems": [
    "Copra.World.c47_initial_state_partial",
    "Copra.Ex.c47_false"
   ],
   "note": "False of the code after a failed solve (initialState() reads the solver's last answer, trajectory() the last successful one) - c47_false. Proved after each successful solve."
  },
  {
   "property": "C48",
   "status": "partial",
   "theorems": [
    "Copra.World.c48_with_resets_partial",
    "Copra.World.c48_default_constructed_unusable"
   ],
   "note": "False of the code: default construction followed by initializeController leaves the initial-state data empty, so the first solve is undefined behaviour (c48_default_constructed_unusable). Proved when both resets are called."
  },
  {
   "property": "C49",
   "status": "partial",
   "theorems": [
    "Copra.World.c49_with_reset_partial",
    "Copra.World.c49_xInit_ignored"
   ],
   "note": "False of the code: xInit after construction is ignored by an InitialStateLMPC (c49_xInit_ignored). Proved when resetInitialStateBounds is called with the new state."
  },
  {
   "property": "C50",
   "status": "proved",
   "theorems": [
    "Copra.World.c50_solve_defined"
   ],
   "note": ""
  },
  {
   "property": "C51",
   "status": "proved",
   "theorems": [
    "Copra.World.c51_order_independent",
    "Copra.World.c51_order_independent_init"
   ],
   "note": "Same exclusions as C57 (defects C11, C27, C37)."
  },
  {
   "property": "C52",
   "status": "proved",
   "theorems": [
    "Copra.World.c52_times"
   ],
   "note": ""
  },
  {
   "property": "C53",
   "status": "partial",
   "theorems": [
    "Copra.Messages.c53_system_partial",
    "Copra.Messages.c53_second_partial",
    "Copra.Messages.c53_false_bias",
    "Copra.Messages.c53_false_autoSpan",
    "Copra.Messages.systemMessage_iff",
    "Copra.Messages.constrMessage_iff",
    "Copra.Messages.costMessage_iff"
   ],
   "note": "False of the code for the bias (src/PreviewSystem.cpp 29 names the wrong argument) and for every mismatch reported by constraints and costs (src/debugUtils.cpp 21-22 overwrites the message). Counterexamples proved; the partial theorems cover the other mismatches of PreviewSystem::system, and the row count of the right-hand side for constraints and costs."
  },
  {
   "property": "C54",
   "status": "partial",
   "theorems": [
    "Copra.World.c54_reuse_partial",
    "Copra.World.c54_stale_undefined",
    "Copra.Ex.c54_false"
   ],
   "note": "False of the code: initializeController only resizes the controller's own matrices; a constraint or cost whose results were sized when it was added keeps the old sizes, and the next solve is undefined behaviour - proved for every controller (c54_stale_undefined), exhibited (c54_false). What holds: if costs and constraints are cleared first, every further history over the new dimensions, re-adding per-step objects or adding new ones, keeps solve defined (c54_reuse_partial)."
  },
  {
   "property": "C55",
   "status": "partial",
   "theorems": [
    "Copra.c55_settings_partial",
    "Copra.c55_false"
   ],
   "note": "False of the code for the tolerance of QLDSolver and OSQPSolver (setter overridden, getter not). Proved for the other settings. GUROBISolver does not compile and is not modelled."
  },
  {
   "property": "C56",
   "status": "proved",
   "theorems": [
    "Copra.c56_same_outcome",
    "Copra.c56_same_problem",
    "Copra.c56_same_results"
   ],
   "note": "Two executions of the same calls, with different contents of every uninitialised allocation: same outcome of each call, same problem for the solver, same results."
  },
  {
   "property": "C57",
   "status": "proved",
   "theorems": [
    "Copra.World.c57_problem_determined",
    "Copra.World.c57_problem_determined_init"
   ],
   "note": ""
  },
  {
   "property": "C58",
   "status": "proved",
   "theorems": [
    "Copra.World.c58_objective_per_state"
   ],
   "note": ""
  },
  {
   "property": "C59",
   "status": "proved",
   "theorems": [
    "Copra.World.c59_wrapper_defined",
    "Copra.World.c59_end_to_end"
   ],
   "note": "Same exclusions as C33 (defects C11, C17, C27, C31, C37). OSQP: compared with sequences whose inequality rows do not underflow -DBL_MAX. Sizes must fit an int."
  },
  {
   "property": "C60",
   "status": "proved",
   "theorems": [
    "Copra.World.c60_initial_state_end_to_end"
   ],
   "note": "Same exclusions as C59."
  },
  {
   "property": "C61",
   "status": "partial",
   "theorems": [
    "Copra.World.c61_as_built",
    "Copra.Ex.c61_false"
   ],
   "note": "False of the code: the quadratic term of the initial state is R + E Q^-1 E' instead of R plus the costs' own term, so the declared costs count only through the excess over the best controls from that initial state; c61_false exhibits a minimiser that is beaten by a feasible pair, c61_as_built states exactly what is minimised, for every controller."
  },
  {
   "property": "C62",
   "status": "proved",
   "theorems": [
    "Copra.MWorld.c62_solve_defined",
    "Copra.MWorld.c62_end_to_end",
    "Copra.MWorld.c62_feasible_set",
    "Copra.MWorld.c62_hessian",
    "Copra.MWorld.c62_registries",
    "Copra.MWorld.c62_drops",
    "Copra.MWorld.c62_feasible_set_init",
    "Copra.MWorld.c62_end_to_end_init"
   ],
   "note": "Same exclusions as C59, now also across controllers: a per-step trajectory or mixed cost must not have been updated by another controller since it was added (defect C27)."
  },
  {
   "property": "C63",
   "status": "partial",
   "theorems": [
    "Copra.MWorld.c63_isolated",
    "Copra.MWorld.c63_isolation_partial",
    "Copra.Ex.Multi.c63_false"
   ],
   "note": "False of the code: a solve of one controller accumulates into a shared per-step trajectory or mixed cost and so changes the other's problem (c63_false). Proved: registries, results and declared data are always isolated; so is the problem when no such cost is shared with a controller that solved meanwhile."
  },
  {
   "property": "C64",
   "status": "proved",
   "theorems": [
    "Copra.World.c64_declared",
    "Copra.World.c64_accepted",
    "Copra.World.c64_controller"
   ],
   "note": ""
  },
  {
   "property": "C65",
   "status": "partial",
   "theorems": [
    "Copra.World.c65_rejected_partial",
    "Copra.World.c65_same_problem",
    "Copra.Ex.Frame.c65_false"
   ],
   "note": "False of the code: a rejected autoSpan of a mixed constraint or cost may already have spanned one of the two matrices (c65_false). Proved: everything else is unchanged by any call that throws, and so is the next problem."
  },
  {
   "property": "C66",
   "status": "proved",
   "theorems": [
    "Copra.World.c66_receding_horizon",
    "Copra.World.c66_no_drift",
    "Copra.World.drifted_first",
    "Copra.World.drifted_declared",
    "Copra.World.drifted_mixed"
   ],
   "note": "Plain LMPC; the loop starts with costs accepted and not yet updated."
  },
  {
   "property": "C67",
   "status": "proved",
   "theorems": [
    "Copra.World.c67_regularisation",
    "Copra.World.c67_regularisation_init"
   ],
   "note": "Exact arithmetic; the back end is assumed optimal for its own problem."
  },
  {
   "property": "C68",
   "status": "proved",
   "theorems": [
    "Copra.World.c68_answer_determined",
    "Copra.World.c68_answer_determined_init"
   ],
   "note": "Per-step trajectory/mixed costs not updated since accepted (C27); back ends assumed optimal for their own problem."
  },
  {
   "property": "C69",
   "status": "proved",
   "theorems": [
    "Copra.World.c69_weight",
    "Copra.World.c69_weights",
    "Copra.World.c69_zero_weight",
    "Copra.World.c69_weight_init",
    "Copra.World.c69_weights_init",
    "Copra.World.c69_zero_weight_init"
   ],
   "note": "Costs accepted and not yet updated (C27)."
  },
  {
   "property": "C70",
   "status": "proved",
   "theorems": [
    "Copra.World.c70_replanning"
   ],
   "note": "Plain LMPC; same exclusions as C59 (defects C11, C17, C27, C31, C37); bound constraints registered the same way in both; back ends assumed optimal for their own problem."
  },
  {
   "property": "C71",
   "status": "proved",
   "theorems": [
    "Copra.World.c71_residuals",
    "Copra.World.c71_tolerance",
    "Copra.World.c71_distance",
    "Copra.World.c71_residuals_init",
    "Copra.World.c71_tolerance_init"
   ],
   "note": "Distance bound: plain LMPC; tolerance stated for the QP handed to SI_solve; same exclusions as C59 (defects C11, C17, C27, C31, C37)."
  },
  {
   "property": "C72",
   "status": "proved",
   "theorems": [
    "Copra.World.c72_more_constraints",
    "Copra.World.c72_addConstraint",
    "Copra.World.c72_solve",
    "Copra.World.c72_same_objective_init",
    "Copra.World.c72_more_constraints_init"
   ],
   "note": "Same exclusions as C59/C60; back ends assumed optimal. For an InitialStateLMPC the objective compared is the one handed to the solver (C61 is false of the code); declared costs are compared when both choose the same initial state."
  },
  {
   "property": "C73",
   "status": "proved",
   "theorems": [
    "Copra.World.c73_success_iff",
    "Copra.World.c73_success_iff_init",
    "Copra.World.c73_exhibited"
   ],
   "note": "The back end is assumed complete for its own problem; OSQP additionally excludes points whose inequality rows are below -DBL_MAX (C42); same exclusions as C30/C44 (defects C11, C17, C37)."
  },
  {
   "property": "C74",
   "status": "proved",
   "theorems": [
    "Copra.World.c74_same_meaning",
    "Copra.bound_as_control",
    "Copra.target_as_trajectory",
    "Copra.World.c74_same_objective_init",
    "Copra.World.c74_same_meaning_init"
   ],
   "note": "Same exclusions as C59 and C60; back ends assumed optimal for their own problem. For InitialStateLMPC the costs may differ by a constant that depends on the initial state."
  },
  {
   "property": "C75",
   "status": "proved",
   "theorems": [
    "Copra.World.c75_after_solve",
    "Copra.World.c75_between"
   ],
   "note": ""
  },
  {
   "property": "C76",
   "status": "proved",
   "theorems": [
    "Copra.LWorld.c76_solve_defined",
    "Copra.LWorld.c76_end_to_end",
    "Copra.LWorld.c76_end_to_end_init",
    "Copra.LWorld.c76_feasible_set",
    "Copra.LWorld.c76_move",
    "Copra.LWorld.c76_move_solve",
    "Copra.LWorld.c76_others",
    "Copra.LWorld.c76_drops"
   ],
   "note": "Same exclusions as C59/C60. Moving an InitialStateLMPC into an LMPC (slicing) and self-moves are excluded; the source of a vector move assignment is taken to be empty."
  },
  {
   "property": "C77",
   "status": "proved",
   "theorems": [
    "Copra.World.c77_defined",
    "Copra.World.c77_run",
    "Copra.MWorld.c77_defined",
    "Copra.LWorld.c77_defined",
    "Copra.Ex.c77_no_system_counterexample",
    "Copra.Ex.c77_empty_weights_counterexample",
    "Copra.Ex.c77_empty_part_counterexample",
    "Copra.Ex.c77_overflow_counterexample",
    "Copra.Ex.c77_dims_counterexample"
   ],
   "note": "Undefined behaviour as modelled: what Eigen, vectors, shared_ptr and int arithmetic require of the modelled functions; memory exhaustion and the back ends are outside the model. The counterexample theorems show that each condition is needed."
  },
  {
   "property": "C78",
   "status": "proved",
   "theorems": [
    "Copra.World.c78_warnings",
    "Copra.World.c78_named_once"
   ],
   "note": ""
  },
  {
   "property": "C79",
   "status": "partial",
   "theorems": [
    "Copra.World.c79_name_stable",
    "Copra.World.c79_constraint_name_partial",
    "Copra.World.c79_cost_name",
    "Copra.World.c79_false_mixed"
   ],
   "note": "False of the code for MixedConstraint, which passes the qualifier \"Control\" (include/constraints.h 204), so it has the name of a ControlConstraint (c79_false_mixed). Proved for all other constraints and for all costs; names never change."
  },
  {
   "property": "C80",
   "status": "proved",
   "theorems": [
    "Copra.c80_setters",
    "Copra.c80_getters"
   ],
   "note": "GUROBISolver does not compile and is excluded. The back ends' accessors are assumed to store and return the value."
  },
  {
   "property": "C81",
   "status": "proved",
   "theorems": [
    "Copra.c81_quadProg",
    "Copra.c81_qld"
   ],
   "note": "The LSSOL and OSQP wrappers delegate to the back end and are not modelled."
  },
  {
   "property": "C82",
   "status": "partial",
   "theorems": [
    "Copra.Messages.c82_constraint_partial",
    "Copra.Messages.c82_cost_partial",
    "Copra.Messages.c82_square",
    "Copra.Messages.c82_weights",
    "Copra.Messages.c82_span",
    "Copra.Messages.c82_what",
    "Copra.Messages.weightsMessage_iff",
    "Copra.Messages.spanMessage_iff",
    "Copra.Messages.spanMessage_vector_iff",
    "Copra.Messages.c82_false_target",
    "Copra.Messages.c82_false_target_concrete",
    "Copra.Messages.c82_false_bounds"
   ],
   "note": "False of the code for target costs (src/costFunctions.cpp 96 reports rows for a column mismatch) and for bound constraints (src/constraints.cpp 275, 353 report columns for a row mismatch). Proved for the rest."
  },
  {
   "property": "C83",
   "status": "proved",
   "theorems": [
    "Copra.World.c83_recursive_feasibility",
    "Copra.World.extendable_of_viable"
   ],
   "note": "The loop is a client program over the modelled API (closedLoop); induction over its length."
  },
  {
   "property": "C84",
   "status": "proved",
   "theorems": [
    "Copra.World.c84_feasible_between",
    "Copra.World.c84_cost_between"
   ],
   "note": "Cost part for fresh costs (C27)."
  },
  {
   "property": "C85",
   "status": "proved",
   "theorems": [
    "Copra.MWorld.c85_alone",
    "Copra.MWorld.c85_defined",
    "Copra.MWorld.c85_schedules"
   ],
   "note": "Interleaving at the granularity of API calls; data races inside concurrent calls are outside the model."
  },
  {
   "property": "C86",
   "status": "proved",
   "theorems": [
    "Copra.World.c86_no_new_states",
    "Copra.World.c86_defined",
    "Copra.World.c86_abort_keeps",
    "Copra.World.c86_retry",
    "Copra.World.c86_end_to_end",
    "Copra.World.c86_end_to_end_init",
    "Copra.Ex.c86_retry_false"
   ],
   "note": "Same exclusions as C59/C60 for the end-to-end part. The exclusion of per-step costs in the retry is necessary (c86_retry_false): the aborted call already accumulated them."
  },
  {
   "property": "C87",
   "status": "proved",
   "theorems": [
    "Copra.World.c87_one_best_plan",
    "Copra.World.c87_exact_success",
    "Copra.World.c87_exact_result",
    "Copra.World.c87_exact_success_init"
   ],
   "note": "c87_exact_result excludes OSQP (its clamped rows are spelled out in c87_exact_success). Existence is proved over every ordered field, without completeness (Proofs/Existence)."
  },
  {
   "property": "C88",
   "status": "proved",
   "theorems": [
    "Copra.World.c88_cost_decreases",
    "Copra.World.c88_converges"
   ],
   "note": "Per-step state costs are excluded because they drift (C66); costs spanned over the whole trajectory are covered."
  },
  {
   "property": "C89",
   "status": "proved",
   "theorems": [
    "Copra.World.c89_lipschitz"
   ],
   "note": "Constraints on the controls only: with state constraints the admissible set itself moves with the initial state. Exact solvers (minimisers), fresh costs (C32)."
  },
  {
   "property": "C90",
   "status": "proved",
   "theorems": [
    "Copra.World.c90_step",
    "Copra.World.c90_refines",
    "Copra.World.c90_answer"
   ],
   "note": "The machine is SpecDecl.lean (Declared, Rejects, Effect, FailedEffect), written without any helper of the model but the API call type and the data views. autoSpan is specified entry by entry inside the new sizes. c90_answer has the exclusions of C59."
  },
  {
   "property": "C91",
   "status": "proved",
   "theorems": [
    "Copra.UWorld.c91_undisturbed",
    "Copra.UWorld.c91_updated",
    "Copra.UWorld.c91_solve_defined",
    "Copra.UWorld.c91_feasible",
    "Copra.UWorld.c91_feasible_from",
    "Copra.UWorld.c91_objective",
    "Copra.UWorld.c91_objective_from",
    "Copra.UWorld.c91_end_to_end",
    "Copra.UWorld.c91_end_to_end_from"
   ],
   "note": "Overriding functions change their own object only and an overriding update does not throw. Same exclusions as C30/C32/C59/C60 for the library's objects."
  },
  {
   "property": "C92",
   "status": "partial",
   "theorems": [
    "Copra.UWorld.c92_registered_partial",
    "Copra.UWorld.c92_ignored",
    "Copra.Ex.User.c92_false"
   ],
   "note": "False of the code: addConstraintByType drops a constraint whose type is ConstraintFlag::Constraint (src/LMPC.cpp 193-194, default: return) without an error (c92_ignored, c92_false). Proved for equality and inequality classes. A user-defined class of type BoundConstraint is cast to a class it is not (src/LMPC.cpp 190): undefined."
  },
  {
   "property": "C93",
   "status": "proved",
   "theorems": [
    "Copra.World.c93_same_problem",
    "Copra.World.c93_same_answer"
   ],
   "note": "Plain LMPC, fresh costs (C32), same exclusions as C30. Trajectory bounds are excluded because a bound on a state is not a bound on one state of another representation; the same limits stated as trajectory constraints are covered."
  },
  {
   "property": "C94",
   "status": "proved",
   "theorems": [
    "Copra.World.c94_affine",
    "Copra.World.c94_affine_results"
   ],
   "note": "Plain LMPC, nonnegative weights, fresh costs (C32), exclusions of C30. 'Not active' means: holds with a positive margin in the trajectory and the controls (HoldsWithMargin), so it is not tied to how the rows are built."
  },
  {
   "property": "C95",
   "status": "proved",
   "theorems": [
    "Copra.World.c95_inactive",
    "Copra.World.c95_same_results",
    "Copra.World.c95_removeConstraint",
    "Copra.World.c95_inactive_init",
    "Copra.World.c95_same_results_init"
   ],
   "note": "Nonnegative weights, fresh costs (C32), exclusions of C30 and C37 (a removed control bound leaves stale bounds)."
  },
  {
   "property": "C96",
   "status": "proved",
   "theorems": [
    "Copra.World.c96_history",
    "Copra.World.c96_defined",
    "Copra.World.c96_feasible",
    "Copra.World.c96_objective",
    "Copra.World.c96_optimum",
    "Copra.World.c96_trajectory",
    "Copra.World.c96_rule_A",
    "Copra.World.c96_rule_B",
    "Copra.World.c96_rule_d",
    "Copra.World.c96_rule_stale",
    "Copra.World.c96_rule_updateSystem",
    "Copra.World.c96_rule_solve",
    "Copra.World.c96_rule_system"
   ],
   "note": "Histories with single-member assignments; the dynamics in force are specified in SpecFields.lean. Assignments to the dimensions, Phi, Psi, xi and isUpdated = true are outside."
  },
  {
   "property": "C97",
   "status": "proved",
   "theorems": [
    "Copra.World.c97_outcome",
    "Copra.World.c97_defined",
    "Copra.World.c97_run",
    "Copra.World.c97_solve",
    "Copra.World.c97_rows",
    "Copra.World.c97_registries",
    "Copra.World.c97_dropped",
    "Copra.World.c97_results",
    "Copra.World.c97_failure_keeps_results",
    "Copra.World.c97_control_is_answer"
   ],
   "note": "The model runs on any scalar type with the operations of double (class Arith in Eigen.lean). Examples on Lean's Float with NaN data."
  },
  {
   "property": "C98",
   "status": "proved",
   "theorems": [
    "Copra.World.c98_state",
    "Copra.World.c98_step",
    "Copra.World.c98_problem",
    "Copra.World.c98_after",
    "Copra.World.c98_exists",
    "Copra.World.c98_same_answer",
    "Copra.World.c98_feasible",
    "Copra.World.c98_cost",
    "Copra.World.c98_trajectory",
    "Copra.Spec.c98_binary64"
   ],
   "note": "SpecRound.lean: error bars and programs side by side; SpecIeee.lean: rounding to binary64. Example: a double integrator with sampling time 0.1 in double precision, bars below 1e-14, computed in the kernel."
  },
  {
   "property": "C99",
   "status": "proved",
   "theorems": [
    "Copra.UWorld.c99_no_new_states",
    "Copra.UWorld.c99_keeps",
    "Copra.UWorld.c99_updates",
    "Copra.UWorld.c99_defined",
    "Copra.UWorld.c99_feasible",
    "Copra.UWorld.c99_objective",
    "Copra.UWorld.c99_end_to_end",
    "Copra.UWorld.c99_end_to_end_from",
    "Copra.UWorld.c99_prefix"
   ],
   "note": "Model/UserAbort.lean: the state in which such an exception leaves solve(); SpecUserAbort.lean: histories with such exceptions."
  },
  {
   "property": "C100",
   "status": "proved",
   "theorems": [
    "Copra.World.c100_no_new_states",
    "Copra.World.c100_constr_alike",
    "Copra.World.c100_cost_alike",
    "Copra.World.c100_independent",
    "Copra.World.c100_system_alike",
    "Copra.World.c100_single_use",
    "Copra.World.c100_end_to_end",
    "Copra.World.c100_end_to_end_init",
    "Copra.World.c100_same_problem"
   ],
   "note": "Model/Copies.lean: memberwise copies; SpecCopies.lean: histories with copies (constraints and costs are copied to new objects; preview systems may also be assigned)."
  },
  {
   "property": "C101",
   "status": "proved",
   "theorems": [
    "Copra.World.c101_move_keeps",
    "Copra.World.c101_not_ready",
    "Copra.World.c101_like_plain",
    "Copra.World.c101_solve_defined",
    "Copra.World.c101_end_to_end"
   ],
   "note": "Model/Slice.lean: the members of LMPC are kept, those of InitialStateLMPC dropped; SpecSlice.lean: histories with one such move."
  },
  {
   "property": "C102",
   "status": "proved",
   "theorems": [
    "Copra.World.c102_defined",
    "Copra.World.c102_matrices",
    "Copra.World.c102_feasible",
    "Copra.World.c102_objective",
    "Copra.World.c102_trajectory",
    "Copra.World.c102_optimum",
    "Copra.World.c102_varying",
    "Copra.World.c102_varying_fits",
    "Copra.World.c102_varying_trajectory",
    "Copra.World.c102_varying_optimum",
    "Copra.World.c102_supply_then_solve",
    "Copra.World.c102_replace_one",
    "Copra.World.c102_replace_stale",
    "Copra.World.c102_unique_minimiser",
    "Copra.World.c102_end_to_end",
    "Copra.World.c102_init_end_to_end",
    "Copra.World.c102_init_feasible",
    "Copra.World.c102_init_objective",
    "Copra.World.c102_init_trajectory",
    "Copra.World.c102_init_optimum",
    "Copra.Ex.c102_per_step_mixed_wrong"
   ],
   "note": "For an LMPC; c102_init_* for an InitialStateLMPC. The exception for per-step mixed constraints is the hypothesis MixedSuits; c102_per_step_mixed_wrong shows it is needed."
  },
  {
   "property": "C103",
   "status": "proved",
   "theorems": [
    "Copra.World.c103_defined",
    "Copra.World.c103_feasible",
    "Copra.World.c103_objective",
    "Copra.World.c103_trajectory",
    "Copra.World.c103_optimum",
    "Copra.World.c103_init_feasible",
    "Copra.World.c103_init_objective",
    "Copra.World.c103_init_trajectory",
    "Copra.World.c103_init_optimum",
    "Copra.World.c103_unique_minimiser",
    "Copra.World.c103_end_to_end",
    "Copra.World.c103_init_end_to_end",
    "Copra.World.c103_assign_constraint_then_solve",
    "Copra.World.c103_assign_cost_then_solve",
    "Copra.World.c103_assign_system_then_solve",
    "Copra.World.c103_assign_system_feasible",
    "Copra.World.c103_uninitialised_constraint",
    "Copra.World.c103_uninitialised_cost"
   ],
   "note": "The rows of the registered constraints must remain countable by an int after each assignment and addConstraint (RowCountsFit). Hypotheses CostsFresh, Honest, MixedSuits and NoBoundSpan as in C102."
  },
  {
   "property": "C104",
   "status": "proved",
   "theorems": [
    "Copra.World.c104_same_problem",
    "Copra.World.c104_same_results",
    "Copra.World.c104_same_objective_init",
    "Copra.World.c104_same_results_init"
   ],
   "note": "Exact arithmetic; back ends assumed to return minimisers; exclusions of C30/C32/C44 (defects C11, C17, C27, C31, C37). Controllers without any bound constraint: the answers must lie within +-DBL_MAX in both units."
  },
  {
   "property": "C105",
   "status": "proved",
   "theorems": [
    "Copra.World.c105_same_problem",
    "Copra.World.c105_same_results",
    "Copra.c105_constraint_on_plant",
    "Copra.c105_cost_on_plant",
    "Copra.c105_bounds_of_both",
    "Copra.World.c105_feasible_init",
    "Copra.World.c105_objective_init"
   ],
   "note": "Exact arithmetic; back ends assumed to return minimisers; the results for LMPC, feasibility and the ranking of controls per initial state also for InitialStateLMPC (which initial state it picks is code defect C61); exclusions of C30/C32 (defects C11, C17, C27, C31, C37). The first two theorems are stated for any joint declarations with the meaning of both plants' declarations (`TwoPlants`); the last three show that zero columns and a merged control bound have that meaning. Controllers without bounds: within +-DBL_MAX."
  },
  {
   "property": "C106",
   "status": "proved",
   "theorems": [
    "Copra.MWorld.c106_no_new_states",
    "Copra.MWorld.c106_defined",
    "Copra.MWorld.c106_abort_keeps",
    "Copra.MWorld.c106_isolated",
    "Copra.MWorld.c106_isolation",
    "Copra.MWorld.c106_retry",
    "Copra.MWorld.c106_feasible_set",
    "Copra.MWorld.c106_end_to_end",
    "Copra.MWorld.c106_end_to_end_init"
   ],
   "note": "An aborted solve() stops at src/LMPC.cpp 88 or 91. End to end: exact arithmetic, an honest back end, exclusions of C30/C32 (defects C11, C17, C27, C31, C37). The problem-level theorems except the costs given per step on the trajectory that were solved meanwhile (code defects C27, C63)."
  },
  {
   "property": "C107",
   "status": "proved",
   "theorems": [
    "Copra.World.c107_cost",
    "Copra.World.c107_feasible",
    "Copra.World.c107_success",
    "Copra.World.c107_optimum",
    "Copra.World.c107_feasible_init"
   ],
   "note": "Exact arithmetic; constraints given per step and costs given per step (no target cost, whose last step differs); exclusions of C30/C32. The optimum needs a solver returning a minimiser for the shorter problem."
  },
  {
   "property": "C108",
   "status": "proved",
   "theorems": [
    "Copra.World.c108_same_problem",
    "Copra.World.c108_same_results",
    "Copra.World.c108_symmetric",
    "Copra.World.c108_feasible_init",
    "Copra.World.c108_objective_init"
   ],
   "note": "Exact arithmetic; exclusions of C30/C32/C44/C58. Which initial state an InitialStateLMPC chooses is not covered (defect C61)."
  },
  {
   "property": "C109",
   "status": "proved",
   "theorems": [
    "Copra.World.c109_feasible",
    "Copra.World.c109_turned_up",
    "Copra.World.c109_penalty",
    "Copra.World.c109_weight"
   ],
   "note": "Exact arithmetic, LMPC; exclusions of C30/C32."
  },
  {
   "property": "C110",
   "status": "proved",
   "theorems": [
    "Copra.World.c110_feasible",
    "Copra.World.c110_success",
    "Copra.World.c110_optimum",
    "Copra.World.c110_same",
    "Copra.World.c110_feasible_between",
    "Copra.World.c110_success_between",
    "Copra.World.c110_between",
    "Copra.World.c110_feasible_init",
    "Copra.World.c110_optimum_init"
   ],
   "note": "Exact arithmetic; exclusions of C30/C32. If a control bound is dropped altogether, the plan must lie in the range [-dmax, dmax] that the controller then uses (InRange)."
  },
  {
   "property": "C111",
   "status": "proved",
   "theorems": [
    "Copra.World.c111_feasible",
    "Copra.World.c111_growth",
    "Copra.World.c111_retargeted"
   ],
   "note": "Exact arithmetic, LMPC; exclusions of C30/C32."
  },
  {
   "property": "C112",
   "status": "proved",
   "theorems": [
    "Copra.World.c112_affine",
    "Copra.World.c112_limits",
    "Copra.World.c112_results"
   ],
   "note": "Exact arithmetic, LMPC; exclusions of C30/C32. Without registered control bounds the two plans must stay strictly inside the largest representable number."
  },
  {
   "property": "C113",
   "status": "proved",
   "theorems": [
    "Copra.c113_residuals",
    "Copra.World.c113_end_to_end",
    "Copra.World.c113_end_to_end_init"
   ],
   "note": "Same exclusions as C59. OSQP: compared with sequences whose inequality rows do not underflow -DBL_MAX. Sizes must fit an int."
  },
  {
   "property": "C114",
   "status": "proved",
   "theorems": [
    "Copra.UWorld.c114_pattern",
    "Copra.UWorld.c114_aborted",
    "Copra.UWorld.c114_thrown",
    "Copra.UWorld.c114_protocol",
    "Copra.UWorld.c114_same",
    "Copra.UWorld.c114_histories"
   ],
   "note": "The registered user-defined classes keep to their obligations on sizes (as in C91). After a solve aborted by the solver the program is not continued in the recorded histories (C86, C106 and C115 treat these exceptions)."
  },
  {
   "property": "C115",
   "status": "proved",
   "theorems": [
    "Copra.UWorld.c115_no_new_states",
    "Copra.UWorld.c115_keeps",
    "Copra.UWorld.c115_defined",
    "Copra.UWorld.c115_same_problem",
    "Copra.UWorld.c115_feasible",
    "Copra.UWorld.c115_objective",
    "Copra.UWorld.c115_end_to_end",
    "Copra.UWorld.c115_end_to_end_from",
    "Copra.UWorld.c115_calls",
    "Copra.UWorld.c115_library",
    "Copra.UWorld.c115_retry",
    "Copra.UWorld.c115_retry_from"
   ],
   "note": "The retry theorems: costs of the library given per step on the trajectory excluded (C27), user-defined objects whose update settles. Unites C86 (a solver that throws, no user-defined objects) and C99 (user-defined objects that throw, a solver that does not)."
  },
  {
   "property": "C116",
   "status": "proved",
   "theorems": [
    "Copra.World.c116_actuator",
    "Copra.World.c116_idle",
    "Copra.World.c116_exactly_idle",
    "Copra.World.c116_rests",
    "Copra.World.c116_idle_init",
    "Copra.World.c116_rests_init"
   ],
   "note": "In exact arithmetic, for back ends that are feasible and (nearly) optimal; the exclusions of C30, C32, C44 and C58 apply."
  }
 ]
}