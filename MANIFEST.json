{"claims": [
 {"property": "C01", "status": "proved", "theorems": ["Osqp.c01_solved_tolerances"], "note": ""},
 {"property": "C02", "status": "proved", "theorems": ["Osqp.c02_report", "Osqp.c02_counterexample"], "note": "excludes a stop by the clock right after a scheduled check, where the claim is false (c02_counterexample)"},
 {"property": "C03", "status": "proved", "theorems": ["Osqp.c03_violation"], "note": ""},
 {"property": "C04", "status": "partial", "theorems": ["Osqp.c04_iteration_partial", "Osqp.c04_returned_partial", "Osqp.c04_and_c02_partial", "Osqp.c04_counterexample"], "note": "proved unless rho_is_vec = 0 with an initial rho outside the limits, where it is false (counterexample)"},
 {"property": "C05", "status": "proved", "theorems": ["Osqp.c05_primal_certificate"], "note": ""},
 {"property": "C06", "status": "proved", "theorems": ["Osqp.c06_certificate_bound", "Osqp.c06_certificate_exact", "Osqp.c06_api"], "note": ""},
 {"property": "C07", "status": "proved", "theorems": ["Osqp.c07_dual_certificate"], "note": ""},
 {"property": "C08", "status": "proved", "theorems": ["Osqp.c08_unbounded", "Osqp.c08_no_stationary", "Osqp.c08_approximate"], "note": ""},
 {"property": "C09", "status": "proved", "theorems": ["Osqp.c09_gap", "Osqp.c09_gap_update", "Osqp.c09_weak_duality", "Osqp.c09_api"], "note": ""},
 {"property": "C10", "status": "proved", "theorems": ["Osqp.c10_solve_fields", "Osqp.c10_get_fields"], "note": ""},
 {"property": "C11", "status": "proved", "theorems": ["Osqp.c11_status"], "note": "the text for status 10 differs from the documentation (recorded in DESIGN.md)"},
 {"property": "C12", "status": "proved", "theorems": ["Osqp.c12_iter_limit", "Osqp.c12_work"], "note": ""},
 {"property": "C13", "status": "proved", "theorems": ["Osqp.c13_schedule", "Osqp.c13_check_made"], "note": ""},
 {"property": "C14", "status": "partial", "theorems": ["Osqp.c14_status_partial", "Osqp.c14_setup_unsolved", "Osqp.c14_vec_unsolved", "Osqp.c14_mat_unsolved", "Osqp.c14_counterexample"], "note": "false in general: the status is not reset by osqp_solve (c14_counterexample); proved when the status changes in the call, in particular for the first solve after setup or a data update"},
 {"property": "C15", "status": "proved", "theorems": ["Osqp.c15_solved_inaccurate", "Osqp.c15_primal_inaccurate", "Osqp.c15_dual_inaccurate", "Osqp.c15_only_after_limit"], "note": "for solved inaccurate a clock stop right after a scheduled check is excluded (stale residuals, see DESIGN.md)"},
 {"property": "C16", "status": "proved", "theorems": ["Osqp.c16_stop", "Osqp.c16_only_late", "Osqp.c16_never_late"], "note": ""},
 {"property": "C17", "status": "proved", "theorems": ["Osqp.c17_interrupt", "Osqp.c17_only_interrupt", "Osqp.c17_handler"], "note": ""},
 {"property": "C18", "status": "proved", "theorems": ["Osqp.c18_rho_limits", "Osqp.c18_in_solve", "Osqp.c18_requests", "Osqp.c18_request", "Osqp.c18_any_values", "Osqp.c18_inverse_partial", "Osqp.c18_counterexample", "Osqp.c18_scalar_nan_counterexample"], "note": "Limits and positivity for all histories and iterations, for requests that may be NaN or infinite, and for arbitrary values of everything else the code computes. Beyond the property: the stored inverse step is exact except in scalar mode with an initial rho outside the limits (counterexamples)."},
 {"property": "C19", "status": "partial", "theorems": ["Osqp.c19_steps_partial", "Osqp.c19_steps_unscaled", "Osqp.c19_linsys", "Osqp.c19_counterexample"], "note": "proved for all histories in which the row scaling did not change after the bounds were given (in particular always without scaling); false after a matrix update of a scaled problem (counterexample)"},
 {"property": "C20", "status": "proved", "theorems": ["Osqp.c20_rule", "Osqp.c20_count"], "note": "every iteration of every solve in every history"},
 {"property": "C21", "status": "partial", "theorems": ["Osqp.c21_due_is_made", "Osqp.c21_disabled", "Osqp.c21_interval", "Osqp.c21_given", "Osqp.c21_time_partial", "Osqp.c21_counterexample"], "note": "schedule proved for modes 0, 1, 3 and user-given intervals; in time mode the code chooses an interval of at most 1 (defect, counterexample)"},
 {"property": "C22", "status": "proved", "theorems": ["Osqp.c22_linsys_current", "Osqp.c22_in_solve"], "note": "after every history and in every iteration"},
 {"property": "C23", "status": "proved", "theorems": ["Osqp.c23_scaling", "Osqp.c23_in_solve"], "note": "after every history and throughout every solve"},
 {"property": "C24", "status": "proved", "theorems": ["Osqp.c24_vectors", "Osqp.c24_matrices", "Osqp.c24_as_setup", "Osqp.c24_entries", "Osqp.Csc.refine_update_values"], "note": ""},
 {"property": "C25", "status": "partial", "theorems": ["Osqp.c25_error_iff", "Osqp.c25_rejected_partial", "Osqp.c25_ordered", "Osqp.c25_counterexample"], "note": "fails for the certificate reported after a primal infeasible status (c25_counterexample); everything else proved"},
 {"property": "C26", "status": "proved", "theorems": ["Osqp.c26_round_trip", "Osqp.c26_omitted", "Osqp.c26_solve_starts"], "note": "Warm start round trip and frame over every history."},
 {"property": "C27", "status": "partial", "theorems": ["Osqp.c27_cold_start", "Osqp.c27_independent_partial", "Osqp.c27_counterexample"], "note": "Cold start proved in full. History independence with warm_starting off proved for solves stopped neither by the clock nor by the user, given equal previous status (or a solve that ends with a passed check) and, in adaptive_rho mode 3, equal KKT error of the last adaptation. The unrestricted claim is false: c27_counterexample."},
 {"property": "C28", "status": "partial", "theorems": ["Osqp.Csc.c28_partial", "Osqp.Csc.c28_no_read", "Osqp.Csc.c28_counterexample", "Osqp.Csc.c28_unchecked_rows", "Osqp.Csc.refine_validate"], "note": "Setup rejects exactly the listed bad data when every array is readable; a null bound array is dereferenced (c28_counterexample) and row indices are not checked (c28_unchecked_rows)."},
 {"property": "C29", "status": "partial", "theorems": ["Osqp.c29_setup", "Osqp.c29_update", "Osqp.c29_reachable", "Osqp.c29_extended_partial", "Osqp.c29_nan_counterexample"], "note": "Exact for numbers and infinities; NaN passes every check (c29_nan_counterexample)."},
 {"property": "C30", "status": "proved", "theorems": ["Osqp.c30_update_settings"], "note": "Exact frame of update_settings."},
 {"property": "C31", "status": "proved", "theorems": ["Osqp.c31_rejected", "Osqp.c31_update", "Osqp.c31_consistent"], "note": "Clamp, frame and consistency after every history."},
 {"property": "C32", "status": "proved", "theorems": ["Osqp.c32_consistent", "Osqp.c32_exact", "Osqp.c32_refined", "Osqp.c32_feasible_optimal"], "note": "Compares the run with polishing and its twin without. Exactness of the returned pair itself holds up to Ax-z, as the statement says; the reduced solve is an oracle."},
 {"property": "C33", "status": "proved", "theorems": ["Osqp.c33_not_taken", "Osqp.c33_taken_better"], "note": "For calls returning 0; a failed polish factorisation makes the call return OSQP_NONCVX_ERROR."},
 {"property": "C34", "status": "proved", "theorems": ["Osqp.Csc.c34_form", "Osqp.Csc.c34_stored"], "note": "form_KKT (CSC format) on raw memory: denotation, upper triangle, exact allocation and the three index maps; and the permuted matrix kept by the built-in solver."},
 {"property": "C35", "status": "proved", "theorems": ["Osqp.Csc.c35_updates", "Osqp.Csc.c35_denotes", "Osqp.Csc.c35_csr_counterexample"], "note": "Any list of in-place updates equals rebuilding, for the compressed-column format used by the built-in solver. For the compressed-row variant (MKL Pardiso interface) the claim is false: c35_csr_counterexample."},
 {"property": "C36", "status": "proved", "theorems": ["Osqp.Csc.c36_axpy", "Osqp.Csc.c36_atxpy", "Osqp.Csc.c36_axpy_sym", "Osqp.Csc.refine_axpy", "Osqp.Csc.refine_atxpy", "Osqp.Csc.refine_axpy_sym"], "note": "raw-memory model of csc_math.c; every access in bounds and initialised"},
 {"property": "C37", "status": "proved", "theorems": ["Osqp.Csc.c37_col_norm", "Osqp.Csc.c37_row_norm", "Osqp.Csc.c37_row_norm_sym", "Osqp.Csc.c37_extract_diag", "Osqp.Csc.c37_atda", "Osqp.Csc.c37_scale", "Osqp.Csc.c37_lmult", "Osqp.Csc.c37_rmult", "Osqp.Csc.refine_col_norm", "Osqp.Csc.refine_row_norm", "Osqp.Csc.refine_scale", "Osqp.Csc.refine_lmult", "Osqp.Csc.refine_rmult"], "note": "raw-memory model; norms and diagonals for matrices without duplicate positions, as the property says"},
 {"property": "C38", "status": "proved", "theorems": ["Osqp.Csc.c38_triplet", "Osqp.Csc.c38_symperm", "Osqp.Csc.c38_pinv", "Osqp.Csc.c38_symmetrise", "Osqp.Csc.c38_vstack", "Osqp.Csc.c38_copy"], "note": "also Csc.c38_tripletToCsr_overrun: the unused triplet_to_csr overruns its row pointers when m > n"},
 {"property": "C39", "status": "proved", "theorems": ["Osqp.Csc.c39_rows"], "note": ""},
 {"property": "C40", "status": "proved", "theorems": ["Osqp.Csc.c40_step", "Osqp.Csc.c40_polish", "Osqp.c40_in_solve", "Osqp.c40_inverse"], "note": "Raw-memory model of the permuted solve and the z~ reconstruction, plus the step inside an actual solve. The LDL factorisation is an oracle assumed to solve its own system exactly."},
 {"property": "C41", "status": "proved", "theorems": ["Osqp.c41_unique", "Osqp.c41_api"], "note": "Unique solvability of the mathematical system and of the system held by every reachable solver, between calls and at every iteration."},
 {"property": "C42", "status": "proved", "theorems": ["Osqp.c42_residuals", "Osqp.c42_iterates", "Osqp.c42_stops"], "note": "Over every Archimedean ordered field, in exact arithmetic, for every problem size, start and alpha in (0,2). Residuals are those of the user problem; the stopping theorem covers both values of scaled_termination and every iteration limit beyond N. Exact linear solves are a hypothesis (ExactOn), as in the statement."},
 {"property": "C43", "status": "partial", "theorems": ["Osqp.Mem.c43_setup_defined_partial", "Osqp.Mem.c43_reports_partial", "Osqp.Mem.c43_reports_noDerivatives", "Osqp.Mem.c43_complete", "Osqp.Mem.c43_granted", "Osqp.Mem.c43_cleanup", "Osqp.Mem.c43_cleanup_after_use", "Osqp.Mem.c43_view_counterexample", "Osqp.Mem.c43_rhs_counterexample"], "note": "Proved for every subset of refused requests, with two exceptions that are defects of the code, shown as counterexamples: a refused allocation of xz_tilde makes setup dereference a null pointer before its check, and the vector rhs of the derivative structure is never checked. Cleanup after any return of setup, and after any sequence of later calls, frees every block exactly once without exception."},
 {"property": "C44", "status": "proved", "theorems": ["Osqp.c44_get_twice", "Osqp.c44_after_solve"], "note": ""},
 {"property": "C45", "status": "partial", "theorems": ["Osqp.Mem.c45_not_set_up_partial", "Osqp.Mem.c45_cleanup_null", "Osqp.Mem.c45_set_up_partial", "Osqp.Mem.c45_update_settings_counterexample", "Osqp.Mem.c45_cold_start_counterexample", "Osqp.Mem.c45_failed_setup_counterexample", "Osqp.Mem.c45_derivative_counterexample"], "note": "Proved for every API function except osqp_cold_start (no check at all) and osqp_update_settings with a null pointer (reads a field before the check); after a successful setup every function finds the pointers it dereferences. The exceptions are shown as counterexamples, with two more: a solver left behind by a non-convex setup, and the derivative functions when allocate_solution is off."},
 {"property": "C46", "status": "partial", "theorems": ["Osqp.c46_positive_partial", "Osqp.c46_texts", "Osqp.c46_distinct", "Osqp.c46_counterexample", "Osqp.c46_report"], "note": "Holds for positive flags; for flags at or below zero the table is indexed out of range (c46_counterexample)."},
 {"property": "C47", "status": "proved", "theorems": ["Osqp.Csc.c47_diag_scalar", "Osqp.Csc.c47_identity", "Osqp.Csc.c47_diag_vec", "Osqp.Csc.c47_zeros", "Osqp.Csc.c47_set_data"], "note": ""},
 {"property": "C48", "status": "proved", "theorems": ["Osqp.Csc.c48_mv", "Osqp.Csc.c48_diag", "Osqp.Csc.c48_diag_pos", "Osqp.Csc.c48_rhs", "Osqp.Csc.c48_equiv", "Osqp.Csc.c48_solve"], "note": ""},
 {"property": "C49", "status": "partial", "theorems": ["Osqp.Cg.c49_later_partial", "Osqp.Cg.c49_first", "Osqp.Cg.c49_defined", "Osqp.Cg.c49_decreasing_partial", "Osqp.Cg.c49_fraction", "Osqp.Cg.c49_polish", "Osqp.Cg.c49_counterexample"], "note": "From the second linear solve on the tolerance rule holds; the first tolerance may be below the floor and then grow (c49_counterexample)."},
 {"property": "C50", "status": "partial", "theorems": ["Osqp.c50_run_time_partial", "Osqp.c50_counted_partial", "Osqp.c50_polish_counterexample", "Osqp.c50_counterexample"], "note": "Proved for histories whose earlier solves all returned 0. After an interrupted or failed solve a later osqp_update_rho is not timed (c50_counterexample); a stale polish_time of an earlier solve is counted again (c50_polish_counterexample)."},
 {"property": "C51", "status": "proved", "theorems": ["Osqp.c51_options", "Osqp.c51_writes", "Osqp.c51_not_ready"], "note": "Decision logic of the code generation entry point; the emitted files are C59, the paths C60."},
 {"property": "C52", "status": "partial", "theorems": ["Osqp.c52_one_pass", "Osqp.c52_steps_partial", "Osqp.c52_primal_partial", "Osqp.c52_dual_partial", "Osqp.c52_counterexample"], "note": "holds if the row factor is above 1e-4 (always with at most one pass); fails in general"},
 {"property": "C53", "status": "partial", "theorems": ["Osqp.c53_rejected", "Osqp.c53_defined_partial", "Osqp.c53_counterexample", "Osqp.Csc.refine_update_values"], "note": "counts are checked; indices are not, so accepted calls can be undefined"},
 {"property": "C54", "status": "proved", "theorems": ["Osqp.c54_feasible", "Osqp.c54_objective", "Osqp.c54_minimiser", "Osqp.c54_kkt", "Osqp.c54_round_trip", "Osqp.c54_history"], "note": ""},
 {"property": "C55", "status": "proved", "theorems": ["Osqp.Csc.c55_lists", "Osqp.Csc.c55_bounds"], "note": "Index lists and array bounds of the whole adjoint computation, including assembly, perturbation, permutation and refinement of the linear system."},
 {"property": "C56", "status": "proved", "theorems": ["Osqp.c56_failed_solve"], "note": ""},
 {"property": "C57", "status": "partial", "theorems": ["Osqp.Csc.c57_adjoint_partial", "Osqp.Csc.c57_zero_multiplier", "Osqp.Csc.c57_counterexample", "Osqp.Csc.c57_zero_multiplier_counterexample"], "note": "Exact up to a constant times the residual of the linear system, which is below 1e-12 unless the refinement ends at its limit of 200 rounds; that end is not reported and the result can be wrong by a factor of thousands (c57_counterexample). Equality rows with multiplier zero give values that are not numbers."},
 {"property": "C58", "status": "proved", "theorems": ["Osqp.Vm.c58_iteration", "Osqp.Vm.c58_iterations", "Osqp.Vm.c58_copy", "Osqp.Vm.c58_part", "Osqp.Vm.c58_set_cond", "Osqp.Vm.c58_arith", "Osqp.Vm.c58_combine", "Osqp.Vm.c58_in_place", "Osqp.Vm.c58_select", "Osqp.Vm.c58_reciprocal", "Osqp.Vm.c58_project", "Osqp.Vm.c58_polar", "Osqp.Vm.c58_norms", "Osqp.Vm.c58_dot", "Osqp.Vm.c58_tests", "Osqp.Vm.c58_types", "Osqp.Vm.c58_overlap_counterexample"], "note": "Exact arithmetic. Matrix routines and the memory of the linear-system solver are C31-C40; allocation is C43."},
 {"property": "C59", "status": "partial", "theorems": ["Osqp.Gen.c59_writes", "Osqp.Gen.c59_identifiers", "Osqp.Gen.c59_accepted_iff", "Osqp.Gen.c59_roundtrip_partial", "Osqp.Gen.c59_record_lost", "Osqp.Gen.c59_new_rejected", "Osqp.Gen.c59_tiny_sigma"], "note": "Writing, distinct identifiers, exact condition for validity and the round trip are proved; the property fails with profiling, printing or derivatives compiled in and for numbers outside the printed precision, as proved by the three defect theorems."},
 {"property": "C60", "status": "partial", "theorems": ["Osqp.Gen.c60_fits_iff_partial", "Osqp.Gen.c60_paths"], "note": "Exact limits on the lengths; nothing in the code checks them."},
 {"property": "C61", "status": "partial", "theorems": ["Osqp.c61_kkt_error_partial", "Osqp.c61_counterexample"], "note": "Fails when a polished point is rejected (c61_counterexample); otherwise proved, with the exclusion of C02."},
 {"property": "C62", "status": "proved", "theorems": ["Osqp.Vm.c62_solve", "Osqp.Vm.c62_qdldl", "Osqp.Vm.c62_repeated"], "note": "Exact arithmetic. Polishing in memory is a hypothesis, not needed when polishing is off; C67 shows that it is met. The linear-system object of C63 meets the hypothesis Impl (c62_qdldl)."},
 {"property": "C63", "status": "proved", "theorems": ["Osqp.Vm.c63_object", "Osqp.Vm.c63_refused"], "note": "Exact arithmetic; AMD ordering and QDLDL numerics are parameters with the specification QdldlIs. The polishing variant of init is in C67."},
 {"property": "C64", "status": "proved", "theorems": ["Osqp.c64_primal_detected"], "note": "real arithmetic; exact solves, fixed step size and user-unit criteria are hypotheses"},
 {"property": "C65", "status": "proved", "theorems": ["Osqp.c65_dual_detected"], "note": "real arithmetic; exact solves, fixed step size and user-unit criteria are hypotheses"},
 {"property": "C66", "status": "proved", "theorems": ["Osqp.c66_setup", "Osqp.c66_history", "Osqp.c66_call", "Osqp.c66_results", "Osqp.c66_getSolution", "Osqp.c66_two", "Osqp.c66_qdldl"], "note": "Solves with polishing off, or with polishing as specified by PolishIs (shown to be met in C67). Allocation succeeds here (failures are in C23); the ordering is a parameter, any permutation; with the ordering AMD computes: C69."},
 {"property": "C67", "status": "proved", "theorems": ["Osqp.c67_polish", "Osqp.c67_is", "Osqp.c67_lib", "Osqp.c67_call", "Osqp.c67_qdldl"], "note": "Exact arithmetic; QDLDL and AMD as assumed (`QdldlPolIs`: AMD leaves a permutation, which is proved in C69, and QDLDL factors and solves the reduced system); allocation succeeds."},
 {"property": "C68", "status": "partial", "theorems": ["Osqp.c68_embedded_same_partial", "Osqp.c68_call_partial", "Osqp.c68_embedded_solved", "Osqp.c68_certificate_lost", "Osqp.c68_types_stale"], "note": "Equality of all codes, results and points for every sequence of calls in both modes. Fails for infeasibility certificates, which embedded builds do not store, and in mode 1 after a bounds update that changes a constraint type (both proved as counterexamples)."},
 {"property": "C69", "status": "proved", "theorems": ["Osqp.Amd.c69_order", "Osqp.Amd.c69_invalid", "Osqp.Amd.c69_overrun", "Osqp.c69_stored", "Osqp.c69_pattern", "Osqp.c69_kkt", "Osqp.c69_init", "Osqp.c69_lib", "Osqp.c69_polish", "Osqp.c69_deriv", "Osqp.c69_call"], "note": "Integer overflow and failing allocation are not modelled. The index array has to be long enough for every column pointer, as it is for matrices the library builds; otherwise the check itself reads behind it (c69_overrun)."},
 {"property": "C70", "status": "proved", "theorems": ["Osqp.c70_factor", "Osqp.c70_signs", "Osqp.c70_well_defined", "Osqp.c70_convex_accepted", "Osqp.c70_report_right", "Osqp.c70_accepted", "Osqp.c70_accepted_iff", "Osqp.c70_update_mat", "Osqp.c70_update_rho", "Osqp.c70_update_vec", "Osqp.c70_solve"], "note": "QDLDL is a parameter that counts the positive pivots of an LDL^T factorisation in some elimination order (CountsPivots)"},
 {"property": "C71", "status": "partial", "theorems": ["Osqp.c71_kernel_partial", "Osqp.c71_counterexample", "Osqp.c71_counterexample_rho"], "note": "False as stated: rho A^T A can hide a negative direction at set-up, and osqp_update_rho loses definiteness silently. Proved: along directions that do not change the constraints the curvature of an accepted problem is above -sigma."},
 {"property": "C72", "status": "proved", "theorems": ["Osqp.Cuda.c72_stop", "Osqp.Cuda.c72_converges", "Osqp.Cuda.c72_precond", "Osqp.Cuda.c72_tolerance", "Osqp.Cuda.c72_solve", "Osqp.Cuda.c72_error"], "note": "exact arithmetic; CUDA library calls as documented; matrices on the device are symmetric / transposes of each other (set-up and every update)"},
 {"property": "C73", "status": "partial", "theorems": ["Osqp.Gpu.c73_set", "Osqp.Gpu.c73_set_conditional", "Osqp.Gpu.c73_round", "Osqp.Gpu.c73_set_if_lt", "Osqp.Gpu.c73_set_if_gt", "Osqp.Gpu.c73_prod", "Osqp.Gpu.c73_max", "Osqp.Gpu.c73_min", "Osqp.Gpu.c73_sqrt", "Osqp.Gpu.c73_reciprocal", "Osqp.Gpu.c73_bound", "Osqp.Gpu.c73_project_polar", "Osqp.Gpu.c73_all_leq", "Osqp.Gpu.c73_in_reccone", "Osqp.Gpu.c73_bounds_type", "Osqp.Gpu.c73_dot_signed", "Osqp.Gpu.c73_add_scaled_partial", "Osqp.Gpu.c73_add_scaled3_partial", "Osqp.Gpu.c73_plus_minus_partial", "Osqp.Gpu.c73_minus_counterexample", "Osqp.Gpu.c73_is_eq_partial", "Osqp.Gpu.c73_is_eq_counterexample"], "note": "False as stated for the equality test (a race) and for sums and differences stored over their second operand; both shown by a counterexample. All other kernels agree with the built-in back end under every interleaving."},
 {"property": "C74", "status": "partial", "theorems": ["Osqp.Cuda.c74_A", "Osqp.Cuda.c74_A_sorted", "Osqp.Cuda.c74_A_safe", "Osqp.Cuda.c74_P_partial", "Osqp.Cuda.c74_P_safe", "Osqp.Cuda.c74_diagonal", "Osqp.Cuda.c74_system", "Osqp.Cuda.c74_uninitialised", "Osqp.Cuda.c74_stale", "Osqp.Cuda.c74_diagonal_counterexample", "Osqp.Cuda.c74_stale_counterexample", "Osqp.Cuda.c74_twice_counterexample"], "note": "complete for the constraint matrix; for the cost matrix false in general (counterexamples), proved for whole updates with a complete diagonal and partial updates not preceded by a whole one"},
 {"property": "C75", "status": "partial", "theorems": ["Osqp.Cuda.c75_init_partial", "Osqp.Cuda.c75_history_partial", "Osqp.Cuda.c75_product", "Osqp.Cuda.c75_axpy", "Osqp.Cuda.c75_empty", "Osqp.Cuda.c75_empty_counterexample", "Osqp.Cuda.c75_norms_partial", "Osqp.Cuda.c75_norms_empty", "Osqp.Cuda.c75_scaling_norms", "Osqp.Cuda.c75_select_partial", "Osqp.Cuda.c75_select_no_entries", "Osqp.Cuda.c75_select_empty_rows", "Osqp.Cuda.c75_select_counterexample"], "note": "False as stated: for matrices or selected rows without entries the row pointers are too few, a count is read unwritten, or norms are not written (negations proved). Proved in all other cases, for every history, order of writes and bracketing of reductions; products through OSQPMatrix_Axpy and the norms used by the scaling are right in all cases."},
 {"property": "C76", "status": "partial", "theorems": ["Osqp.Mkl.c76_solution_partial", "Osqp.Mkl.c76_polish_partial", "Osqp.Mkl.c76_form", "Osqp.Mkl.c76_failed", "Osqp.Mkl.c76_defined_partial", "Osqp.Mkl.c76_precond", "Osqp.Mkl.c76_scalar_counterexample", "Osqp.Mkl.c76_limit_counterexample", "Osqp.Mkl.c76_precond_counterexample", "Osqp.Mkl.refDcg_honest"], "note": "False as stated: an end code of dcg other than 0 and 2 leaves the right-hand side (c76_failed, c76_limit_counterexample), rho_is_vec = 0 reads a null pointer, an unknown cg_precond reads unwritten memory. Proved for solves that end by their own test, after every history."},
 {"property": "C77", "status": "partial", "theorems": ["Osqp.Pardiso.c77_init", "Osqp.Pardiso.c77_matrix_partial", "Osqp.Pardiso.c77_defined", "Osqp.Pardiso.c77_step_partial", "Osqp.Pardiso.c77_polish", "Osqp.Pardiso.c77_lost", "Osqp.Pardiso.c77_unchecked", "Osqp.Pardiso.c77_dangling"], "note": "The code violates the full statement: an update of a diagonal entry in a column with other entries loses sigma (c77_lost), updates accept non-convex data (c77_unchecked), a failed allocation leaves a dangling pointer (c77_dangling). Creation, histories without such updates, steps, polishing and memory safety are proved in full."},
 {"property": "C78", "status": "partial", "theorems": ["Osqp.MklMat.c78_new", "Osqp.MklMat.made_rep", "Osqp.MklMat.c78_changes", "Osqp.MklMat.c78_select", "Osqp.MklMat.c78_product_partial", "Osqp.MklMat.c78_operator_partial", "Osqp.MklMat.c78_norms", "Osqp.MklMat.c78_empty", "Osqp.MklMat.c78_operator_lp", "Osqp.MklMat.c78_spare", "Osqp.MklMat.c78_get"], "note": "False as stated: products with objects without a handle do nothing (c78_empty, c78_operator_lp), creation reads spare cells (c78_spare), reading back runs past the arrays (c78_get). The rest is proved for all histories."},
 {"property": "C79", "status": "partial", "theorems": ["Osqp.Csc.c79_compare", "Osqp.Csc.c79_compare_entries", "Osqp.Csc.c79_rows_ignored", "Osqp.Csc.c79_dense", "Osqp.Csc.c79_dense_entries", "Osqp.Csc.c79_dense_counterexample", "Osqp.Csc.c79_vectors"], "note": "False as stated: the number of rows is not compared (c79_rows_ignored) and the dense copy keeps the last value of a position stored twice (c79_dense_counterexample). The rest is proved for all arguments."},
 {"property": "C80", "status": "partial", "theorems": ["Osqp.Backends.c80_error", "Osqp.Backends.c80_unique", "Osqp.Backends.c80_direct_partial", "Osqp.Backends.c80_indirect_partial"], "note": "The direct solvers agree exactly and MKL's conjugate gradients up to the tolerance; left out are the histories with the update that loses a diagonal term (C77) and success with code 0 (C76). For CUDA see Cuda c72_error under C72."},
 {"property": "C81", "status": "proved", "theorems": ["Osqp.MklVec.c81_copy", "Osqp.MklVec.c81_arith", "Osqp.MklVec.c81_combine", "Osqp.MklVec.c81_in_place", "Osqp.MklVec.c81_limits", "Osqp.MklVec.c81_values", "Osqp.MklVec.c81_same", "Osqp.MklVec.c81_iterations", "Osqp.MklVec.c81_axpy_counterexample"], "note": "for every library that keeps to the documented contract; overlapping operands of add_scaled in the shortcut are excluded (c81_axpy_counterexample), no call in the library has them"},
 {"property": "C82", "status": "proved", "theorems": ["Osqp.c82_continue", "Osqp.c82_all_done", "Osqp.c82_adaptive_counterexample"], "note": "fixed step size, as the property says; with adaptation it fails (c82_adaptive_counterexample)"},
 {"property": "C83", "status": "partial", "theorems": ["Osqp.c83_printing_partial", "Osqp.c83_observe_partial", "Osqp.c83_integral_counterexample", "Osqp.c83_reset_counterexample", "Osqp.c83_verbosity_partial"], "note": "Printing: the builds with and without printing, and any two verbosities, give the same result in every history, for all settings, if no solve is stopped from outside and the step size is not adapted by the clock. Other observing settings: proved for solves with a fixed step size that execute all their iterations, end without a certificate and do not polish. Counterexamples: the primal-dual integral depends on the verbosity and on earlier solves."},
 {"property": "C84", "status": "proved", "theorems": ["Osqp.c84_running_total", "Osqp.c84_nonneg", "Osqp.c84_setup"], "note": "All histories of API calls of the solver layer; c83_reset_counterexample shows that a second solve reports a larger value."},
 {"property": "C85", "status": "proved", "theorems": ["Osqp.c85_delta_ignored", "Osqp.c85_setup", "Osqp.c85_update"], "note": "Every sequence of calls answers alike for any two positive values of delta. Proved in a stronger form than wished: polishing ignores delta too (a defect, DESIGN.md section 5)."},
 {"property": "C86", "status": "partial", "theorems": ["Osqp.c86_grouping_partial", "Osqp.c86_solve_partial", "Osqp.c86_counterexample"], "note": "Missing: histories in which a matrix update rescaled the problem after the bounds were last given (stored constraint types may be stale). The statement on the next solve has warm starting off and inherits the conditions of c27_independent_partial."},
 {"property": "C87", "status": "proved", "theorems": ["Osqp.c87_last_counts", "Osqp.c87_split"], "note": "Equality of the whole state, for every state (reachable or not)."},
 {"property": "C88", "status": "proved", "theorems": ["Osqp.c88_last_counts", "Osqp.c88_code"], "note": "Equality of the whole state but for update_time, its clear flag and the number of clock readings, for every state (reachable or not)."},
 {"property": "C89", "status": "proved", "theorems": ["Osqp.c89_swap", "Osqp.c89_move", "Osqp.c89_last_counts", "Osqp.c89_warm_exception"], "note": "Equality of the whole state, for every state (reachable or not)."},
 {"property": "C90", "status": "partial", "theorems": ["Osqp.c90_move_partial", "Osqp.c90_counterexample"], "note": "Proved for updates of the vectors and the step size, from every state. Missing: matrix updates, for which it fails on scaled problems (c90_counterexample: the iterates are not rescaled)."}
]}
