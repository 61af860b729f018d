{"id": "C01", "title": "SOLVED means the documented tolerances hold on the user's data", "statement": "If osqp_solve is called on a solver whose status is 'unsolved', returns 0 and reports OSQP_SOLVED (without a successful polish), then there is a vector z with l <= z <= u such that, for the returned x and y and the user's own unscaled P, q, A, l, u, ||Ax-z||_inf < eps_abs + eps_rel*max(||Ax||,||z||), ||Px+q+A'y||_inf < eps_abs + eps_rel*max(||Px||,||q||,||A'y||), and, when check_dualgap is on, |duality gap| < eps_abs + eps_rel*max(...). Holds with and without internal scaling (scaled_termination off).", "quantifier": "every problem, settings, linear-solver behaviour, clock, warm start, number of iterations and history of earlier calls", "why_tests_cant": "tests compare a handful of problems to a reference optimum; the claim is about every exit path and every scaling", "anchors": ["src/auxil.c:check_termination", "src/auxil.c:update_info", "src/auxil.c:compute_prim_res", "src/auxil.c:compute_dual_res", "src/osqp_api.c:osqp_solve", "src/auxil.c:store_solution"]}
{"id": "C02", "title": "Reported objective and residuals describe the returned point", "statement": "Whenever osqp_solve exits through a termination check or the iteration limit, info.obj_val is 1/2 x'Px+q'x, info.dual_res is ||Px+q+A'y||_inf and info.prim_res is ||Ax-z||_inf for the x,y stored in the solution and a z in [l,u], on the user's unscaled data.", "quantifier": "every problem, setting, scaling and call history", "why_tests_cant": "it must hold at whichever iteration the solver stops, for any data", "anchors": ["src/auxil.c:update_info", "src/osqp_api.c:osqp_solve", "src/auxil.c:store_solution"]}
{"id": "C03", "title": "Constraint violation is bounded by the reported primal residual", "statement": "For the x returned with a solution status, every component of Ax is within info.prim_res of the interval [l_i,u_i].", "quantifier": "every problem with l<=u and every exit that stores a solution", "why_tests_cant": "needs all problems and all iterates", "anchors": ["src/auxil.c:update_info", "src/auxil.c:update_z"]}
{"id": "C04", "title": "Complementary slackness by construction", "statement": "After every ADMM iteration z lies in [l,u] and the multiplier y is in the normal cone of [l,u] at z: y_i>0 implies z_i=u_i, y_i<0 implies z_i=l_i. This holds for any output of the linear-system solver.", "quantifier": "every iteration count, starting point, step-size history and linear-solver output", "why_tests_cant": "documented as an invariant of the algorithm: it is about all iterates", "anchors": ["src/auxil.c:update_z", "src/auxil.c:update_y", "algebra/builtin/vector.c:OSQPVectorf_ew_bound_vec"]}
{"id": "C05", "title": "Primal infeasibility certificate is valid on the user's data", "statement": "When the solver reports OSQP_PRIMAL_INFEASIBLE (fresh solve, scaled_termination off or scaling off), the returned prim_inf_cert v satisfies ||v||_inf = 1, ||A'v||_inf < eps_prim_inf, u'v+ + l'v- < 0, and v respects the recession cone: v_i<=0 where the (scaled) upper bound is infinite and v_i>=0 where the lower bound is.", "quantifier": "every problem and run reporting primal infeasibility", "why_tests_cant": "certificate soundness is universal; tests only check the status code", "anchors": ["src/auxil.c:is_primal_infeasible", "src/auxil.c:check_termination", "src/auxil.c:store_solution"]}
{"id": "C06", "title": "What the primal certificate proves", "statement": "If v is a certificate as returned, every x with l<=Ax<=u has ||x||_1 * ||A'v||_inf >= -(u'v+ + l'v-) > 0; when A'v=0 exactly, no feasible x exists.", "quantifier": "every problem and every candidate point x", "why_tests_cant": "quantifies over all candidate feasible points", "anchors": ["src/auxil.c:is_primal_infeasible"]}
{"id": "C07", "title": "Dual infeasibility certificate is valid on the user's data", "statement": "When the solver reports OSQP_DUAL_INFEASIBLE (fresh solve, unscaled termination), dual_inf_cert v satisfies ||v||_inf = 1, q'v<0, ||Pv||_inf < eps_dual_inf, and each (Av)_i is <= eps where u_i is finite and >= -eps where l_i is finite.", "quantifier": "every problem and run reporting dual infeasibility", "why_tests_cant": "certificate soundness is universal", "anchors": ["src/auxil.c:is_dual_infeasible", "src/auxil.c:check_termination", "src/auxil.c:store_solution"]}
{"id": "C08", "title": "What the dual certificate proves", "statement": "If v satisfies the certificate conditions exactly (Pv=0, Av in the recession cone, q'v<0) and x is feasible, then x+tv is feasible for all t>=0 and the objective tends to minus infinity along it; no (x,y) with y in the polar cone satisfies stationarity.", "quantifier": "every problem, feasible point and step t", "why_tests_cant": "quantifies over all points and steps", "anchors": ["src/auxil.c:is_dual_infeasible"]}
{"id": "C09", "title": "Duality gap bookkeeping and weak duality", "statement": "info.duality_gap = info.obj_val - info.dual_obj_val after every info update; when P is positive semidefinite and Px+q+A'y=0, the dual objective is a lower bound on the objective at every feasible point (up to the documented zero dead-zone).", "quantifier": "every iterate, every feasible point, every scaling", "why_tests_cant": "quantifies over all feasible points and iterates", "anchors": ["src/auxil.c:compute_obj_val_dual_gap", "src/auxil.c:update_info"]}
{"id": "C10", "title": "Exactly the right solution fields are filled", "statement": "After osqp_solve or osqp_get_solution with a solution-carrying status, x,y are the unscaled iterates and both certificates hold the NaN placeholder; for primal (dual) infeasible statuses x,y hold the placeholder and only the primal (dual) certificate is filled; in the non-convex case no solution is filled and the stored iterate is reset to zero.", "quantifier": "every status value and every state", "why_tests_cant": "case analysis over all statuses and states", "anchors": ["src/auxil.c:store_solution", "src/auxil.c:has_solution"]}
{"id": "C11", "title": "Status value and status text are always valid and consistent", "statement": "After any sequence of API calls info.status_val is one of the documented enum values and info.status is exactly the message for it, and fits its 32-byte buffer.", "quantifier": "every call history", "why_tests_cant": "needs all histories", "anchors": ["src/auxil.c:update_status", "src/auxil.c:OSQP_STATUS_MESSAGE"]}
{"id": "C12", "title": "Iteration limit", "statement": "osqp_solve always returns; it performs at most max_iter ADMM iterations and info.iter <= max_iter.", "quantifier": "every problem, settings, linear-solver output, clock and interrupt schedule", "why_tests_cant": "termination for all inputs", "anchors": ["src/osqp_api.c:osqp_solve"]}
{"id": "C13", "title": "Termination is checked exactly when the settings say", "statement": "With check_termination=k>0, a converged status can only be reported at an iteration that is a multiple of k, at max_iter, or at a time-limit stop; with k=0, only at max_iter or a time-limit stop.", "quantifier": "every k, max_iter, problem and clock", "why_tests_cant": "schedule property over all runs", "anchors": ["src/osqp_api.c:osqp_solve"]}
{"id": "C14", "title": "The reported status describes the most recent solve", "statement": "After every osqp_solve that returns 0, a status of OSQP_SOLVED / infeasible was established by a termination check made during that very call with the current settings.", "quantifier": "every call history", "why_tests_cant": "depends on arbitrary earlier calls (stale state)", "anchors": ["src/osqp_api.c:osqp_solve", "src/auxil.c:reset_info"]}
{"id": "C15", "title": "Inaccurate statuses mean 10x tolerances", "statement": "OSQP_SOLVED_INACCURATE / *_INFEASIBLE_INACCURATE are only reported after the iteration or time limit, and certify the same conditions with all tolerances multiplied by 10.", "quantifier": "every run ending at a limit", "why_tests_cant": "universal over runs", "anchors": ["src/auxil.c:check_termination", "src/osqp_api.c:osqp_solve"]}
{"id": "C16", "title": "Time limit", "statement": "If the measured time reaches time_limit at the check of some iteration the loop stops at that iteration and the status is OSQP_TIME_LIMIT_REACHED or a (possibly inaccurate) converged status; if it never does, the status is never OSQP_TIME_LIMIT_REACHED in a solve started from 'unsolved'.", "quantifier": "every clock behaviour", "why_tests_cant": "needs every clock schedule", "anchors": ["src/osqp_api.c:osqp_solve"]}
{"id": "C17", "title": "User interrupt", "statement": "If an interrupt is observed in iteration k the solver stops in that iteration, returns a non-zero code, sets status OSQP_SIGINT, and does not touch the previously stored solution; the previous signal handler is restored on every exit path of osqp_solve.", "quantifier": "every interrupt schedule and exit path", "why_tests_cant": "asynchronous schedules", "anchors": ["src/osqp_api.c:osqp_solve", "src/interrupt_unix.c:osqp_end_interrupt_listener"]}
{"id": "C18", "title": "Step size always within limits", "statement": "After any successful API call the step size rho is within [1e-6,1e6], whatever values (including NaN) were requested, and the scalar/vector step sizes are positive.", "quantifier": "every call history and every requested rho, every iterate", "why_tests_cant": "reachable-state invariant", "anchors": ["src/auxil.c:compute_rho_estimate", "src/auxil.c:set_rho_vec", "src/osqp_api.c:osqp_update_rho"]}
{"id": "C19", "title": "Per-constraint step sizes follow the constraint type", "statement": "With rho_is_vec, after setup, bound updates and rho updates the step of constraint i is RHO_MIN if both bounds are infinite, 1000*rho if u_i-l_i is below tolerance, rho otherwise, and stored inverses are exact reciprocals.", "quantifier": "every bound vector and history of updates", "why_tests_cant": "reachable-state invariant", "anchors": ["src/auxil.c:set_rho_vec", "src/auxil.c:update_rho_vec", "algebra/builtin/vector.c:OSQPVectorf_ew_bounds_type", "src/osqp_api.c:osqp_update_rho"]}
{"id": "C20", "title": "Adaptive rho changes the step only when far enough", "statement": "The adaptive rule changes rho only if the new estimate is more than adaptive_rho_tolerance times larger or smaller, rho_updates counts exactly the changes, and rho_estimate always stores the estimate; in between, the step is unchanged.", "quantifier": "every iterate and residual", "why_tests_cant": "all residual values", "anchors": ["src/auxil.c:adapt_rho", "src/auxil.c:compute_rho_estimate"]}
{"id": "C21", "title": "Adaptive rho schedule", "statement": "Rho adaptation is attempted only at the documented iterations: multiples of adaptive_rho_interval in iteration mode; never when disabled; in KKT-error mode only when the KKT error fell below the fraction of its last value; in time mode the automatically chosen interval is a multiple of check_termination and at least check_termination.", "quantifier": "every settings combination, clock and run", "why_tests_cant": "schedule over all runs; time mode depends on the clock", "anchors": ["src/osqp_api.c:osqp_solve", "src/osqp_api.c:osqp_setup"]}
{"id": "C22", "title": "Linear-system solver always matches the current problem", "statement": "After any sequence of successful API calls the matrix held by the linear-system solver is the KKT matrix of the current (scaled) P, A, sigma and step sizes.", "quantifier": "every history of data, rho and settings updates and solves (with any adaptive rho changes)", "why_tests_cant": "stale factorisations only show after particular histories", "anchors": ["src/osqp_api.c:osqp_update_data_mat", "src/osqp_api.c:osqp_update_rho", "src/auxil.c:update_rho_vec"]}
{"id": "C23", "title": "Scaling is an exact change of variables in every reachable state", "statement": "With scaling on, D, E, c are positive, Dinv/Einv/cinv are their exact inverses and the stored data equals cDPD, cDq, EAD, El, Eu for the user's current data, after setup and after any history of updates and solves.", "quantifier": "every problem, number of scaling passes and call history", "why_tests_cant": "reachable-state invariant", "anchors": ["src/scaling.c:scale_data", "src/scaling.c:unscale_data", "src/osqp_api.c:osqp_update_data_vec", "src/osqp_api.c:osqp_update_data_mat"]}
{"id": "C24", "title": "Data updates mean what they say", "statement": "After osqp_update_data_vec / osqp_update_data_mat return 0, the problem the solver works on is exactly the old user problem with the given vectors / matrix entries replaced, everything else unchanged, as if setup had been called with that data.", "quantifier": "every state, subset of arguments, index list and values", "why_tests_cant": "all subsets of optional arguments and index lists", "anchors": ["src/osqp_api.c:osqp_update_data_vec", "src/osqp_api.c:osqp_update_data_mat", "algebra/_common/csc_math.c:csc_update_values"]}
{"id": "C25", "title": "Rejected bound updates change nothing", "statement": "osqp_update_data_vec returns an error exactly when some new l_i > u_i (using current bounds for the argument not given), and then the problem data, iterates, step sizes and the solution reported afterwards are unchanged; hence l<=u in every reachable state.", "quantifier": "every state and argument combination", "why_tests_cant": "all histories; the scaled comparison must agree with the user's", "anchors": ["src/osqp_api.c:osqp_update_data_vec", "algebra/builtin/vector.c:OSQPVectorf_all_leq"]}
{"id": "C26", "title": "Warm start round trip", "statement": "osqp_warm_start(x,y) followed by osqp_get_solution (with a solution-carrying status) returns exactly x and y, the internal z equals Ax, and warm starting is enabled; omitted arguments leave the corresponding iterate alone.", "quantifier": "every x,y, scaling and state", "why_tests_cant": "all vectors and scalings", "anchors": ["src/osqp_api.c:osqp_warm_start", "src/osqp_api.c:osqp_get_solution", "src/scaling.c:unscale_solution"]}
{"id": "C27", "title": "Cold start resets the iterates", "statement": "After osqp_cold_start the iterates x,y,z are zero, nothing else observable changes; with warm_starting off every solve starts from zero and its result depends only on data, settings and current step size, not on earlier iterates.", "quantifier": "every state and history", "why_tests_cant": "history independence", "anchors": ["src/osqp_api.c:osqp_cold_start", "src/osqp_api.c:osqp_solve"]}
{"id": "C28", "title": "Problem data validation", "statement": "osqp_setup rejects the data exactly when: P, A or q is missing, n<=0 or m<0, P is not n x n, P has an entry below the diagonal, A is not m x n, or some l_i>u_i; on rejection it returns OSQP_DATA_VALIDATION_ERROR and leaves the caller's solver pointer unwritten.", "quantifier": "every argument combination", "why_tests_cant": "all inputs including malformed ones", "anchors": ["src/auxil.c:validate_data", "src/osqp_api.c:osqp_setup"]}
{"id": "C29", "title": "Settings validation", "statement": "Settings are accepted exactly when each is in its documented range; accepted settings guarantee alpha in (0,2), sigma>0, rho>0, max_iter>0 and so on.", "quantifier": "every settings record", "why_tests_cant": "all values", "anchors": ["src/auxil.c:validate_settings"]}
{"id": "C30", "title": "Settings update", "statement": "osqp_update_settings either rejects (nothing changes) or changes exactly the documented mutable settings and nothing else; rho, sigma, scaling and the adaptive-rho settings are never changed by it.", "quantifier": "every current and requested settings record", "why_tests_cant": "all records and histories", "anchors": ["src/osqp_api.c:osqp_update_settings"]}
{"id": "C31", "title": "Explicit rho update", "statement": "osqp_update_rho rejects rho<=0 without effect, otherwise sets rho to the clamped value, updates all per-constraint steps and their inverses consistently, and leaves data and iterates untouched.", "quantifier": "every rho and state", "why_tests_cant": "all states", "anchors": ["src/osqp_api.c:osqp_update_rho"]}
{"id": "C32", "title": "Polishing produces a consistent primal-dual pair", "statement": "If polishing is accepted, the new z is in [l,u], y is in the normal cone at z, and the reported residuals and objective are those of the polished point; if the reduced system is solved exactly, the constraints taken to be active are met with equality and x is stationary with multipliers supported on them, the returned pair's stationarity residual is A^T times the row-weighted infeasibility Ax-z, and a polished point with zero primal residual is an exact optimum.", "quantifier": "every active set, problem and refinement count", "why_tests_cant": "all active sets", "anchors": ["src/polish.c:polish", "src/polish.c:form_Ared", "src/polish.c:get_ypol_from_yred"]}
{"id": "C33", "title": "A failed polish leaves the ADMM solution alone", "statement": "If polishing is not accepted, the stored x,y,z, objective and residuals are exactly those of the ADMM solution; it is accepted only if both residuals improved, or one improved while the other was already below 1e-10.", "quantifier": "every outcome of the reduced solve", "why_tests_cant": "all numeric outcomes", "anchors": ["src/polish.c:polish"]}
{"id": "C34", "title": "KKT matrix assembly", "statement": "For every well-formed upper-triangular P and A the assembled matrix is the upper triangle of [P+sigma*I, A'; A, -diag(1/rho)], in valid CSC form with the allocated number of entries exactly used, and the returned index maps locate each entry of P, A and rho.", "quantifier": "every sparsity pattern and size", "why_tests_cant": "all patterns, including empty columns and missing diagonals", "anchors": ["algebra/_common/kkt.c:form_KKT", "algebra/_common/kkt.c:_kkt_assemble_csc"]}
{"id": "C35", "title": "KKT value updates equal reassembly", "statement": "Updating any subset of P or A values or the step sizes in place, in the compressed-column KKT matrix kept by the built-in direct solver, yields the same matrix as assembling from scratch.", "quantifier": "every pattern, index list and values", "why_tests_cant": "all index lists", "anchors": ["algebra/_common/kkt.c:update_KKT_P", "algebra/_common/kkt.c:update_KKT_A", "algebra/_common/kkt.c:update_KKT_param2"]}
{"id": "C36", "title": "Sparse products compute the mathematical product", "statement": "For every well-formed CSC matrix the library's y = alpha*A*x+beta*y (plain, transposed, symmetric-from-upper-triangle) equals the dense result for all alpha, beta, and never reads or writes out of bounds.", "quantifier": "every matrix, vector and scalar pair", "why_tests_cant": "special cases for 0,1,-1; all patterns", "anchors": ["algebra/_common/csc_math.c:csc_Axpy", "algebra/_common/csc_math.c:csc_Atxpy", "algebra/_common/csc_math.c:csc_Axpy_sym_triu"]}
{"id": "C37", "title": "Sparse norms, diagonals and scalings", "statement": "Row/column infinity norms, diagonal extraction, left/right diagonal products and scalar products equal their dense definitions for every well-formed CSC matrix (for norms and diagonals: one that stores no position twice, since duplicates are read as separate entries).", "quantifier": "every matrix", "why_tests_cant": "all patterns", "anchors": ["algebra/_common/csc_math.c:csc_col_norm_inf", "algebra/_common/csc_math.c:csc_row_norm_inf_sym_triu", "algebra/_common/csc_math.c:csc_lmult_diag", "algebra/_common/csc_utils.c:csc_extract_diag"]}
{"id": "C38", "title": "Format conversions preserve the matrix", "statement": "Triplet-to-CSC conversion, symmetric permutation and symmetrisation give well-formed matrices denoting exactly the input (permuted / symmetrised), with correct index maps and no out-of-bounds access.", "quantifier": "every well-formed input and permutation", "why_tests_cant": "all patterns and permutations", "anchors": ["algebra/_common/csc_utils.c:triplet_to_csc", "algebra/_common/csc_utils.c:csc_symperm", "algebra/_common/csc_utils.c:triu_to_csc", "algebra/_common/csc_utils.c:vstack"]}
{"id": "C39", "title": "Row selection", "statement": "Selecting rows by a flag vector gives exactly the matrix of the selected rows in order, well formed, with no uninitialised read.", "quantifier": "every matrix and flag vector", "why_tests_cant": "all flag vectors", "anchors": ["algebra/_common/csc_utils.c:csc_submatrix_byrows"]}
{"id": "C40", "title": "Linear-system step solves the ADMM equations", "statement": "If the factorisation solves its (permuted) system exactly, the step returns x~ and z~ with z~ = A x~ and (P+sigma I) x~ + A' diag(rho) (A x~ - z + y/rho) = sigma x - q: the permutation and the reconstruction of z~ are correct.", "quantifier": "every fill-reducing permutation, right-hand side and data", "why_tests_cant": "all permutations", "anchors": ["algebra/_common/lin_sys/qdldl/qdldl_interface.c:LDLSolve", "algebra/_common/lin_sys/qdldl/qdldl_interface.c:solve_linsys_qdldl", "src/auxil.c:compute_rhs"]}
{"id": "C41", "title": "The KKT system is always uniquely solvable", "statement": "For positive semidefinite P, sigma>0 and rho>0 the ADMM linear system has exactly one solution for every right-hand side.", "quantifier": "every problem and step size", "why_tests_cant": "mathematical universality", "anchors": ["algebra/_common/lin_sys/qdldl/qdldl_interface.c:init_linsys_solver_qdldl"]}
{"id": "C42", "title": "Convergence", "statement": "For convex problems with a primal-dual solution, with exact linear solves, fixed rho and 0<alpha<2, primal and dual residuals of the iterates tend to zero; hence with eps_abs>0, gap check off and termination checks on, osqp_solve stops before a sufficiently large iteration limit.", "quantifier": "every convex problem with a KKT point and every starting point", "why_tests_cant": "asymptotic claim over infinite runs", "anchors": ["src/osqp_api.c:osqp_solve", "src/auxil.c:update_x", "src/auxil.c:update_z", "src/auxil.c:update_y"]}
{"id": "C43", "title": "Setup and cleanup are memory safe under allocation failure", "statement": "Whatever subset of allocations made by osqp_setup itself fails, setup returns a memory error, and calling osqp_cleanup afterwards frees every block exactly once.", "quantifier": "every failure position", "why_tests_cant": "all failure points", "anchors": ["src/osqp_api.c:osqp_setup", "src/osqp_api.c:osqp_cleanup"]}
{"id": "C44", "title": "osqp_get_solution is repeatable", "statement": "Calling osqp_get_solution again without other calls in between returns the same vectors, for every status.", "quantifier": "every state", "why_tests_cant": "all states (it rescales internal vectors)", "anchors": ["src/osqp_api.c:osqp_get_solution", "src/auxil.c:store_solution"]}
{"id": "C45", "title": "Uninitialised solver pointers are reported, not dereferenced", "statement": "Every API function given a null or not-set-up solver returns the workspace-not-initialised error (or -1 dimensions) without touching memory.", "quantifier": "every API function and argument combination", "why_tests_cant": "includes undefined behaviour", "anchors": ["src/osqp_api.c:osqp_update_settings", "src/osqp_api.c:osqp_solve", "src/osqp_api.c:osqp_get_dimensions"]}
{"id": "C46", "title": "Error messages", "statement": "osqp_error_message returns a valid string for every error code.", "quantifier": "every integer", "why_tests_cant": "all integers", "anchors": ["src/osqp_api.c:osqp_error_message", "src/error.c:OSQP_ERROR_MESSAGE"]}
{"id": "C47", "title": "Public CSC constructors", "statement": "osqp CSC helpers build well-formed matrices equal to the zero, identity, scalar-diagonal and vector-diagonal matrices of the given (rectangular) size.", "quantifier": "every size and value", "why_tests_cant": "all sizes, both orientations of rectangular", "anchors": ["src/osqp_api.c:OSQPCscMatrix_diag_scalar", "src/osqp_api.c:OSQPCscMatrix_diag_vec", "src/osqp_api.c:OSQPCscMatrix_zeros"]}
{"id": "C48", "title": "Reduced KKT operator for indirect solvers", "statement": "The matrix-free operator, right-hand side and diagonal used by CG solvers are exactly those of P+sigma I+A'diag(rho)A, and solving the reduced system is equivalent to solving the full KKT system.", "quantifier": "every problem and step sizes", "why_tests_cant": "all data", "anchors": ["algebra/_common/reduced_kkt.c:reduced_kkt_mv_times", "algebra/_common/reduced_kkt.c:reduced_kkt_diagonal", "algebra/_common/reduced_kkt.c:reduced_kkt_compute_rhs"]}
{"id": "C49", "title": "Indirect solver tolerance", "statement": "The CG tolerance is never below its hard minimum, never grows beyond the fraction of the residuals and is non-increasing in the documented reduction counter.", "quantifier": "every residual history", "why_tests_cant": "all histories", "anchors": ["algebra/mkl/lin_sys/indirect/mkl-cg_interface.c:cg_compute_tolerance"]}
{"id": "C50", "title": "Run-time accounting", "statement": "With profiling on, after a successful solve run_time = (setup_time or update_time) + solve_time + polish_time, the first solve counts set-up time and later ones count the update time since the last solve.", "quantifier": "every clock and call history", "why_tests_cant": "clock schedules and histories", "anchors": ["src/osqp_api.c:osqp_solve", "src/osqp_api.c:osqp_update_data_vec"]}
{"id": "C51", "title": "Code-generation options validation", "statement": "osqp_codegen accepts option records exactly when embedded_mode is 1 or 2 and all switches are boolean.", "quantifier": "every option record", "why_tests_cant": "all values", "anchors": ["src/osqp_api.c:osqp_codegen"]}
{"id": "C52", "title": "Infinite bounds are recognised", "statement": "A bound given as OSQP_INFTY is treated as infinite by step-size selection and infeasibility detection.", "quantifier": "every problem and scaling", "why_tests_cant": "depends on accumulated scaling", "anchors": ["src/scaling.c:scale_data", "algebra/builtin/vector.c:OSQPVectorf_ew_bounds_type", "algebra/builtin/vector.c:OSQPVectorf_project_polar_reccone"]}
{"id": "C53", "title": "Matrix update index arguments are checked", "statement": "osqp_update_data_mat rejects, without changing anything, value counts larger than the number of non-zeros; accepted calls access only existing entries.", "quantifier": "every index list and count", "why_tests_cant": "all index lists (undefined behaviour otherwise)", "anchors": ["src/osqp_api.c:osqp_update_data_mat", "algebra/_common/csc_math.c:csc_update_values"]}
{"id": "C54", "title": "Scaling leaves the optimisation problem equivalent", "statement": "x is feasible/optimal with multiplier y for the user's problem exactly when Dinv x is, with c*Einv y, for the internally scaled problem, and unscaling a scaled solution gives it back.", "quantifier": "every positive scaling and problem", "why_tests_cant": "all data", "anchors": ["src/scaling.c:unscale_solution", "src/scaling.c:scale_data"]}
{"id": "C55", "title": "Derivative bookkeeping stays in bounds", "statement": "The index lists built for adjoint derivatives partition the constraints into lower/upper inequality and equality rows and all offsets into the preallocated right-hand side stay inside it.", "quantifier": "every bound vector", "why_tests_cant": "all bound patterns", "anchors": ["src/derivative.c:adjoint_derivative_compute"]}
{"id": "C56", "title": "A failed solve leaves the solver usable", "statement": "After osqp_solve returns non-zero because of an interrupt or a failed step-size update, problem data, scaling and bounds are unchanged, and the next solve starts from a state satisfying all solver invariants.", "quantifier": "every failure point", "why_tests_cant": "crash-point style quantification", "anchors": ["src/osqp_api.c:osqp_solve"]}
{"id": "C57", "title": "Adjoint derivatives are the gradient of the loss", "statement": "After a solve, for a loss with gradients dx, dy_l, dy_u the arrays returned by osqp_adjoint_derivative_get_mat and osqp_adjoint_derivative_get_vec are the gradient of the loss with respect to the stored entries of P (off-diagonal entries counted twice), q, A, l, u: their inner product with any change of the data equals the change of the loss along the change of the solution given by the differentiated optimality conditions.", "quantifier": "every problem, solution and loss gradient for which the differentiated conditions have a unique solution, every direction of change of the data, every linear solver", "why_tests_cant": "finite differences compare a few directions on a few problems to a few digits; the claim is an identity for all problems and directions", "anchors": ["src/derivative.c:adjoint_derivative_compute", "src/derivative.c:adjoint_derivative_get_mat", "src/derivative.c:adjoint_derivative_get_vec", "algebra/_common/lin_sys/qdldl/qdldl_interface.c:adjoint_derivative_qdldl"]}
{"id": "C58", "title": "Working in place does not change the numbers", "statement": "The iteration works in place: results overwrite operands, x and its predecessor exchange pointers, and the two halves of the linear-system vector are parts of one array. It still computes exactly the documented recurrence for any number of iterations: every vector routine returns its mathematical result when the result vector and each operand either are the same elements or share none, never reads or writes outside an array or reads uninitialised memory, and changes nothing but its result; the problem data in memory is never altered.", "quantifier": "every length, every contents of memory, every placement of the vectors (including result = operand and views into one array), every number of iterations", "why_tests_cant": "the combinations of aliasing, lengths and earlier contents of memory are unbounded, and an out-of-bounds access or a stale operand often leaves the result of a small test unchanged", "anchors": ["algebra/builtin/vector.c:OSQPVectorf_add_scaled", "algebra/builtin/vector.c:OSQPVectorf_add_scaled3", "algebra/builtin/vector.c:OSQPVectorf_ew_bound_vec", "algebra/builtin/vector.c:OSQPVectorf_view", "src/auxil.c:swap_vectors", "src/auxil.c:update_xz_tilde", "src/auxil.c:update_x", "src/auxil.c:update_z", "src/auxil.c:update_y"]}
{"id": "C59", "title": "Generated code is the solver it was generated from", "statement": "The C file written by osqp_codegen is a valid C program when compiled with the configuration header written beside it, its identifiers are distinct, and the solver it defines has the settings, problem data, scaling, factorisation and iterates of the solver it was generated from (numbers rounded to 20 decimals), no result yet, and separate room for every vector a solve writes.", "quantifier": "every problem size, every solver state after set-up, every combination of code generation options, every prefix", "why_tests_cant": "tests generate from a few solvers with a few options, and a wrong initialiser often changes nothing visible in one solve", "anchors": ["src/codegen.c:codegen_src", "src/codegen.c:write_workspace", "src/codegen.c:write_solver", "src/codegen.c:write_linsys", "src/codegen.c:codegen_defines", "include/private/types.h:OSQPWorkspace_"]}
{"id": "C60", "title": "Code generation stays inside its name buffers", "statement": "For every output directory and file prefix, osqp_codegen writes only inside its character arrays, and the files it opens are <dir><prefix>workspace.h, <dir><prefix>workspace.c, <dir>emosqp.c and <dir>osqp_configure.h.", "quantifier": "every directory and prefix string, every combination of options", "why_tests_cant": "the strings are unbounded, and an overrun by a few characters often goes unnoticed", "anchors": ["src/codegen.c:codegen_inc", "src/codegen.c:codegen_src", "src/codegen.c:codegen_example", "src/codegen.c:codegen_defines", "src/codegen.c:write_csc"]}
{"id": "C61", "title": "The reported KKT error is that of the returned point", "statement": "Whenever osqp_solve returns 0 with a status that carries a solution, info.rel_kkt_error is the largest of the primal residual, the dual residual and the duality gap of the returned point, that is of the values reported in info.", "quantifier": "every problem, setting and call history, including solves with polishing", "why_tests_cant": "it depends on which exit and which polishing outcome a solve takes", "anchors": ["src/auxil.c:update_info", "src/polish.c:polish", "src/osqp_api.c:osqp_solve"]}
{"id": "C62", "title": "A whole solve in memory does what the solver layer says", "statement": "A call to osqp_solve with polishing off, on a solver whose workspace lies in memory as osqp_setup puts it (vectors that are views of one another, pointers that are exchanged, matrices in compressed columns, a factorised linear system), never reads or writes outside an array and never reads an unset cell; it returns the exit flag, and leaves the iterates, solution and info, of the solver-level description of the algorithm; it does not change the problem vectors, the scaling vectors or any other array. The same holds after any number of solves.", "quantifier": "every problem size and pattern, every state of the workspace, every setting, every schedule of clock readings and interrupts, any number of solves", "why_tests_cant": "aliasing, pointer exchange and reuse of work vectors make a wrong value appear only for particular sequences of iterations, checks and step-size updates", "anchors": ["src/osqp_api.c:osqp_solve", "src/auxil.c:update_xz_tilde", "src/auxil.c:update_info", "src/auxil.c:check_termination", "src/auxil.c:store_solution", "src/auxil.c:adapt_rho", "algebra/_common/lin_sys/qdldl/qdldl_interface.c:solve_linsys_qdldl"]}
{"id": "C63", "title": "The linear-system object keeps solving the current system", "statement": "Setting up the linear-system object stores the KKT matrix of the given data, in whatever ordering, and refuses it exactly if it has fewer positive pivots than variables. After any sequence of step-size updates and matrix updates (of all entries or of those at given positions) its stored matrix, permuted, is the KKT matrix of the current data, its exit flags are those of the solver level, and its solve solves that system, inside its own arrays.", "quantifier": "every pattern, ordering, value, and every finite sequence of updates", "why_tests_cant": "the stored matrix is changed in place through three index maps; an error in one shows only for patterns and update sequences that hit it", "anchors": ["algebra/_common/lin_sys/qdldl/qdldl_interface.c:init_linsys_solver_qdldl", "algebra/_common/lin_sys/qdldl/qdldl_interface.c:update_linsys_solver_rho_vec_qdldl", "algebra/_common/lin_sys/qdldl/qdldl_interface.c:update_linsys_solver_matrices_qdldl", "algebra/_common/kkt.c:form_KKT", "algebra/_common/kkt.c:update_KKT_P", "algebra/_common/kkt.c:update_KKT_A", "algebra/_common/kkt.c:update_KKT_param2"]}
{"id": "C64", "title": "Primal infeasible problems are detected", "statement": "On a convex problem for which no point meets the primal tolerance, with a fixed step size, termination checks on and exact linear solves, osqp_solve does not run into its iteration limit: there is an iteration count, independent of max_iter, after which it has stopped in a scheduled check, and the status is then primal infeasible, dual infeasible or non convex, never solved. (The conflict must not come from bounds treated as infinite, and the certificate must not be below the division tolerance 1e-30.)", "quantifier": "every convex problem, scaling, step size, relaxation, starting point and call history, every iteration limit", "why_tests_cant": "it is a statement about the limit of an iteration, for every infeasible problem", "anchors": ["src/osqp_api.c:osqp_solve", "src/auxil.c:is_primal_infeasible", "src/auxil.c:check_termination", "src/auxil.c:update_y"]}
{"id": "C65", "title": "Dual infeasible problems are detected", "statement": "On a convex problem for which no point meets the dual tolerance, with a fixed step size, termination checks on and exact linear solves, osqp_solve does not run into its iteration limit: there is an iteration count, independent of max_iter, after which it has stopped in a scheduled check, and the status is then primal infeasible, dual infeasible or non convex, never solved. (The certificate must not be below the division tolerance 1e-30.)", "quantifier": "every convex problem, scaling, step size, relaxation, starting point and call history, every iteration limit", "why_tests_cant": "it is a statement about the limit of an iteration, for every unbounded problem", "anchors": ["src/osqp_api.c:osqp_solve", "src/auxil.c:is_dual_infeasible", "src/auxil.c:check_termination", "src/auxil.c:update_x"]}
{"id": "C66", "title": "Every API call in memory does what the solver layer says", "statement": "osqp_setup, called with arrays that hold a problem, reads and writes only inside arrays, reads no unset cell, and has the exit flag of the solver-level description; the new solver holds its first state. After any history of solves, data updates (vectors, matrix entries, by position or all), step-size and settings updates, warm and cold starts and solution queries, in which the caller may also write to their own memory, every call returns the exit flag and leaves the results of the solver level. A call writes to the solver's own arrays and, for osqp_get_solution, to the arrays given; the caller's other memory, and other solvers in it, are untouched. Arguments may be arrays of solver->solution.", "quantifier": "every problem size and pattern, every value, setting, history of calls and writes by the caller, every schedule of clock readings and interrupts; solves with polishing off, or polishing as specified", "why_tests_cant": "copies, in-place scaling, reuse of work vectors and arguments that alias the solver's own output give wrong values only in particular histories", "anchors": ["src/osqp_api.c:osqp_setup", "src/osqp_api.c:osqp_update_data_vec", "src/osqp_api.c:osqp_update_data_mat", "src/osqp_api.c:osqp_warm_start", "src/osqp_api.c:osqp_cold_start", "src/osqp_api.c:osqp_update_settings", "src/osqp_api.c:osqp_update_rho", "src/osqp_api.c:osqp_get_solution", "src/scaling.c:scale_data", "src/scaling.c:unscale_data"]}
{"id": "C67", "title": "A solve with polishing in memory does what the solver layer says", "statement": "osqp_solve with polishing on, after any history of API calls, reads and writes only inside arrays and reads no unset cell, in guessing the active constraints, building, ordering and factorising the reduced system, solving and refining it, computing the polished point and its residuals, and accepting or rejecting it. Its exit flag, iterates, solution and info, the polishing status included, are those of the solver-level description; the problem, the scaling and the caller's memory are untouched.", "quantifier": "every problem size and pattern, every state of the workspace, every set of active constraints, every setting and history of calls", "why_tests_cant": "the reduced arrays have sizes and index maps that depend on the data; an index error in a copy for one active set, or a scratch vector of the main iteration overwritten by the polishing, is visible only in some histories", "anchors": ["src/polish.c: polish, form_Ared, form_rhs_red, iterative_refinement, get_ypol_from_yred", "src/auxil.c: compute_prim_res, compute_dual_res, update_info", "algebra/_common/lin_sys/qdldl/qdldl_interface.c: init_linsys_solver_qdldl, solve_linsys_qdldl", "src/osqp_api.c: osqp_solve"]}
{"id": "C68", "title": "Embedded builds compute what the desktop build computes", "statement": "Take a solver over into an embedded build (OSQP_EMBEDDED_MODE 1 or 2) and give it and a desktop solver with polishing off (mode 1: also without adaptation of rho) the same API calls. Every call returns the same code, and after every call both hold the same problem, settings and iterates and report the same status, objective, residuals, iteration count, times, point and infeasibility certificates. In particular SOLVED means the same tolerances.", "quantifier": "every problem, every state of a history of API calls in which the solver is taken over, every later sequence of calls that exist in the embedded build, both modes, all build options", "why_tests_cant": "the embedded build is other code, produced by the preprocessor; a dropped line shows only in the histories that need it, and generated code is usually tested on a few problems", "anchors": ["src/osqp_api.c: osqp_solve, osqp_update_data_vec, osqp_update_data_mat", "src/auxil.c: store_solution, reset_info", "include/public/osqp_api_functions.h"]}
{"id": "C69", "title": "The fill-reducing ordering is always a permutation", "statement": "Whenever a linear system is set up, for the iteration, for polishing or for derivatives, the ordering of its rows and columns ends, accesses no array out of bounds and reads no unset cell, reports success, and leaves a permutation of all unknowns; so the matrix that is factored is the KKT matrix with rows and columns in that order, and permuted solves lose or repeat no unknown. The ordering depends on the sparsity pattern only, not on the values. A malformed pattern is reported and the caller's array left alone.", "quantifier": "every size and sparsity pattern, sorted or not, with or without repeated entries; every threshold for dense rows, every limit at which marks are reset and every modulus of the hash", "why_tests_cant": "the ordering works in place in a workspace of fixed length with garbage collection, element absorption, hash buckets and mass elimination; which of them interact depends on the pattern, and a slip shows as an overrun, an endless list or a repeated index on some patterns only", "anchors": ["algebra/_common/lin_sys/qdldl/amd/src/amd_order.c: AMD_order", "algebra/_common/lin_sys/qdldl/amd/src/amd_2.c: AMD_2", "algebra/_common/lin_sys/qdldl/amd/src/amd_1.c: AMD_1", "algebra/_common/lin_sys/qdldl/amd/src/amd_aat.c: AMD_aat", "algebra/_common/lin_sys/qdldl/amd/src/amd_valid.c: AMD_valid", "algebra/_common/lin_sys/qdldl/amd/src/amd_preprocess.c: AMD_preprocess", "algebra/_common/lin_sys/qdldl/amd/src/amd_postorder.c: AMD_postorder", "algebra/_common/lin_sys/qdldl/amd/src/amd_post_tree.c: AMD_post_tree", "algebra/_common/lin_sys/qdldl/qdldl_interface.c: permute_KKT, init_linsys_solver_qdldl, adjoint_derivative_qdldl"]}
{"id": "C70", "title": "Convex problems are never refused or failed", "statement": "If the cost matrix is positive semidefinite and data and settings are valid, osqp_setup succeeds. When osqp_setup does report a non-convex problem, there is a direction of negative curvature. After any history of calls with a convex problem: osqp_update_data_mat to a convex problem, osqp_update_rho with a positive value and osqp_update_data_vec with consistent bounds return 0, and osqp_solve returns 0 unless it is interrupted. What an accepted problem guarantees is exactly that the cost plus sigma and the rho-weighted constraints is positive definite.", "quantifier": "every problem size and pattern, every elimination order, every scaling, every setting, every history of API calls", "why_tests_cant": "whether the indefinite system can be factored in the order chosen for it, with the right number of positive pivots, is a statement about all matrices and all orders", "anchors": ["algebra/_common/lin_sys/qdldl/qdldl_interface.c: LDL_factor, init_linsys_solver_qdldl, update_linsys_solver_matrices_qdldl, update_linsys_solver_rho_vec_qdldl", "src/osqp_api.c: osqp_setup, osqp_update_data_mat, osqp_update_rho, osqp_update_data_vec, osqp_solve", "src/polish.c: polish"]}
{"id": "C71", "title": "Non-convex problems are detected", "statement": "osqp_setup refuses every problem whose cost matrix has a direction of negative curvature (beyond sigma), and no later call leaves the solver with a system that set-up would have refused while returning 0.", "quantifier": "every problem, setting and history of API calls", "why_tests_cant": "the test looks at the regularised system with the constraints folded in; whether it sees a negative direction depends on the interplay of rho, scaling and constraint matrix", "anchors": ["algebra/_common/lin_sys/qdldl/qdldl_interface.c: LDL_factor, update_linsys_solver_rho_vec_qdldl", "src/osqp_api.c: osqp_setup, osqp_update_rho"]}
{"id": "C72", "title": "Conjugate gradients on the GPU solve the system of the current data", "statement": "With the CUDA back end, after any sequence of linear solves, warm starts, settings updates, matrix updates and rho updates of a convex problem, every linear solve succeeds without a division by zero; it ends when the residual of the reduced KKT system of the current matrices and step sizes is within the tolerance or the iteration limit is used up, needs at most as many iterations as there are variables, and never returns a worse point than the one it started from. The constraint part it returns is exactly A x (or the multiplier, in polishing). The preconditioner always belongs to the current data. If the tolerance is met, the distance to the exact solution is at most tolerance * sqrt(n) / sigma.", "quantifier": "every problem size, sparsity pattern, convex data, settings, history of operations of the linear solver, right-hand side and iteration number", "why_tests_cant": "termination within n iterations, absence of zero divisions and freshness of the preconditioner are statements about all positive semidefinite matrices and all orders of updates", "anchors": ["algebra/cuda/lin_sys/indirect/cuda_pcg.cu: cuda_pcg_alg, mat_vec_prod, cuda_pcg_update_precond", "algebra/cuda/lin_sys/indirect/cuda_pcg_interface.cu: init_linsys_solver_cudapcg, solve_linsys_cudapcg, update_settings_linsys_solver_cudapcg, warm_start_linsys_solver_cudapcg, update_linsys_solver_matrices_cudapcg, update_linsys_solver_rho_vec_cudapcg"]}
{"id": "C74", "title": "The matrices on the GPU are the user's", "statement": "With the CUDA back end, after set-up and any sequence of osqp_update_data_mat calls (all values or some) and scalings, the full cost matrix, the constraint matrix and its transpose in device memory are the matrices with the user's current values, every cell of them has been written, no access is out of bounds whatever the order in which threads write, and the positions the preconditioner takes the diagonal from are those of the diagonal.", "quantifier": "every problem size and sparsity pattern, every sequence of updates and scalings, every sort that the library may perform, every order of the threads", "why_tests_cant": "missing diagonal entries, the order of whole and partial updates and the order of threads multiply; uninitialised device memory is often zero in tests", "anchors": ["algebra/cuda/src/cuda_csr.cu: csr_triu_to_full, csr_transpose, cuda_mat_init_P, cuda_mat_init_A, cuda_mat_update_P, cuda_mat_update_A", "algebra/cuda/matrix.cu: OSQPMatrix_new_from_csc, OSQPMatrix_update_values", "algebra/cuda/src/cuda_lin_alg.cu: cuda_vec_gather, scatter, cuda_mat_mult_sc, cuda_mat_lmult_diag, cuda_mat_rmult_diag"]}
{"id": "C73", "title": "Vector operations on the GPU do not depend on the schedule", "statement": "With the CUDA back end, every vector operation gives what the same operation of the built-in back end gives, whatever the order in which the threads of the kernel make their memory accesses: it ends, no access is out of bounds or to memory never written, and nothing but the result changes.", "quantifier": "every vector length and contents, every admissible sharing of memory between operands and result, every interleaving of the accesses of all threads of the launch", "why_tests_cant": "the number of interleavings of 1024 or more threads is astronomical and a test run sees one of them; a race that goes the right way in every test still goes the wrong way on other hardware", "anchors": ["algebra/cuda/src/cuda_lin_alg.cu: vec_*_kernel, cuda_vec_*", "algebra/cuda/vector.cu: OSQPVectorf_*", "algebra/_common and algebra/builtin/vector.c: OSQPVectorf_*"]}
{"id": "C75", "title": "Products, norms and selection of rows on the GPU", "statement": "With the CUDA back end, products with the matrices of the problem and with their transposes, the norms of their rows and columns, and the matrix of selected rows are those of the matrix with the current values, whatever the order in which threads write; no access is out of bounds or to memory never written.", "quantifier": "every constraint matrix given by columns, with any dimensions and any entries including none, every history of updates and scalings, every vector, every selection of rows, every order of the writes and every bracketing of the reductions", "why_tests_cant": "the failures need particular shapes (no entries and more rows than columns, selected rows without entries), and results over unwritten or foreign memory often look right", "anchors": ["algebra/cuda/src/cuda_csr.cu: csr_init, csr_transpose, compress_row_ind, csr_expand_row_ind, cuda_mat_init_A, cuda_submat_byrows, compact, compact_rows", "algebra/cuda/src/cuda_lin_alg.cu: cuda_mat_Axpy, cuda_mat_row_norm_inf, Segmented_reduce, abs_maximum", "algebra/cuda/matrix.cu: OSQPMatrix_Axpy, OSQPMatrix_Atxpy, OSQPMatrix_col_norm_inf, OSQPMatrix_row_norm_inf, OSQPMatrix_submatrix_byrows"]}
{"id": "C76", "title": "A linear-system step of the MKL conjugate-gradient solver solves the current system within its tolerance", "statement": "With the MKL back end and the indirect solver, every step of the iteration and of polishing works with the answer to the linear system of the current matrices, step sizes and settings, accurate to the tolerance of that step, for every setting the library accepts; no step reads memory never written.", "quantifier": "every problem, every history of solves, warm starts and changes of matrices, step sizes and settings, every right-hand side, every routine that keeps the documented protocol of MKL's dcg, however it ends", "why_tests_cant": "the answer depends on how a closed routine ends, on every order of updates, and stale or unwritten memory usually only slows convergence", "anchors": ["algebra/mkl/lin_sys/indirect/mkl-cg_interface.c: init_linsys_mklcg, cg_solver_init, cg_update_precond, solve_linsys_mklcg, update_settings_linsys_solver_mklcg, update_matrices_linsys_mklcg, update_rho_linsys_mklcg", "algebra/_common/reduced_kkt.c: reduced_kkt_mv_times, reduced_kkt_diagonal, reduced_kkt_compute_rhs", "src/auxil.c: update_xz_tilde, validate_settings", "src/osqp_api.c: osqp_setup, osqp_update_rho"]}
{"id": "C77", "title": "A step of the MKL direct solver solves the linear system of the current data", "statement": "With the MKL back end and the direct solver, creating the solver hands PARDISO exactly the matrix of the problem in the format its manual asks for and refuses a non-convex problem; after any sequence of solves and successful updates of matrices and step sizes, every successful solve gives the ADMM step of the current data, updates refuse non-convex data like creation does, and a failed creation can be cleaned up.", "quantifier": "every problem with a well-formed upper triangle, every history of solves and updates of any listed entries, scalar or vector step sizes, every right-hand side, every outcome of PARDISO's phases, failing allocations of the matrix", "why_tests_cant": "the matrix in PARDISO is kept through index maps over every sparsity pattern and every order of updates; a wrong diagonal usually only changes the speed of convergence; allocation failures are not exercised", "anchors": ["algebra/mkl/lin_sys/direct/pardiso_interface.c: init_linsys_solver_pardiso, solve_linsys_pardiso, update_linsys_solver_matrices_pardiso, update_linsys_solver_rho_vec_pardiso, free_linsys_solver_pardiso", "algebra/_common/kkt.c: form_KKT, update_KKT_P, update_KKT_A, update_KKT_param2", "src/osqp_api.c: osqp_setup, osqp_cleanup"]}
{"id": "C78", "title": "With the MKL back end a matrix object always stands for the current matrix", "statement": "With the MKL back end, creating a matrix object from any well-formed compressed-column matrix succeeds unless MKL reports an error; after any sequence of changes of values, scalings and row selections, products with the object (also transposed and symmetric), its norms and the linear operator of the indirect solver are those of the current matrix, and reading the matrix back gives the same matrix.", "quantifier": "every well-formed matrix, with or without entries and with or without spare cells in its arrays, every history of value changes, scalings and row selections, all vectors and factors, every sparse library that meets its manual", "why_tests_cant": "the object and MKL's handle share memory over every history; test matrices usually have entries and no spare cells; a wrong factor in the operator only changes the iterates slowly", "anchors": ["algebra/mkl/matrix.c: OSQPMatrix_new_from_csc, OSQPMatrix_update_values, OSQPMatrix_mult_scalar, OSQPMatrix_lmult_diag, OSQPMatrix_rmult_diag, OSQPMatrix_Axpy, OSQPMatrix_Atxpy, OSQPMatrix_col_norm_inf, OSQPMatrix_row_norm_inf, OSQPMatrix_submatrix_byrows, OSQPMatrix_get_csc", "algebra/_common/reduced_kkt.c: reduced_kkt_mv_times", "src/osqp_api.c: OSQPCscMatrix_zeros"]}
{"id": "C79", "title": "Comparing matrices and vectors and expanding a matrix is exact", "statement": "Comparing two matrices or vectors says yes exactly when they have the same dimensions and the same pattern and their values differ by at most the tolerance; the dense copy of a compressed-column matrix holds its entries; neither touches memory outside the arrays.", "quantifier": "every pair of well-formed matrices of any sizes and patterns, also with positions stored twice and columns without entries, every tolerance, all vectors", "why_tests_cant": "test suites use the comparison as their own oracle, so an error in it hides other errors; the dense copy walks over the columns with a second index that must keep up over every pattern", "anchors": ["algebra/_common/csc_utils.c: csc_is_eq, csc_to_dns", "algebra/builtin/vector.c: OSQPVectorf_is_eq", "algebra/builtin/matrix.c: OSQPMatrix_is_eq"]}
{"id": "C80", "title": "The step does not depend on the linear solver", "statement": "For a convex problem the equations of a step have one solution. The built-in direct solver and the MKL direct solver return the same numbers for the same data and right-hand side after any histories; an indirect solver that reports success returns a point within its tolerance, times the root of the number of variables, divided by sigma, of that solution.", "quantifier": "every convex problem, every pair of histories of updates and solves that end with the same data, every ordering, every right-hand side, sigma > 0 and all step sizes", "why_tests_cant": "solvers are compared on a handful of problems; agreement must hold after every history, and a solver that solves a slightly different system still converges", "anchors": ["algebra/_common/lin_sys/qdldl/qdldl_interface.c: solve_linsys_qdldl", "algebra/mkl/lin_sys/direct/pardiso_interface.c: solve_linsys_pardiso", "algebra/mkl/lin_sys/indirect/mkl-cg_interface.c: solve_linsys_mklcg", "src/auxil.c: update_xz_tilde"]}
{"id": "C81", "title": "The MKL vector routines compute what the built-in ones do", "statement": "Given MKL routines that do what their documentation says, every vector operation of the MKL back end gives the documented result, also when the result is one of its operands where the library calls it so, changes nothing else, and leaves exactly the memory the built-in operation leaves; so any number of iterations of the solver on the workspace in memory computes what the solver specifies.", "quantifier": "every library that keeps to the documentation, vectors of any length (also 0) at any place in memory, all values, every way operands may coincide, any number of iterations on any problem", "why_tests_cant": "the documentation allows some routines to work in place and not others; a library may happen to tolerate overlap on small vectors, so tests cannot show that every call keeps to the rules", "anchors": ["algebra/mkl/vector.c: OSQPVectorf_copy, OSQPVectorf_add_scaled, OSQPVectorf_norm_inf, OSQPVectorf_ew_max", "algebra/mkl/blas_helpers.h", "src/auxil.c: compute_rhs, update_x, update_z, update_y"]}
{"id": "C82", "title": "A solve can be cut into pieces", "statement": "With warm starting and a fixed step size, a solve stopped by an iteration limit of a, followed by a solve with the limit b, leaves the same iterate and returns the same primal and dual point as one solve with the limit a + b, as long as none of them stops early, finds a certificate, or polishes.", "quantifier": "every solver state, every problem, all limits a and b, every linear-system solver, all settings with a fixed step size", "why_tests_cant": "anything a solve changes in the workspace when it ends (residuals, certificates, unscaled copies in scratch vectors, status) may leak into the next solve; that nothing does must hold for every state and every way of cutting", "anchors": ["src/osqp_api.c: osqp_solve, osqp_update_settings", "src/auxil.c: store_solution, swap_vectors, update_info"]}
{"id": "C83", "title": "Settings that only observe do not change the point", "statement": "Verbosity, the tolerances, the termination checks and their interval, the kind of termination, the time limit and profiling only observe the iteration: two solves from the same state whose settings differ only in them, and that run the same number of iterations, return the same primal and dual point and report the same values.", "quantifier": "every solver state, every problem, every linear-system solver, all pairs of accepted settings with the same relaxation parameter and iteration limit", "why_tests_cant": "the residuals are computed into vectors the step also uses, at times that depend on these settings; that no such evaluation disturbs the iteration must hold for every state and every schedule of evaluations", "anchors": ["src/osqp_api.c: osqp_solve, osqp_update_settings", "src/auxil.c: update_info, check_termination"]}
{"id": "C84", "title": "The primal-dual integral is a running total", "statement": "The reported primal-dual integral is zero after setup, is never negative, is changed by no call but a solve, and a solve never makes it smaller; it is not set back between solves.", "quantifier": "every history of API calls, every problem, all settings, every linear-system solver, every clock", "why_tests_cant": "the value accumulates over an unbounded history of calls", "anchors": ["src/auxil.c: update_info", "include/public/osqp_api_types.h: OSQPInfo.primdual_int"]}
{"id": "C85", "title": "The polishing parameter delta touches nothing but polishing", "statement": "Changing the polishing regularisation setting, at setup or later, changes no iterate, status, statistic, return code or unpolished solution in any later call. (Proved in a stronger form that is a defect: with the built-in and MKL back ends not even the polished solution depends on it.)", "quantifier": "every problem, all settings, all pairs of positive values, every state, every finite sequence of later API calls with any arguments, every linear-system solver and clock", "why_tests_cant": "a setting that is read in a wrong place, or nowhere, shows only in a comparison of unboundedly long call sequences for all values", "anchors": ["src/osqp_api.c: osqp_setup, osqp_update_settings, osqp_solve", "src/polish.c: polish", "algebra/_common/lin_sys/qdldl/qdldl_interface.c: init_linsys_solver_qdldl", "include/public/osqp_api_types.h: OSQPSettings.delta"]}
{"id": "C86", "title": "Only the final vectors matter, not how they were given", "statement": "Two sequences of updates of the cost vector and the bounds that start from the same solver and leave the user with the same vectors (in any grouping and order, with detours and rejected updates) leave the same problem, scaling, step sizes, linear system and iterate, so with warm starting off the next solve gives the same result.", "quantifier": "every history of API calls, all pairs of finite sequences of vector updates with any arguments, every linear-system solver and clock", "why_tests_cant": "pairs of unboundedly long call sequences from every reachable state", "anchors": ["src/osqp_api.c: osqp_update_data_vec, osqp_solve", "src/auxil.c: update_rho_vec, set_rho_vec, reset_info", "src/scaling.c: unscale_data"]}
{"id": "C87", "title": "Of several warm starts the last given vectors count", "statement": "After any sequence of warm starts, each with any of the two vectors given or NULL, the solver is in every respect as after a single warm start with the last given primal vector and the last given dual vector; so the two vectors can be given in one call or two, in either order, and all calls return 0.", "quantifier": "every solver state, every finite nonempty sequence of warm starts with any arguments", "why_tests_cant": "unboundedly many sequences from every state, and equality of the whole state", "anchors": ["src/osqp_api.c: osqp_warm_start"]}
{"id": "C88", "title": "Of several step-size updates the last accepted one counts", "statement": "After any sequence of step-size updates, with rejected values among them, the solver is, but for the measured update time, as after a single update with the last positive value (and unchanged if there is none); and what an update returns does not depend on the updates before it.", "quantifier": "every solver state, every finite sequence of values, every linear-system solver and clock", "why_tests_cant": "unboundedly many sequences from every state, and equality of the whole state", "anchors": ["src/osqp_api.c: osqp_update_rho", "algebra/_common/lin_sys/qdldl/qdldl_interface.c: update_linsys_solver_rho_vec_qdldl"]}
{"id": "C89", "title": "When settings are updated among other updates does not matter", "statement": "A settings update, accepted or rejected, can be made before or after any updates of the vectors, the matrices and the step size and resets of the iterate: the solver ends in the same state and each call returns the same code. Of several settings updates the last accepted one counts. The exception is a warm start, which switches warm starting on: made after a settings update that switches it off it is used by the next solve, made before it is not.", "quantifier": "every solver state, every finite sequence of such updates with any arguments, all settings, every linear-system solver and clock", "why_tests_cant": "unboundedly many sequences from every state, and equality of the whole state", "anchors": ["src/osqp_api.c: osqp_update_settings, osqp_update_data_vec, osqp_update_data_mat, osqp_update_rho, osqp_cold_start, osqp_warm_start"]}
{"id": "C90", "title": "A starting point survives updates", "statement": "A warm start can be made before or after updates of the problem data and the step size: the next solve starts from the same point, and the solver ends in the same state with the same return codes.", "quantifier": "every solver state, every starting point (either vector given or NULL), every finite sequence of updates with any arguments, accepted, rejected or failed, every linear-system solver and clock", "why_tests_cant": "unboundedly many sequences from every state, and equality of the whole state", "anchors": ["src/osqp_api.c: osqp_warm_start, osqp_update_data_vec, osqp_update_data_mat, osqp_update_rho", "src/scaling.c: scale_data, unscale_data"]}
