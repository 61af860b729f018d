# Formal model of osqp/osqp in Lean 4 — design

Source of truth: `/repo`, read as text and never built. The Lean project is in `lean/`. The English
properties are in `properties.jsonl`, the status of each in `MANIFEST.json`, the record of deliberately
wrong programs in `seeded/LOG.jsonl`.

## 1. Modelling decisions

* **Numbers.** `OSQPFloat` is an element of an arbitrary linearly ordered field `K`
  (`[Field K] [LinearOrder K] [IsStrictOrderedRing K]`): exact arithmetic. Rounding and overflow are not
  modelled. IEEE special values are modelled only in `Model/Ieee.lean`, for the clamping of the step size
  and the validation of settings (C18, C29). `c_sqrt` is a parameter; a theorem that needs a fact about
  it (`0 < x → 0 < sqrt x`) has it as a hypothesis. Convergence (C42) additionally needs an Archimedean
  field. Counterexamples and demonstration runs are over `ℚ`, evaluated by the kernel.
* **Integers.** `OSQPInt` is `Int` (settings, error codes) or `Nat` (sizes, indices). Integer overflow is
  not modelled.
* **Build configuration.** Desktop build (`OSQP_EMBEDDED_MODE` undefined) except where a theorem says "embedded"
  (`Model/Embed`, C68: modes 1 and 2), built-in algebra with the QDLDL direct solver. `OSQP_ENABLE_PROFILING`, `OSQP_ENABLE_PRINTING` and `OSQP_ENABLE_INTERRUPT` are boolean
  parameters (`Cfg`), so theorems hold for all eight combinations.
* **Undefined behaviour** is a separate outcome (`none`, or `Out.ub` in the allocation layer). "No
  out-of-bounds access, no read of an uninitialised cell, no null dereference" therefore means "the result
  is `some _`", and is part of every raw-memory theorem.
* **External code** (clock, interrupt polls, numeric factorisation, triangular solves, allocator) is
  a parameter of the model. Theorems quantify over every behaviour of it; a theorem that needs it to be
  correct says so in a hypothesis, and a concrete instance of the hypothesis is shown beside the theorem.

## 2. Layers

| Layer | Directory | What it models |
|-------|-----------|----------------|
| Raw memory | `Verif/Csc` | CSC routines on buffers with a size and possibly uninitialised cells: `csc_math.c`, `csc_utils.c`, `kkt.c`, `reduced_kkt.c`, the CSC helpers of `osqp_api.c`, `validate_data`, the permuted solve of `qdldl_interface.c`, and the adjoint derivatives |
| Solver | `Verif/Model` | `auxil.c`, `scaling.c`, `polish.c`, `osqp_api.c` as total functions on an explicit solver state. Sparse matrices are a fixed pattern plus values; vectors are `Fin n → K` |
| Refinement | `Props/Refine`, `Props/LinSys`, `Props/Validate` | the matrix operations of the solver layer are what the raw routines compute on every representation of the matrix |
| Shared vectors | `Verif/Vm` | the routines of `vector.c` on vectors that are pointers into shared arrays, and the ADMM iteration on the workspace as it lies in memory (pointer exchange, views, in-place linear solve), all of `osqp_solve` on it (`Vm/Solve`), the QDLDL object with its updates (`Vm/Qdldl`), set-up and all other API calls (`Vm/Api`), polishing (`Vm/Polish`) |
| Histories | `Spec/History`, `Lemmas/Hist*` | an inductive type of API calls; invariants by induction over every history that starts with a successful set-up |
| Allocation | `Verif/Mem` | `osqp_setup` and `osqp_cleanup` as programs over a heap with an allocator that may refuse any request; null checks of every API function |
| Indirect solver | `Model/Cg`, `Props/Cg` | tolerance rule of the CG interface (`algebra/cuda/lin_sys/indirect`) and its reduced system |
| MKL | `Verif/Mkl` | the conjugate-gradient interface of the MKL back end (`Cg`), a routine meeting the contract of `dcg` (`Ref`), the PARDISO interface (`Pardiso`) and a small library for its examples (`PardisoDemo`), matrix objects (`Mat`), vectors (`Vec`) |
| GPU | `Verif/Cuda` | the CUDA back end: conjugate gradients and preconditioner (`Pcg`), matrices in device memory (`Mats`), vector kernels under every schedule of their threads (`Gpu`), compressed rows, norms and row selection (`Rows`) |
| Generated code | `Verif/Gen` | the writers of `codegen.c` as a list of C declarations, a small semantics of C initialisers (`CLang`), and loaders that read the solver back from the compiled variables; names and paths in `Gen/Names` |
| Embedded builds | `Model/Embed` | the functions of the solver layer that `OSQP_EMBEDDED_MODE` 1 or 2 changes |
| Ordering | `Verif/Amd` | the approximate minimum degree ordering on its workspace: quotient graph, garbage collection, element absorption, supervariables, mass elimination, assembly tree and postorder; the set-up of the linear system with the ordering inside is `Vm/QdldlAmd` |
| Convergence | `Verif/Conv` | Lyapunov argument for the ADMM iteration and its link to the solver layer |

Specifications, written without the model's helper functions, are in `Verif/Spec` (solver layer),
`Csc/Spec`, `Csc/KktSpec`, `Csc/DerivSpec` (raw layer), `Amd/Spec` (ordering), `Vm/Spec`, `Vm/AdmmSpec`, `Vm/SolveSpec`, `Vm/QdldlSpec`, `Vm/ApiSpec`, `Vm/PolishSpec` (shared vectors), `Gen/Spec` (generated code). Property theorems are in `Verif/Props`,
counterexamples in `Verif/Cex` (and beside the property for the raw layer), demonstration instances in
`Verif/Demo`, `Csc/Demo`, `Csc/DerivDemo`. `tools/gen_frame.py` generated `Lemmas/Frame.lean`
(which field each function leaves alone); the generated file is committed.

## 3. Trusted base

* Lean 4.33.0's kernel, and Mathlib as installed.
* Axioms: every theorem named in `MANIFEST.json` depends on a subset of `propext`, `Classical.choice`,
  `Quot.sound`. The list per theorem is in section 8. There are no other axioms, no `sorry`, no
  `native_decide`, no `bv_decide`. `decide +kernel` is used on closed decidable statements (demonstration
  runs and counterexamples, and the 64 boolean configurations of the allocation layer).
* The transcription from C to Lean. Each definition cites the file and lines it models and names its
  simplifications.
* Exact arithmetic in place of floating point.
* QDLDL, which is not in the repository. The ordering AMD, which is (`algebra/_common/lin_sys/qdldl/amd`), is modelled
  and proved to leave a permutation (C69); the theorems that take a permutation as a parameter hold with the one it
  computes (`Props/AmdLink`). Where a theorem says
  "exact solves", the triangular solves solve the factored system exactly (C40, C42, C57). In C63 they are
  parameters with the specification `QdldlIs`: pivot count and solution depend on the stored matrix as the
  solver layer's environment says (`exact_is` gives an instance), and in C67 with `QdldlPolIs` for the reduced system (instance: `exactPol_is`).
* In C70 and C71, QDLDL counts pivots (`Spec.CountsPivots`): for each matrix it is given, permuted in some order, it returns the
  number of positive pivots of an LDLᵀ factorisation if there is one, and a negative number only if there is none. `counting_ok` gives an instance.
* For generated code (C59): `Gen/CLang` states what C11 gives to the file-scope definitions that the generator
  writes (positional initialisers, missing initialisers are zero, addresses of objects, conversions of
  constants); `printf` of a number with 20 decimals is a parameter `pr`, of which the round-trip theorem
  assumes that it is within half a unit of the last decimal; structure layouts are those of the headers
  in `/repo/include`.
* For the CUDA back end (C73): accesses of threads take effect one after the other, atomic operations as one access; `cublasTaxpy`, `cublasTscal`, `cudaMemcpy`, `cudaMemset` do what their documentation says.
* For the MKL back end (C81): MKL's BLAS and vector mathematics, by the contract `MklVec.Documented`, in exact arithmetic.
* For the MKL back end (C78): MKL's sparse product, by the contract `MklMat.Honest`; a handle refers to the arrays of the object (the code's own comment says so); a product without a handle changes nothing.
* For the MKL back end (C77): MKL's `PARDISO`, by the contract `Pardiso.Exact`: when factorisation and solve report no error, the solution is exact; without `iparm[5]` the array `b` is unchanged; the sizes of the arrays are kept.
* For the MKL back end (C76): MKL's `dcg_init`, `dcg_check` and `dcg`, by the contract `Spec.Honest`: at a request 2 the third part of `tmp` is the exact residual of the current iterate, and a request 3 is made only with the preconditioner switched on.  Which code `dcg` gives at the iteration limit is not assumed.
* For the CUDA back end (C75): `cusparseXcoo2csr`, `cusparseXcsr2coo`, `cusparseSpMV`, `thrust::inclusive_scan`, `thrust::reduce_by_key` (any bracketing) and `thrust` gathers do what their documentation says.
* For the CUDA back end (C72, C74): `cusparseXcoosortByRow` permutes by rows (`SortsByRow`, instance `sorter_ok`), also when row numbers exceed the number of rows it is given, as the library relies on; cuBLAS (`scal`, `axpy`, `dot`, `Iamax`), cuSPARSE (`SpMV`) and thrust (`reduce_by_key`, `gather`) compute what their
  documentation says; launches on one stream run in order; no CUDA call fails.
* libc, the operating system's clock and signal delivery.

## 4. Code that is modelled

| File | Modelled | Not modelled |
|------|----------|--------------|
| `src/osqp_api.c` | set-up, solve loop, cleanup, warm and cold start, get_solution, all update functions, settings update, version/capability/dimension queries, code generation entry, adjoint entry points, CSC helpers | printing, `osqp_get_ABI`-style queries (the `OSQP_EMBEDDED_MODE` branches are in `Model/Embed`) |
| `src/auxil.c` | all of the iteration, residuals, objective, termination, infeasibility checks, rho selection and adaptation, solution storing, info update, status, validation | printing inside validation |
| `src/scaling.c` | all | |
| `src/polish.c` | active set, reduced matrix, refinement, acceptance (solver layer); the same on memory (`Vm/Polish`) | failure of an allocation |
| `src/error.c`, `src/interrupt_unix.c`, `src/timing_linux.c` | message table; handler save/restore; clock as a parameter | Windows and macOS variants |
| `src/derivative.c` | all of the adjoint computation on raw memory | |
| `src/codegen.c` | decision logic; every declaration of the workspace file and its initialisers; the switches of the configuration header; names and paths | comments and layout of the text, the example program, the copying of library sources |
| `src/util.c` | copy of settings, message length | header and footer printing |
| `src/profilers*.c` | nothing (no observable effect) | all |
| `algebra/_common/csc_math.c`, `csc_utils.c`, `kkt.c`, `reduced_kkt.c` | every routine | printing |
| `algebra/_common/lin_sys/qdldl/qdldl_interface.c` | permutation, solve, z~ reconstruction, matrix and rho updates, adjoint system, refinement | factorisation (oracle), allocation inside the init function |
| `algebra/builtin/matrix.c` | as mathematical operations in the solver layer, proved equal to the raw routines | |
| `algebra/builtin/vector.c` | as mathematical operations in the solver layer; every floating-point routine used by the solver also on memory, with aliasing (C58) | allocation, `norm_2`, most integer-vector routines |
| `algebra/_common/lin_sys/qdldl/amd` | `amd_order` and all it calls, with default control parameters | statistics, printing, integer overflow, failing allocation |
| `algebra/cuda/lin_sys/indirect` | all of the conjugate-gradient solver and its interface | allocation and release of device memory |
| `algebra/cuda/src/cuda_csr.cu`, `algebra/cuda/matrix.cu` | creation and update of both matrices, row pointers, products, norms, selection of rows | `cuda_csr_is_eq`, extraction of the diagonal |
| `algebra/cuda/src/cuda_lin_alg.cu`, `algebra/cuda/vector.cu` | the kernels `vec_*` and their calls | `vec_int_eq_kernel`, norms, mean and products by cuBLAS, subvectors |
| `algebra/cuda` (rest) | gather, scatter, scaling kernels | device memory management, conversions to and from the device |
| `algebra/mkl` | `mkl-cg_interface.c` in full (loop around `dcg`, tolerance, preconditioner, updates; allocation failures not), `pardiso_interface.c` in full (of the allocations only that of `form_KKT` may fail), reduced right-hand side and operator, `matrix.c` (matrices with data; not `extract_diag`, `is_eq`, freeing), `vector.c` (C81; the routines that are the built-in loops word for word are those of C58) | allocation and freeing, integer vectors, `norm_2` |

## 5. Defects of the code proved as counterexamples

Each is a theorem on a concrete run of the model, evaluated by the kernel; the property keeps a
`_partial` theorem (or an explicit exclusion) for what does hold.

| Theorem | Defect |
|---------|--------|
| `c14_counterexample`, `c02_counterexample`, `c27_counterexample` | `osqp_solve` does not reset the status, and a clock stop right after a check skips the info update: a status or residual of an earlier solve is reported |
| `c04_counterexample`, `c18_counterexample` | scalar step size with an initial rho outside the limits: the stored inverse belongs to the unclamped value |
| `c19_counterexample` | a matrix update of a scaled problem rescales the bounds but not the constraint classification |
| `c21_counterexample` | time mode picks an interval of at most 1 (`c_min` for `c_max`) |
| `c25_counterexample` | a rejected bound update overwrites the vector the primal certificate is read from |
| `Csc.c28_counterexample`, `Csc.c28_unchecked_rows` | missing bound arrays are dereferenced; row indices are not checked |
| `Csc.c35_csr_counterexample` | in-place update of the compressed-row KKT matrix writes the wrong entries |
| `Csc.c38_tripletToCsr_overrun` | the unused `triplet_to_csr` sizes its row pointers by columns |
| `Mem.c43_view_counterexample`, `Mem.c43_rhs_counterexample` | two allocations of set-up are used or left unchecked |
| `Mem.c45_*_counterexample` | null or half-built solvers that are dereferenced |
| `c46_counterexample` | `osqp_error_message` indexes its table with codes at or below zero |
| `c18_scalar_nan_counterexample`, `c29_nan_counterexample` | a NaN step size or setting passes the checks |
| `Cg.c49_counterexample` | the first CG tolerance can be below the later ones |
| `c50_counterexample`, `c50_polish_counterexample` | stale timers |
| `c61_counterexample` | a rejected polishing step overwrites the KKT error in `info` |
| `c52_counterexample` | an infinite bound shrinks below the recognition threshold after repeated scaling |
| `c53_counterexample` | indices of a matrix update are not checked |
| `Csc.c57_counterexample`, `Csc.c57_zero_multiplier_counterexample` | the refinement of the adjoint system stops at 200 rounds without an error; equality rows with multiplier zero divide by zero |
| `Gen.c59_record_lost`, `Gen.c59_new_rejected` | the initialiser of the generated workspace leaves out the members compiled in with profiling, printing or derivatives: later values land in the wrong members, the timer is null, or the file is invalid |
| `Gen.c59_tiny_sigma` | numbers below 5e-21 are written as zero, so a valid setting becomes an invalid one |
| `c68_certificate_lost` | embedded builds report infeasibility but never store the certificate |
| `c68_types_stale` | embedded mode 1 does not refresh constraint types and step sizes after a bounds update |
| `Amd.c69_overrun` | the check of a pattern reads behind the index array when a middle column pointer is larger than the number of entries |
| `c71_counterexample` | a problem with negative curvature is accepted as convex when `rho AᵀA` outweighs it |
| `c71_counterexample_rho` | `osqp_update_rho` returns 0 although the system loses the definiteness that set-up insists on (only the sign of the return value of the factorisation is looked at) |
| `Cuda.c74_diagonal_counterexample`, `Cuda.c74_uninitialised` | CUDA: an update of all values of `P` puts unwritten memory on the diagonal where the user gave no diagonal entry |
| `Cuda.c74_stale_counterexample`, `Cuda.c74_stale` | CUDA: an update of some values of `P` after an update of all brings the other entries back to their old values |
| `Cuda.c74_twice_counterexample` | CUDA: of repeated diagonal entries of `P` only some are kept |
| `Gpu.c73_is_eq_counterexample` | CUDA: `OSQPVectorf_is_eq` may find different vectors equal, because every thread of the kernel first sets the answer to 1 (used only by the tests of the library) |
| `Gpu.c73_minus_counterexample` | CUDA: `OSQPVectorf_minus`, `_plus`, `_add_scaled` with the result over the second operand lose it (the library makes no such call) |
| `Cuda.c75_empty`, `Cuda.c75_empty_counterexample` | CUDA: a constraint matrix without entries and with more rows than columns has too few row pointers; the products of the conjugate-gradient solver read beyond them |
| `Cuda.c75_select_no_entries` | CUDA: polishing a problem whose constraint matrix has no entries allocates an uninitialised number of cells |
| `Cuda.c75_select_empty_rows`, `Cuda.c75_select_counterexample` | CUDA: if the active constraints have no entries and are fewer than the variables, the transpose has too few row pointers; products read beyond them |
| `Cuda.c75_norms_empty` | CUDA: norms of a matrix without entries are not written (harmless in scaling, `c75_scaling_norms`) |
| `Mkl.c76_failed`, `Mkl.c76_limit_counterexample` | MKL, indirect solver: if MKL's routine ends with a code other than 0 and 2 (mkl-cg_interface.c:271), for instance at the iteration limit, the iterate is dropped and the iteration goes on with the right-hand side; `update_xz_tilde` (auxil.c:169) and polishing ignore the code, which is 2, not 0, on success |
| `Mkl.c76_scalar_counterexample` | MKL, indirect solver: with `rho_is_vec = 0` there is no vector of step sizes and `init_linsys_mklcg` and `update_rho_linsys_mklcg` read through the null pointer |
| `Mkl.c76_precond_counterexample` | MKL, indirect solver: `cg_precond` is not validated; a value other than 0 and 1 switches on a preconditioner that is never computed |
| `Pardiso.c77_lost` | MKL, direct solver: after an update of a diagonal entry of `P` in a column with other entries, `sigma` is missing at that place of the factorised matrix (pardiso_interface.c:312 with kkt.c, format 1), for every reachable object |
| `Pardiso.c77_unchecked` | MKL, direct solver: the number of positive eigenvalues is checked at creation (pardiso_interface.c:236-240) and not after updates (:318-326), so non-convex data are refused by setup and accepted by an update |
| `Pardiso.c77_dangling` | MKL, direct solver: if `form_KKT` returns null the object is freed and `*sp` still points to it (pardiso_interface.c:156-159); `osqp_cleanup` (osqp_api.c:1095-1099) uses it |
| `MklMat.c78_empty`, `MklMat.c78_operator_lp` | MKL: when MKL makes no handle and reports "not initialised", which matrix.c:103-105 expects of a matrix without entries, products with the object leave `y` as it was; with `P = 0` the operator of the indirect solver is then `I + A'*diag(rho)*A` for every `sigma`. Conditional on that report |
| `MklMat.c78_spare` | MKL: creation copies `nzmax` entries (matrix.c:88-91) and so reads spare cells that were never written; the built-in back end does not |
| `MklMat.c78_get` | MKL: `OSQPMatrix_get_csc` (matrix.c:134-169) takes the number of entries one too high and reads past the array; nothing in the library calls it |
| `Csc.c79_rows_ignored`, `Csc.c79_dense_counterexample` | `csc_is_eq` (csc_utils.c:6-32) does not compare the number of rows; `csc_to_dns` (:411-434) overwrites in place of adding when a position is stored twice. The first is the comparison the test suite relies on |
| `c82_adaptive_counterexample` | the count of iterations for the adaptation of the step size starts anew with every solve (osqp_api.c:775-845), so a solve cut in two gives another point than the uncut one |
| `c83_integral_counterexample`, `c83_reset_counterexample` | `primdual_int` adds the duality gap at every evaluation of the residuals (auxil.c:747-749), so it depends on `verbose` and on the checks, and no solve sets it back, although the header describes an integral over time |
| `MklVec.c81_axpy_counterexample` | `x = x + a x` in place: the MKL back end passes overlapping operands to `daxpy`, which the documentation of the library does not allow; no call in the code does this |
| `c85_delta_ignored` | The setting `delta`, documented as the regularisation parameter of polishing, has no effect with the built-in (and, by reading, the MKL) back end: `init_linsys_solver_qdldl` builds the polishing KKT matrix with `sigma` (qdldl_interface.c:315-320), and no other code reads `delta`. Only validation (auxil.c:1212) looks at it. |
| `c86_counterexample` | Consequence of the stale constraint types of C19 that a user can see: after an update of `A` of a scaled problem, giving the current bounds again (an update that changes nothing) changes the step sizes and the point the next solve comes to. |
| `c90_counterexample` | `osqp_update_data_mat` rescales the problem (new `D`, `E`, `c`) but leaves the scaled iterates as they are. A warm start made before the update (or the previous solution) therefore stands for another point in the user's units when the next solve begins. |
| `Gen.c60_fits_iff_partial` | directory and prefix are printed into fixed arrays without a check |

Observations recorded without a theorem: the text of status 10 differs from the documentation (C11);
`OSQP_NAN` is the finite number 2143289344 converted to floating point (C10); with `scaled_termination`
on, certificates meet the tolerances in scaled coordinates only (C05, C07 exclude it as stated);
the parameter `delta` of the polish solve is not re-read; a failure status of AMD is not looked at by the set-up of the linear system (by C69 it cannot occur when memory is available).

## 6. Checking the theorems against wrong programs

Each line of `seeded/LOG.jsonl` is one edit of a model definition made in a scratch copy, the claim it
breaks and the theorems that no longer prove. Statements are tightened when an edit that falsifies the
English claim leaves them provable.

## 7. Per property

| Id | Status | What is modelled | How it is proved |
|----|--------|------------------|------------------|
| C01 | proved | `osqpSolve` on the whole state, every history, clock, interrupt and linear solver | SOLVED is set only by a check made right after the info update on the same iterate (induction over the loop); scaled norms rewritten to the user's data by the scaling invariant. Polished points: C32, C33 |
| C02 | proved | same | same, plus unscaling; a clock stop right after a check reports the residuals of the previous iterate (counterexample), an exit the property does not claim |
| C03 | proved | same | z in [l,u] and C02 |
| C04 | partial | `updateZ`, `updateY`, the loop, storing of the solution | projection inequality for any output of the linear solver; fails in scalar mode with an out-of-range initial rho |
| C05 | proved | `isPrimalInfeasible`, `checkTermination`, `storeSolution` | as C01 |
| C06 | proved | specification of certificates | Hölder-type inequality, applied to what C05 returns |
| C07 | proved | `isDualInfeasible` | as C05 |
| C08 | proved | specification of certificates | feasibility along the ray; objective decreases without bound; approximate version with the returned tolerances |
| C09 | proved | `computeObjValDualGap` | algebra; weak duality by positive semidefiniteness |
| C10 | proved | `storeSolution`, `osqpGetSolution` | case analysis on the status |
| C11 | proved | every API function | invariant over histories: value and text always written together |
| C12 | proved | solve loop with its C bounds | induction on remaining iterations; work counted |
| C13 | proved | solve loop | induction; which iterations make a check |
| C14 | partial | API | false (status not reset); proved when the status changed in the call or was unsolved before |
| C15 | proved | `checkTermination` with approximate flag | as C01 with tolerances times ten; only at the end of the loop |
| C16 | proved | clock reads as an arbitrary stream | induction over the loop |
| C17 | proved | interrupt polls as an arbitrary stream; handler flag | induction over the loop; handler restored on every exit |
| C18 | proved | rho functions; `Model/Ieee` for NaN and infinities | invariant over histories and iterations; reduction of special requests to ordinary ones; register machine with arbitrary other values |
| C19 | partial | `setRhoVec`, `osqpUpdateRho`, bound updates | invariant; false after a matrix update of a scaled problem |
| C20 | proved | `adaptRho`, `computeRhoEstimate` | every iteration of every solve |
| C21 | partial | schedule part of the loop | every iteration; time mode false |
| C22 | proved | `LinSys` record against the workspace | invariant over histories, and inside the loop |
| C23 | proved | `scaleData`, `unscaleData`, updates | invariant relating stored data to the user's data |
| C24 | proved | update functions | refinement to `userStep`; equality with set-up on the new data; raw value copy proved on memory |
| C25 | partial | `osqpUpdateDataVec` | decision logic and frame; false for the certificate read afterwards |
| C26 | proved | `osqpWarmStart`, `osqpGetSolution` | algebra of scaling |
| C27 | partial | `coldStart`; two runs compared | simulation of two solves from different histories; false for a stale status |
| C28 | partial | `validate_data` on raw memory | exact characterisation; null bound arrays and row indices not covered by the code |
| C29 | partial | `validateSettings`, and on IEEE values | decision logic; false for NaN |
| C30 | proved | `osqpUpdateSettings` | frame |
| C31 | proved | `osqpUpdateRho` | frame, invariant |
| C32 | proved | `polish`; reduced solve as an oracle | projection, active-set algebra, comparison with the same run without polishing |
| C33 | proved | same | same comparison |
| C34 | proved | `form_KKT` on raw memory | loop invariants; entries as lists; denotation |
| C35 | proved | `update_KKT_*` on raw memory | any list of in-place updates equals assembly; compressed-row variant false |
| C36 | proved | `csc_math.c` products on raw memory | loop invariants; the solver layer's products proved equal |
| C37 | proved | `csc_math.c` norms, scalings | same |
| C38 | proved | `csc_utils.c` conversions on raw memory | bucket-sort invariants |
| C39 | proved | `csc_submatrix_byrows` on raw memory | loop invariants |
| C40 | proved | permuted solve and z~ reconstruction | algebra over permutations; the triangular solve is an oracle assumed exact |
| C41 | proved | KKT matrix over an ordered field | quadratic-form argument; applied to every reachable solver |
| C42 | proved | loop with exact linear solves | Lyapunov function (Fejér monotonicity) over an Archimedean field; link to residuals and stopping |
| C43 | partial | set-up and cleanup as heap programs, any allocator | invariant over the allocation script; two refused requests mishandled |
| C44 | proved | `osqpGetSolution` | equality of two calls |
| C45 | partial | pointer checks of every API function | decision logic on null structure; four exceptions shown |
| C46 | partial | error table | out-of-range codes shown |
| C47 | proved | CSC helpers on raw memory | loop invariants |
| C48 | proved | `reduced_kkt.c` on raw memory | Schur complement |
| C49 | partial | CG tolerance rule | inequalities; first call shown false |
| C50 | partial | timing fields | invariant; stale timers shown |
| C51 | proved | `osqp_codegen` decision logic | case analysis |
| C52 | partial | scaling of infinite bounds | `_partial` while the row factor stays above 1e-4; false in general |
| C53 | partial | argument checks of matrix updates | decision logic; unchecked indices shown |
| C54 | proved | scaling algebra | equivalence of problems |
| C55 | proved | `derivative.c` and adjoint part of `qdldl_interface.c` on raw memory | loop invariants for the index lists; the whole computation stays in bounds. Assumes the solver writes a vector of the right length (`SolverOk`) |
| C56 | proved | failing exits of `osqpSolve` | invariant preserved |
| C57 | partial | same as C55, with the differentiated optimality conditions as specification | adjoint identity for an exactly solved system, error bound through the inverse for an inexact one; zero multipliers and slow refinement shown false |
| C58 | proved | `Vm/Model` (every floating-point routine of `vector.c` used by the solver, on pointers into shared arrays), `Vm/Admm` (iteration with pointer exchange, views and in-place solve) | loop invariant per routine under `Apart ∨ Same`; frame rule; the iteration refines the recurrence, then induction over iterations; overlap shown to be a necessary exclusion |
| C59 | partial | `Gen/Model` (writers of `codegen.c`), `Gen/CLang` (C initialisers), `Gen/Spec` (reading the solver back) | the list of declarations is computed once (`file`), compiled symbolically, every member read back; exact condition for validity; three defects proved |
| C60 | partial | `Gen/Names`: each `sprintf` as an array size and a text | exact characterisation by case analysis on lengths; paths computed |
| C61 | partial | `updateInfo`, `polish`, all exits of `osqpSolve` | part of the freshness invariant of the loop (`FreshR.kkt`), carried to the exit; rejected polishing shown to break it |
| C62 | proved | `Vm/Solve` (`osqp_solve` and all it calls on pointers into shared arrays), `Vm/Qdldl` for the linear system | each routine refines the one of the solver layer under `Shows` (ownership of vectors, two pointer states); induction over iterations with the exits; polishing is a parameter with the specification `PolishIs`, not needed when it is off and shown to be met in C67 |
| C63 | proved | `Vm/Qdldl` (`init`, `update_rho_vec`, `update_matrices`), on top of `Csc/Kkt` | invariant `QIs`: the stored matrix, through the maps, is the KKT matrix of the data (C34); induction over the list of calls |
| C64 | proved | the iteration, `isPrimalInfeasible`, `checkTermination`, `osqpSolve` (over the reals) | `Conv/Drift`: steps of an averaged operator converge (Pazy); `Conv/Limit`: the limit of the dual steps is a certificate; `Conv/Detect`: the test of the code holds for all late iterates; the loop cannot pass a later check |
| C65 | proved | the iteration, `isDualInfeasible`, `checkTermination`, `osqpSolve` (over the reals) | as C64, with the limit of the primal steps |
| C66 | proved | `Vm/Api` (`osqp_setup` and all API calls on pointers into shared arrays, with `scale_data` and `unscale_data`) | each call refines the one of the solver layer under `Stands`; induction over histories that include writes by the caller; QDLDL is shown to meet the assumptions on the linear-system interface (`c66_qdldl`) |
| C67 | proved | `Vm/Polish` (`polish` on the memory of `osqp_solve`, the linear system of QDLDL for the reduced matrix) | `polish` refines the one of the solver layer under `Shows`; the two-pass construction of the reduced matrix by the invariants of `Csc`; the residual routines are those of C62 run on the polishing vectors; with C66 for every history of calls |
| C68 | partial | `Model/Embed` (`osqp_solve`, `store_solution`, `reset_info`, the update functions as compiled with `OSQP_EMBEDDED_MODE` 1 and 2) | a relation between embedded and desktop states kept by every call; the fields an embedded build ignores commute with every step of the loop; induction over the list of calls |
| C69 | proved | `Amd/Model` (`amd_order`, `amd_valid`, `amd_preprocess`, `amd_aat`, `amd_1`, `amd_2`, `amd_postorder`, `amd_post_tree`), `Vm/QdldlAmd` (set-up of the linear system with the ordering inside) | an invariant of the quotient graph (`Amd/Base`, `Amd/Space`, `Amd/Forest`: lists in place and within the workspace, degree and hash lists disjoint, weights add up to `n`, parents form a forest) kept by every step of a round; a measure for every loop; the postorder visits each node once; monotonicity in the arrays for the independence of the values |
| C70 | proved | the factor tests of `osqpSetup`, `osqpUpdateDataMat`, `osqpUpdateRho`, the adaptation and polishing; QDLDL by the specification `CountsPivots`: it counts the positive pivots of an LDLᵀ factorisation of the permuted matrix when there is one | the KKT matrix is quasi-definite, so every leading block in every order is nonsingular and an LDLᵀ exists (induction on the size); Sylvester's law of inertia gives the number of positive pivots; then the history invariants |
| C71 | partial | same | false as stated: `c71_counterexample` (rho AᵀA hides the negative direction) and `c71_counterexample_rho` (a smaller rho loses definiteness and the call returns 0). Proved: in directions that leave the constraints unchanged the curvature of an accepted problem is above -sigma (in scaled coordinates) |
| C72 | proved | `Cuda/Pcg`: the solver structure, the conjugate-gradient routine, the preconditioner and its flags, tolerance, right-hand side, all operations of the interface; cuBLAS, cuSPARSE and thrust calls as the mathematical operations they are documented to be | conjugacy and orthogonality invariants of the loop over any ordered field, so at most n passes; invariant over every history of operations for the preconditioner (`hist_ok`) |
| C73 | partial | `Cuda/Gpu`: each kernel as a program of single memory accesses, run by all threads of the launch in any interleaving; checked memory; atomic operations; the cuBLAS calls as loops | false as stated for the comparison (`c73_is_eq_counterexample`, a race) and for differences stored over their second operand (`c73_minus_counterexample`). Proved for the other 17 operations: accesses of different threads commute (own element, read-only or commuting atomics), hence every schedule ends as the serial one, which is compared with the built-in routine; termination by well-founded descent on the remaining programs under fairness |
| C74 | partial | `Cuda/Mats`: creation of the full matrix and of the transposed copy, gather and scatter, updates of all or some values, scalings; memory cells start unwritten; the sort of cuSPARSE is a parameter | false as stated for the cost matrix: `c74_diagonal_counterexample`, `c74_stale_counterexample`, `c74_twice_counterexample` (general forms `c74_uninitialised`, `c74_stale`). Proved: the constraint matrix without restriction; the cost matrix when whole updates are made only with a complete diagonal and no partial update follows one; counting the kept entries, reindexing the sum of entries by the sort, induction over the history; `c74_system` feeds C72 |
| C75 | partial | `Cuda/Rows`: row pointers with their real sizes, transposition, sparse products reading between pointers, reduction by key with any bracketing, scans and compaction in any order of the threads | false as stated (`c75_empty_counterexample`, `c75_norms_empty`, `c75_select_no_entries`, `c75_select_counterexample`: matrices or selected rows without entries). Proved otherwise: a pointer is the number of entries in earlier rows, so in sorted rows the entries between two pointers are those of the row; groups of a sorted key list by induction; a scan of flags ranks the selected elements |
| C76 | partial | `Mkl/Cg`: the interface around MKL's reverse-communication routine (a parameter with the contract `Spec.Honest`), its loop as a relation, tolerance, preconditioner, updates | false as stated (`c76_failed`, `c76_limit_counterexample`: any end code but 0 and 2 leaves the right-hand side; `c76_scalar_counterexample`: one step size for all constraints; `c76_precond_counterexample`: unchecked setting). Proved otherwise: every turn of the loop extends a session of the contract, so at the end the residual is that of the current matrix; an invariant over histories; `refDcg_honest` shows that the contract can be met |
| C77 | partial | `Mkl/Pardiso`: the whole interface on raw memory, with `form_KKT` and the updates of `Csc/Kkt` in compressed rows (`Csc/KktRows`, `KktRowUpd`, `KktRowDenote`); PARDISO is a parameter with the contract `Exact` | false as stated (`c77_lost`: an update of a diagonal entry in a column with other entries loses `sigma`; `c77_unchecked`: updates accept non-convex data; `c77_dangling`: a failed allocation leaves a pointer to freed memory). Proved otherwise: an invariant over histories locating every entry in the compressed rows; creation is exact (`c77_init`), steps satisfy the ADMM equations (`c77_step_partial`), polishing (`c77_polish`), no access outside the arrays (`c77_defined`) |
| C78 | partial | `Mkl/Mat`: matrix objects on raw memory, with or without a handle; MKL's `create_csc` and `mv` are a parameter with the contract `Honest` | false as stated (`c78_empty`: products with an object without a handle do nothing; `c78_operator_lp`: the operator of a linear program ignores `sigma`; `c78_spare`: creation reads spare cells; `c78_get`: reading back runs past the arrays). Proved otherwise: an invariant over histories (`made_rep`), creation (`c78_new`), changes (`c78_changes`), row selection (`c78_select`), products and operator with handles (`c78_product_partial`, `c78_operator_partial`), norms (`c78_norms`) |
| C79 | partial | `Csc/Compare`: `csc_is_eq`, `csc_to_dns`, comparison of vectors on raw memory, a `return` inside a loop as a flag | loop invariants; the comparison is characterised exactly (`c79_compare`). False as stated: the number of rows is not compared (`c79_rows_ignored`), and a position stored twice gets its last value in the dense copy (`c79_dense_counterexample`); `c79_dense` says what the copy holds in general, `c79_dense_entries` that it is the matrix when no position is stored twice |
| C80 | partial | the models of C40 (QDLDL), C77 (PARDISO) and C76 (MKL's conjugate gradients) side by side on the same data | strong convexity of the step: error bound by the defect (`c80_error`), uniqueness, then the step theorems of the three solvers. Partial: histories with the update that loses a diagonal term (C77) and success with code 0 (C76) are left out |
| C81 | proved | `Mkl/Vec`: the routines of `algebra/mkl/vector.c` that call MKL, over the memory of C58, with the library as a parameter, and the iteration with them | contract `MklVec.Documented` (`Mkl/VecSpec`): in place where vector mathematics allows it, apart for BLAS; each routine from the contract, equality of memories with the built-in routine (`c81_same`), induction over the iterations. A documented library exists (`strict`); the shortcut of `add_scaled` would break the rules for a call that the library does not make (`c81_axpy_counterexample`) |
| C82 | proved | the solver layer: `osqp_solve` and `osqp_update_settings` (three solves with limits a, b and a + b) | each solve that executes all its iterations leaves what that many plain steps compute (`solve_iterates`: frames of everything after the loop), and plain steps compose; `c82_all_done` says when all iterations are executed. With an adaptive step size the property fails, since the count for the adaptation starts anew (`c82_adaptive_counterexample`) |
| C83 | partial | the solver layer: `osqp_update_settings` and `osqp_solve` from the same state with two settings | each solve that executes all its iterations leaves what that many plain steps compute (`solve_iterates`), and a step reads none of these settings. Printing: simulation of the build with printing by the one without (`Lemmas/Printing.lean`: heads agree up to what `update_info` computes, a second evaluation of the same iterate changes nothing, also after an adaptation). Verbosity: a build without printing commutes with changing the verbosity (`Lemmas/Verbose.lean`), so any two verbosities give the same result (`c83_verbosity_partial`). Partial: solves stopped from outside are missing, and for the settings other than printing also solves stopped by a check and an adaptive step size; the primal-dual integral does depend on the verbosity (`c83_integral_counterexample`) and on earlier solves (`c83_reset_counterexample`) |
| C84 | proved | `info.primdual_int` through all API calls of the solver layer | invariant of the loop (every evaluation adds an absolute value), frames of everything else, induction over histories |
| C85 | proved | all API calls of the solver layer; the polishing factorisation takes `sigma` as in qdldl_interface.c:315-320. The CUDA back end, which does read `delta` (cuda_pcg_interface.cu:150-151), is not covered | every function commutes with a change of `delta` (`Lemmas/Idle.lean`), set-up by cases, induction over the sequence of calls |
| C86 | partial | `osqp_update_data_vec` and `osqp_solve` in the solver layer | what one update keeps (`VecKeep`), induction over the sequence; the stored data are determined by the user's data and the scaling, the constraint types by the stored bounds (`typed_current`), the step sizes and the linear system by the types (`Sync`); then `c27_independent_partial`. Missing: histories in which a matrix update rescaled the problem after the last bounds |
| C87 | proved | `osqp_warm_start` in the solver layer | two warm starts are one with the later arguments (by cases), induction over the sequence |
| C88 | proved | `osqp_update_rho` in the solver layer; the numeric factorisation is a function of the stored KKT data (`Env.factor`) | two updates are one with the later value (by cases), equality but for time is respected, induction over the sequence |
| C89 | proved | `osqp_update_settings` and the other updates in the solver layer | the other updates commute with the change of settings (`Lemmas/Order.lean`), induction over the sequence; the exception by computation for every state |
| C90 | partial | `osqp_warm_start` and the updates in the solver layer | updates of the vectors and the step size commute with a change of the starting point and keep all that a warm start reads (`Lemmas/Point.lean`), induction over the sequence. Fails for matrix updates of a scaled problem: counterexample |

Where the code violates a property, the negation is proved on a concrete witness and a `_partial` theorem
(or an explicit exclusion in the hypotheses) states what does hold.

## 8. Axioms per theorem

Output of `#print axioms`, abbreviated: p = `propext`, c = `Classical.choice`, q = `Quot.sound`.

| Property | Theorem: axioms |
|----|----|
| C01 | `c01_solved_tolerances`: cpq |
| C02 | `c02_report`: cpq, `c02_counterexample`: cpq |
| C03 | `c03_violation`: cpq |
| C04 | `c04_iteration_partial`: cpq, `c04_returned_partial`: cpq, `c04_and_c02_partial`: cpq, `c04_counterexample`: cpq |
| C05 | `c05_primal_certificate`: cpq |
| C06 | `c06_certificate_bound`: cpq, `c06_certificate_exact`: cpq, `c06_api`: cpq |
| C07 | `c07_dual_certificate`: cpq |
| C08 | `c08_unbounded`: cpq, `c08_no_stationary`: cpq, `c08_approximate`: cpq |
| C09 | `c09_gap`: cpq, `c09_gap_update`: cpq, `c09_weak_duality`: cpq, `c09_api`: cpq |
| C10 | `c10_solve_fields`: cpq, `c10_get_fields`: cpq |
| C11 | `c11_status`: cpq |
| C12 | `c12_iter_limit`: cpq, `c12_work`: cpq |
| C13 | `c13_schedule`: cpq, `c13_check_made`: cpq |
| C14 | `c14_status_partial`: cpq, `c14_setup_unsolved`: pq, `c14_vec_unsolved`: cpq, `c14_mat_unsolved`: cpq, `c14_counterexample`: cpq |
| C15 | `c15_solved_inaccurate`: cpq, `c15_primal_inaccurate`: cpq, `c15_dual_inaccurate`: cpq, `c15_only_after_limit`: cpq |
| C16 | `c16_stop`: cpq, `c16_only_late`: cpq, `c16_never_late`: cpq |
| C17 | `c17_interrupt`: cpq, `c17_only_interrupt`: cpq, `c17_handler`: cpq |
| C18 | `c18_rho_limits`: cpq, `c18_in_solve`: cpq, `c18_requests`: cpq, `c18_request`: cpq, `c18_any_values`: cpq, `c18_inverse_partial`: cpq, `c18_counterexample`: cpq, `c18_scalar_nan_counterexample`: cpq |
| C19 | `c19_steps_partial`: cpq, `c19_steps_unscaled`: cpq, `c19_linsys`: cpq, `c19_counterexample`: cpq |
| C20 | `c20_rule`: cpq, `c20_count`: cpq |
| C21 | `c21_due_is_made`: cpq, `c21_disabled`: cpq, `c21_interval`: cpq, `c21_given`: cpq, `c21_time_partial`: cpq, `c21_counterexample`: cpq |
| C22 | `c22_linsys_current`: cpq, `c22_in_solve`: cpq |
| C23 | `c23_scaling`: cpq, `c23_in_solve`: cpq |
| C24 | `c24_vectors`: cpq, `c24_matrices`: cpq, `c24_as_setup`: cpq, `c24_entries`: cpq, `Csc.refine_update_values`: cpq |
| C25 | `c25_error_iff`: cpq, `c25_rejected_partial`: cpq, `c25_ordered`: cpq, `c25_counterexample`: cpq |
| C26 | `c26_round_trip`: cpq, `c26_omitted`: cpq, `c26_solve_starts`: pq |
| C27 | `c27_cold_start`: cpq, `c27_independent_partial`: cpq, `c27_counterexample`: cpq |
| C28 | `Csc.c28_partial`: cpq, `Csc.c28_no_read`: cpq, `Csc.c28_counterexample`: cpq, `Csc.c28_unchecked_rows`: cpq, `Csc.refine_validate`: cpq |
| C29 | `c29_setup`: cpq, `c29_update`: cpq, `c29_reachable`: cpq, `c29_extended_partial`: cpq, `c29_nan_counterexample`: cpq |
| C30 | `c30_update_settings`: cpq |
| C31 | `c31_rejected`: pq, `c31_update`: pq, `c31_consistent`: cpq |
| C32 | `c32_consistent`: cpq, `c32_exact`: cpq, `c32_refined`: cpq, `c32_feasible_optimal`: cpq |
| C33 | `c33_not_taken`: cpq, `c33_taken_better`: cpq |
| C34 | `Csc.c34_form`: cpq, `Csc.c34_stored`: cpq |
| C35 | `Csc.c35_updates`: cpq, `Csc.c35_denotes`: cpq, `Csc.c35_csr_counterexample`: cpq |
| C36 | `Csc.c36_axpy`: cpq, `Csc.c36_atxpy`: cpq, `Csc.c36_axpy_sym`: cpq, `Csc.refine_axpy`: cpq, `Csc.refine_atxpy`: cpq, `Csc.refine_axpy_sym`: cpq |
| C37 | `Csc.c37_col_norm`: cpq, `Csc.c37_row_norm`: cpq, `Csc.c37_row_norm_sym`: cpq, `Csc.c37_extract_diag`: cpq, `Csc.c37_atda`: cpq, `Csc.c37_scale`: cpq, `Csc.c37_lmult`: cpq, `Csc.c37_rmult`: cpq, `Csc.refine_col_norm`: cpq, `Csc.refine_row_norm`: cpq, `Csc.refine_scale`: cpq, `Csc.refine_lmult`: cpq, `Csc.refine_rmult`: cpq |
| C38 | `Csc.c38_triplet`: cpq, `Csc.c38_symperm`: cpq, `Csc.c38_pinv`: cpq, `Csc.c38_symmetrise`: cpq, `Csc.c38_vstack`: cpq, `Csc.c38_copy`: cpq |
| C39 | `Csc.c39_rows`: cpq |
| C40 | `Csc.c40_step`: cpq, `Csc.c40_polish`: cpq, `c40_in_solve`: cpq, `c40_inverse`: cpq |
| C41 | `c41_unique`: cpq, `c41_api`: cpq |
| C42 | `c42_residuals`: cpq, `c42_iterates`: cpq, `c42_stops`: cpq |
| C43 | `Mem.c43_setup_defined_partial`: cpq, `Mem.c43_reports_partial`: cpq, `Mem.c43_reports_noDerivatives`: cpq, `Mem.c43_complete`: cpq, `Mem.c43_granted`: cpq, `Mem.c43_cleanup`: cpq, `Mem.c43_cleanup_after_use`: cpq, `Mem.c43_view_counterexample`: pq, `Mem.c43_rhs_counterexample`: pq |
| C44 | `c44_get_twice`: cpq, `c44_after_solve`: cpq |
| C45 | `Mem.c45_not_set_up_partial`: cpq, `Mem.c45_cleanup_null`: pq, `Mem.c45_set_up_partial`: cpq, `Mem.c45_update_settings_counterexample`: pq, `Mem.c45_cold_start_counterexample`: pq, `Mem.c45_failed_setup_counterexample`: pq, `Mem.c45_derivative_counterexample`: pq |
| C46 | `c46_positive_partial`: pq, `c46_texts`: p, `c46_distinct`: p, `c46_counterexample`: pq, `c46_report`: p |
| C47 | `Csc.c47_diag_scalar`: cpq, `Csc.c47_identity`: cpq, `Csc.c47_diag_vec`: cpq, `Csc.c47_zeros`: cpq, `Csc.c47_set_data`: pq |
| C48 | `Csc.c48_mv`: cpq, `Csc.c48_diag`: cpq, `Csc.c48_diag_pos`: cpq, `Csc.c48_rhs`: cpq, `Csc.c48_equiv`: cpq, `Csc.c48_solve`: cpq |
| C49 | `Cg.c49_later_partial`: pq, `Cg.c49_first`: pq, `Cg.c49_defined`: pq, `Cg.c49_decreasing_partial`: cpq, `Cg.c49_fraction`: cpq, `Cg.c49_polish`: pq, `Cg.c49_counterexample`: cpq |
| C50 | `c50_run_time_partial`: cpq, `c50_counted_partial`: cpq, `c50_polish_counterexample`: cpq, `c50_counterexample`: cpq |
| C51 | `c51_options`: cpq, `c51_writes`: cpq, `c51_not_ready`: pq |
| C52 | `c52_one_pass`: cpq, `c52_steps_partial`: cpq, `c52_primal_partial`: cpq, `c52_dual_partial`: cpq, `c52_counterexample`: cpq |
| C53 | `c53_rejected`: cpq, `c53_defined_partial`: pq, `c53_counterexample`: cpq, `Csc.refine_update_values`: cpq |
| C54 | `c54_feasible`: cpq, `c54_objective`: cpq, `c54_minimiser`: cpq, `c54_kkt`: cpq, `c54_round_trip`: cpq, `c54_history`: cpq |
| C55 | `Csc.c55_lists`: cpq, `Csc.c55_bounds`: cpq |
| C56 | `c56_failed_solve`: cpq |
| C57 | `Csc.c57_adjoint_partial`: cpq, `Csc.c57_zero_multiplier`: cpq, `Csc.c57_counterexample`: cpq, `Csc.c57_zero_multiplier_counterexample`: cpq |
| C58 | `Vm.c58_iteration`: cpq, `Vm.c58_iterations`: cpq, `Vm.c58_copy`: pq, `Vm.c58_part`: pq, `Vm.c58_set_cond`: pq, `Vm.c58_arith`: pq, `Vm.c58_combine`: pq, `Vm.c58_in_place`: cpq, `Vm.c58_select`: pq, `Vm.c58_reciprocal`: cpq, `Vm.c58_project`: cpq, `Vm.c58_polar`: pq, `Vm.c58_norms`: cpq, `Vm.c58_dot`: cpq, `Vm.c58_tests`: pq, `Vm.c58_types`: pq, `Vm.c58_overlap_counterexample`: cpq |
| C59 | `Gen.c59_writes`: pq, `Gen.c59_identifiers`: pq, `Gen.c59_accepted_iff`: cpq, `Gen.c59_roundtrip_partial`: cpq, `Gen.c59_record_lost`: cpq, `Gen.c59_new_rejected`: cpq, `Gen.c59_tiny_sigma`: cpq |
| C60 | `Gen.c60_fits_iff_partial`: cpq, `Gen.c60_paths`: cpq |
| C61 | `c61_kkt_error_partial`: cpq, `c61_counterexample`: cpq |
| C62 | `Vm.c62_solve`: cpq, `Vm.c62_qdldl`: cpq, `Vm.c62_repeated`: cpq |
| C63 | `Vm.c63_object`: cpq, `Vm.c63_refused`: cpq |
| C64 | `c64_primal_detected`: cpq |
| C65 | `c65_dual_detected`: cpq |
| C66 | `c66_setup`: cpq, `c66_history`: cpq, `c66_call`: cpq, `c66_results`: cpq, `c66_getSolution`: cpq, `c66_two`: cpq, `c66_qdldl`: cpq |
| C67 | `c67_polish`: cpq, `c67_is`: cpq, `c67_lib`: cpq, `c67_call`: cpq, `c67_qdldl`: cpq |
| C68 | `c68_embedded_same_partial`: cpq, `c68_call_partial`: cpq, `c68_embedded_solved`: cpq, `c68_certificate_lost`: cpq, `c68_types_stale`: cpq |
| C69 | `Amd.c69_order`: cpq, `Amd.c69_invalid`: cpq, `Amd.c69_overrun`: p, `c69_stored`: cpq, `c69_pattern`: cpq, `c69_kkt`: cpq, `c69_init`: cpq, `c69_lib`: cpq, `c69_polish`: cpq, `c69_deriv`: cpq, `c69_call`: cpq |
| C70 | `c70_factor`: cpq, `c70_signs`: cpq, `c70_well_defined`: cpq, `c70_convex_accepted`: cpq, `c70_report_right`: cpq, `c70_accepted`: cpq, `c70_accepted_iff`: cpq, `c70_update_mat`: cpq, `c70_update_rho`: cpq, `c70_update_vec`: cpq, `c70_solve`: cpq |
| C71 | `c71_kernel_partial`: cpq, `c71_counterexample`: cpq, `c71_counterexample_rho`: cpq |
| C72 | `Cuda.c72_stop`: cpq, `Cuda.c72_converges`: cpq, `Cuda.c72_precond`: cpq, `Cuda.c72_tolerance`: cpq, `Cuda.c72_solve`: cpq, `Cuda.c72_error`: cpq |
| C73 | `Gpu.c73_set`: cpq, `Gpu.c73_set_conditional`: cpq, `Gpu.c73_round`: cpq, `Gpu.c73_set_if_lt`: cpq, `Gpu.c73_set_if_gt`: cpq, `Gpu.c73_prod`: cpq, `Gpu.c73_max`: cpq, `Gpu.c73_min`: cpq, `Gpu.c73_sqrt`: cpq, `Gpu.c73_reciprocal`: cpq, `Gpu.c73_bound`: cpq, `Gpu.c73_project_polar`: cpq, `Gpu.c73_all_leq`: cpq, `Gpu.c73_in_reccone`: cpq, `Gpu.c73_bounds_type`: cpq, `Gpu.c73_dot_signed`: cpq, `Gpu.c73_add_scaled_partial`: pq, `Gpu.c73_add_scaled3_partial`: pq, `Gpu.c73_plus_minus_partial`: pq, `Gpu.c73_minus_counterexample`: cpq, `Gpu.c73_is_eq_partial`: cpq, `Gpu.c73_is_eq_counterexample`: cpq |
| C74 | `Cuda.c74_A`: cpq, `Cuda.c74_A_sorted`: pq, `Cuda.c74_A_safe`: pq, `Cuda.c74_P_partial`: cpq, `Cuda.c74_P_safe`: cpq, `Cuda.c74_diagonal`: cpq, `Cuda.c74_system`: cpq, `Cuda.c74_uninitialised`: cpq, `Cuda.c74_stale`: cpq, `Cuda.c74_diagonal_counterexample`: cpq, `Cuda.c74_stale_counterexample`: cpq, `Cuda.c74_twice_counterexample`: cpq |
| C75 | `Cuda.c75_init_partial`: cpq, `Cuda.c75_history_partial`: cpq, `Cuda.c75_product`: cpq, `Cuda.c75_axpy`: cpq, `Cuda.c75_empty`: cpq, `Cuda.c75_empty_counterexample`: cpq, `Cuda.c75_norms_partial`: cpq, `Cuda.c75_norms_empty`: pq, `Cuda.c75_scaling_norms`: cpq, `Cuda.c75_select_partial`: cpq, `Cuda.c75_select_no_entries`: cpq, `Cuda.c75_select_empty_rows`: cpq, `Cuda.c75_select_counterexample`: cpq |
| C76 | `Mkl.c76_solution_partial`: cpq, `Mkl.c76_polish_partial`: cpq, `Mkl.c76_form`: cpq, `Mkl.c76_failed`: cpq, `Mkl.c76_defined_partial`: cpq, `Mkl.c76_precond`: cpq, `Mkl.c76_scalar_counterexample`: pq, `Mkl.c76_limit_counterexample`: cpq, `Mkl.c76_precond_counterexample`: cpq, `Mkl.refDcg_honest`: cpq |
| C77 | `Pardiso.c77_init`: cpq, `Pardiso.c77_matrix_partial`: cpq, `Pardiso.c77_defined`: cpq, `Pardiso.c77_step_partial`: cpq, `Pardiso.c77_polish`: cpq, `Pardiso.c77_lost`: cpq, `Pardiso.c77_unchecked`: cpq, `Pardiso.c77_dangling`: cpq |
| C78 | `MklMat.c78_new`: pq, `MklMat.made_rep`: cpq, `MklMat.c78_changes`: cpq, `MklMat.c78_select`: cpq, `MklMat.c78_product_partial`: cpq, `MklMat.c78_operator_partial`: cpq, `MklMat.c78_norms`: cpq, `MklMat.c78_empty`: pq, `MklMat.c78_operator_lp`: cpq, `MklMat.c78_spare`: cpq, `MklMat.c78_get`: pq |
| C79 | `Csc.c79_compare`: pq, `Csc.c79_compare_entries`: cpq, `Csc.c79_rows_ignored`: cpq, `Csc.c79_dense`: cpq, `Csc.c79_dense_entries`: cpq, `Csc.c79_dense_counterexample`: cpq, `Csc.c79_vectors`: pq |
| C80 | `Backends.c80_error`: cpq, `Backends.c80_unique`: cpq, `Backends.c80_direct_partial`: cpq, `Backends.c80_indirect_partial`: cpq |
| C81 | `MklVec.c81_copy`: cpq, `MklVec.c81_arith`: cpq, `MklVec.c81_combine`: cpq, `MklVec.c81_in_place`: cpq, `MklVec.c81_limits`: cpq, `MklVec.c81_values`: cpq, `MklVec.c81_same`: cpq, `MklVec.c81_iterations`: cpq, `MklVec.c81_axpy_counterexample`: cpq |
| C82 | `c82_continue`: cpq, `c82_all_done`: cpq, `c82_adaptive_counterexample`: cpq |
| C83 | `c83_printing_partial`: cpq, `c83_observe_partial`: cpq, `c83_integral_counterexample`: cpq, `c83_reset_counterexample`: cpq, `c83_verbosity_partial`: cpq |
| C84 | `c84_running_total`: cpq, `c84_nonneg`: cpq, `c84_setup`: pq |
| C85 | `c85_delta_ignored`: cpq, `c85_setup`: pq, `c85_update`: pq |
| C86 | `c86_grouping_partial`: cpq, `c86_solve_partial`: cpq, `c86_counterexample`: cpq |
| C87 | `c87_last_counts`: cpq, `c87_split`: cpq |
| C88 | `c88_last_counts`: cpq, `c88_code`: cpq |
| C89 | `c89_swap`: cpq, `c89_move`: cpq, `c89_last_counts`: cpq, `c89_warm_exception`: cpq |
| C90 | `c90_move_partial`: cpq, `c90_counterexample`: cpq |
