import Verif.Model.Mat

/-!
# Solver state

Models the structs of `include/public/osqp_api_types.h` and `include/private/types.h`.
-/

namespace Osqp

/-- Build configuration (`OSQP_ENABLE_*` macros).  `OSQP_EMBEDDED_MODE` is undefined (desktop build). -/
structure Cfg where
  profiling : Bool
  printing : Bool
  interrupt : Bool

/-- `OSQPSettings`, include/public/osqp_api_types.h:50-120. -/
structure Settings (K : Type*) where
  device : ℤ
  linsys_solver : ℤ
  allocate_solution : ℤ
  verbose : ℤ
  profiler_level : ℤ
  warm_starting : ℤ
  scaling : ℤ
  polishing : ℤ
  rho : K
  rho_is_vec : ℤ
  sigma : K
  alpha : K
  cg_max_iter : ℤ
  cg_tol_reduction : ℤ
  cg_tol_fraction : K
  cg_precond : ℤ
  adaptive_rho : ℤ
  adaptive_rho_interval : ℤ
  adaptive_rho_fraction : K
  adaptive_rho_tolerance : K
  max_iter : ℤ
  eps_abs : K
  eps_rel : K
  eps_prim_inf : K
  eps_dual_inf : K
  scaled_termination : ℤ
  check_termination : ℤ
  check_dualgap : ℤ
  time_limit : K
  delta : K
  polish_refine_iter : ℤ

/-! ## Status codes: `enum osqp_status_type`, osqp_api_constants.h. -/
namespace St
def solved : ℤ := 1
def solvedInacc : ℤ := 2
def primInf : ℤ := 3
def primInfInacc : ℤ := 4
def dualInf : ℤ := 5
def dualInfInacc : ℤ := 6
def maxIter : ℤ := 7
def timeLimit : ℤ := 8
def nonCvx : ℤ := 9
def sigint : ℤ := 10
def unsolved : ℤ := 11
end St

/-- src/auxil.c:784-797 `OSQP_STATUS_MESSAGE` (an array of 12 strings; an index outside it would be
undefined behaviour, modelled by `none`). -/
def statusMessage : ℤ → Option String
  | 0 => some ""
  | 1 => some "solved"
  | 2 => some "solved inaccurate"
  | 3 => some "primal infeasible"
  | 4 => some "primal infeasible inaccurate"
  | 5 => some "dual infeasible"
  | 6 => some "dual infeasible inaccurate"
  | 7 => some "maximum iterations reached"
  | 8 => some "run time limit reached"
  | 9 => some "problem non convex"
  | 10 => some "interrupted"
  | 11 => some "unsolved"
  | _ => none

/-! ## Polish status, osqp_api_constants.h `enum osqp_polish_status_type`. -/
namespace Pol
def linsysError : ℤ := -2
def failed : ℤ := -1
def notPerformed : ℤ := 0
def success : ℤ := 1
def noActiveSet : ℤ := 2
end Pol

/-! ## Error codes, osqp_api_constants.h `enum osqp_error_type`. -/
namespace Err
def none : ℤ := 0
def dataValidation : ℤ := 1
def settingsValidation : ℤ := 2
def linsysInit : ℤ := 3
def nonCvx : ℤ := 4
def memAlloc : ℤ := 5
def workspaceNotInit : ℤ := 6
end Err

/-- `OSQPInfo`, include/public/osqp_api_types.h:126-160. -/
structure Info (K : Type*) where
  status : String
  status_val : ℤ
  status_polish : ℤ
  obj_val : K
  dual_obj_val : K
  prim_res : K
  dual_res : K
  duality_gap : K
  iter : ℤ
  rho_updates : ℤ
  rho_estimate : K
  setup_time : K
  solve_time : K
  update_time : K
  polish_time : K
  run_time : K
  primdual_int : K
  rel_kkt_error : K

/-- `OSQPSolution`, include/public/osqp_api_types.h:163-172. -/
structure Solution (d : Dims) (K : Type*) where
  x : Vec K d.n
  y : Vec K d.m
  prim_inf_cert : Vec K d.m
  dual_inf_cert : Vec K d.n

/-- Values of `OSQPData` (include/private/types.h:73-81); the pattern lives in `Dims`. -/
structure Data (d : Dims) (K : Type*) where
  P : Vec K d.P.nnz
  A : Vec K d.A.nnz
  q : Vec K d.n
  l : Vec K d.m
  u : Vec K d.m

/-- `OSQPScaling` (include/private/types.h:29-39).  When `settings.scaling = 0` the C pointer is NULL and
the model never reads this record. -/
structure Scaling (d : Dims) (K : Type*) where
  c : K
  cinv : K
  D : Vec K d.n
  Dinv : Vec K d.n
  E : Vec K d.m
  Einv : Vec K d.m

/-- The part of `qdldl_solver` (algebra/_common/lin_sys/qdldl/qdldl_interface.h:29-100) that determines the
KKT matrix it factorises: the values of P and A copied into `KKT`, `sigma`, and `rho_inv_vec` (NULL when the
step size is scalar) / `rho_inv`. -/
structure LinSys (d : Dims) (K : Type*) where
  P : Vec K d.P.nnz
  A : Vec K d.A.nnz
  sigma : K
  rho_inv_vec : Option (Vec K d.m)
  rho_inv : K

/-- `param2` of the KKT matrix: `rho_inv_vec` if allocated, else the scalar (kkt.c:404-422). -/
def LinSys.param2 {d : Dims} {K : Type*} (ls : LinSys d K) : Vec K d.m :=
  match ls.rho_inv_vec with
  | some v => v
  | none => fun _ => ls.rho_inv

/-- `OSQPWorkspace`, include/private/types.h:99-231.  Omitted: `xz_tilde` and its views, `Atdelta_y`,
`Pdelta_x`, `Adelta_x`, `D_temp`, `D_temp_A`, `E_temp`, `pol` (always written before being read inside one
function; they are local values in the model), `timer` (see `Env.clk`), `summary_printed` (printing only),
`derivative_data` (modelled separately). -/
structure Work (d : Dims) (K : Type*) where
  data : Data d K
  linsys : LinSys d K
  rho_vec : Vec K d.m
  rho_inv_vec : Vec K d.m
  rho_inv : K
  constr_type : Fin d.m → ℤ
  x : Vec K d.n
  y : Vec K d.m
  z : Vec K d.m
  x_prev : Vec K d.n
  z_prev : Vec K d.m
  Ax : Vec K d.m
  Px : Vec K d.n
  Aty : Vec K d.n
  delta_y : Vec K d.m
  delta_x : Vec K d.n
  scaling : Scaling d K
  scaled_prim_res : K
  scaled_dual_res : K
  scaled_dual_gap : K
  xtPx : K
  qtx : K
  SC : K
  rho_updated : Bool
  last_rel_kkt : K
  first_run : Bool
  clear_update_time : Bool
  rho_update_from_solve : Bool

/-- `OSQPSolver` plus the pieces of process state the code touches: the number of `osqp_toc` readings and
interrupt polls made so far (cursors into the environment streams) and whether the interrupt handler is
installed (src/interrupt_unix.c). -/
structure Solver (d : Dims) (K : Type*) where
  settings : Settings K
  info : Info K
  work : Work d K
  solution : Option (Solution d K)
  ticks : ℕ
  polls : ℕ
  handler : Bool

/-- Everything outside the modelled code, as oracles.
* `sqrt`: `c_sqrt`.
* `clk k`: the value returned by the `k`-th call of `osqp_toc` (arbitrary, not even monotone).
* `intr k`: the result of the `k`-th `osqp_is_interrupted` poll.
* `factor k ls`: return value of `QDLDL_factor` on the KKT matrix of `ls` (number of positive pivots, or
  negative on failure); `k` distinguishes calls.
* `kktSolve ls bx bz`: solution of the KKT system computed by `LDLSolve` (x part, ν part).
* `polFactor`, `polSolve`: the same for the reduced KKT system of polishing (reduced rows numbered from 0,
  vectors indexed by ℕ, only the first `n_active` entries are meaningful). -/
structure Env (d : Dims) (K : Type*) where
  sqrt : K → K
  clk : ℕ → K
  intr : ℕ → Bool
  factor : LinSys d K → ℤ
  kktSolve : LinSys d K → Vec K d.n → Vec K d.m → Vec K d.n × Vec K d.m
  polFactor : Data d K → (Fin d.m → ℤ) → K → ℤ
  polSolve : Data d K → (Fin d.m → ℤ) → K → Vec K d.n → (ℕ → K) → Vec K d.n × (ℕ → K)

end Osqp
