import Verif.Model.Types

/-!
# `src/auxil.c:950-1223`: validation of settings
-/

namespace Osqp
variable {K : Type*} [Field K] [LinearOrder K]

/-- src/auxil.c:1022-1037 `validate_linsys_solver` for the built-in algebra, which supports only
`OSQP_DIRECT_SOLVER` (= 1; algebra/builtin/algebra_libs.c `osqp_algebra_linsys_supported`). -/
def validateLinsys (v : ℤ) : Bool := !decide (v = 1)

/-- src/auxil.c:1040-1223 `validate_settings` with non-NULL `settings`; `true` = rejected (returns 1).
The conditions are in the order and with the C operator precedence of the source (note lines 1130-1132: `&&`
binds tighter than `||`, so the upper limit on `adaptive_rho` is checked even for updates). -/
def validateSettings (cfg : Cfg) (s : Settings K) (fromSetup : Bool) : Bool :=
  (fromSetup && validateLinsys s.linsys_solver) ||
  (fromSetup && decide (s.allocate_solution ≠ 0) && decide (s.allocate_solution ≠ 1)) ||
  (decide (s.verbose ≠ 0) && decide (s.verbose ≠ 1)) ||
  (decide (s.profiler_level ≠ 0) && decide (s.profiler_level ≠ 1) && decide (s.profiler_level ≠ 2)) ||
  (decide (s.warm_starting ≠ 0) && decide (s.warm_starting ≠ 1)) ||
  (fromSetup && decide (s.scaling < 0)) ||
  (decide (s.polishing ≠ 0) && decide (s.polishing ≠ 1)) ||
  (fromSetup && decide (s.rho ≤ 0)) ||
  (fromSetup && decide (s.rho_is_vec ≠ 0) && decide (s.rho_is_vec ≠ 1)) ||
  (fromSetup && decide (s.sigma ≤ 0)) ||
  (decide (s.alpha ≤ 0) || decide (s.alpha ≥ 2)) ||
  decide (s.cg_max_iter ≤ 0) ||
  decide (s.cg_tol_reduction ≤ 0) ||
  (decide (s.cg_tol_fraction ≤ 0) || decide (s.cg_tol_fraction ≥ 1)) ||
  ((fromSetup && decide (s.adaptive_rho < 0)) || decide (s.adaptive_rho ≥ 4)) ||
  (!cfg.profiling && fromSetup && decide (s.adaptive_rho = 2)) ||
  (fromSetup && decide (s.adaptive_rho_interval < 0)) ||
  (fromSetup && decide (s.adaptive_rho_fraction ≤ 0)) ||
  (fromSetup && decide (s.adaptive_rho_tolerance < 1)) ||
  decide (s.max_iter ≤ 0) ||
  decide (s.eps_abs < 0) ||
  decide (s.eps_rel < 0) ||
  (decide (s.eps_rel = 0) && decide (s.eps_abs = 0)) ||
  decide (s.eps_prim_inf ≤ 0) ||
  decide (s.eps_dual_inf ≤ 0) ||
  (decide (s.scaled_termination ≠ 0) && decide (s.scaled_termination ≠ 1)) ||
  decide (s.check_termination < 0) ||
  (decide (s.check_dualgap ≠ 0) && decide (s.check_dualgap ≠ 1)) ||
  decide (s.time_limit ≤ 0) ||
  decide (s.delta ≤ 0) ||
  decide (s.polish_refine_iter < 0)

end Osqp
