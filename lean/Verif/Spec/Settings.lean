import Verif.Model.Types

/-!
# Specification: documented ranges of the settings
-/

namespace Osqp.Spec
variable {K : Type*} [Field K] [LinearOrder K]

/-- Ranges of the settings that `osqp_update_settings` may change. -/
structure ValidMutable (s : Settings K) : Prop where
  verbose : s.verbose = 0 ∨ s.verbose = 1
  profiler_level : s.profiler_level = 0 ∨ s.profiler_level = 1 ∨ s.profiler_level = 2
  warm_starting : s.warm_starting = 0 ∨ s.warm_starting = 1
  polishing : s.polishing = 0 ∨ s.polishing = 1
  alpha : 0 < s.alpha ∧ s.alpha < 2
  cg_max_iter : 0 < s.cg_max_iter
  cg_tol_reduction : 0 < s.cg_tol_reduction
  cg_tol_fraction : 0 < s.cg_tol_fraction ∧ s.cg_tol_fraction < 1
  max_iter : 0 < s.max_iter
  eps_abs : 0 ≤ s.eps_abs
  eps_rel : 0 ≤ s.eps_rel
  eps : s.eps_abs ≠ 0 ∨ s.eps_rel ≠ 0
  eps_prim_inf : 0 < s.eps_prim_inf
  eps_dual_inf : 0 < s.eps_dual_inf
  scaled_termination : s.scaled_termination = 0 ∨ s.scaled_termination = 1
  check_termination : 0 ≤ s.check_termination
  check_dualgap : s.check_dualgap = 0 ∨ s.check_dualgap = 1
  time_limit : 0 < s.time_limit
  delta : 0 < s.delta
  polish_refine_iter : 0 ≤ s.polish_refine_iter

/-- Ranges of the settings fixed at setup (except the step size and the adaptation interval, which the
solver itself changes). The time-based adaptation mode needs a build with profiling. -/
structure ValidFixed (cfg : Cfg) (s : Settings K) : Prop where
  linsys_solver : s.linsys_solver = 1
  allocate_solution : s.allocate_solution = 0 ∨ s.allocate_solution = 1
  scaling : 0 ≤ s.scaling
  rho_is_vec : s.rho_is_vec = 0 ∨ s.rho_is_vec = 1
  sigma : 0 < s.sigma
  adaptive_rho : 0 ≤ s.adaptive_rho ∧ s.adaptive_rho ≤ 3
  adaptive_time : cfg.profiling = false → s.adaptive_rho ≠ 2
  adaptive_rho_fraction : 0 < s.adaptive_rho_fraction
  adaptive_rho_tolerance : 1 ≤ s.adaptive_rho_tolerance

/-- Settings acceptable to `osqp_setup`. -/
structure ValidSettings (cfg : Cfg) (s : Settings K) : Prop where
  live : ValidMutable s
  fixed : ValidFixed cfg s
  rho : 0 < s.rho
  interval : 0 ≤ s.adaptive_rho_interval

end Osqp.Spec
