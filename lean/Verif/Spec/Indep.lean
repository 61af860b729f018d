import Verif.Spec.Run

/-!
# Specification: what the result of a solve may depend on
-/

namespace Osqp.Spec
variable {K : Type*} [Field K] [LinearOrder K] {d : Dims}

/-- The two solvers hold the same settings, the same data with the same scaling, and the same current step sizes
(with the derived quantities: inverses, constraint types and the contents of the linear system solver).  Nothing is
said about iterates, scratch vectors, residuals, statistics, times, status or stored solution. -/
structure SameProblem (s t : Solver d K) : Prop where
  settings : s.settings = t.settings
  data : s.work.data = t.work.data
  scaling : s.work.scaling = t.work.scaling
  linsys : s.work.linsys = t.work.linsys
  rho_vec : s.work.rho_vec = t.work.rho_vec
  rho_inv_vec : s.work.rho_inv_vec = t.work.rho_inv_vec
  rho_inv : s.work.rho_inv = t.work.rho_inv
  constr_type : s.work.constr_type = t.work.constr_type

/-- The solve called in state `s` is stopped neither by the clock nor by the user, and the step size is not adapted
on the basis of clock readings. -/
def Undisturbed (cfg : Cfg) (env : Env d K) (s : Solver d K) : Prop :=
  (∀ it, ¬ ClockStop cfg env s it) ∧ (cfg.interrupt = true → ∀ j, env.intr j = false) ∧
  (s.settings.adaptive_rho ≠ 2 ∨ cfg.profiling = false)

/-- The two solvers report the same result: iterate, status, iteration count, objective values, residuals, step size
and stored point; also the stored certificates, unless the problem was found non-convex. -/
structure SameResult (s t : Solver d K) : Prop where
  settings : s.settings = t.settings
  x : s.work.x = t.work.x
  y : s.work.y = t.work.y
  z : s.work.z = t.work.z
  status_val : s.info.status_val = t.info.status_val
  status : s.info.status = t.info.status
  iter : s.info.iter = t.info.iter
  obj_val : s.info.obj_val = t.info.obj_val
  dual_obj_val : s.info.dual_obj_val = t.info.dual_obj_val
  duality_gap : s.info.duality_gap = t.info.duality_gap
  prim_res : s.info.prim_res = t.info.prim_res
  dual_res : s.info.dual_res = t.info.dual_res
  rel_kkt_error : s.info.rel_kkt_error = t.info.rel_kkt_error
  sol_x : s.solution.map (·.x) = t.solution.map (·.x)
  sol_y : s.solution.map (·.y) = t.solution.map (·.y)
  sol : s.info.status_val ≠ St.nonCvx → s.solution = t.solution

end Osqp.Spec
