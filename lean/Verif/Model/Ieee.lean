import Verif.Model.Api

/-!
# Special values of floating-point arguments

The rest of the model computes in an ordered field. Here a value given by the caller may also be an infinity
or NaN, compared as in IEEE 754: every comparison with NaN is false. Modelled are the places where such a value
meets a comparison of the code before anything else is computed from it: the validation of settings, the
rejection test of `osqp_update_rho`, and the clamping of the step size.
-/

namespace Osqp

/-- An `OSQPFloat` argument: NaN, the two infinities, or a number (simplification: one NaN, no signed zeros). -/
inductive Ieee (K : Type*)
  | nan | ninf | fin (x : K) | pinf
  deriving DecidableEq

namespace Ieee
variable {K : Type*} [Field K] [LinearOrder K]

/-- The C operator `<` on IEEE values. -/
def lt : Ieee K → Ieee K → Bool
  | nan, _ => false
  | _, nan => false
  | ninf, ninf => false
  | ninf, _ => true
  | _, ninf => false
  | pinf, _ => false
  | _, pinf => true
  | fin x, fin y => decide (x < y)

/-- The C operator `==` on IEEE values. -/
def eq : Ieee K → Ieee K → Bool
  | nan, _ => false
  | _, nan => false
  | ninf, ninf => true
  | pinf, pinf => true
  | fin x, fin y => decide (x = y)
  | _, _ => false

/-- The C operator `<=`. -/
def le (a b : Ieee K) : Bool := lt a b || eq a b

/-- glob_opts.h:40 `c_max(a, b) (((a) > (b)) ? (a) : (b))` with IEEE comparison. -/
def max (a b : Ieee K) : Ieee K := if lt b a then a else b

/-- glob_opts.h:44 `c_min(a, b) (((a) < (b)) ? (a) : (b))` with IEEE comparison. -/
def min (a b : Ieee K) : Ieee K := if lt a b then a else b

/-- `1. / x` for an IEEE value; division of one by zero gives an infinity (simplification: of positive sign). -/
def inv : Ieee K → Ieee K
  | nan => nan
  | ninf => fin 0
  | pinf => fin 0
  | fin x => if x = 0 then pinf else fin (1 / x)

/-- `c_min(c_max(x, OSQP_RHO_MIN), OSQP_RHO_MAX)`: auxil.c:44 and 83, osqp_api.c:495 and 1439. -/
def clampRho (x : Ieee K) : Ieee K := min (max x (fin (Const.rhoMin K))) (fin (Const.rhoMax K))

end Ieee

variable {K : Type*} [Field K] [LinearOrder K] {d : Dims}

/-- Settings made of ordinary numbers, read as IEEE values. -/
def Settings.map {K L : Type*} (f : K → L) (s : Settings K) : Settings L :=
  { device := s.device, linsys_solver := s.linsys_solver, allocate_solution := s.allocate_solution
    verbose := s.verbose, profiler_level := s.profiler_level, warm_starting := s.warm_starting
    scaling := s.scaling, polishing := s.polishing, rho := f s.rho, rho_is_vec := s.rho_is_vec
    sigma := f s.sigma, alpha := f s.alpha, cg_max_iter := s.cg_max_iter
    cg_tol_reduction := s.cg_tol_reduction, cg_tol_fraction := f s.cg_tol_fraction, cg_precond := s.cg_precond
    adaptive_rho := s.adaptive_rho, adaptive_rho_interval := s.adaptive_rho_interval
    adaptive_rho_fraction := f s.adaptive_rho_fraction, adaptive_rho_tolerance := f s.adaptive_rho_tolerance
    max_iter := s.max_iter, eps_abs := f s.eps_abs, eps_rel := f s.eps_rel
    eps_prim_inf := f s.eps_prim_inf, eps_dual_inf := f s.eps_dual_inf
    scaled_termination := s.scaled_termination, check_termination := s.check_termination
    check_dualgap := s.check_dualgap, time_limit := f s.time_limit, delta := f s.delta
    polish_refine_iter := s.polish_refine_iter }

open Ieee in
/-- src/auxil.c:1040-1223 `validate_settings` as in `validateSettings`, on IEEE values. -/
def validateSettingsN (cfg : Cfg) (s : Settings (Ieee K)) (fromSetup : Bool) : Bool :=
  (fromSetup && validateLinsys s.linsys_solver) ||
  (fromSetup && decide (s.allocate_solution ≠ 0) && decide (s.allocate_solution ≠ 1)) ||
  (decide (s.verbose ≠ 0) && decide (s.verbose ≠ 1)) ||
  (decide (s.profiler_level ≠ 0) && decide (s.profiler_level ≠ 1) && decide (s.profiler_level ≠ 2)) ||
  (decide (s.warm_starting ≠ 0) && decide (s.warm_starting ≠ 1)) ||
  (fromSetup && decide (s.scaling < 0)) ||
  (decide (s.polishing ≠ 0) && decide (s.polishing ≠ 1)) ||
  (fromSetup && le s.rho (fin 0)) ||
  (fromSetup && decide (s.rho_is_vec ≠ 0) && decide (s.rho_is_vec ≠ 1)) ||
  (fromSetup && le s.sigma (fin 0)) ||
  (le s.alpha (fin 0) || le (fin 2) s.alpha) ||
  decide (s.cg_max_iter ≤ 0) ||
  decide (s.cg_tol_reduction ≤ 0) ||
  (le s.cg_tol_fraction (fin 0) || le (fin 1) s.cg_tol_fraction) ||
  ((fromSetup && decide (s.adaptive_rho < 0)) || decide (s.adaptive_rho ≥ 4)) ||
  (!cfg.profiling && fromSetup && decide (s.adaptive_rho = 2)) ||
  (fromSetup && decide (s.adaptive_rho_interval < 0)) ||
  (fromSetup && le s.adaptive_rho_fraction (fin 0)) ||
  (fromSetup && lt s.adaptive_rho_tolerance (fin 1)) ||
  decide (s.max_iter ≤ 0) ||
  lt s.eps_abs (fin 0) ||
  lt s.eps_rel (fin 0) ||
  (eq s.eps_rel (fin 0) && eq s.eps_abs (fin 0)) ||
  le s.eps_prim_inf (fin 0) ||
  le s.eps_dual_inf (fin 0) ||
  (decide (s.scaled_termination ≠ 0) && decide (s.scaled_termination ≠ 1)) ||
  decide (s.check_termination < 0) ||
  (decide (s.check_dualgap ≠ 0) && decide (s.check_dualgap ≠ 1)) ||
  le s.time_limit (fin 0) ||
  le s.delta (fin 0) ||
  decide (s.polish_refine_iter < 0)

/-- osqp_api.c:1412-1464 `osqp_update_rho` with an IEEE argument. `none`: a step size that is not a number has
been stored (the exact model cannot go on). -/
def osqpUpdateRhoN (cfg : Cfg) (env : Env d K) (s : Solver d K) (rho_new : Ieee K) : Option (Solver d K × ℤ) :=
  if Ieee.le rho_new (.fin 0) then some (s, 1)
  else
    let s := if cfg.profiling && !s.work.rho_update_from_solve then clearUpdateTime s else s
    match Ieee.clampRho rho_new with
    | .fin rho =>
      let s : Solver d K := { s with settings := { s.settings with rho := rho } }
      let s : Solver d K := if s.settings.rho_is_vec ≠ 0 then
          let rv := rhoVecOf s.work.constr_type rho
          { s with work := { s.work with rho_vec := rv, rho_inv_vec := vRecip rv } }
        else { s with work := { s.work with rho_inv := 1 / rho } }
      let r := linsysUpdateRho env s.work.linsys s.work.rho_vec s.settings.rho
      let ls := r.1
      let ef := r.2
      let s := { s with work := { s.work with linsys := ls } }
      let s := if cfg.profiling && !s.work.rho_update_from_solve then addUpdateTime env s else s
      some (s, ef)
    | _ => none

/-- The step sizes as the code stores them, when any number the code computes elsewhere may be a special value:
`settings->rho`, `work->rho_inv` (scalar mode) and `work->rho_vec` (vector mode). -/
structure StepRegs (m : ℕ) (K : Type*) where
  rho : Ieee K
  rho_inv : Ieee K
  vec : Fin m → Ieee K

/-- `OSQPVectorf_set_scalar_conditional` as called at auxil.c:96-100 and osqp_api.c:1443-1447; the product
`OSQP_RHO_EQ_OVER_RHO_INEQ*settings->rho` of an infinity or NaN is itself (`rho` is never negative infinity
there; the product of it is given as itself as well). -/
def stepVecN {m : ℕ} (ct : Fin m → ℤ) (rho : Ieee K) : Fin m → Ieee K := fun i =>
  if ct i = -1 then .fin (Const.rhoMin K)
  else if ct i = 0 then rho
  else match rho with
    | .fin r => .fin (Const.rhoEqOverIneq K * r)
    | v => v

/-- Everything in the library that writes the step sizes, with an arbitrary value where the code has computed
one. `ct` are the constraint types at that moment. -/
inductive StepWrite (m : ℕ) (K : Type*)
  | setup (isVec : Bool) (request : Ieee K) (ct : Fin m → ℤ)   -- osqp_api.c:489-497
  | update (isVec : Bool) (request : Ieee K) (ct : Fin m → ℤ)  -- osqp_api.c:1422-1453
  | adapt (isVec far : Bool) (estimate : Ieee K) (ct : Fin m → ℤ) -- auxil.c:49-74, `estimate` before the clamp
  | bounds (ct : Fin m → ℤ)                                   -- set_rho_vec, auxil.c:76-105

/-- Effect of one write. Set-up may start from anything (`none`); the others need a set-up solver. A rejected
request leaves the registers alone. -/
def StepWrite.apply {m : ℕ} (w : StepWrite m K) (r : Option (StepRegs m K)) : Option (StepRegs m K) :=
  match w, r with
  | .setup isVec v ct, _ =>
    if Ieee.le v (.fin 0) then r
    else
      let rho := Ieee.clampRho v
      some ⟨rho, Ieee.inv v, if isVec then stepVecN ct rho else fun _ => rho⟩
  | .update isVec v ct, some r =>
    if Ieee.le v (.fin 0) then some r
    else
      let rho := Ieee.clampRho v
      some (if isVec then ⟨rho, r.rho_inv, stepVecN ct rho⟩ else ⟨rho, Ieee.inv rho, fun _ => rho⟩)
  | .adapt isVec far e ct, some r =>
    let v := Ieee.clampRho e
    if far then
      if Ieee.le v (.fin 0) then some r
      else
        let rho := Ieee.clampRho v
        some (if isVec then ⟨rho, r.rho_inv, stepVecN ct rho⟩ else ⟨rho, Ieee.inv rho, fun _ => rho⟩)
    else some r
  | .bounds ct, some r => let rho := Ieee.clampRho r.rho; some ⟨rho, r.rho_inv, stepVecN ct rho⟩
  | _, none => none

end Osqp
