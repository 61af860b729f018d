import Mathlib.Algebra.Order.Field.Basic
import Mathlib.Tactic.Linarith
import Verif.Model.Num

/-!
# Model of the tolerance rule of the indirect solver

algebra/mkl/lin_sys/indirect/mkl-cg_interface.c.  MKL's conjugate-gradient routine is a parameter: what a solve reports
is whether a solution was found and whether it took no iteration at all.  `sqrt` is a parameter.
-/

namespace Osqp.Cg

variable {K : Type*} [Field K] [LinearOrder K]

/-- include/public/osqp_api_constants.h:215 `OSQP_CG_TOL_MIN` (1e-7). -/
def tolMin : K := 1 / 10000000
/-- include/public/osqp_api_constants.h:216 `OSQP_CG_POLISH_TOL` (1e-5). -/
def polishTol : K := 1 / 100000

/-- The fields of `mklcg_solver` that the rule uses.  The struct is obtained with `malloc` and `eps_prev` is not
assigned by the initialisation (mkl-cg_interface.c:83-181): `none` is its indeterminate value. -/
structure State (K : Type*) where
  polish : Bool
  eps_prev : Option K
  reduction_factor : K
  tol_fraction : K
  reduction_interval : ℤ
  cg_zero_iters : ℤ

/-- mkl-cg_interface.c:83-181 `init_linsys_mklcg`, the fields above (lines 103, 138-141). -/
def init (polish : Bool) (cg_tol_fraction : K) (cg_tol_reduction : ℤ) : State K :=
  { polish := polish, eps_prev := none, reduction_factor := cg_tol_fraction, tol_fraction := cg_tol_fraction,
    reduction_interval := cg_tol_reduction, cg_zero_iters := 0 }

/-- mkl-cg_interface.c:10-34 `cg_compute_tolerance`: the tolerance (also the new `*eps_prev`); `none` when an
indeterminate `*eps_prev` is read. -/
def computeTolerance (sqrt : K → K) (admm_iter : ℤ) (rhs_norm prim dual factor : K) (eps_prev : Option K) : Option K :=
  if admm_iter = 1 then
    if rhs_norm < tolMin then some 1 else some (rhs_norm * factor)
  else
    eps_prev.bind fun e => some (cMax (cMin (factor * sqrt (prim * dual)) e) tolMin)

/-- What one call of `solve_linsys_mklcg` is given: the iteration number, the norm of the right-hand side, the current
scaled residuals, and what the conjugate-gradient routine will answer. -/
structure Call (K : Type*) where
  admm_iter : ℤ
  rhs_norm : K
  prim : K
  dual : K
  /-- a solution was found (`rci_request` is 0 or 2) -/
  found : Bool
  /-- no CG iteration was performed (`iparm[3] == 0`) -/
  noIter : Bool

/-- mkl-cg_interface.c:219-237, the tolerance of a call, and 285-289, the counter; the result is the new state and the
tolerance handed to the conjugate-gradient loop. -/
def solve (sqrt : K → K) (s : State K) (c : Call K) : Option (State K × K) :=
  let r : Option (State K × K) :=
    if s.polish then some (s, cMax (c.rhs_norm * polishTol) tolMin)
    else
      let s := if c.admm_iter = 1 then { s with reduction_factor := s.tol_fraction }
        else if s.cg_zero_iters ≥ s.reduction_interval then
          { s with reduction_factor := s.reduction_factor / 2, cg_zero_iters := 0 }
        else s
      (computeTolerance sqrt c.admm_iter c.rhs_norm c.prim c.dual s.reduction_factor s.eps_prev).bind fun e =>
        some ({ s with eps_prev := some e }, e)
  r.bind fun r =>
    let s := if c.found then
        if c.noIter then { r.1 with cg_zero_iters := r.1.cg_zero_iters + 1 } else { r.1 with cg_zero_iters := 0 }
      else r.1
    some (s, r.2)

/-- mkl-cg_interface.c:298-328 `update_settings_linsys_solver_mklcg`, the tolerance parameters (lines 320-321). -/
def updateSettings (s : State K) (cg_tol_fraction : K) (cg_tol_reduction : ℤ) : State K :=
  { s with reduction_interval := cg_tol_reduction, tol_fraction := cg_tol_fraction }

/-- What happens to the solver between its creation and its end. -/
inductive Event (K : Type*)
  | solve (c : Call K)
  | settings (fraction : K) (interval : ℤ)

/-- A history: the tolerances used by its solves, in order (newest last), and the final state; `none` if an
indeterminate value was read. -/
def run (sqrt : K → K) : State K → List (Event K) → Option (State K × List K)
  | s, [] => some (s, [])
  | s, .settings f i :: es => run sqrt (updateSettings s f i) es
  | s, .solve c :: es => (solve sqrt s c).bind fun r => (run sqrt r.1 es).bind fun q => some (q.1, r.2 :: q.2)

end Osqp.Cg
