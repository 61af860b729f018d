import Verif.Cex.Rho
import Verif.Cex.Indep

/-!
# Counterexample for C86
-/

namespace Osqp
open Spec

/-- **C86 fails** in general: after an update of the constraint matrix of a scaled problem, giving the bounds that the problem already has again is accepted, leaves the user's problem as it was, and yet changes
the step sizes and the point to which the next solve comes. -/
theorem c86_counterexample : ∃ (env : Env Demo.dims ℚ) (D₀ U : Data Demo.dims ℚ) (st : Settings ℚ) (s t : Solver Demo.dims ℚ),
    SqrtPos env ∧ Hist Demo.cfg env D₀ st U s ∧ apiStep Demo.cfg env s (.updateDataVec none (some U.l) (some U.u)) = some (t, 0) ∧
    userStep U (.updateDataVec none (some U.l) (some U.u)) = U ∧ t.work.rho_vec ≠ s.work.rho_vec ∧
    (osqpSolve Demo.cfg env s).2 = 0 ∧ (osqpSolve Demo.cfg env t).2 = 0 ∧ (osqpSolve Demo.cfg env t).1.work.x ≠ (osqpSolve Demo.cfg env s).1.work.x := by
  let U := userStep Demo.sNarrow.data (.updateDataMat Demo.noP Demo.newA)
  refine ⟨Demo.sNarrow.env, Demo.sNarrow.data, U, Demo.sNarrow.st, Demo.narrowDone, (osqpUpdateDataVec Demo.cfg Demo.sNarrow.env Demo.narrowDone none (some U.l) (some U.u)).1, Demo.sNarrow.sqrtPos,
    Hist.step (op := .updateDataMat Demo.noP Demo.newA) (Demo.sNarrow.hist Demo.okNarrow)
      (code := (Demo.narrowOut.get Demo.narrow_ok).2) (Option.some_get Demo.narrow_ok).symm, congrArg some (Prod.ext rfl ?_), ?_, ?_, ?_, ?_, ?_⟩ <;> decide +kernel

end Osqp
