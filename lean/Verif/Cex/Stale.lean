import Verif.Props.Limits

/-!
# Counterexamples: stale status, stale residuals

Properties a user expects which the code does not have, each disproved on a concrete history of API calls.
-/

namespace Osqp
open Spec Matrix
namespace Demo

/-- Solved in one iteration; at most one iteration per solve. -/
def sOnce : Scenario := { sSolved with st := { quick with max_iter := 1 } }
theorem okOnce : sOnce.Ok := by decide +kernel

/-- After the solve: a warm start far away from the solution. -/
def staleStart : Solver dims ℚ := (osqpWarmStart (sOnce.done okOnce) (some fun _ => 100) (some fun _ => 100)).1
def staleDone : Solver dims ℚ := (osqpSolve cfg sOnce.env staleStart).1

theorem stale_hist : Hist cfg sOnce.env sOnce.data sOnce.st sOnce.data staleStart :=
  Hist.step (op := .warmStart (some fun _ => 100) (some fun _ => 100)) (sOnce.hist_done okOnce) rfl

theorem stale_sol : staleDone.solution.isSome = true := by decide +kernel

/-- The clock runs out in the second iteration, after an unsuccessful check in the first. -/
def sLate : Scenario := { sSolved with x := 100, y := 100, clk := fun k => if k < 3 then 0 else 10, st := { quick with time_limit := 1 } }
theorem okLate : sLate.Ok := by decide +kernel
theorem late_sol : (sLate.done okLate).solution.isSome = true := by decide +kernel

end Demo

/-- **C14 fails** without the restriction of `c14_status_partial`: `osqp_solve` does not reset the status, so a
second solve that runs into the iteration limit far from a solution still reports "solved", with return code 0. -/
theorem c14_counterexample : ∃ (env : Env Demo.dims ℚ) (U : Data Demo.dims ℚ) (st : Settings ℚ) (s s' : Solver Demo.dims ℚ)
    (sol : Solution Demo.dims ℚ), SqrtPos env ∧ Hist Demo.cfg env U st U s ∧ osqpSolve Demo.cfg env s = (s', 0) ∧
    s'.solution = some sol ∧ UserCriteria s ∧ s.settings.polishing = 0 ∧ s'.info.status_val = St.solved ∧
    ¬ ∃ z, (ofData U).InBox z ∧ (ofData U).Converged s.settings.eps_abs s.settings.eps_rel sol.x z sol.y := by
  refine ⟨Demo.sOnce.env, Demo.sOnce.data, Demo.sOnce.st, Demo.staleStart, Demo.staleDone, Demo.staleDone.solution.get Demo.stale_sol,
    Demo.sOnce.sqrtPos, Demo.stale_hist, Prod.ext rfl (by decide +kernel), (Option.some_get Demo.stale_sol).symm, Or.inr (by decide +kernel),
    by decide +kernel, by decide +kernel, ?_⟩
  rintro ⟨z, _, _, h⟩
  exact absurd h (by decide +kernel)

/-- **C02 fails** without its exclusion: if the clock runs out in the iteration right after a scheduled check, the
reported residual is the one of the previous iterate, not of the returned point. -/
theorem c02_counterexample : ∃ (env : Env Demo.dims ℚ) (U : Data Demo.dims ℚ) (st : Settings ℚ) (s s' : Solver Demo.dims ℚ)
    (sol : Solution Demo.dims ℚ), SqrtPos env ∧ Hist Demo.cfg env U st U s ∧ osqpSolve Demo.cfg env s = (s', 0) ∧
    s'.solution = some sol ∧ UserCriteria s ∧ hasSolution s'.info = true ∧
    s'.info.dual_res ≠ (ofData U).dualRes sol.x sol.y ∧ s'.info.obj_val ≠ (ofData U).obj sol.x :=
  ⟨Demo.sLate.env, Demo.sLate.data, Demo.sLate.st, Demo.sLate.start Demo.okLate, Demo.sLate.done Demo.okLate,
    (Demo.sLate.done Demo.okLate).solution.get Demo.late_sol, Demo.sLate.sqrtPos, Demo.sLate.hist Demo.okLate,
    Demo.sLate.solve_eq Demo.okLate (by decide +kernel), (Option.some_get Demo.late_sol).symm, Or.inr (by decide +kernel),
    by decide +kernel, by decide +kernel, by decide +kernel⟩

end Osqp
