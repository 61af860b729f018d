import Verif.Props.Time

/-!
# Run-time accounting: a history meeting the hypotheses, and two counterexamples
-/

namespace Osqp
open Spec
namespace Demo

/-- The clock readings are 1, 2, 3, …; polishing is on. -/
def sTick : Scenario := { sPolish with clk := fun k => k + 1 }
theorem okTick : sTick.Ok := by decide +kernel

/-- After the first solve: a step-size update, then a second solve. -/
def tickUpd : Solver dims ℚ := (osqpUpdateRho cfg sTick.env (sTick.done okTick) 1).1
def tickDone : Solver dims ℚ := (osqpSolve cfg sTick.env tickUpd).1

theorem tick_start : Ledger cfg sTick.env sTick.data sTick.st true (0 + elapsed sTick.env (sTick.made.get okTick) (sTick.start okTick))
    (sTick.start okTick) :=
  Ledger.other (op := .warmStart (some fun _ => sTick.x) (some fun _ => sTick.y)) (.setup (got_ok okTick)) (by simp) rfl

theorem tick_done : Ledger cfg sTick.env sTick.data sTick.st false 0 (sTick.done okTick) :=
  .solve tick_start (sTick.solve_eq okTick (by decide +kernel))

theorem tick_upd : Ledger cfg sTick.env sTick.data sTick.st false (0 + elapsed sTick.env (sTick.done okTick) tickUpd) tickUpd :=
  Ledger.other (op := .updateRho 1) tick_done (by simp) rfl

/-- The same without the step-size update, polishing switched off before the second solve. -/
def polOff : Solver dims ℚ := (osqpUpdateSettings cfg (sTick.done okTick) (some { quick with eps_abs := 1 / 10 })).1
def polOffDone : Solver dims ℚ := (osqpSolve cfg sTick.env polOff).1

theorem polOff_ledger : Ledger cfg sTick.env sTick.data sTick.st false (0 + elapsed sTick.env (sTick.done okTick) polOff) polOff :=
  Ledger.other (op := .updateSettings (some { quick with eps_abs := 1 / 10 })) tick_done (by simp) rfl

/-- The second solve is interrupted. -/
def sSecond : Scenario := { sSolved with clk := fun k => k + 1, intr := fun k => decide (k = 1) }
theorem okSecond : sSecond.Ok := by decide +kernel
def cutShort : Solver dims ℚ := (osqpSolve cfg sSecond.env (sSecond.done okSecond)).1
def cutUpd : Solver dims ℚ := (osqpUpdateRho cfg sSecond.env cutShort 1).1

end Demo

/-- A second solve, after a first one with polishing and a step-size update. -/
example : ∃ (env : Env Demo.dims ℚ) (D : Data Demo.dims ℚ) (st : Settings ℚ) (s s' : Solver Demo.dims ℚ) (t : ℚ), SqrtPos env ∧
    Ledger Demo.cfg env D st false t s ∧ osqpSolve Demo.cfg env s = (s', 0) ∧ 0 < s'.info.update_time ∧ 0 < s'.info.solve_time ∧
    0 < s'.info.polish_time ∧ s'.info.solve_time ≠ s.info.solve_time :=
  ⟨Demo.sTick.env, Demo.sTick.data, Demo.sTick.st, Demo.tickUpd, Demo.tickDone, _, Demo.sTick.sqrtPos, Demo.tick_upd,
    Prod.ext rfl (by decide +kernel), by decide +kernel, by decide +kernel, by decide +kernel, by decide +kernel⟩

/-- **C50**: the polishing time of an earlier solve is counted again. Polishing is off in this solve, but the run time still
contains the time an earlier solve spent on polishing. -/
theorem c50_polish_counterexample : ∃ (env : Env Demo.dims ℚ) (D : Data Demo.dims ℚ) (st : Settings ℚ) (s s' : Solver Demo.dims ℚ) (t : ℚ),
    SqrtPos env ∧ Ledger Demo.cfg env D st false t s ∧ osqpSolve Demo.cfg env s = (s', 0) ∧ s.settings.polishing = 0 ∧
    s'.info.run_time ≠ s'.info.update_time + s'.info.solve_time :=
  ⟨Demo.sTick.env, Demo.sTick.data, Demo.sTick.st, Demo.polOff, Demo.polOffDone, _, Demo.sTick.sqrtPos, Demo.polOff_ledger,
    Prod.ext rfl (by decide +kernel), by decide +kernel, by decide +kernel⟩

/-- **C50 fails** after a solve that did not return 0: a later successful step-size update does not read the clock (unlike
`c50_counted_partial`), so its time is not counted by the next solve. -/
theorem c50_counterexample : ∃ (env : Env Demo.dims ℚ) (D : Data Demo.dims ℚ) (st : Settings ℚ) (s0 s1 s2 s3 : Solver Demo.dims ℚ),
    SqrtPos env ∧ Hist Demo.cfg env D st D s0 ∧ osqpSolve Demo.cfg env s0 = (s1, 1) ∧ osqpUpdateRho Demo.cfg env s1 1 = (s2, 0) ∧
    osqpSolve Demo.cfg env s2 = (s3, 0) ∧ s2.ticks = s1.ticks ∧ s2.settings.rho ≠ s1.settings.rho ∧ s3.info.update_time = 0 :=
  ⟨Demo.sSecond.env, Demo.sSecond.data, Demo.sSecond.st, Demo.sSecond.done Demo.okSecond, Demo.cutShort, Demo.cutUpd,
    (osqpSolve Demo.cfg Demo.sSecond.env Demo.cutUpd).1, Demo.sSecond.sqrtPos, Demo.sSecond.hist_done Demo.okSecond,
    Prod.ext rfl (by decide +kernel), Prod.ext rfl (by decide +kernel), Prod.ext rfl (by decide +kernel), by decide +kernel,
    by decide +kernel, by decide +kernel⟩

end Osqp
