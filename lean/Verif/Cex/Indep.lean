import Verif.Props.Indep

/-!
# Demonstration and counterexample for C27
-/

namespace Osqp
open Spec
namespace Demo

deriving instance DecidableEq for Settings
deriving instance DecidableEq for LinSys
deriving instance DecidableEq for Data
deriving instance DecidableEq for Scaling

/-- A solver that has found a solution from a good starting point, and one that has just been set up (and given a
starting point); both are then told not to use starting points. -/
def coldSt : Settings ℚ := { sOnce.st with warm_starting := 0 }
def coldOld : Solver dims ℚ := (osqpUpdateSettings cfg (sOnce.done okOnce) (some coldSt)).1
def coldNew : Solver dims ℚ := (osqpUpdateSettings cfg (sOnce.start okOnce) (some coldSt)).1
/-- As `coldOld`, with other iterates. -/
def coldFar : Solver dims ℚ := (osqpUpdateSettings cfg staleStart (some coldSt)).1

theorem upd_ok (s : Solver dims ℚ) : (osqpUpdateSettings cfg s (some coldSt)).2 = 0 := by
  have : validateSettings cfg coldSt false = false := by decide +kernel
  unfold osqpUpdateSettings; simp only [this]; rfl

theorem old_hist : Hist cfg sOnce.env sOnce.data sOnce.st sOnce.data coldOld :=
  Hist.step (op := .updateSettings (some coldSt)) (code := 0) (sOnce.hist_done okOnce) (by simp only [apiStep]; exact congrArg some (Prod.ext rfl (upd_ok _)))
theorem new_hist : Hist cfg sOnce.env sOnce.data sOnce.st sOnce.data coldNew :=
  Hist.step (op := .updateSettings (some coldSt)) (code := 0) (sOnce.hist okOnce) (by simp only [apiStep]; exact congrArg some (Prod.ext rfl (upd_ok _)))
theorem far_hist : Hist cfg sOnce.env sOnce.data sOnce.st sOnce.data coldFar :=
  Hist.step (op := .updateSettings (some coldSt)) (code := 0) stale_hist (by simp only [apiStep]; exact congrArg some (Prod.ext rfl (upd_ok _)))

theorem old_new : SameProblem coldOld coldNew := by
  constructor <;> decide +kernel
theorem old_far : SameProblem coldOld coldFar := by
  constructor <;> decide +kernel

theorem calm {s : Solver dims ℚ} (h : Hist cfg sOnce.env sOnce.data sOnce.st sOnce.data s)
    (ht : ¬ s.settings.time_limit ≤ (if (solveEntry cfg s).s.work.first_run then (solveEntry cfg s).s.info.setup_time else (solveEntry cfg s).s.info.update_time))
    (ha : s.settings.adaptive_rho ≠ 2) : Undisturbed cfg sOnce.env s := by
  refine ⟨?_, fun _ _ => rfl, Or.inl ha⟩
  rintro it ⟨_, _, L, run, _, _, hl⟩
  have w := (head_of_runs (hist_inv sOnce.sqrtPos h) run).within
  obtain ⟨r, i, e⟩ := (fromCall w).settings
  have ec : sOnce.env.clk L.s.ticks = 0 := rfl
  have eu := (w.cut (by rw [w.rufs]; have hp : cfg.profiling = true := rfl; unfold solveEntry; simp [hp]; split_ifs <;> simp)).2
  rw [e, w.first, w.setup, eu, ec, add_zero] at hl
  exact ht hl

end Demo

/-- The hypotheses of `c27_independent_partial` are met by two solvers with different iterates. -/
example : (osqpSolve Demo.cfg Demo.sOnce.env Demo.coldOld).2 = (osqpSolve Demo.cfg Demo.sOnce.env Demo.coldFar).2 ∧
    ((osqpSolve Demo.cfg Demo.sOnce.env Demo.coldOld).2 = 0 →
      SameResult (osqpSolve Demo.cfg Demo.sOnce.env Demo.coldOld).1 (osqpSolve Demo.cfg Demo.sOnce.env Demo.coldFar).1) :=
  c27_independent_partial Demo.sOnce.sqrtPos Demo.old_hist Demo.far_hist Demo.old_far (by decide +kernel) (by decide +kernel)
    (fun h => absurd h (by decide +kernel)) (Or.inl (by decide +kernel)) (Demo.calm Demo.old_hist (by decide +kernel) (by decide +kernel))
    (Demo.calm Demo.far_hist (by decide +kernel) (by decide +kernel))

example : (osqpSolve Demo.cfg Demo.sOnce.env Demo.coldOld).2 = 0 ∧ Demo.coldOld.work.x ≠ Demo.coldFar.work.x := by decide +kernel

/-- **C27 fails** without the restriction of `c27_independent_partial`: with warm starting off, two solvers that hold
the same settings, data, scaling and step sizes report different results, because the second one still carries the
status of an earlier solve: "maximum iterations reached" for the one, "solved" for the other. -/
theorem c27_counterexample : ∃ (env : Env Demo.dims ℚ) (U : Data Demo.dims ℚ) (st : Settings ℚ) (s t : Solver Demo.dims ℚ),
    SqrtPos env ∧ Hist Demo.cfg env U st U s ∧ Hist Demo.cfg env U st U t ∧ SameProblem s t ∧ s.settings.warm_starting = 0 ∧
    Undisturbed Demo.cfg env s ∧ Undisturbed Demo.cfg env t ∧ s.settings.adaptive_rho ≠ 3 ∧
    (osqpSolve Demo.cfg env s).2 = 0 ∧ (osqpSolve Demo.cfg env t).2 = 0 ∧
    (osqpSolve Demo.cfg env s).1.info.status_val = St.solved ∧ (osqpSolve Demo.cfg env t).1.info.status_val = St.maxIter :=
  ⟨Demo.sOnce.env, Demo.sOnce.data, Demo.sOnce.st, Demo.coldOld, Demo.coldNew, Demo.sOnce.sqrtPos, Demo.old_hist, Demo.new_hist,
    Demo.old_new, by decide +kernel, Demo.calm Demo.old_hist (by decide +kernel) (by decide +kernel),
    Demo.calm Demo.new_hist (by decide +kernel) (by decide +kernel), by decide +kernel, by decide +kernel, by decide +kernel,
    by decide +kernel, by decide +kernel⟩

end Osqp
