import Verif.Props.Continue

/-!
# C83: settings that only observe the iteration

Printing, the termination checks with their tolerances, the time limit and polishing are all read between the steps.
`AllDone` (`Spec/Run.lean`): all `max_iter` iterations of the solve were executed.
-/

set_option linter.unusedSectionVars false
namespace Osqp
open Spec
variable {K : Type*} [Field K] [LinearOrder K] [IsStrictOrderedRing K] {d : Dims} {cfg : Cfg} {env : Env d K} {s s1 s' t t1 t' : Solver d K}

theorem update_inStep {st : Settings K} (call : osqpUpdateSettings cfg s (some st) = (s1, 0)) :
    s1.work = s.work ∧ s1.settings.max_iter = st.max_iter ∧ s1.settings.warm_starting = st.warm_starting ∧ s1.settings.adaptive_rho = s.settings.adaptive_rho ∧
      s1.settings.polishing = st.polishing ∧ s1.settings.alpha = st.alpha ∧ core s1 = core s ∧ s1.settings.scaling = s.settings.scaling := by
  unfold osqpUpdateSettings at call
  dsimp only at call
  split_ifs at call
  · have := congrArg Prod.snd call; simp [Err.settingsValidation] at this
  · obtain rfl := (Prod.mk.inj call).1; exact ⟨rfl, rfl, rfl, rfl, rfl, rfl, rfl, rfl⟩

/-- **C83 (partial)**.  With warm starting and a fixed step size, change the settings of one solver in two ways that agree in the relaxation parameter and the iteration limit and differ in any of
the others: verbosity, tolerances, termination checks and their interval, the kind of termination, time limit, refinement steps, profiling. If both solves execute all their iterations, end without
a certificate and do not polish, they leave the same iterate and return the same primal and dual point.
Missing: solves stopped by a check, and an adaptive step size. `c83_integral_counterexample`: the reported primal-dual integral does depend on the verbosity. -/
theorem c83_observe_partial {a b : Settings K} (fixed : s.settings.adaptive_rho = 0) (relax : a.alpha = b.alpha) (limit : a.max_iter = b.max_iter)
    (set1 : osqpUpdateSettings cfg s (some a) = (s1, 0)) (warm1 : a.warm_starting ≠ 0) (solve1 : osqpSolve cfg env s1 = (s', 0)) (done1 : AllDone cfg env s1)
    (carries1 : hasSolution s'.info = true) (pol1 : a.polishing = 0 ∨ s'.info.status_val ≠ St.solved)
    (set2 : osqpUpdateSettings cfg s (some b) = (t1, 0)) (warm2 : b.warm_starting ≠ 0) (solve2 : osqpSolve cfg env t1 = (t', 0)) (done2 : AllDone cfg env t1)
    (carries2 : hasSolution t'.info = true) (pol2 : b.polishing = 0 ∨ t'.info.status_val ≠ St.solved) :
    s'.work.x = t'.work.x ∧ s'.work.z = t'.work.z ∧ s'.work.y = t'.work.y ∧
      ∀ sol sol', s'.solution = some sol → t'.solution = some sol' → sol.x = sol'.x ∧ sol.y = sol'.y := by
  obtain ⟨a1, a2, a3, a4, a5, a6, a7, a8⟩ := update_inStep set1
  obtain ⟨b1, b2, b3, b4, b5, b6, b7, b8⟩ := update_inStep set2
  obtain ⟨i1, -, k1⟩ := solve_iterates (by rw [a3]; exact warm1) (by rw [a4]; exact fixed) done1 solve1 carries1 (by rw [a5]; exact pol1)
  obtain ⟨i2, -, k2⟩ := solve_iterates (by rw [b3]; exact warm2) (by rw [b4]; exact fixed) done2 solve2 carries2 (by rw [b5]; exact pol2)
  have h : InStep s1 t1 := ⟨by rw [a1, b1], by rw [a1, b1], by rw [a1, b1], by rw [a7, b7], by rw [a6, b6, relax], by rw [a8, b8], by rw [a1, b1]⟩
  have c1 := (agree_iterate (env := env) h s1.settings.max_iter.toNat)
  rw [show t1.settings.max_iter.toNat = s1.settings.max_iter.toNat by rw [a2, b2, limit]] at i2
  have c2 := c1.trans i2
  refine ⟨i1.x.symm.trans c2.x, i1.z.symm.trans c2.z, i1.y.symm.trans c2.y, fun sol sol' h h' => ?_⟩
  have e1 := k1 sol h
  have e2 := k2 sol' h'
  rw [← i1.x, ← i1.y, ← i1.sc, ← i1.on] at e1
  rw [← c2.x, ← c2.y, ← c2.sc, ← c2.on] at e2
  have e := e1.trans e2.symm
  exact ⟨congrArg Prod.fst e, congrArg Prod.snd e⟩

/-! ## The hypotheses are met -/

/-- The solver of `Demo.sCut` with the settings changed by `f`. -/
def Demo.set (f : Settings ℚ → Settings ℚ) : Solver Demo.dims ℚ := (osqpUpdateSettings Demo.cfg Demo.c0 (some (f Demo.c0.settings))).1
/-- Three iterations, silent, no checks; and three iterations, printing, other tolerances and another kind of residual. -/
def Demo.silent (st : Settings ℚ) : Settings ℚ := { st with max_iter := 3, verbose := 0 }
def Demo.loud (st : Settings ℚ) : Settings ℚ := { st with max_iter := 3, verbose := 1, eps_abs := 1 / 1000, eps_rel := 0, scaled_termination := 1, polish_refine_iter := 7 }

theorem Demo.set_hist (f : Settings ℚ → Settings ℚ) : Hist Demo.cfg Demo.sCut.env Demo.sCut.data Demo.sCut.st Demo.sCut.data (Demo.set f) :=
  Hist.step (op := .updateSettings (some (f Demo.c0.settings))) (code := (osqpUpdateSettings Demo.cfg Demo.c0 (some (f Demo.c0.settings))).2) Demo.c0_hist rfl

example : (∀ sol sol', (Demo.run (Demo.set Demo.silent)).solution = some sol → (Demo.run (Demo.set Demo.loud)).solution = some sol' → sol.x = sol'.x ∧ sol.y = sol'.y) ∧
    (Demo.run (Demo.set Demo.silent)).solution.isSome = true ∧ (Demo.run (Demo.set Demo.silent)).work.x ≠ Demo.c0.work.x :=
  ⟨(c83_observe_partial (cfg := Demo.cfg) (env := Demo.sCut.env) (s := Demo.c0) (a := Demo.silent Demo.c0.settings) (b := Demo.loud Demo.c0.settings)
    (s1 := Demo.set Demo.silent) (t1 := Demo.set Demo.loud) (by decide +kernel) (by decide +kernel) (by decide +kernel)
    (Prod.ext rfl (by decide +kernel)) (by decide +kernel) (Prod.ext rfl (by decide +kernel))
    (c82_all_done (by decide +kernel) (by decide +kernel) (Demo.cut_calm (Demo.set_hist _) (by decide +kernel) (by decide +kernel)) (by decide +kernel)) (by decide +kernel) (by decide +kernel)
    (Prod.ext rfl (by decide +kernel)) (by decide +kernel) (Prod.ext rfl (by decide +kernel))
    (c82_all_done (by decide +kernel) (by decide +kernel) (Demo.cut_calm (Demo.set_hist _) (by decide +kernel) (by decide +kernel)) (by decide +kernel)) (by decide +kernel) (by decide +kernel)).2.2.2,
    by decide +kernel, by decide +kernel⟩

/-! ## The primal-dual integral -/

/-- One iteration without checks, silent or printing. -/
def Demo.once (v : ℤ) (st : Settings ℚ) : Settings ℚ := { st with max_iter := 1, verbose := v }

/-- **C83** fails for the reported primal-dual integral: two solves that differ only in `verbose` both return 0 and report the same status, objective value, residuals and point, but another
`primdual_int`. Every evaluation of the residuals adds the duality gap to it, and the silent solve evaluates the same iterate once more at the end. -/
theorem c83_integral_counterexample :
    ((osqpSolve Demo.cfg Demo.sCut.env (Demo.set (Demo.once 0))).2 = 0 ∧ (osqpSolve Demo.cfg Demo.sCut.env (Demo.set (Demo.once 1))).2 = 0) ∧
    ((Demo.run (Demo.set (Demo.once 0))).info.status_val = (Demo.run (Demo.set (Demo.once 1))).info.status_val ∧
      (Demo.run (Demo.set (Demo.once 0))).info.obj_val = (Demo.run (Demo.set (Demo.once 1))).info.obj_val ∧
      (Demo.run (Demo.set (Demo.once 0))).info.prim_res = (Demo.run (Demo.set (Demo.once 1))).info.prim_res ∧
      (Demo.run (Demo.set (Demo.once 0))).info.dual_res = (Demo.run (Demo.set (Demo.once 1))).info.dual_res ∧
      (Demo.run (Demo.set (Demo.once 0))).work.x = (Demo.run (Demo.set (Demo.once 1))).work.x) ∧
    (Demo.run (Demo.set (Demo.once 0))).info.primdual_int ≠ (Demo.run (Demo.set (Demo.once 1))).info.primdual_int := by decide +kernel

/-- The primal-dual integral also depends on earlier solves: it is not set back, so a cold started second solve of the same problem with the same settings, which computes the same point with the
same residuals, reports a larger value than the first. -/
theorem c83_reset_counterexample :
    let first := Demo.run (coldStart (Demo.set (Demo.once 0)))
    let second := Demo.run (coldStart first)
    (first.info.status_val = second.info.status_val ∧ first.work.x = second.work.x ∧ first.info.duality_gap = second.info.duality_gap) ∧ first.info.primdual_int < second.info.primdual_int := by
  decide +kernel

end Osqp
