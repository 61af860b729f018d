import Verif.Props.Printing
import Verif.Lemmas.Verbose

/-!
# C83: the verbosity does not change the result
-/

set_option linter.unusedSectionVars false
namespace Osqp
open Spec
variable {K : Type*} [Field K] [LinearOrder K] [IsStrictOrderedRing K] {d : Dims} {cfg : Cfg} {env : Env d K}
  {D₀ U : Data d K} {st₀ : Settings K} {s s1 t1 : Solver d K}

theorem runs_verbose (hp : cfg.printing = false) {v it : ℤ} {L₀ L : LoopSt d K} (h : Runs cfg env (L₀.setVerbose v) it L) :
    ∃ L', Runs cfg env L₀ it L' ∧ L = L'.setVerbose v := by
  induction h with
  | start => exact ⟨L₀, .start, rfl⟩
  | step _ e ih =>
    obtain ⟨L', r, rfl⟩ := ih
    rw [sv_iterBody cfg env hp] at e
    cases e' : iterBody cfg env _ L' with
    | cont M => rw [e'] at e; exact ⟨M, .step r e', (IterOut.cont.inj e).symm⟩
    | brk M => rw [e'] at e; cases e
    | exit M => rw [e'] at e; cases e

theorem undisturbed_verbose (hp : cfg.printing = false) (v : ℤ) (h : Undisturbed cfg env s) : Undisturbed cfg env (setVerbose v s) := by
  refine ⟨?_, h.2.1, h.2.2⟩
  rintro it ⟨a, b, L, run, c1, c2, c3⟩
  rw [sv_entry cfg hp] at run
  obtain ⟨L', r, rfl⟩ := runs_verbose hp run
  exact h.1 it ⟨a, b, L', r, c1, c2, c3⟩

/-- **C83 (verbosity, partial)**.  In every history, change the settings of one solver in two ways that differ in the verbosity only, and solve. If neither the clock nor the user stops these solves
(nor the one of the build without printing) and the step size is not adapted by the clock, they return the same code and, if it is 0, leave the same result except for the verbosity itself: iterate,
status, iteration count, objective values, residuals, step size and stored solution. Termination checks, the other kinds of adaptation, certificates and polishing are covered.
Missing: solves stopped from outside, and the primal-dual integral, which is not the same (`c83_integral_counterexample`). -/
theorem c83_verbosity_partial {st : Settings K} {a b : ℤ} (hsq : SqrtPos env) (hist : Hist cfg env D₀ st₀ U s)
    (set1 : osqpUpdateSettings cfg s (some { st with verbose := a }) = (s1, 0)) (set2 : osqpUpdateSettings cfg s (some { st with verbose := b }) = (t1, 0))
    (calm1 : Undisturbed cfg env s1) (calm2 : Undisturbed cfg env t1) (mute : Undisturbed cfg.mute env s1) :
    (osqpSolve cfg env s1).2 = (osqpSolve cfg env t1).2 ∧
    ((osqpSolve cfg env s1).2 = 0 → SameResult (osqpSolve cfg env s1).1
      { (osqpSolve cfg env t1).1 with settings := { (osqpSolve cfg env t1).1.settings with verbose := a } }) := by
  have h1 : Hist cfg env D₀ st₀ U s1 := .step (op := .updateSettings (some { st with verbose := a })) hist (congrArg some set1)
  have h2 : Hist cfg env D₀ st₀ U t1 := .step (op := .updateSettings (some { st with verbose := b })) hist (congrArg some set2)
  have e1 : setVerbose b s1 = t1 := by
    unfold osqpUpdateSettings at set1 set2
    dsimp only at set1 set2
    split_ifs at set1 with c1
    · have := congrArg Prod.snd set1; simp [Err.settingsValidation] at this
    split_ifs at set2 with c2
    · have := congrArg Prod.snd set2; simp [Err.settingsValidation] at this
    obtain rfl := (Prod.mk.inj set1).1
    obtain rfl := (Prod.mk.inj set2).1
    rfl
  have e2 : s1.settings.verbose = a := by
    unfold osqpUpdateSettings at set1
    dsimp only at set1
    split_ifs at set1 with c1
    · have := congrArg Prod.snd set1; simp [Err.settingsValidation] at this
    obtain rfl := (Prod.mk.inj set1).1
    rfl
  have e3 : setVerbose a t1 = s1 := by
    rw [← e1]
    show ({ s1 with settings := { s1.settings with verbose := a } } : Solver d K) = s1
    rw [← e2]
  have m2 : Undisturbed cfg.mute env t1 := e1 ▸ undisturbed_verbose rfl b mute
  have p1 := c83_printing_partial hsq h1 calm1 mute
  have p2 := c83_printing_partial hsq h2 calm2 m2
  have q := sv_solve (v := a) cfg.mute env rfl t1
  rw [e3] at q
  have q2 : (osqpSolve cfg.mute env s1).2 = (osqpSolve cfg.mute env t1).2 := by rw [q]
  have q1 : (osqpSolve cfg.mute env s1).1 = setVerbose a (osqpSolve cfg.mute env t1).1 := by rw [q]
  have code : (osqpSolve cfg env s1).2 = (osqpSolve cfg env t1).2 := by rw [p1.1, p2.1, q2]
  refine ⟨code, fun h => ?_⟩
  have r1 := p1.2 h
  have r2 := p2.2 (code ▸ h)
  rw [q1] at r1
  exact ⟨r1.settings.trans (by rw [r2.settings]; rfl), r1.x.trans r2.x.symm, r1.y.trans r2.y.symm, r1.z.trans r2.z.symm, r1.status_val.trans r2.status_val.symm,
    r1.status.trans r2.status.symm, r1.iter.trans r2.iter.symm, r1.obj_val.trans r2.obj_val.symm, r1.dual_obj_val.trans r2.dual_obj_val.symm, r1.duality_gap.trans r2.duality_gap.symm,
    r1.prim_res.trans r2.prim_res.symm, r1.dual_res.trans r2.dual_res.symm, r1.rel_kkt_error.trans r2.rel_kkt_error.symm, r1.sol_x.trans r2.sol_x.symm, r1.sol_y.trans r2.sol_y.symm,
    fun n => (r1.sol n).trans (r2.sol (by rw [r2.status_val]; rw [r1.status_val] at n; exact n)).symm⟩

/-! ## The hypotheses are met -/

/-- The solver of `Demo.sLoud` with another verbosity. -/
def Demo.voice (v : ℤ) : Solver Demo.dims ℚ := (osqpUpdateSettings Demo.cfg Demo.l0 (some { Demo.l0.settings with verbose := v })).1

theorem Demo.voice_hist (v : ℤ) : Hist Demo.cfg Demo.sLoud.env Demo.sLoud.data Demo.sLoud.st Demo.sLoud.data (Demo.voice v) :=
  Hist.step (op := .updateSettings (some { Demo.l0.settings with verbose := v })) (code := (osqpUpdateSettings Demo.cfg Demo.l0 (some { Demo.l0.settings with verbose := v })).2)
    (Demo.sLoud.hist Demo.okLoud) rfl

example : (osqpSolve Demo.cfg Demo.sLoud.env (Demo.voice 0)).1.work.x = (osqpSolve Demo.cfg Demo.sLoud.env (Demo.voice 1)).1.work.x ∧
    (osqpSolve Demo.cfg Demo.sLoud.env (Demo.voice 0)).1.solution.map (·.x) = (osqpSolve Demo.cfg Demo.sLoud.env (Demo.voice 1)).1.solution.map (·.x) ∧
    (osqpSolve Demo.cfg Demo.sLoud.env (Demo.voice 0)).1.solution.isSome = true ∧ (osqpSolve Demo.cfg Demo.sLoud.env (Demo.voice 0)).1.settings.rho ≠ Demo.l0.settings.rho := by
  have i0 := hist_inv Demo.sLoud.sqrtPos (Demo.voice_hist 0)
  have i1 := hist_inv Demo.sLoud.sqrtPos (Demo.voice_hist 1)
  have h := (c83_verbosity_partial (cfg := Demo.cfg) (env := Demo.sLoud.env) (s := Demo.l0) (s1 := Demo.voice 0) (t1 := Demo.voice 1) (st := Demo.l0.settings) (a := 0) (b := 1)
    Demo.sLoud.sqrtPos (Demo.sLoud.hist Demo.okLoud) (Prod.ext rfl (by decide +kernel)) (Prod.ext rfl (by decide +kernel))
    (Demo.calm_loud rfl i0 (by decide +kernel) (by decide +kernel)) (Demo.calm_loud rfl i1 (by decide +kernel) (by decide +kernel))
    (Demo.calm_loud rfl i0.mute (by decide +kernel) (by decide +kernel))).2 (by decide +kernel)
  exact ⟨h.x, h.sol_x, by decide +kernel, by decide +kernel⟩

end Osqp
