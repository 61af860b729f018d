import Verif.Lemmas.Result
import Verif.Demo.Runs

/-!
# C01, C02, C03, C04: what a returned point satisfies

In all theorems `Hist cfg env D₀ st₀ U s` says that the solver state `s` was produced by `osqp_setup` and any
sequence of API calls, and that the user's current problem is `U`; `(ofData U)` is the mathematical quadratic
program with dense matrices.
-/

namespace Osqp
open Spec
variable {K : Type*} [Field K] [LinearOrder K] [IsStrictOrderedRing K] {d : Dims} {cfg : Cfg} {env : Env d K}
  {D₀ U : Data d K} {st₀ : Settings K} {s s' : Solver d K} {sol : Solution d K}

/-- **C01.** If `osqp_solve` returns 0 and reports "solved" (a status the solver did not have before the call),
and the point was not replaced by polishing, then the returned `x`, `y` meet the documented residual tolerances
on the user's own data, for some `z` between the bounds, and the duality-gap tolerance if that check is on. -/
theorem c01_solved_tolerances (hsq : SqrtPos env) (hist : Hist cfg env D₀ st₀ U s)
    (call : osqpSolve cfg env s = (s', 0)) (hsol : s'.solution = some sol)
    (before : s.info.status_val ≠ St.solved) (after : s'.info.status_val = St.solved)
    (hu : UserCriteria s) (hpol : s.settings.polishing = 0 ∨ s'.info.status_polish ≠ Pol.success) :
    ∃ z, (ofData U).InBox z ∧
      (ofData U).Converged s.settings.eps_abs s.settings.eps_rel sol.x z sol.y ∧
      (s.settings.check_dualgap ≠ 0 → ∃ y', (ofData U).Cleaned (rowScale s) (costScale s) sol.y y' ∧
        |(ofData U).gap sol.x y'| < (ofData U).gapTol s.settings.eps_abs s.settings.eps_rel sol.x y') := by
  have := result_solved (b := false) (hist_inv hsq hist) call hsol hu after (by rw [after]; exact before) (fun _ => hpol) (by simp)
  simpa [ctK] using this

/-- The hypotheses of C01 are met by an actual run, with internal scaling. -/
example : ∃ (s s' : Solver Demo.dims ℚ) (sol : Solution Demo.dims ℚ),
    SqrtPos Demo.sSolved.env ∧ Hist Demo.cfg Demo.sSolved.env Demo.sSolved.data Demo.quick Demo.sSolved.data s ∧
    osqpSolve Demo.cfg Demo.sSolved.env s = (s', 0) ∧ s'.solution = some sol ∧ s.info.status_val ≠ St.solved ∧
    s'.info.status_val = St.solved ∧ UserCriteria s ∧ s.settings.polishing = 0 ∧ s.settings.scaling ≠ 0 ∧ s.settings.check_dualgap ≠ 0 := by
  have hs : (Demo.sSolved.done Demo.okSolved).solution.isSome = true := by decide +kernel
  exact ⟨Demo.sSolved.start Demo.okSolved, Demo.sSolved.done Demo.okSolved, (Demo.sSolved.done Demo.okSolved).solution.get hs, Demo.sSolved.sqrtPos, Demo.sSolved.hist Demo.okSolved,
    Demo.sSolved.solve_eq Demo.okSolved (by decide +kernel), (Option.some_get hs).symm, by decide +kernel, by decide +kernel,
    Or.inr (by decide +kernel), by decide +kernel, by decide +kernel, by decide +kernel⟩

/-- **C02.** Whenever `osqp_solve` returns 0 with a status that carries a solution, the reported objective, dual
objective, gap and residuals are those of the returned `x`, `y` on the user's data, for some `z` between the
bounds.  Excluded: a stop by the clock in the iteration right after a scheduled check, for the two statuses that
such a stop can give (there the C code reports the residuals of the previous iterate; see `Cex`). -/
theorem c02_report (hsq : SqrtPos env) (hist : Hist cfg env D₀ st₀ U s)
    (call : osqpSolve cfg env s = (s', 0)) (hsol : s'.solution = some sol)
    (carries : hasSolution s'.info = true) (hu : UserCriteria s)
    (hl : s'.info.status_val = St.solvedInacc ∨ s'.info.status_val = St.timeLimit → ¬ LateStop cfg env s) :
    ∃ z y', (ofData U).InBox z ∧ (ofData U).Cleaned (rowScale s) (costScale s) sol.y y' ∧
      ReportOf (ofData U) s'.info sol.x z sol.y y' := by
  obtain ⟨z, a, _, b⟩ := result_point (hist_inv hsq hist) call hsol carries
  obtain ⟨y', c, e⟩ := b hu hl
  exact ⟨z, y', a, c, e⟩

/-- A run meeting the hypotheses of C02 and ending at the iteration limit. -/
example : ∃ (s s' : Solver Demo.dims ℚ) (sol : Solution Demo.dims ℚ),
    Hist Demo.cfg Demo.sLimit.env Demo.sLimit.data Demo.sLimit.st Demo.sLimit.data s ∧
    osqpSolve Demo.cfg Demo.sLimit.env s = (s', 0) ∧ s'.solution = some sol ∧ hasSolution s'.info = true ∧
    UserCriteria s ∧ ¬ (s'.info.status_val = St.solvedInacc ∨ s'.info.status_val = St.timeLimit) ∧ s'.info.prim_res ≠ 0 := by
  have hs : (Demo.sLimit.done Demo.okLimit).solution.isSome = true := by decide +kernel
  exact ⟨Demo.sLimit.start Demo.okLimit, Demo.sLimit.done Demo.okLimit, (Demo.sLimit.done Demo.okLimit).solution.get hs, Demo.sLimit.hist Demo.okLimit,
    Demo.sLimit.solve_eq Demo.okLimit (by decide +kernel), (Option.some_get hs).symm, by decide +kernel,
    Or.inr (by decide +kernel), by decide +kernel, by decide +kernel⟩

/-- **C03.** For a returned point every constraint is violated by at most the reported primal residual. -/
theorem c03_violation (hsq : SqrtPos env) (hist : Hist cfg env D₀ st₀ U s)
    (call : osqpSolve cfg env s = (s', 0)) (hsol : s'.solution = some sol)
    (carries : hasSolution s'.info = true) (hu : UserCriteria s)
    (hl : s'.info.status_val = St.solvedInacc ∨ s'.info.status_val = St.timeLimit → ¬ LateStop cfg env s) (i : Fin d.m) :
    U.l i - s'.info.prim_res ≤ (dense d.A U.A).mulVec sol.x i ∧
      (dense d.A U.A).mulVec sol.x i ≤ U.u i + s'.info.prim_res := by
  obtain ⟨z, y', hb, _, hr⟩ := c02_report hsq hist call hsol carries hu hl
  have h1 := le_normInf (fun i => ((ofData U).A.mulVec sol.x) i - z i) i
  rw [hr.prim_res]
  have h2 := abs_le.1 (le_trans h1 (le_refl _))
  have h3 := hb i
  simp only [ofData, QP.primRes] at *
  constructor <;> linarith [h2.1, h2.2, h3.1, h3.2]

/-- **C04**, per iteration (partial: initial step size within limits or per-constraint steps; without this the
C code uses a step and an "inverse" that do not match, see `Cex`).  After every completed iteration of every
solve, whatever the linear-system solver returned, `z` lies between the (working) bounds and the multiplier is
in the normal cone of the box at `z`. -/
theorem c04_iteration_partial (hsq : SqrtPos env) (hist : Hist cfg env D₀ st₀ U s) (hr : RhoStartOK st₀)
    {it : ℤ} {L : LoopSt d K} (run : Runs cfg env (solveEntry cfg s) it L) (later : 1 < it) (i : Fin d.m) :
    (L.s.work.data.l i ≤ L.s.work.z i ∧ L.s.work.z i ≤ L.s.work.data.u i) ∧
    (0 < L.s.work.y i → L.s.work.z i = L.s.work.data.u i) ∧ (L.s.work.y i < 0 → L.s.work.z i = L.s.work.data.l i) := by
  have h := hist_inv hsq hist
  have hh : Head cfg env (solveEntry cfg s).s it L := by
    clear later
    induction run with
    | start => exact head_entry h
    | step r e ih => exact head_step (entry_bounds h) _ _ _ ih e
  exact (hh.iterated later).cone (rhoInv_entry h hr) i

/-- **C04**, for the returned point: the returned multiplier is in the normal cone of the user's bounds at some
`z` between them, for every solution-carrying status (also after polishing and time limits). -/
theorem c04_returned_partial (hsq : SqrtPos env) (hist : Hist cfg env D₀ st₀ U s) (hr : RhoStartOK st₀)
    (call : osqpSolve cfg env s = (s', 0)) (hsol : s'.solution = some sol) (carries : hasSolution s'.info = true) :
    ∃ z, (ofData U).InBox z ∧ (ofData U).NormalCone z sol.y := by
  obtain ⟨z, a, b, _⟩ := result_point (hist_inv hsq hist) call hsol carries
  exact ⟨z, a, b (Or.inl hr)⟩

/-- C04 with the residual: the same `z` is the one behind the reported primal residual. -/
theorem c04_and_c02_partial (hsq : SqrtPos env) (hist : Hist cfg env D₀ st₀ U s) (hr : RhoStartOK st₀)
    (call : osqpSolve cfg env s = (s', 0)) (hsol : s'.solution = some sol) (carries : hasSolution s'.info = true)
    (hu : UserCriteria s)
    (hl : s'.info.status_val = St.solvedInacc ∨ s'.info.status_val = St.timeLimit → ¬ LateStop cfg env s) :
    ∃ z, (ofData U).InBox z ∧ (ofData U).NormalCone z sol.y ∧ s'.info.prim_res = (ofData U).primRes sol.x z ∧
      s'.info.dual_res = (ofData U).dualRes sol.x sol.y ∧ s'.info.obj_val = (ofData U).obj sol.x := by
  obtain ⟨z, a, b, c⟩ := result_point (hist_inv hsq hist) call hsol carries
  obtain ⟨y', _, e⟩ := c hu hl
  exact ⟨z, a, b (Or.inl hr), e.prim_res, e.dual_res, e.obj⟩

/-- The extra hypothesis holds for OSQP's default settings; a second iteration is reached by an actual run. -/
example : RhoStartOK Demo.settings := Or.inl (by decide)

example : ∃ (s : Solver Demo.dims ℚ) (L : LoopSt Demo.dims ℚ),
    Hist Demo.cfg Demo.sLimit.env Demo.sLimit.data Demo.sLimit.st Demo.sLimit.data s ∧
    Runs Demo.cfg Demo.sLimit.env (solveEntry Demo.cfg s) 2 L ∧ L.s.work.y Demo.i0 ≠ 0 := by
  have hc : ∃ L, iterBody Demo.cfg Demo.sLimit.env 1 (solveEntry Demo.cfg (Demo.sLimit.start Demo.okLimit)) = .cont L ∧ L.s.work.y Demo.i0 ≠ 0 := by
    have : (match iterBody Demo.cfg Demo.sLimit.env 1 (solveEntry Demo.cfg (Demo.sLimit.start Demo.okLimit)) with
      | .cont L => decide (L.s.work.y Demo.i0 ≠ 0) | _ => false) = true := by decide +kernel
    cases e : iterBody Demo.cfg Demo.sLimit.env 1 (solveEntry Demo.cfg (Demo.sLimit.start Demo.okLimit)) with
    | cont L => rw [e] at this; exact ⟨L, rfl, by simpa using this⟩
    | brk L => rw [e] at this; cases this
    | exit L => rw [e] at this; cases this
  obtain ⟨L, e, hy⟩ := hc
  exact ⟨_, L, Demo.sLimit.hist Demo.okLimit, .step .start e, hy⟩

end Osqp
