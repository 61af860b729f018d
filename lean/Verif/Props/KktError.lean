import Verif.Props.Solved

/-!
# The reported KKT error (C61)
-/

set_option linter.unusedSectionVars false
namespace Osqp
open Spec Matrix
variable {K : Type*} [Field K] [LinearOrder K] [IsStrictOrderedRing K] {d : Dims} {cfg : Cfg} {env : Env d K}
variable {D₀ U : Data d K} {st₀ : Settings K} {s s' : Solver d K} {sol : Solution d K}

/-- **C61, partial.** Whenever `osqp_solve` returns 0 with a status that carries a solution, the reported KKT error is the largest of the
reported primal residual, dual residual and duality gap. Excluded as in C02: a stop by the clock right after a scheduled check.
Missing: when a polished point was computed and rejected, the field holds the error of the rejected point
(`c61_counterexample`). -/
theorem c61_kkt_error_partial (hsq : SqrtPos env) (hist : Hist cfg env D₀ st₀ U s)
    (call : osqpSolve cfg env s = (s', 0)) (carries : hasSolution s'.info = true)
    (hl : s'.info.status_val = St.solvedInacc ∨ s'.info.status_val = St.timeLimit → ¬ LateStop cfg env s)
    (hpol : s.settings.polishing = 0 ∨ s'.info.status_val ≠ St.solved ∨ s'.info.status_polish ≠ Pol.failed) :
    s'.info.rel_kkt_error = max (max s'.info.prim_res s'.info.dual_res) s'.info.duality_gap := by
  have h := hist_inv hsq hist
  obtain ⟨it, t, hf, hn, hseen⟩ := solve_seen h call
  have hfc := fromCall hf.within
  have hst : hasSolution t.info = true := by unfold hasSolution at carries ⊢; rw [hseen.status] at carries; exact carries
  have fresh_kkt : ∀ {p : Solver d K}, Fresh p → p.info.rel_kkt_error = max (max p.info.prim_res p.info.dual_res) p.info.duality_gap := by
    intro p hp
    rw [hp.2.1.kkt, hp.2.2.gap, max_comm p.info.dual_res]
  generalize hp : (postPolish cfg env t).1 = p at *
  have hinfo : s'.info.duality_gap = p.info.duality_gap ∧ s'.info.prim_res = p.info.prim_res ∧ s'.info.dual_res = p.info.dual_res ∧
      s'.info.rel_kkt_error = p.info.rel_kkt_error ∧ s'.info.status_polish = p.info.status_polish := by
    rw [hseen.info, hp]; simp
  obtain ⟨i1, i2, i3, i4, i5⟩ := hinfo
  rw [i1, i2, i3, i4]
  rcases hseen.pol with hk | hk
  · rw [hp] at hk
    have hfr : Fresh t := by
      rcases hf.fresh hst with a | ⟨a, b⟩
      · exact a
      · rw [hseen.status] at hl
        exact absurd (staleStop_late h a) (hl b)
    rw [hk.gap, hk.agree.pres, hk.agree.dres, ← fresh_kkt hfr]
    by_cases hq : t.settings.polishing ≠ 0 ∧ t.info.status_val = St.solved
    · refine hk.kkt hq.1 hq.2 ?_
      rw [← i5]
      rcases hpol with e | e | e
      · exact absurd (hfc.polishing.trans e) hq.1
      · exact absurd (hseen.status.trans hq.2) e
      · exact e
    · rw [hk.skipped hq]
  · rw [hp] at hk
    exact fresh_kkt hk.fresh

namespace Demo

/-- Already exact before polishing, which is then rejected. -/
def sRejected : Scenario := { sSolved with st := { quick with polishing := 1, polish_refine_iter := 0, sigma := 1 } }
theorem okRejected : sRejected.Ok := by decide +kernel

end Demo

/-- Hypotheses of C61 met by a run with a successful polish, and by one that ends at the iteration limit. -/
example : (∃ (s s' : Solver Demo.dims ℚ), SqrtPos Demo.sPolish.env ∧ Hist Demo.cfg Demo.sPolish.env Demo.sPolish.data Demo.sPolish.st Demo.sPolish.data s ∧
    osqpSolve Demo.cfg Demo.sPolish.env s = (s', 0) ∧ hasSolution s'.info = true ∧
    ¬ (s'.info.status_val = St.solvedInacc ∨ s'.info.status_val = St.timeLimit) ∧ s'.info.status_polish = Pol.success) ∧
    ∃ (s s' : Solver Demo.dims ℚ), Hist Demo.cfg Demo.sLimit.env Demo.sLimit.data Demo.sLimit.st Demo.sLimit.data s ∧
    osqpSolve Demo.cfg Demo.sLimit.env s = (s', 0) ∧ hasSolution s'.info = true ∧ s'.info.rel_kkt_error ≠ 0 :=
  ⟨⟨Demo.sPolish.start Demo.okPolish, Demo.sPolish.done Demo.okPolish, Demo.sPolish.sqrtPos, Demo.sPolish.hist Demo.okPolish,
    Demo.sPolish.solve_eq Demo.okPolish (by decide +kernel), by decide +kernel, by decide +kernel, by decide +kernel⟩,
   ⟨Demo.sLimit.start Demo.okLimit, Demo.sLimit.done Demo.okLimit, Demo.sLimit.hist Demo.okLimit,
    Demo.sLimit.solve_eq Demo.okLimit (by decide +kernel), by decide +kernel, by decide +kernel⟩⟩

/-- **C61 fails** when polishing is rejected: the returned point is exactly optimal, all reported residuals and the gap are zero, and
the reported KKT error exceeds 1/10. -/
theorem c61_counterexample : ∃ (env : Env Demo.dims ℚ) (U : Data Demo.dims ℚ) (st : Settings ℚ) (s s' : Solver Demo.dims ℚ),
    SqrtPos env ∧ Hist Demo.cfg env U st U s ∧ osqpSolve Demo.cfg env s = (s', 0) ∧ s'.info.status_val = St.solved ∧
    s'.info.status_polish = Pol.failed ∧ s'.info.prim_res = 0 ∧ s'.info.dual_res = 0 ∧ s'.info.duality_gap = 0 ∧
    1 / 10 < s'.info.rel_kkt_error :=
  ⟨Demo.sRejected.env, Demo.sRejected.data, Demo.sRejected.st, Demo.sRejected.start Demo.okRejected, Demo.sRejected.done Demo.okRejected,
    Demo.sRejected.sqrtPos, Demo.sRejected.hist Demo.okRejected, Demo.sRejected.solve_eq Demo.okRejected (by decide +kernel),
    by decide +kernel, by decide +kernel, by decide +kernel, by decide +kernel, by decide +kernel, by decide +kernel⟩

end Osqp
