import Verif.Lemmas.RunEnd
import Verif.Lemmas.Setup
import Verif.Props.Infeasible
import Verif.Props.Solved

/-!
# C12, C13, C14, C16, C17, C56: iteration limit, check schedule, clock, interrupts, failed solves
-/

namespace Osqp
open Spec Matrix
variable {K : Type*} [Field K] [LinearOrder K] [IsStrictOrderedRing K] {d : Dims} {cfg : Cfg} {env : Env d K}
  {D₀ U : Data d K} {st₀ : Settings K} {s s' : Solver d K} {sol : Solution d K}

/-! ## C12 -/

/-- **C12.** Every solve returns (`osqpSolve` is a total function); if it returns 0, the reported iteration
count is the number of completed iterations and at most `max_iter`. -/
theorem c12_iter_limit (hsq : SqrtPos env) (hist : Hist cfg env D₀ st₀ U s) (call : osqpSolve cfg env s = (s', 0)) :
    0 ≤ s'.info.iter ∧ s'.info.iter ≤ s.settings.max_iter ∧
    (∃ L, Runs cfg env (solveEntry cfg s) s'.info.iter L ∨ Runs cfg env (solveEntry cfg s) (s'.info.iter + 1) L) := by
  have h := hist_inv hsq hist
  obtain ⟨it, t, hf, hn, hseen⟩ := solve_seen h call
  have hm := max_iter_nat h
  have e : s'.info.iter = t.info.iter := by rw [hseen.info]; simp
  obtain ⟨L, hL⟩ := hn.reach
  have h1 := hn.lo
  have h2 := hn.hi
  rw [e]
  rcases hn.iter with ⟨a, b, _⟩ | ⟨a, b⟩
  · rw [a]; exact ⟨by omega, by omega, L, Or.inl hL⟩
  · rw [a]; rw [show it - 1 + 1 = it by ring]; exact ⟨by omega, by omega, L, Or.inr hL⟩

/-- **C12.** Whatever the outcome, at most `max_iter` iterations are executed: the loop polls for an interrupt
exactly once per iteration, and it polls at most `max_iter` times. -/
theorem c12_work (hsq : SqrtPos env) (hist : Hist cfg env D₀ st₀ U s) (listening : cfg.interrupt = true) :
    ((osqpSolve cfg env s).1.polls : ℤ) ≤ s.polls + s.settings.max_iter := by
  have h := hist_inv hsq hist
  have hm := max_iter_nat h
  have hs0 : (solveEntry cfg s).s.polls = s.polls := by simp
  have hk : (solveEntry cfg s).s.settings.max_iter.toNat = s.settings.max_iter.toNat := by simp
  have hind := admmLoop_ind cfg env (fun it L => Runs cfg env (solveEntry cfg s) it L) (fun it L L' h e => .step h e)
    (solveEntry cfg s).s.settings.max_iter.toNat 1 (solveEntry cfg s) .start
  have hend : ∀ {it : ℤ} {L0 : LoopSt d K} {s1 : Solver d K}, Runs cfg env (solveEntry cfg s) it L0 → it ≤ s.settings.max_iter →
      s1.polls = L0.s.polls + (if cfg.interrupt then 1 else 0) → (s1.polls : ℤ) ≤ s.polls + s.settings.max_iter := by
    intro it L0 s1 hr hi e
    have := runs_polls hr listening
    rw [if_pos listening] at e
    rw [e]; push_cast; rw [this, hs0]; omega
  cases e : admmLoop cfg env (solveEntry cfg s).s.settings.max_iter.toNat 1 (solveEntry cfg s) with
  | exit s1 =>
    have he : osqpSolve cfg env s = (endListener cfg s1, 1) := by unfold osqpSolve; dsimp only; rw [e]
    obtain ⟨it, L0, h1, h2, h3, h4⟩ := hind.2 s1 e
    have := iterBody_polls cfg env it L0
    rw [h4] at this
    rw [he]; simp only [endListener_polls]
    exact hend h3 (by omega) this
  | done it L' =>
    have he : osqpSolve cfg env s = finish cfg env (postLoop cfg env it L') := by unfold osqpSolve; dsimp only; rw [e]
    have e3 : ∀ q : Solver d K, (finish cfg env q).1.polls = q.polls := by
      intro q; rw [finish_eq]; split_ifs <;> simp
    rw [he, e3, postLoop_polls]
    rcases hind.1 it L' e with ⟨h1, h2⟩ | ⟨h1, h2, L0, h3, h4⟩
    · have := runs_polls h2 listening
      rw [this, hs0]; omega
    · have := iterBody_polls cfg env it L0
      rw [h4] at this
      exact hend h3 (by omega) this

example : (Demo.sLimit.done Demo.okLimit).info.iter = 1 ∧ (Demo.sLimit.start Demo.okLimit).settings.max_iter = 1 ∧
    (Demo.sLimit.done Demo.okLimit).polls = 1 ∧ Demo.cfg.interrupt = true := by decide +kernel

/-! ## C13 -/

/-- **C13.** If `osqp_solve` returns 0, it stopped in an iteration with a scheduled check, or after all
`max_iter` iterations, or because of the clock; `check_termination = 0` schedules no check. -/
theorem c13_schedule (hsq : SqrtPos env) (hist : Hist cfg env D₀ st₀ U s) (call : osqpSolve cfg env s = (s', 0)) :
    (s.settings.check_termination ≠ 0 ∧ s'.info.iter % s.settings.check_termination = 0 ∧
      1 ≤ s'.info.iter ∧ s'.info.iter ≤ s.settings.max_iter) ∨
    (s'.info.iter = s.settings.max_iter ∧ AllDone cfg env s) ∨ ClockStop cfg env s (s'.info.iter + 1) := by
  have h := hist_inv hsq hist
  obtain ⟨it, t, hf, hn, hseen⟩ := solve_seen h call
  have hm := max_iter_nat h
  have e : s'.info.iter = t.info.iter := by rw [hseen.info]; simp
  have h1 := hn.lo
  rw [e]
  rcases hn.iter with ⟨a, b, c⟩ | ⟨a, b⟩
  · left
    rw [solveEntry_settings] at c
    have := itCheck_scheduled c
    rw [a]; exact ⟨this.1, this.2, h1, by omega⟩
  · right
    rcases limitHit_user h hn b with hd | hc
    · rcases b with b | b
      · left; exact ⟨by omega, hd⟩
      · right
        obtain ⟨L, r, u⟩ := timeHit_clock b.1
        rw [a]; exact ⟨by omega, by omega, L, by simpa using r, u⟩
    · right; rw [a]; simpa using hc

theorem userX_eq (s : Solver d K) : userX s = toX (effSc s) s.work.x := by
  funext j; unfold userX toX effSc unitSc; by_cases h : s.settings.scaling = 0 <;> simp [h]
theorem userZ_eq (s : Solver d K) : userZ s = toZ (effSc s) s.work.z := by
  funext j; unfold userZ toZ effSc unitSc; by_cases h : s.settings.scaling = 0 <;> simp [h]
theorem userY_eq (s : Solver d K) : userY s = toY (effSc s) s.work.y := by
  funext j; unfold userY toY effSc unitSc; by_cases h : s.settings.scaling = 0 <;> simp [h]

/-- Iteration `it` has a scheduled check and the loop goes on afterwards: the state in which the check was made. -/
theorem check_made_full (h : Inv cfg st₀ U s) {it : ℤ} {L : LoopSt d K} (goes_on : Runs cfg env (solveEntry cfg s) (it + 1) L) (one : 1 ≤ it)
    (sched : Scheduled s.settings it) :
    ∃ si : Solver d K, FromCall s si ∧ Fresh si ∧ L.s.work.x = si.work.x ∧ L.s.work.z = si.work.z ∧ L.s.work.y = si.work.y ∧ effSc L.s = effSc si ∧
      (∃ L1 : LoopSt d K, Runs cfg env (solveEntry cfg s) it L1 ∧ (∀ j, si.work.delta_x j = si.work.x j - L1.s.work.x j) ∧
        ∀ i, si.work.delta_y i = si.work.y i - L1.s.work.y i) ∧
      ¬ ((d.m = 0 ∨ si.info.prim_res < primTol si si.settings.eps_abs si.settings.eps_rel) ∧
        si.info.dual_res < dualTol si si.settings.eps_abs si.settings.eps_rel ∧ ctGap false si) ∧
      ¬ (¬ (d.m = 0 ∨ si.info.prim_res < primTol si si.settings.eps_abs si.settings.eps_rel) ∧ (isPrimalInfeasible si si.settings.eps_prim_inf).2 = true) ∧
      ¬ (¬ si.info.dual_res < dualTol si si.settings.eps_abs si.settings.eps_rel ∧ isDualInfeasible si si.settings.eps_dual_inf = true) := by
  have hhead := head_of_runs h goes_on
  obtain ⟨L1, L2, r1, e1⟩ := runs_before goes_on it one (by omega)
  have hL : L2 = L := (Runs.functional goes_on).2 (.step r1 e1)
  subst hL
  have hd := head_of_runs h r1
  have hw := within_itInfo (cfg := cfg) (env := env) it hd.within
  have hfc := fromCall hw
  have hset : L1.s.settings.check_termination = s.settings.check_termination := by
    obtain ⟨r, i, e⟩ := (fromCall hd.within).settings; rw [e]
  have hck : itCheck L1.s.settings it = true := by
    unfold itCheck; rw [hset]; simpa [Scheduled] using sched
  have hfr : Fresh (itInfo cfg env it L1) := by
    have : itUpd cfg env it L1 = true := by unfold itUpd; rw [hck]; simp
    unfold itInfo; rw [if_pos this]
    exact updateInfo_fresh cfg env _ _ (within_itDec it hd.within).aty
  rw [iterBody_eq] at e1
  generalize hgp : (if cfg.printing = true then false else L1.canPrint) = cpv at e1
  split_ifs at e1 with c1 c2 c3 c4
  simp only [IterOut.cont.injEq] at e1
  have c3' : itTerm cfg env it L1 = checkTermination false (itInfo cfg env it L1) := by unfold itTerm; rw [if_pos hck]
  have e4 : itTerm cfg env it L1 = (ctState false (itInfo cfg env it L1), false) ∧
      (¬ ((d.m = 0 ∨ (itInfo cfg env it L1).info.prim_res < primTol (itInfo cfg env it L1) ((itInfo cfg env it L1).settings.eps_abs * ctK false) ((itInfo cfg env it L1).settings.eps_rel * ctK false)) ∧
        (itInfo cfg env it L1).info.dual_res < dualTol (itInfo cfg env it L1) ((itInfo cfg env it L1).settings.eps_abs * ctK false) ((itInfo cfg env it L1).settings.eps_rel * ctK false) ∧
        ctGap false (itInfo cfg env it L1)) ∧
      ¬ (¬ (d.m = 0 ∨ (itInfo cfg env it L1).info.prim_res < primTol (itInfo cfg env it L1) ((itInfo cfg env it L1).settings.eps_abs * ctK false) ((itInfo cfg env it L1).settings.eps_rel * ctK false)) ∧
        (isPrimalInfeasible (itInfo cfg env it L1) ((itInfo cfg env it L1).settings.eps_prim_inf * ctK false)).2 = true) ∧
      ¬ (¬ (itInfo cfg env it L1).info.dual_res < dualTol (itInfo cfg env it L1) ((itInfo cfg env it L1).settings.eps_abs * ctK false) ((itInfo cfg env it L1).settings.eps_rel * ctK false) ∧
        isDualInfeasible (itInfo cfg env it L1) ((itInfo cfg env it L1).settings.eps_dual_inf * ctK false) = true)) := by
    have c := checkTermination_cases false (itInfo cfg env it L1)
    dsimp only at c
    rw [c3'] at c3 ⊢
    rcases c with ⟨_, e⟩ | ⟨_, ⟨_, _, _, e⟩ | ⟨_, e⟩ | ⟨_, _, e⟩ | ⟨hn, hp, hq, e⟩⟩ <;> rw [e] at c3
    · exact absurd rfl c3
    · exact absurd rfl c3
    · exact absurd rfl c3
    · exact absurd rfl c3
    · exact ⟨e, hn, hp, hq⟩
  obtain ⟨e5, hno⟩ := e4
  have ek : (ctK false : K) = 1 := by simp [ctK]
  rw [ek, mul_one, mul_one, mul_one, mul_one] at hno
  have hdx : ∀ j, (itInfo cfg env it L1).work.delta_x j = (itInfo cfg env it L1).work.x j - L1.s.work.x j := by
    intro j
    have a : (itInfo cfg env it L1).work.delta_x = (admmStep env L1.s).work.delta_x := by unfold itInfo; split_ifs <;> simp [itDec, itTimed, itAdmm]
    have b : (itInfo cfg env it L1).work.x = (admmStep env L1.s).work.x := by unfold itInfo; split_ifs <;> simp [itDec, itTimed, itAdmm]
    rw [a, b]; rfl
  have hdy : ∀ i, (itInfo cfg env it L1).work.delta_y i = (itInfo cfg env it L1).work.y i - L1.s.work.y i := by
    intro i
    have a : (itInfo cfg env it L1).work.delta_y = (admmStep env L1.s).work.delta_y := by unfold itInfo; split_ifs <;> simp [itDec, itTimed, itAdmm]
    have b : (itInfo cfg env it L1).work.y = (admmStep env L1.s).work.y := by unfold itInfo; split_ifs <;> simp [itDec, itTimed, itAdmm]
    rw [a, b]
    have c : (admmStep env L1.s).work.y i = L1.s.work.y i + (admmStep env L1.s).work.delta_y i := rfl
    rw [c]; ring
  generalize itInfo cfg env it L1 = si at *
  have f1 : L2.s.settings.scaling = si.settings.scaling := by
    rw [(fromCall hhead.within).scalingOn, hfc.scalingOn]
  have f2 : L2.s.work.scaling = si.work.scaling := by
    rw [(fromCall hhead.within).scaling, hfc.scaling]
  have hx : L2.s.work.x = si.work.x := by rw [← e1, e5]; simp
  have hz : L2.s.work.z = si.work.z := by rw [← e1, e5]; simp
  have hy : L2.s.work.y = si.work.y := by rw [← e1, e5]; simp
  exact ⟨si, hfc, hfr, hx, hz, hy, effSc_congr f1 f2, ⟨L1, r1, hdx, hdy⟩, hno⟩

theorem check_made_raw (h : Inv cfg st₀ U s) {it : ℤ} {L : LoopSt d K} (goes_on : Runs cfg env (solveEntry cfg s) (it + 1) L) (one : 1 ≤ it)
    (sched : Scheduled s.settings it) :
    ∃ si : Solver d K, FromCall s si ∧ Fresh si ∧ L.s.work.x = si.work.x ∧ L.s.work.z = si.work.z ∧ L.s.work.y = si.work.y ∧ effSc L.s = effSc si ∧
      ¬ ((d.m = 0 ∨ si.info.prim_res < primTol si si.settings.eps_abs si.settings.eps_rel) ∧
        si.info.dual_res < dualTol si si.settings.eps_abs si.settings.eps_rel ∧ ctGap false si) := by
  obtain ⟨si, a, b, c, e, f, g, _, hno, _⟩ := check_made_full h goes_on one sched
  exact ⟨si, a, b, c, e, f, g, hno⟩

/-- **C13**, the other direction: a scheduled check is really made.  If iteration `it` has a scheduled check and
the loop goes on afterwards, the iterate did not meet the tolerances (the one on the duality gap is applied when
`check_dualgap` is on). -/
theorem c13_check_made (hsq : SqrtPos env) (hist : Hist cfg env D₀ st₀ U s) (hu : UserCriteria s)
    {it : ℤ} {L : LoopSt d K} (goes_on : Runs cfg env (solveEntry cfg s) (it + 1) L) (one : 1 ≤ it)
    (sched : Scheduled s.settings it) :
    ¬ ((ofData U).Converged s.settings.eps_abs s.settings.eps_rel (userX L.s) (userZ L.s) (userY L.s) ∧
       (s.settings.check_dualgap ≠ 0 → ∀ y', (ofData U).Cleaned (rowScale s) (costScale s) (userY L.s) y' →
        |(ofData U).gap (userX L.s) y'| < (ofData U).gapTol s.settings.eps_abs s.settings.eps_rel (userX L.s) y')) := by
  have h := hist_inv hsq hist
  obtain ⟨si, hfc, hfr, hx, hz, hy, eS, hno⟩ := check_made_raw h goes_on one sched
  rw [userX_eq, userY_eq, userZ_eq, eS, hx, hz, hy]
  rintro ⟨⟨k1, k2⟩, k3⟩
  have hrep := hfc.rep h.rep
  have hu' := hfc.user hu
  have ek : (ctK false : K) = 1 := by simp [ctK]
  apply hno
  rw [hfc.eps_abs, hfc.eps_rel, user_pres hrep hu' hfr.2.1, user_primTol hrep hu' hfr.1,
    user_dres hrep hu' hfr.2.1, user_dualTol hrep hu' hfr.1]
  refine ⟨?_, k2, ?_⟩
  · by_cases hm : d.m = 0
    · exact Or.inl hm
    · exact Or.inr (k1 hm)
  · intro hc
    have hc' : s.settings.check_dualgap ≠ 0 := by obtain ⟨r, i, e⟩ := hfc.settings; rw [e] at hc; exact hc
    rw [ek, mul_one, mul_one, cAbs_eq, user_gap hrep hu' hfr, user_gapTol hrep hu' hfr.1, hfc.eps_abs, hfc.eps_rel]
    refine k3 hc' _ ?_
    have := userGapY_cleaned hrep
    rwa [rowScale_congr hfc.scalingOn hfc.scaling, costScale_congr hfc.scalingOn hfc.scaling] at this

/-- The hypotheses can hold: a run whose first iteration has a scheduled check and goes on. -/
example : ∃ (s : Solver Demo.dims ℚ) (L : LoopSt Demo.dims ℚ),
    Hist Demo.cfg Demo.sLimit.env Demo.sLimit.data Demo.sLimit.st Demo.sLimit.data s ∧ UserCriteria s ∧
    Runs Demo.cfg Demo.sLimit.env (solveEntry Demo.cfg s) (1 + 1) L ∧ Scheduled s.settings 1 := by
  have hc : ∃ L, iterBody Demo.cfg Demo.sLimit.env 1 (solveEntry Demo.cfg (Demo.sLimit.start Demo.okLimit)) = .cont L := by
    have : (match iterBody Demo.cfg Demo.sLimit.env 1 (solveEntry Demo.cfg (Demo.sLimit.start Demo.okLimit)) with
      | .cont _ => true | _ => false) = true := by decide +kernel
    revert this
    cases h : iterBody Demo.cfg Demo.sLimit.env 1 (solveEntry Demo.cfg (Demo.sLimit.start Demo.okLimit)) <;> simp
  obtain ⟨L, hL⟩ := hc
  exact ⟨_, L, Demo.sLimit.hist Demo.okLimit, Or.inr (by decide +kernel), .step .start hL, by unfold Scheduled; decide +kernel⟩

/-! ## C14 -/

/-- After a successful set-up the status is "unsolved". -/
theorem c14_setup_unsolved (call : osqpSetup cfg env D₀ st₀ = .ok s) : s.info.status_val = St.unsolved := by
  exact (made call).status

/-- After an accepted vector update the status is "unsolved". -/
theorem c14_vec_unsolved (hsq : SqrtPos env) (hist : Hist cfg env D₀ st₀ U s) {q : Option (Vec K d.n)} {l u : Option (Vec K d.m)}
    {code : ℤ} (call : osqpUpdateDataVec cfg env s q l u = (s', code))
    (accepted : ∀ i, (l.getD U.l) i ≤ (u.getD U.u) i) : s'.info.status_val = St.unsolved := by
  have h := hist_inv hsq hist
  rw [osqpUpdateDataVec_eq q l u (rep_bounds h.rep h.bounds)] at call
  dsimp only at call
  rw [if_pos ((vec_accept_iff h l u).2 accepted)] at call
  injection call with e _
  rw [← e]
  split_ifs <;> simp [resetInfo, updateStatus]

/-- After an accepted matrix update the status is "unsolved". -/
theorem c14_mat_unsolved (hsq : SqrtPos env) (hist : Hist cfg env D₀ st₀ U s) {p a : MatUpd K}
    {code : ℤ} (call : osqpUpdateDataMat cfg env s p a = some (s', code))
    (accepted : MatArgsOK d.P.nnz p ∧ MatArgsOK d.A.nnz a) : s'.info.status_val = St.unsolved := by
  have h := hist_inv hsq hist
  rcases osqpUpdateDataMat_some h call with ⟨hn, _⟩ | ⟨_, hn, _⟩ | ⟨_, _, r, ls, _, _, e⟩
  · exact absurd accepted.1 hn
  · exact absurd accepted.2 hn
  · rw [e]; dsimp only; split_ifs <;> simp [resetInfo, updateStatus]

/-- **C14** (partial: the status before the call differs from the one after it, which is always so for the first
solve after a set-up or an accepted data update; missing: solves started in a state that already has a status,
for which the property fails, see `c14_counterexample`).  The reported status is
established by a test on an iterate of this very call: the residual conditions or the certificate conditions
hold with the settings and data of this call. -/
theorem c14_status_partial (hsq : SqrtPos env) (hist : Hist cfg env D₀ st₀ U s)
    (call : osqpSolve cfg env s = (s', 0)) (hsol : s'.solution = some sol) (hu : UserCriteria s)
    (changed : s.info.status_val ≠ s'.info.status_val) :
    s'.info.status_val ≠ St.unsolved ∧ s'.info.status_val ≠ St.sigint ∧
    (s'.info.status_val = St.solved → s.settings.polishing = 0 ∨ s'.info.status_polish ≠ Pol.success →
      ∃ z, (ofData U).InBox z ∧ (ofData U).Converged s.settings.eps_abs s.settings.eps_rel sol.x z sol.y) ∧
    (s'.info.status_val = St.primInf → (ofData U).PrimalCert (rowScale s) s.settings.eps_prim_inf sol.prim_inf_cert) ∧
    (s'.info.status_val = St.dualInf → (ofData U).DualCert (rowScale s) s.settings.eps_dual_inf sol.dual_inf_cert) := by
  have h := hist_inv hsq hist
  obtain ⟨it, t, hf, hn, hseen⟩ := solve_seen h call
  have key : ∀ v, v ≠ St.maxIter → v ≠ St.timeLimit → s'.info.status_val = v →
      v = St.nonCvx ∨ v = St.solved ∨ v = St.primInf ∨ v = St.dualInf ∨ v = St.solvedInacc ∨ v = St.primInfInacc ∨ v = St.dualInfInacc := by
    intro v h1 h2 hv
    rw [hv] at changed
    rw [hseen.status] at hv
    rcases final_status hf hv (by rw [entry_status]; exact changed) h1 h2 with ⟨s1, _, _, _, hc, e, _⟩ | ⟨s1, _, _, _, hc, e, _⟩ <;>
      rcases checkTermination_status hc with a | a | a | a <;> rw [a] at e <;> rw [← e] <;> decide
  refine ⟨fun hv => ?_, fun hv => ?_, fun hv hp => ?_, fun hv => ?_, fun hv => ?_⟩
  · exact absurd (key _ (by decide) (by decide) hv) (by decide)
  · exact absurd (key _ (by decide) (by decide) hv) (by decide)
  · obtain ⟨z, a, b, _⟩ := c01_solved_tolerances hsq hist call hsol (by rw [← hv]; exact changed) hv hu hp
    exact ⟨z, a, b⟩
  · exact c05_primal_certificate hsq hist call hsol (by rw [← hv]; exact changed) hv hu
  · exact c07_dual_certificate hsq hist call hsol (by rw [← hv]; exact changed) hv hu

/-! ## C16 -/

/-- **C16.** If the clock check of iteration `it` finds the time limit reached, no later iteration is executed,
and if the call returns 0 the iteration count is `it − 1` and the status is "time limit" or one set by a
termination test. -/
theorem c16_stop (hsq : SqrtPos env) (hist : Hist cfg env D₀ st₀ U s) {it : ℤ} (late : ClockStop cfg env s it) :
    (∀ j, it < j → ∀ L, ¬ Runs cfg env (solveEntry cfg s) j L) ∧
    (∀ s', osqpSolve cfg env s = (s', 0) → s'.info.iter = it - 1 ∧
      s'.info.status_val ∈ [St.timeLimit, St.solved, St.primInf, St.dualInf, St.solvedInacc, St.primInfInacc, St.dualInfInacc, St.nonCvx]) := by
  have h := hist_inv hsq hist
  have hm := max_iter_nat h
  constructor
  · obtain ⟨_, _, L, hr, hu⟩ := late
    exact runs_last hr (timeUp_stops hu)
  · intro s' call
    obtain ⟨t, hf, hn, hi, hseen⟩ := clock_final h call late
    obtain ⟨l1, l2, _⟩ := late
    refine ⟨by rw [hseen.info]; simpa using hi, ?_⟩
    rw [hseen.status]
    cases hf with
    | exact s1 _ _ _ stop _ eq =>
      rw [eq]; simp only [postRho_info_status_val, postObj_info_status_val]
      rcases checkTermination_status stop with a | a | a | a <;> rw [a] <;> decide
    | approx s1 _ _ _ stop _ eq =>
      rw [eq]; simp only [postRho_info_status_val]
      rcases checkTermination_status stop with a | a | a | a <;> rw [a] <;> decide
    | limit s1 v _ _ _ _ _ val eq =>
      rw [eq]
      rcases val with ⟨_, a, _⟩ | ⟨a, _⟩
      · omega
      · rw [a]; simp [setStatus, updateStatus]
    | old p _ _ _ _ _ lim _ => omega

/-- **C16.** The status "time limit" is only set by a call in which the clock check fired. -/
theorem c16_only_late (hsq : SqrtPos env) (hist : Hist cfg env D₀ st₀ U s) (call : osqpSolve cfg env s = (s', 0))
    (before : s.info.status_val ≠ St.timeLimit) (after : s'.info.status_val = St.timeLimit) :
    ClockStop cfg env s (s'.info.iter + 1) := by
  have h := hist_inv hsq hist
  have hm := max_iter_nat h
  obtain ⟨it, t, hf, hn, hseen⟩ := solve_seen h call
  rw [hseen.status] at after
  have e : s'.info.iter = t.info.iter := by rw [hseen.info]; simp
  cases hf with
  | exact s1 _ _ _ stop _ eq =>
    rw [eq] at after; simp only [postRho_info_status_val, postObj_info_status_val] at after
    exact absurd after (checkTermination_not_limit stop).2.1
  | approx s1 _ _ _ stop _ eq =>
    rw [eq] at after; simp only [postRho_info_status_val] at after
    exact absurd after (checkTermination_not_limit stop).2.1
  | limit s1 v _ _ _ _ lim val eq =>
    rcases val with ⟨a, _⟩ | ⟨_, hit | a⟩
    · rw [eq, a] at after; simp [setStatus, updateStatus, St.maxIter, St.timeLimit] at after
    · obtain ⟨L, r, u⟩ := timeHit_clock hit.1
      have hc : ClockStop cfg env s it := ⟨hn.lo, by have := hit.2; omega, L, r, u⟩
      have := ((c16_stop hsq hist hc).2 s' call).1
      rw [this]; simpa using hc
    · rw [entry_status] at a; exact absurd a before
  | old p _ _ _ status _ _ eq =>
    rw [eq] at after; simp only [postRho_info_status_val, postObj_info_status_val] at after
    rw [status, entry_status] at after; exact absurd after before

/-- **C16**, contrapositive: a clock that never fires never gives the status "time limit". -/
theorem c16_never_late (hsq : SqrtPos env) (hist : Hist cfg env D₀ st₀ U s) (call : osqpSolve cfg env s = (s', 0))
    (before : s.info.status_val = St.unsolved) (early : ∀ it, ¬ ClockStop cfg env s it) : s'.info.status_val ≠ St.timeLimit :=
  fun h => early _ (c16_only_late hsq hist call (by rw [before]; decide) h)

/-- A run in which the clock check of the first iteration fires. -/
example : ∃ (s s' : Solver Demo.dims ℚ), Hist Demo.cfg Demo.sTime.env Demo.sTime.data Demo.sTime.st Demo.sTime.data s ∧
    ClockStop Demo.cfg Demo.sTime.env s 1 ∧ osqpSolve Demo.cfg Demo.sTime.env s = (s', 0) ∧ s'.info.status_val = St.timeLimit ∧
    s.info.status_val ≠ St.timeLimit :=
  ⟨Demo.sTime.start Demo.okTime, Demo.sTime.done Demo.okTime, Demo.sTime.hist Demo.okTime,
    ⟨by decide, by decide +kernel, _, .start, by unfold TimeUp; decide +kernel⟩, Demo.sTime.solve_eq Demo.okTime (by decide +kernel),
    by decide +kernel, by decide +kernel⟩

/-! ## C17 -/

/-- **C17.** If the poll of iteration `it` sees an interrupt, no later iteration is executed, the call returns a
non-zero code with status "interrupted", the stored solution is untouched and no signal handler stays
installed. -/
theorem c17_interrupt (hsq : SqrtPos env) (hist : Hist cfg env D₀ st₀ U s) (listening : cfg.interrupt = true)
    {it : ℤ} {L : LoopSt d K} (reached : Runs cfg env (solveEntry cfg s) it L) (hi : it ≤ s.settings.max_iter)
    {k : ℕ} (hk : (k : ℤ) = s.polls + (it - 1)) (pressed : env.intr k = true) :
    (∀ j, it < j → ∀ L, ¬ Runs cfg env (solveEntry cfg s) j L) ∧
    (osqpSolve cfg env s).2 ≠ 0 ∧ (osqpSolve cfg env s).1.info.status_val = St.sigint ∧
    (osqpSolve cfg env s).1.solution = s.solution ∧ (osqpSolve cfg env s).1.handler = false ∧
    (osqpSolve cfg env s).1.polls = k + 1 := by
  have h := hist_inv hsq hist
  have hp := runs_polls reached listening
  rw [solveEntry_polls] at hp
  have hkp : k = L.s.polls := by omega
  obtain ⟨h1, h2⟩ := interrupt_exit h reached hi listening (by rw [← hkp]; exact pressed)
  refine ⟨runs_last reached h1, by rw [h2]; simp, ?_, ?_, ?_, ?_⟩
  · rw [h2]; simp
  · have := (head_of_runs h reached).within.sol
    rw [solveEntry_solution] at this
    rw [h2, ← this]; simp [itAdmm]
  · rw [h2]; unfold endListener; simp [listening]
  · rw [h2]; simp only [endListener_polls, setStatus_polls]; unfold itAdmm; rw [intrCheck_polls']; simp [listening, hkp]

/-- **C17.** The status "interrupted" is set only if a poll of this call saw an interrupt. -/
theorem c17_only_interrupt (hsq : SqrtPos env) (hist : Hist cfg env D₀ st₀ U s)
    (before : s.info.status_val ≠ St.sigint) (after : (osqpSolve cfg env s).1.info.status_val = St.sigint) :
    ∃ it L, Runs cfg env (solveEntry cfg s) it L ∧ it ≤ s.settings.max_iter ∧ cfg.interrupt = true ∧ env.intr L.s.polls = true := by
  have h := hist_inv hsq hist
  have hm := max_iter_nat h
  have hrun := solve_run (env := env) h
  cases hrun with
  | exited s1 exit code1 eq =>
    cases exit with
    | interrupted it L0 head lo hi hit eq1 within iterated =>
      refine ⟨it, L0, head.run, by simp at hi; omega, ?_, ?_⟩
      · by_contra hc; unfold intrCheck at hit; simp [hc] at hit
      · unfold intrCheck at hit; split_ifs at hit; simpa using hit
    | adaptFailed it L0 head lo hi within iterated status fail eq1 =>
      rw [eq] at after; simp only [endListener_info] at after
      rw [status.1, entry_status] at after; exact absurd after before
  | ran it L' p lend chk peq eq =>
    exfalso
    have h1 : (osqpSolve cfg env s).1.info.status_val = (postTail cfg env p).info.status_val := by
      have e2 : (osqpSolve cfg env s).1 = (finish cfg env (postTail cfg env p)).1 := by rw [← eq]
      rw [e2, finish_eq]; split_ifs <;> simp
    rw [h1] at after
    have hf := final_of_checked chk
    rcases final_status hf after (by rw [entry_status]; exact before) (by decide) (by decide) with
      ⟨s1, _, _, _, hc, e, _⟩ | ⟨s1, _, _, _, hc, e, _⟩ <;>
      rcases checkTermination_status hc with a | a | a | a <;> rw [a] at e <;> exact absurd e (by decide)

/-- **C17.** While the loop runs the handler is installed (if interrupts are compiled in), and after every return
of `osqp_solve`, and after every other call, it is not. -/
theorem c17_handler (hsq : SqrtPos env) (hist : Hist cfg env D₀ st₀ U s) :
    s.handler = false ∧ (osqpSolve cfg env s).1.handler = false ∧
    ∀ it L, Runs cfg env (solveEntry cfg s) it L → L.s.handler = cfg.interrupt := by
  have h := hist_inv hsq hist
  refine ⟨h.hand, (hist_inv hsq (.step (op := .solve) hist rfl)).hand, fun it L hr => ?_⟩
  rw [(head_of_runs h hr).within.hand]
  unfold solveEntry; dsimp only; cases hc : cfg.interrupt <;> split_ifs <;> simp_all [h.hand]

example : ∃ (s : Solver Demo.dims ℚ) (L : LoopSt Demo.dims ℚ), Hist Demo.cfg Demo.sIntr.env Demo.sIntr.data Demo.sIntr.st Demo.sIntr.data s ∧
    Runs Demo.cfg Demo.sIntr.env (solveEntry Demo.cfg s) 1 L ∧ 1 ≤ s.settings.max_iter ∧ s.polls = 0 ∧ Demo.sIntr.env.intr 0 = true ∧
    Demo.cfg.interrupt = true :=
  ⟨Demo.sIntr.start Demo.okIntr, _, Demo.sIntr.hist Demo.okIntr, .start, by decide +kernel, by decide +kernel, by decide +kernel, rfl⟩

/-! ## C56 -/

/-- **C56.** When `osqp_solve` fails (interrupt, failed step-size update or failed polishing), the problem data,
the scaling and the stored solution are unchanged, the settings are unchanged except for the adapted step size
and interval, and the solver is again a legal starting point: the user's problem is still represented, the
linear-system solver matches the data and the step sizes, and the next solve is covered by all theorems. -/
theorem c56_failed_solve (hsq : SqrtPos env) (hist : Hist cfg env D₀ st₀ U s) {code : ℤ}
    (call : osqpSolve cfg env s = (s', code)) (failed : code ≠ 0) :
    s'.work.data = s.work.data ∧ s'.work.scaling = s.work.scaling ∧ s'.solution = s.solution ∧
    (∃ r i, s'.settings = { s.settings with rho := r, adaptive_rho_interval := i }) ∧
    Represents s'.settings s'.work.scaling U s'.work.data ∧
    s'.work.linsys.P = s'.work.data.P ∧ s'.work.linsys.A = s'.work.data.A ∧ s'.work.linsys.sigma = s'.settings.sigma ∧
    s'.handler = false ∧ Hist cfg env D₀ st₀ U s' := by
  have h := hist_inv hsq hist
  have hist' : Hist cfg env D₀ st₀ U s' := .step (op := .solve) (code := code) hist (by simp [apiStep, call])
  have h' := hist_inv hsq hist'
  have hrun := solve_run (env := env) h
  rw [call] at hrun
  have key : FromCall s s' ∧ s'.solution = s.solution := by
    cases hrun with
    | exited s1 exit code1 eq =>
      have hw : Within (solveEntry cfg s).s s1 := by
        cases exit with
        | interrupted it L0 head lo hi hit eq1 within iterated => exact within
        | adaptFailed it L0 head lo hi within iterated status fail eq1 => exact within
      obtain ⟨a, b, r, i, c⟩ := fromCall hw
      subst eq
      refine ⟨⟨by simpa using a, by simpa using b, r, i, by simpa using c⟩, ?_⟩
      have := hw.sol; simpa using this
    | ran it L' p lend chk peq eq =>
      have hw := (final_of_checked chk).within
      rw [finish_eq] at eq
      split_ifs at eq with hc
      · injection eq with e1 e2
        obtain ⟨a, b, r, i, c⟩ := fromCall hw
        subst e1
        refine ⟨⟨by simpa using a, by simpa using b, r, i, by simpa using c⟩, ?_⟩
        have := hw.sol; simpa using this
      · injection eq with e1 e2
        exact absurd (e2.trans (by rcases polish_code cfg env (postTail cfg env p) with e | e <;> rw [e] at hc ⊢; exact absurd (by decide) hc)) failed
  obtain ⟨⟨a, b, c⟩, hsol⟩ := key
  exact ⟨a, b, hsol, c, h'.rep, h'.sync.P, h'.sync.A, h'.sync.sigma, h'.hand, hist'⟩

/-- A failing solve. -/
example : ∃ (s s' : Solver Demo.dims ℚ), Hist Demo.cfg Demo.sIntr.env Demo.sIntr.data Demo.sIntr.st Demo.sIntr.data s ∧
    osqpSolve Demo.cfg Demo.sIntr.env s = (s', 1) :=
  ⟨Demo.sIntr.start Demo.okIntr, Demo.sIntr.done Demo.okIntr, Demo.sIntr.hist Demo.okIntr, Demo.sIntr.solve_eq Demo.okIntr (by decide +kernel)⟩

end Osqp
