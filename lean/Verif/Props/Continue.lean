import Verif.Props.Converge
import Verif.Spec.Indep

/-!
# C82: a solve can be cut into pieces

`AllDone` (`Spec/Run.lean`): all `max_iter` iterations of the solve were executed.
-/

set_option linter.unusedSectionVars false
namespace Osqp
open Spec
variable {K : Type*} [Field K] [LinearOrder K] [IsStrictOrderedRing K] {d : Dims} {cfg : Cfg} {env : Env d K} {s s1 s2 s' t t' : Solver d K}

/-- A solve that executes all its iterations leaves the iterate that many plain steps compute. -/
theorem solve_iterates (warm : s.settings.warm_starting ≠ 0) (fixed : s.settings.adaptive_rho = 0) (done : AllDone cfg env s)
    (call : osqpSolve cfg env s = (s', 0)) (carries : hasSolution s'.info = true) (pol : s.settings.polishing = 0 ∨ s'.info.status_val ≠ St.solved) :
    InStep (iterate env s s.settings.max_iter.toNat) s' ∧ s'.settings = s.settings ∧
      ∀ sol, s'.solution = some sol → (sol.x, sol.y) = if s'.settings.scaling ≠ 0 then unscaleSolution s'.work.scaling s'.work.x s'.work.y else (s'.work.x, s'.work.y) := by
  obtain ⟨L, run⟩ := done
  have h1 := (Runs.functional run).1
  have hk := loop_of_runs run s.settings.max_iter.toNat (by omega)
  rw [show s.settings.max_iter.toNat + 1 - (s.settings.max_iter + 1).toNat = 0 by omega] at hk
  have e0 : InStep s (solveEntry cfg s).s := by
    refine ⟨?_, ?_, ?_, ?_, ?_, ?_, ?_⟩ <;> unfold solveEntry <;> dsimp only <;> split_ifs <;> first | rfl | contradiction
  have hset : (solveEntry cfg s).s.settings = s.settings := solveEntry_settings ..
  obtain ⟨ag, hsL⟩ := runs_iterate (by rw [hset]; exact fixed) run
  rw [add_sub_cancel_right] at ag
  unfold osqpSolve at call
  dsimp only at call
  rw [hset, hk] at call
  unfold admmLoop at call
  dsimp only at call
  set p := postLoop cfg env (s.settings.max_iter + 1) L with hp
  have ap : InStep L.s p ∧ p.settings = L.s.settings := by
    refine ⟨⟨?_, ?_, ?_, ?_, ?_, ?_, ?_⟩, ?_⟩ <;> simp [hp, postLoop, core]
  have hps : p.settings = s.settings := by rw [ap.2, hsL, hset]
  have hs := finish_ok call
  have hv : s'.info.status_val = p.info.status_val := by rw [hs]; simp
  have hpol : postPolish cfg env p = (p, 0) := by
    unfold postPolish
    rw [if_neg]
    rintro ⟨c1, c2⟩
    rw [hps] at c1
    rcases pol with h | h
    · exact c1 h
    · exact h (hv.trans c2)
  rw [hpol] at hs
  dsimp only at hs
  set q := postTiming cfg p with hq
  have aq : InStep p q ∧ q.settings = p.settings := by
    refine ⟨⟨?_, ?_, ?_, ?_, ?_, ?_, ?_⟩, ?_⟩ <;> simp [hq, core]
  have hqc : hasSolution q.info = true := by
    rw [← carries]
    unfold hasSolution
    rw [hv]
    simp [hq]
  have as : InStep q (storeOwnSolution q) ∧ (storeOwnSolution q).settings = q.settings ∧ ∀ sol, (storeOwnSolution q).solution = some sol →
      (sol.x, sol.y) = if q.settings.scaling ≠ 0 then unscaleSolution q.work.scaling q.work.x q.work.y else (q.work.x, q.work.y) := by
    unfold storeOwnSolution
    cases hc : q.solution with
    | none => exact ⟨InStep.refl _, rfl, fun sol h => by dsimp only at h; rw [hc] at h; cases h⟩
    | some sol0 =>
      dsimp only
      unfold storeSolution
      dsimp only
      rw [if_pos hqc]
      refine ⟨?_, ?_, fun sol h => ?_⟩
      · split_ifs <;> exact ⟨rfl, rfl, rfl, rfl, rfl, rfl, rfl⟩
      · split_ifs <;> rfl
      · injection h with h
        rw [← h]
        split_ifs <;> rfl
  have ae : InStep (storeOwnSolution q) s' ∧ s'.settings = (storeOwnSolution q).settings ∧ s'.solution = (storeOwnSolution q).solution := by
    rw [hs]; unfold endListener
    split_ifs <;> exact ⟨⟨rfl, rfl, rfl, rfl, rfl, rfl, rfl⟩, rfl, rfl⟩
  have hss : s'.settings = s.settings := by rw [ae.2.1, as.2.1, aq.2, hps]
  refine ⟨(agree_iterate e0 _).trans (ag.trans (ap.1.trans (aq.1.trans (as.1.trans ae.1)))), hss, fun sol h => ?_⟩
  have aqs := as.1.trans ae.1
  rw [as.2.2 sol (ae.2.2 ▸ h), aqs.x, aqs.y, aqs.sc, aqs.on]

/-- **C82**.  With warm starting and a fixed step size: a solve with `a` iterations followed by one with `b` leaves the same iterate and returns the same primal and dual point as one solve with
`a + b` iterations, if each of the three executes all its iterations, ends without a certificate, and does not polish. -/
theorem c82_continue (warm : s.settings.warm_starting ≠ 0) (fixed : s.settings.adaptive_rho = 0) {a b : ℤ} {s3 s4 : Solver d K}
    (set1 : osqpUpdateSettings cfg s (some { s.settings with max_iter := a }) = (s1, 0)) (solve1 : osqpSolve cfg env s1 = (s2, 0)) (done1 : AllDone cfg env s1)
    (carries1 : hasSolution s2.info = true) (pol1 : s.settings.polishing = 0 ∨ s2.info.status_val ≠ St.solved)
    (set2 : osqpUpdateSettings cfg s2 (some { s2.settings with max_iter := b }) = (s3, 0)) (solve2 : osqpSolve cfg env s3 = (s4, 0)) (done2 : AllDone cfg env s3)
    (carries2 : hasSolution s4.info = true) (pol2 : s.settings.polishing = 0 ∨ s4.info.status_val ≠ St.solved)
    (set : osqpUpdateSettings cfg s (some { s.settings with max_iter := a + b }) = (t, 0)) (solve : osqpSolve cfg env t = (t', 0)) (done : AllDone cfg env t)
    (carries : hasSolution t'.info = true) (pol : s.settings.polishing = 0 ∨ t'.info.status_val ≠ St.solved) :
    s4.work.x = t'.work.x ∧ s4.work.z = t'.work.z ∧ s4.work.y = t'.work.y ∧
      ∀ sol sol', s4.solution = some sol → t'.solution = some sol' → sol.x = sol'.x ∧ sol.y = sol'.y := by
  have ea : 0 ≤ a := by
    obtain ⟨L, r⟩ := done1
    have := (Runs.functional r).1
    rw [update_limit set1] at this
    change 1 ≤ a + 1 at this
    omega
  have eb : 0 ≤ b := by
    obtain ⟨L, r⟩ := done2
    have := (Runs.functional r).1
    rw [update_limit set2] at this
    change 1 ≤ b + 1 at this
    omega
  have u1 := update_limit set1
  have u2 := update_limit set2
  have u := update_limit set
  obtain ⟨i1, j1, -⟩ := solve_iterates (by rw [u1]; exact warm) (by rw [u1]; exact fixed) done1 solve1 carries1 (by rw [u1]; exact pol1)
  rw [u1] at j1
  have lim : ∀ (M : ℤ) (r : Solver d K), InStep r (limitTo M r) := fun M r => ⟨rfl, rfl, rfl, rfl, rfl, rfl, rfl⟩
  obtain ⟨i2, j2, k2⟩ := solve_iterates (by rw [u2]; show s2.settings.warm_starting ≠ 0; rw [j1]; exact warm) (by rw [u2]; show s2.settings.adaptive_rho = 0; rw [j1]; exact fixed) done2 solve2
    carries2 (by rw [u2]; show s2.settings.polishing = 0 ∨ _; rw [j1]; exact pol2)
  obtain ⟨i, j, k⟩ := solve_iterates (by rw [u]; exact warm) (by rw [u]; exact fixed) done solve carries (by rw [u]; exact pol)
  have m1 : s1.settings.max_iter.toNat = a.toNat := by rw [u1]; rfl
  have m2 : s3.settings.max_iter.toNat = b.toNat := by rw [u2]; rfl
  have m : t.settings.max_iter.toNat = b.toNat + a.toNat := by rw [u]; show (a + b).toNat = _; omega
  rw [m1] at i1
  rw [m2] at i2
  rw [m] at i
  have c1 : InStep (iterate env s a.toNat) s2 := (agree_iterate (by rw [u1]; exact lim a s) _).trans i1
  have c2 : InStep (iterate env s (b.toNat + a.toNat)) s4 := by
    have : iterate env s (b.toNat + a.toNat) = iterate env (iterate env s a.toNat) b.toNat := Function.iterate_add_apply _ _ _ _
    rw [this]
    exact (agree_iterate (c1.trans (by rw [u2]; exact lim b s2)) _).trans i2
  have c3 : InStep (iterate env s (b.toNat + a.toNat)) t' := (agree_iterate (by rw [u]; exact lim _ s) _).trans i
  refine ⟨c2.x.symm.trans c3.x, c2.z.symm.trans c3.z, c2.y.symm.trans c3.y, fun sol sol' h h' => ?_⟩
  have e1 := k2 sol h
  have e2 := k sol' h'
  rw [← c2.x, ← c2.y, ← c2.sc, ← c2.on] at e1
  rw [← c3.x, ← c3.y, ← c3.sc, ← c3.on] at e2
  have e := e1.trans e2.symm
  exact ⟨congrArg Prod.fst e, congrArg Prod.snd e⟩

/-- **C82** (all iterations are executed).  Without termination checks, with a fixed step size, and if neither the clock nor the user stops it, a solve executes all its iterations. -/
theorem c82_all_done (fixed : s.settings.adaptive_rho = 0) (unchecked : s.settings.check_termination = 0) (calm : Undisturbed cfg env s) (pos : 0 ≤ s.settings.max_iter) : AllDone cfg env s := by
  obtain ⟨h1, h2, -⟩ := calm
  have hset : (solveEntry cfg s).s.settings = s.settings := solveEntry_settings ..
  have key : ∀ n : ℕ, (n : ℤ) ≤ s.settings.max_iter → ∃ L, Runs cfg env (solveEntry cfg s) (n + 1) L := by
    intro n
    induction n with
    | zero => exact fun _ => ⟨_, .start⟩
    | succ n ih =>
      intro hn
      obtain ⟨L, run⟩ := ih (by push_cast at hn; omega)
      have hsL : L.s.settings = s.settings := by rw [(runs_iterate (by rw [hset]; exact fixed) run).2, hset]
      have ni : (intrCheck cfg env (admmStep env L.s)).2 = false := by
        unfold intrCheck
        by_cases hi : cfg.interrupt = true
        · rw [if_pos hi]; exact h2 hi _
        · rw [if_neg hi]
      have nt : (timeCheck cfg env (itAdmm cfg env L)).2 = false := by
        by_contra hc
        refine h1 (n + 1) ⟨by omega, by push_cast at hn; omega, L, run, ?_⟩
        rw [Bool.not_eq_false] at hc
        unfold timeCheck at hc
        by_cases hp : cfg.profiling = true
        · rw [if_pos hp] at hc
          simp only [toc, itAdmm, intrCheck_settings, intrCheck_work, intrCheck_ticks, intrCheck_info, admmStep_settings,
            admmStep_first_run, admmStep_ticks, admmStep_info, Bool.and_eq_true, decide_eq_true_eq] at hc
          exact ⟨hp, hc.1, hc.2⟩
        · rw [if_neg hp] at hc; cases hc
      have hc : itCheck L.s.settings ((n : ℤ) + 1) = false := by unfold itCheck; rw [hsL, unchecked]; rfl
      have nc : (itTerm cfg env ((n : ℤ) + 1) L).2 = false := by unfold itTerm; rw [hc]; rfl
      have hT : (itTimed cfg env L).settings = s.settings := by rw [← hsL]; simp [itTimed, itAdmm]
      have hdec : (itDec cfg env ((n : ℤ) + 1) L).2 = false := by
        unfold itDec adaptDecision
        rw [hT, fixed]; simp
      have na : ∀ r : Solver d K, (adaptPhase cfg env false r).2 = false := fun r => by unfold adaptPhase; simp
      obtain ⟨L', e⟩ : ∃ L', iterBody cfg env ((n : ℤ) + 1) L = .cont L' := by
        rw [iterBody_eq, ni, nt, nc, hdec, na]
        exact ⟨_, rfl⟩
      exact ⟨L', by push_cast; exact .step run e⟩
  obtain ⟨n, hn⟩ := Int.eq_ofNat_of_zero_le pos
  obtain ⟨L, r⟩ := key n (by omega)
  exact ⟨L, by rw [hn]; exact r⟩

/-! ## The hypotheses are met -/

/-- `min x²/2 − x, 0 ≤ x ≤ 1/2` far from the solution, fixed step size, no checks. -/
def Demo.sCut : Demo.Scenario := { Demo.sSolved with x := 3, y := -2, st := { Demo.quick with adaptive_rho := 0, check_termination := 0 } }
theorem Demo.okCut : Demo.sCut.Ok := by decide +kernel

theorem Demo.cut_calm {s : Solver Demo.dims ℚ} (h : Hist Demo.cfg Demo.sCut.env Demo.sCut.data Demo.sCut.st Demo.sCut.data s)
    (ht : ¬ s.settings.time_limit ≤ (if (solveEntry Demo.cfg s).s.work.first_run then (solveEntry Demo.cfg s).s.info.setup_time else (solveEntry Demo.cfg s).s.info.update_time))
    (ha : s.settings.adaptive_rho = 0) : Undisturbed Demo.cfg Demo.sCut.env s := by
  refine ⟨?_, fun _ _ => rfl, Or.inl (by rw [ha]; decide)⟩
  rintro it ⟨_, _, L, run, _, _, hl⟩
  have w := (head_of_runs (hist_inv Demo.sCut.sqrtPos h) run).within
  obtain ⟨r, i, e⟩ := (fromCall w).settings
  have ec : Demo.sCut.env.clk L.s.ticks = 0 := rfl
  have eu := (w.cut (by rw [w.rufs]; have hp : Demo.cfg.profiling = true := rfl; unfold solveEntry; simp [hp]; split_ifs <;> simp)).2
  rw [e, w.first, w.setup, eu, ec, add_zero] at hl
  exact ht hl

/-- The solver of the problem, the state with limit `M`, and the state after its solve. -/
def Demo.c0 : Solver Demo.dims ℚ := Demo.sCut.start Demo.okCut
def Demo.lim (s : Solver Demo.dims ℚ) (M : ℤ) : Solver Demo.dims ℚ := (osqpUpdateSettings Demo.cfg s (some { s.settings with max_iter := M })).1
def Demo.run (s : Solver Demo.dims ℚ) : Solver Demo.dims ℚ := (osqpSolve Demo.cfg Demo.sCut.env s).1

theorem Demo.lim_hist {s : Solver Demo.dims ℚ} (h : Hist Demo.cfg Demo.sCut.env Demo.sCut.data Demo.sCut.st Demo.sCut.data s) (M : ℤ) :
    Hist Demo.cfg Demo.sCut.env Demo.sCut.data Demo.sCut.st Demo.sCut.data (Demo.lim s M) :=
  Hist.step (op := .updateSettings (some { s.settings with max_iter := M })) (code := (osqpUpdateSettings Demo.cfg s (some { s.settings with max_iter := M })).2) h rfl
theorem Demo.run_hist {s : Solver Demo.dims ℚ} (h : Hist Demo.cfg Demo.sCut.env Demo.sCut.data Demo.sCut.st Demo.sCut.data s) :
    Hist Demo.cfg Demo.sCut.env Demo.sCut.data Demo.sCut.st Demo.sCut.data (Demo.run s) :=
  Hist.step (op := .solve) (code := (osqpSolve Demo.cfg Demo.sCut.env s).2) h rfl
theorem Demo.c0_hist : Hist Demo.cfg Demo.sCut.env Demo.sCut.data Demo.sCut.st Demo.sCut.data Demo.c0 := Demo.sCut.hist Demo.okCut

example : (∀ sol sol', (Demo.run (Demo.lim (Demo.run (Demo.lim Demo.c0 2)) 3)).solution = some sol → (Demo.run (Demo.lim Demo.c0 5)).solution = some sol' → sol.x = sol'.x ∧ sol.y = sol'.y) ∧
    (Demo.run (Demo.lim Demo.c0 2)).work.x ≠ (Demo.run (Demo.lim Demo.c0 5)).work.x ∧ (Demo.run (Demo.lim Demo.c0 5)).solution.isSome = true :=
  ⟨(c82_continue (cfg := Demo.cfg) (env := Demo.sCut.env) (s := Demo.c0) (a := 2) (b := 3) (s1 := Demo.lim Demo.c0 2) (s2 := Demo.run (Demo.lim Demo.c0 2))
    (s3 := Demo.lim (Demo.run (Demo.lim Demo.c0 2)) 3) (t := Demo.lim Demo.c0 5)
    (by decide +kernel) (by decide +kernel)
    (Prod.ext rfl (by decide +kernel)) (Prod.ext rfl (by decide +kernel))
    (c82_all_done (by decide +kernel) (by decide +kernel) (Demo.cut_calm (Demo.lim_hist Demo.c0_hist 2) (by decide +kernel) (by decide +kernel)) (by decide +kernel)) (by decide +kernel) (by decide +kernel)
    (Prod.ext rfl (by decide +kernel)) (Prod.ext rfl (by decide +kernel))
    (c82_all_done (by decide +kernel) (by decide +kernel) (Demo.cut_calm (Demo.lim_hist (Demo.run_hist (Demo.lim_hist Demo.c0_hist 2)) 3) (by decide +kernel) (by decide +kernel)) (by decide +kernel)) (by decide +kernel) (by decide +kernel)
    (Prod.ext rfl (by decide +kernel)) (Prod.ext rfl (by decide +kernel))
    (c82_all_done (by decide +kernel) (by decide +kernel) (Demo.cut_calm (Demo.lim_hist Demo.c0_hist 5) (by decide +kernel) (by decide +kernel)) (by decide +kernel)) (by decide +kernel) (by decide +kernel)).2.2.2,
    by decide +kernel, by decide +kernel⟩

/-! ## With adaptation -/

/-- The same problem with adaptation of the step size every second iteration. -/
def Demo.sRestart : Demo.Scenario := { Demo.sCut with st := { Demo.sCut.st with adaptive_rho := 1, adaptive_rho_interval := 2, adaptive_rho_tolerance := 2 } }
theorem Demo.okRestart : Demo.sRestart.Ok := by decide +kernel
def Demo.r0 : Solver Demo.dims ℚ := Demo.lim (Demo.sRestart.start Demo.okRestart) 1
def Demo.r1 : Solver Demo.dims ℚ := Demo.lim (Demo.run Demo.r0) 2
def Demo.r2 : Solver Demo.dims ℚ := Demo.lim (Demo.sRestart.start Demo.okRestart) 3

/-- **C82** fails with an adaptive step size: the count of iterations for the adaptation starts anew with every solve, so the step size changes in other iterations. One iteration followed by
two gives another point than three, although all solves return 0 with "maximum iterations reached". -/
theorem c82_adaptive_counterexample : Demo.r0.settings.warm_starting = 1 ∧ ((osqpSolve Demo.cfg Demo.sRestart.env Demo.r0).2 = 0 ∧ (Demo.run Demo.r0).info.status_val = St.maxIter) ∧
    ((osqpSolve Demo.cfg Demo.sRestart.env Demo.r1).2 = 0 ∧ (Demo.run Demo.r1).info.status_val = St.maxIter) ∧
    ((osqpSolve Demo.cfg Demo.sRestart.env Demo.r2).2 = 0 ∧ (Demo.run Demo.r2).info.status_val = St.maxIter) ∧
    (Demo.run Demo.r1).work.x ≠ (Demo.run Demo.r2).work.x := by decide +kernel

end Osqp
