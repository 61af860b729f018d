import Verif.Lemmas.Hist

/-!
# `osqp_solve` keeps the invariant; master case analysis of a solve
-/

set_option linter.unusedSectionVars false
namespace Osqp
open Spec
variable {K : Type*} [Field K] [LinearOrder K] [IsStrictOrderedRing K] {d : Dims}

/-- The bounds of the working data are ordered. -/
theorem rep_bounds {st : Settings K} {sc : Scaling d K} {U D : Data d K} (h : Represents st sc U D)
    (hb : ∀ i, U.l i ≤ U.u i) : ∀ i, D.l i ≤ D.u i := by
  intro i
  by_cases h0 : st.scaling = 0
  · rw [h.2 h0]; exact hb i
  · obtain ⟨ok, is⟩ := h.1 h0
    rw [is.l, is.u]; exact mul_le_mul_of_nonneg_left (hb i) (ok.E_pos i).le

theorem core_solveEntry (cfg : Cfg) (s : Solver d K) : core (solveEntry cfg s).s = core s := by
  simp [core]

theorem solveEntry_status (cfg : Cfg) (s : Solver d K) :
    (solveEntry cfg s).s.info.status_val = s.info.status_val ∧ (solveEntry cfg s).s.info.status = s.info.status := by
  simp

theorem entry_startL (cfg : Cfg) (s : Solver d K) : solveEntry cfg s = startL cfg (solveEntry cfg s).s := rfl

theorem head_entry {cfg : Cfg} {env : Env d K} {st₀ : Settings K} {U : Data d K} {s : Solver d K} (h : Inv cfg st₀ U s) :
    Head cfg env (solveEntry cfg s).s 1 (solveEntry cfg s) := by
  refine ⟨?_, ⟨Same.refl _, h.sync.congr (core_solveEntry cfg s), id, rfl, fun hm => ?_, rfl, rfl, rfl, fun _ => ⟨rfl, rfl⟩, rfl, rfl, rfl⟩,
    ⟨rfl, rfl⟩, le_refl _, fun _ => ⟨rfl, rfl⟩, ?_, ?_, ?_, ?_⟩
  · rw [← entry_startL]; exact .start
  · simp [h.aty hm]
  all_goals intro h; exact absurd h (lt_irrefl _)

/-- Entry state: number of iterations, bounds. -/
theorem entry_bounds {cfg : Cfg} {st₀ : Settings K} {U : Data d K} {s : Solver d K} (h : Inv cfg st₀ U s) :
    ∀ i, (solveEntry cfg s).s.work.data.l i ≤ (solveEntry cfg s).s.work.data.u i := by
  have := rep_bounds h.rep h.bounds
  simpa using this

theorem entry_maxIter {cfg : Cfg} {st₀ : Settings K} {U : Data d K} {s : Solver d K} (h : Inv cfg st₀ U s) :
    1 ≤ (solveEntry cfg s).s.settings.max_iter.toNat := by
  have := h.live.max_iter
  simp; omega

/-- Complete description of how a solve runs. -/
inductive SolveRun (cfg : Cfg) (env : Env d K) (s s' : Solver d K) (code : ℤ) : Prop
  | exited (s1 : Solver d K)
      (exit : LoopExit cfg env (solveEntry cfg s).s (solveEntry cfg s).s.settings.max_iter.toNat s1)
      (code1 : code = 1) (eq : s' = endListener cfg s1)
  | ran (it : ℤ) (L' : LoopSt d K) (p : Solver d K)
      (lend : LoopEnd cfg env (solveEntry cfg s).s (solveEntry cfg s).s.settings.max_iter.toNat it L')
      (chk : Checked cfg env (solveEntry cfg s).s (solveEntry cfg s).s.settings.max_iter.toNat it L' p)
      (peq : p = postCheck cfg env it L')
      (eq : (s', code) = finish cfg env (postTail cfg env p))

theorem solve_run {cfg : Cfg} {env : Env d K} {st₀ : Settings K} {U : Data d K} {s : Solver d K} (h : Inv cfg st₀ U s) :
    SolveRun cfg env s (osqpSolve cfg env s).1 (osqpSolve cfg env s).2 := by
  have hh := head_entry (env := env) h
  have hb := entry_bounds (cfg := cfg) h
  have hk := entry_maxIter (cfg := cfg) h
  cases e : admmLoop cfg env (solveEntry cfg s).s.settings.max_iter.toNat 1 (solveEntry cfg s) with
  | exit s1 =>
    have he : osqpSolve cfg env s = (endListener cfg s1, 1) := by unfold osqpSolve; dsimp only; rw [e]
    rw [he]
    exact .exited s1 (loop_exit hb hh e) rfl rfl
  | done it L' =>
    have he : osqpSolve cfg env s = finish cfg env (postLoop cfg env it L') := by unfold osqpSolve; dsimp only; rw [e]
    rw [he, postLoop_eq]
    have hl := loop_end hb hh e
    exact .ran it L' _ hl (checked hk hl) rfl rfl

theorem Checked.within {cfg : Cfg} {env : Env d K} {s0 : Solver d K} {k : ℕ} {it : ℤ} {L' : LoopSt d K} {p : Solver d K}
    (h : Checked cfg env s0 k it L' p) : Within s0 p := by
  cases h with
  | tested s1 within _ _ _ _ eq => rw [eq]; exact within_checkTermination _ within
  | failed within => exact within
  | stale s1 within _ _ _ _ eq => rw [eq]; exact within_setStatus _ within

theorem Checked.status {cfg : Cfg} {env : Env d K} {s0 : Solver d K} {k : ℕ} {it : ℤ} {L' : LoopSt d K} {p : Solver d K}
    (h : Checked cfg env s0 k it L' p) (hs : StatusOK s0.info) : StatusOK p.info := by
  cases h with
  | tested s1 _ _ _ st _ eq =>
    rw [eq]; refine statusOK_check _ ?_
    rcases st with ⟨a, b⟩ | ⟨a, b, _⟩
    · exact hs.congr a b
    · refine ⟨?_, ?_⟩ <;> rw [a]
      · rw [b]; rfl
      · decide
  | failed _ _ _ st => exact hs.congr st.1 st.2
  | stale s1 _ _ _ _ _ eq => rw [eq]; exact statusOK_setStatus _ (by decide) (by decide)

theorem within_postTail {cfg : Cfg} {env : Env d K} {s0 p : Solver d K} (h : Within s0 p) : Within s0 (postTail cfg env p) := by
  unfold postTail
  apply h.of_frame <;> simp [core]

theorem statusOK_postTail (cfg : Cfg) (env : Env d K) {p : Solver d K} (h : StatusOK p.info) :
    StatusOK (postTail cfg env p).info := by
  have h1 : StatusOK (postObj p).info := h.congr (by simp) (by simp)
  have h2 : StatusOK (postMaxIter (postObj p)).info := by
    unfold postMaxIter; dsimp only; split_ifs
    · exact statusOK_check _ h1
    · exact statusOK_setStatus _ (by decide) (by decide)
    · exact h1
  have h3 : StatusOK (postTimeLimit cfg (postMaxIter (postObj p))).info := by
    unfold postTimeLimit; dsimp only; split_ifs
    · exact statusOK_check _ h2
    · exact statusOK_setStatus _ (by decide) (by decide)
    · exact h2
  exact h3.congr (by simp [postTail]) (by simp [postTail])

theorem computeReport_aty (s : Solver d K) (x : Vec K d.n) (z y : Vec K d.m) (hm : d.m = 0) :
    (computeReport s x z y).1.work.Aty = s.work.Aty := by
  simp only [computeReport, if_pos hm]
  simp only [computeObj, computeDualRes, hm, ne_eq, not_true, if_false]
  split_ifs <;> rfl

theorem polish_aty (cfg : Cfg) (env : Env d K) (s : Solver d K) (hm : d.m = 0) :
    (polish cfg env s).1.work.Aty = s.work.Aty := by
  unfold polish; dsimp only
  split_ifs <;> simp [computeReport_aty _ _ _ _ hm]

theorem finish_eq (cfg : Cfg) (env : Env d K) (s : Solver d K) :
    finish cfg env s = if (postPolish cfg env s).2 > 0 then (endListener cfg (postPolish cfg env s).1, (postPolish cfg env s).2)
      else (endListener cfg (storeOwnSolution (postTiming cfg (postPolish cfg env s).1)), (postPolish cfg env s).2) := rfl

theorem inv_of_within {cfg : Cfg} {st₀ : Settings K} {U : Data d K} {s s0 s1 : Solver d K} (h : Inv cfg st₀ U s)
    (hsc : s0.work.scaling = s.work.scaling) (hd : s0.work.data = s.work.data) (hset : s0.settings = s.settings)
    (hsol : s0.solution = s.solution) (hri : core s0 = core s)
    (hw : Within s0 s1) (hst : StatusOK s1.info) (hhand : s1.handler = false) :
    Inv cfg st₀ U s1 := by
  obtain ⟨e1, e2, r, i, e3⟩ := hw.same
  rw [hset] at e3
  have hsync := hw.sync
  refine ⟨?_, h.bounds, hw.sync, fun hr => hw.rinv ((h.rinv hr).congr hri), ?_, h.valid0, ?_, hst, hw.aty, hhand, ?_⟩
  · rw [e1, e2, hsc, hd, e3]; exact h.rep
  · rw [e3]
    exact ⟨h.live.1, h.live.2, h.live.3, h.live.4, h.live.5, h.live.6, h.live.7, h.live.8, h.live.9, h.live.10, h.live.11, h.live.12, h.live.13, h.live.14, h.live.15, h.live.16, h.live.17, h.live.18, h.live.19, h.live.20⟩
  · rw [e3]; exact ⟨h.fixed.1, h.fixed.2, h.fixed.3, h.fixed.4, h.fixed.5, h.fixed.6, h.fixed.7, h.fixed.8, h.fixed.9⟩
  · rw [hw.sol, hsol]; exact h.sol

theorem endListener_handler {cfg : Cfg} {s : Solver d K} (h : cfg.interrupt = false → s.handler = false) :
    (endListener cfg s).handler = false := by
  unfold endListener; split_ifs with h1
  · rfl
  · exact h (by simpa using h1)

theorem entry_handler {cfg : Cfg} {s : Solver d K} (h : s.handler = false) : cfg.interrupt = false → (solveEntry cfg s).s.handler = false := by
  intro hc; unfold solveEntry; dsimp only; split_ifs <;> simp_all [coldStart]

theorem storeOwn_sol (s : Solver d K) : (storeOwnSolution s).solution.isSome = s.solution.isSome := by
  unfold storeOwnSolution; cases h : s.solution <;> simp [h]

/-- Frame of everything from polishing on, for the invariant. -/
theorem finish_frame (cfg : Cfg) (env : Env d K) (t : Solver d K) (hh : cfg.interrupt = false → t.handler = false) :
    core (finish cfg env t).1 = core t ∧ (finish cfg env t).1.work.scaling = t.work.scaling ∧
    (finish cfg env t).1.settings = t.settings ∧
    (finish cfg env t).1.info.status_val = t.info.status_val ∧ (finish cfg env t).1.info.status = t.info.status ∧
    (d.m = 0 → (finish cfg env t).1.work.Aty = t.work.Aty) ∧ (finish cfg env t).1.handler = false ∧
    (finish cfg env t).1.solution.isSome = t.solution.isSome := by
  have hA : d.m = 0 → (postPolish cfg env t).1.work.Aty = t.work.Aty := by
    intro hm; unfold postPolish; split_ifs
    · exact polish_aty cfg env t hm
    · rfl
  rw [finish_eq]
  split_ifs
  · refine ⟨by simp [core], by simp, by simp, by simp, by simp, ?_, ?_, by simp⟩
    · intro hm; simp [hA hm]
    · apply endListener_handler; intro hc; simp [hh hc]
  · refine ⟨by simp [core], by simp, by simp, by simp, by simp, ?_, ?_, by simp [storeOwn_sol]⟩
    · intro hm; simp [hA hm]
    · apply endListener_handler; intro hc; simp [hh hc]

theorem inv_solve {cfg : Cfg} {env : Env d K} {st₀ : Settings K} {U : Data d K} {s : Solver d K} (h : Inv cfg st₀ U s) :
    Inv cfg st₀ U (osqpSolve cfg env s).1 := by
  have hr := solve_run (env := env) h
  have hse : StatusOK (solveEntry cfg s).s.info := h.status.congr (by simp) (by simp)
  generalize (osqpSolve cfg env s).1 = s' at hr
  generalize (osqpSolve cfg env s).2 = code at hr
  cases hr with
  | exited s1 exit code1 eq =>
    have hw : Within (solveEntry cfg s).s s1 := by cases exit <;> assumption
    have hs1 : StatusOK s1.info := by
      cases exit with
      | interrupted it L0 _ _ _ _ eq => rw [eq]; exact statusOK_setStatus _ (by decide) (by decide)
      | adaptFailed it L0 _ _ _ _ _ st => exact hse.congr st.1 st.2
    rw [eq]
    have hw' : Within (solveEntry cfg s).s { s1 with handler := (solveEntry cfg s).s.handler } :=
      hw.of_frame rfl rfl rfl rfl (fun _ => rfl) hw.hand.symm rfl rfl rfl rfl rfl rfl rfl
    have hi : Inv cfg st₀ U ({ s1 with handler := false } : Solver d K) := by
      have := hw
      refine inv_of_within (s0 := { (solveEntry cfg s).s with handler := false }) h (by simp) (by simp) (by simp) (by simp)
        (by simp [core]) ?_ hs1 rfl
      exact ⟨hw.same, hw.sync.congr rfl, fun hh => (hw.rinv (hh.congr rfl)).congr rfl, hw.sol, hw.aty, rfl, hw.first, hw.setup, hw.cut, hw.rufs, hw.stpol, hw.poltime⟩
    refine hi.of_frame (by simp [core]) (by simp) (by simp) (hs1.congr (by simp) (by simp)) (fun _ => by simp) ?_ (by simp)
    apply endListener_handler; intro hc; rw [hw.hand]; exact entry_handler h.hand hc
  | ran it L' p lend chk peq eq =>
    have hw := within_postTail (cfg := cfg) (env := env) chk.within
    have hst := statusOK_postTail cfg env (chk.status hse)
    have hhand : cfg.interrupt = false → (postTail cfg env p).handler = false := by
      intro hc; rw [hw.hand]; exact entry_handler h.hand hc
    have e : s' = (finish cfg env (postTail cfg env p)).1 := by rw [← eq]
    obtain ⟨f1, f2, f3, f4, f5, f6, f7, f8⟩ := finish_frame cfg env (postTail cfg env p) hhand
    rw [← e] at f1 f2 f3 f4 f5 f6 f7 f8
    have hi : Inv cfg st₀ U ({ postTail cfg env p with handler := false } : Solver d K) := by
      refine inv_of_within (s0 := { (solveEntry cfg s).s with handler := false }) h (by simp) (by simp) (by simp) (by simp)
        (by simp [core]) ?_ hst rfl
      exact ⟨hw.same, hw.sync.congr rfl, fun hh => (hw.rinv (hh.congr rfl)).congr rfl, hw.sol, hw.aty, rfl, hw.first, hw.setup, hw.cut, hw.rufs, hw.stpol, hw.poltime⟩
    exact hi.of_frame f1 f2 f3 (hst.congr f4 f5) f6 f7 f8

end Osqp
