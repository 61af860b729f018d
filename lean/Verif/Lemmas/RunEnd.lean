import Verif.Lemmas.Result
import Verif.Spec.Status

/-!
# Where the loop of `osqp_solve` stops, in terms of the iterations that were executed
-/

set_option linter.unusedSectionVars false
namespace Osqp
open Spec Matrix
variable {K : Type*} [Field K] [LinearOrder K] [IsStrictOrderedRing K] {d : Dims} {cfg : Cfg} {env : Env d K}

/-- The loop continues from every reached iteration. -/
theorem loop_of_runs {L₀ L : LoopSt d K} {it : ℤ} (h : Runs cfg env L₀ it L) (k : ℕ) (hk : it ≤ k + 1) :
    admmLoop cfg env k 1 L₀ = admmLoop cfg env (k + 1 - it.toNat) it L := by
  induction h with
  | start => simp
  | @step it L1 L2 h1 h2 ih =>
    have h0 := (Runs.functional h1).1
    rw [ih (by omega)]
    have e : k + 1 - it.toNat = (k + 1 - (it + 1).toNat) + 1 := by omega
    rw [e]
    conv_lhs => unfold admmLoop
    rw [h2]

theorem loop_brk {L₀ L L' : LoopSt d K} {it : ℤ} (h : Runs cfg env L₀ it L) {k : ℕ} (hk : it ≤ k)
    (e : iterBody cfg env it L = .brk L') : admmLoop cfg env k 1 L₀ = .done it L' := by
  have h0 := (Runs.functional h).1
  rw [loop_of_runs h k (by omega)]
  have e1 : k + 1 - it.toNat = (k - it.toNat) + 1 := by omega
  rw [e1]; unfold admmLoop; rw [e]

theorem loop_exited {L₀ L : LoopSt d K} {s1 : Solver d K} {it : ℤ} (h : Runs cfg env L₀ it L) {k : ℕ} (hk : it ≤ k)
    (e : iterBody cfg env it L = .exit s1) : admmLoop cfg env k 1 L₀ = .exit s1 := by
  have h0 := (Runs.functional h).1
  rw [loop_of_runs h k (by omega)]
  have e1 : k + 1 - it.toNat = (k - it.toNat) + 1 := by omega
  rw [e1]; unfold admmLoop; rw [e]

/-- Reached iterations are downward closed. -/
theorem runs_before {L₀ L : LoopSt d K} {j : ℤ} (h : Runs cfg env L₀ j L) :
    ∀ i, 1 ≤ i → i < j → ∃ L1 L2, Runs cfg env L₀ i L1 ∧ iterBody cfg env i L1 = .cont L2 := by
  induction h with
  | start => intro i h1 h2; omega
  | @step it L1 L2 h1 h2 ih =>
    intro i hi hj
    by_cases e : i = it
    · subst e; exact ⟨L1, L2, h1, h2⟩
    · exact ih i hi (by omega)

/-- An iteration that does not run to completion is the last one. -/
theorem runs_last {L₀ L : LoopSt d K} {it : ℤ} (h : Runs cfg env L₀ it L) (hn : ∀ L', iterBody cfg env it L ≠ .cont L') :
    ∀ j, it < j → ∀ L', ¬ Runs cfg env L₀ j L' := by
  intro j hj L' hr
  obtain ⟨L1, L2, r, e⟩ := runs_before hr it (Runs.functional h).1 hj
  rw [(Runs.functional h).2 r] at e
  exact hn _ e

theorem intrCheck_polls' (cfg : Cfg) (env : Env d K) (s : Solver d K) :
    (intrCheck cfg env s).1.polls = s.polls + (if cfg.interrupt then 1 else 0) := by
  unfold intrCheck; split_ifs <;> rfl

/-- One iteration polls for an interrupt exactly once. -/
theorem iterBody_polls (cfg : Cfg) (env : Env d K) (it : ℤ) (L : LoopSt d K) :
    (match iterBody cfg env it L with | .cont L' => L'.s | .brk L' => L'.s | .exit s1 => s1).polls =
      L.s.polls + (if cfg.interrupt then 1 else 0) := by
  rw [iterBody_eq]
  generalize hgp : (if cfg.printing = true then false else L.canPrint) = cpv
  have hadm : (itAdmm cfg env L).polls = L.s.polls + (if cfg.interrupt then 1 else 0) := by
    unfold itAdmm; rw [intrCheck_polls']; simp
  have hT : (itTerm cfg env it L).1.polls = L.s.polls + (if cfg.interrupt then 1 else 0) := by
    rw [← hadm]; unfold itTerm itInfo itDec itTimed; split_ifs <;> simp
  have hU : (itTimed cfg env L).polls = L.s.polls + (if cfg.interrupt then 1 else 0) := by
    rw [← hadm]; unfold itTimed; simp
  generalize (if cfg.interrupt = true then 1 else 0) = w at *
  split_ifs <;> simp [hT, hadm, hU]

theorem runs_polls {L₀ L : LoopSt d K} {it : ℤ} (h : Runs cfg env L₀ it L) (hi : cfg.interrupt = true) :
    (L.s.polls : ℤ) = L₀.s.polls + (it - 1) := by
  induction h with
  | start => simp
  | @step it L1 L2 h1 h2 ih =>
    have := iterBody_polls cfg env it L1
    rw [h2] at this
    simp only [if_pos hi] at this
    rw [this]; push_cast; omega

theorem clockStop_late {L : LoopSt d K} (h : TimeUp cfg env L) : (timeCheck cfg env (itAdmm cfg env L)).2 = true := by
  obtain ⟨hp, a, b⟩ := h
  unfold timeCheck
  rw [if_pos hp]
  simp only [toc, itAdmm, intrCheck_settings, intrCheck_work, intrCheck_ticks, intrCheck_info, admmStep_settings,
      admmStep_first_run, admmStep_ticks, admmStep_info, Bool.and_eq_true, decide_eq_true_eq]
  exact ⟨a, b⟩

theorem timeUp_stops {it : ℤ} {L : LoopSt d K} (h : TimeUp cfg env L) : ∀ L', iterBody cfg env it L ≠ .cont L' := by
  intro L' e
  rw [iterBody_eq] at e
  generalize hgp : (if cfg.printing = true then false else L.canPrint) = cpv at e
  rw [if_pos (clockStop_late h)] at e
  split_ifs at e

/-- The loop invariant holds at every reached iteration. -/
theorem head_of_runs {st₀ : Settings K} {U : Data d K} {s : Solver d K} (h : Inv cfg st₀ U s) {it : ℤ} {L : LoopSt d K}
    (hr : Runs cfg env (solveEntry cfg s) it L) : Head cfg env (solveEntry cfg s).s it L := by
  induction hr with
  | start => exact head_entry h
  | step r e ih => exact head_step (entry_bounds h) _ _ _ ih e

/-- A stop by the clock in iteration `it`, for a call that returns 0. -/
theorem clock_final {st₀ : Settings K} {U : Data d K} {s s' : Solver d K} (h : Inv cfg st₀ U s)
    (e : osqpSolve cfg env s = (s', 0)) {it : ℤ} (hc : ClockStop cfg env s it) :
    ∃ t, Final cfg env (solveEntry cfg s).s s.settings.max_iter.toNat it t ∧
      Count cfg env (solveEntry cfg s).s s.settings.max_iter.toNat it t.info.iter ∧ t.info.iter = it - 1 ∧ Seen cfg env t s' := by
  obtain ⟨h1, h2, L, hr, hu⟩ := hc
  have hk := entry_maxIter (cfg := cfg) h
  have hm := max_iter_nat h
  have hh := head_entry (env := env) h
  have hb := entry_bounds (cfg := cfg) h
  have hbody : (∃ L', iterBody cfg env it L = .brk L' ∧ L'.s.info.status_val = St.timeLimit ∧ L'.canCheck = L.canCheck ∧
      L'.s = setStatus (itTimed cfg env L) St.timeLimit ∧ (cfg.printing = true → L'.canPrint = false)) ∨
      ∃ s1, iterBody cfg env it L = .exit s1 := by
    rw [iterBody_eq, if_pos (clockStop_late hu)]
    split_ifs with c1 c2
    · exact Or.inr ⟨_, rfl⟩
    · exact Or.inl ⟨_, rfl, rfl, rfl, rfl, fun _ => rfl⟩
    · exact Or.inl ⟨_, rfl, rfl, rfl, rfl, fun h => absurd h c2⟩
  have hset : (solveEntry cfg s).s.settings.max_iter.toNat = s.settings.max_iter.toNat := by simp
  rcases hbody with ⟨L', hL, hst, hcc, hs1, hcp⟩ | ⟨s1, hs1⟩
  · have hd := loop_brk (k := s.settings.max_iter.toNat) hr (by omega) hL
    have he : osqpSolve cfg env s = finish cfg env (postLoop cfg env it L') := by
      unfold osqpSolve; dsimp only; rw [hset, hd]
    rw [e, postLoop_eq] at he
    have hl := loop_end hb hh hd
    have hc := checked (by rw [← hset]; exact hk) hl
    have hf := final_of_checked hc
    have hn := count_of_end (by rw [← hset]; exact hk) hl
    rw [← (agree_postTail cfg env _).iter] at hn
    refine ⟨_, hf, hn, ?_, seen_of_finish hf.within.aty he.symm⟩
    have hhead := head_of_runs h hr
    rw [(agree_postTail cfg env _).iter]
    by_cases hc : L'.canCheck = true
    · have e2 : postCheck cfg env it L' = L'.s := by unfold postCheck; simp [hc]
      rw [e2, hs1]
      rw [hcc] at hc
      by_cases h1' : it = 1
      · rw [(hhead.first h1').1] at hc; cases hc
      · rw [← (hhead.fresh (by omega) (Or.inl hc)).2]; simp [itTimed, itAdmm]
    · have hpr : (cfg.printing && L'.canPrint) = false := by
        cases h : cfg.printing
        · rfl
        · simp [hcp h]
      have e2 : postCheck cfg env it L' = (checkTermination false (updateInfo cfg env (it - 1) L'.s)).1 := by
        unfold postCheck; simp [hc, hpr]
      rw [e2, checkTermination_info_iter]
      exact (updateInfo_eqs cfg env (it - 1) L'.s).2.2.2.2.2.2.2
  · have hd := loop_exited (k := s.settings.max_iter.toNat) hr (by omega) hs1
    have he : osqpSolve cfg env s = (endListener cfg s1, 1) := by
      unfold osqpSolve; dsimp only; rw [hset, hd]
    rw [e] at he
    injection he with _ he; exact absurd he (by decide)

/-- An interrupt seen in iteration `it`. -/
theorem interrupt_exit {st₀ : Settings K} {U : Data d K} {s : Solver d K} (h : Inv cfg st₀ U s) {it : ℤ} {L : LoopSt d K}
    (hr : Runs cfg env (solveEntry cfg s) it L) (hi : it ≤ s.settings.max_iter) (hc : cfg.interrupt = true)
    (hp : env.intr L.s.polls = true) :
    (∀ L', iterBody cfg env it L ≠ .cont L') ∧
    osqpSolve cfg env s = (endListener cfg (setStatus (itAdmm cfg env L) St.sigint), 1) := by
  have hm := max_iter_nat h
  have e : iterBody cfg env it L = .exit (setStatus (itAdmm cfg env L) St.sigint) := by
    rw [iterBody_eq, if_pos]
    unfold intrCheck; rw [if_pos hc]; simpa using hp
  refine ⟨fun L' => by rw [e]; simp, ?_⟩
  have hd := loop_exited (k := s.settings.max_iter.toNat) hr (by omega) e
  have hset : (solveEntry cfg s).s.settings.max_iter.toNat = s.settings.max_iter.toNat := by simp
  unfold osqpSolve; dsimp only; rw [hset, hd]

end Osqp
