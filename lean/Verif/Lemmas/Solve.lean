import Verif.Lemmas.LoopInv

/-!
# How `osqp_solve` ends
-/

set_option linter.unusedSectionVars false
namespace Osqp
open Spec
variable {K : Type*} [Field K] [LinearOrder K] [IsStrictOrderedRing K] {d : Dims}

/-- The statuses `check_termination` can set. -/
theorem checkTermination_status {b : Bool} {s : Solver d K} (h : (checkTermination b s).2 = true) :
    (checkTermination b s).1.info.status_val = St.nonCvx ∨
    (checkTermination b s).1.info.status_val = (if b then St.solvedInacc else St.solved) ∨
    (checkTermination b s).1.info.status_val = (if b then St.primInfInacc else St.primInf) ∨
    (checkTermination b s).1.info.status_val = (if b then St.dualInfInacc else St.dualInf) := by
  have c := checkTermination_cases b s
  dsimp only at c
  rcases c with ⟨_, e⟩ | ⟨_, ⟨_, _, _, e⟩ | ⟨_, e⟩ | ⟨_, _, e⟩ | ⟨_, _, _, e⟩⟩ <;> rw [e] at h ⊢
  · left; rfl
  · right; left; rfl
  · right; right; left; rfl
  · right; right; right; rfl
  · cases h

theorem checkTermination_not_limit {b : Bool} {s : Solver d K} (h : (checkTermination b s).2 = true) :
    (checkTermination b s).1.info.status_val ≠ St.unsolved ∧ (checkTermination b s).1.info.status_val ≠ St.timeLimit ∧
    (checkTermination b s).1.info.status_val ≠ St.maxIter := by
  rcases checkTermination_status h with e | e | e | e <;> rw [e] <;> cases b <;> decide

/-- How the loop of `osqp_solve` can end other than by `goto exit`. -/
inductive LoopEnd (cfg : Cfg) (env : Env d K) (s0 : Solver d K) (k : ℕ) (it : ℤ) (L' : LoopSt d K) : Prop
  /-- a termination test succeeded in iteration `it` -/
  | check (s1 : Solver d K) (within : Within s0 s1) (iterated : Iterated s0 s1) (fresh : Fresh s1)
      (status : s1.info.status_val = s0.info.status_val ∧ s1.info.status = s0.info.status) (iter : s1.info.iter = it)
      (lo : 1 ≤ it) (hi : it ≤ k) (sched : itCheck s0.settings it = true)
      (stop : checkTermination false s1 = (L'.s, true)) (cc : L'.canCheck = true)
      (head : ∃ L0, Head cfg env s0 it L0)
  /-- the time limit was reached in iteration `it` -/
  | time (s1 : Solver d K) (L0 : LoopSt d K) (within : Within s0 s1) (iterated : Iterated s0 s1)
      (status : s1.info.status_val = s0.info.status_val ∧ s1.info.status = s0.info.status) (lo : 1 ≤ it) (hi : it ≤ k)
      (head : Head cfg env s0 it L0) (late : (timeCheck cfg env (itAdmm cfg env L0)).2 = true)
      (s1eq : s1 = itTimed cfg env L0)
      (eq : L'.s = setStatus s1 St.timeLimit) (cp : cfg.printing = true → L'.canPrint = false)
      (cc : L'.canCheck = L0.canCheck)
  /-- all `k` iterations were done -/
  | finished (hit : it = k + 1) (head : Head cfg env s0 it L')

theorem loop_end {cfg : Cfg} {env : Env d K} {s0 : Solver d K} (hb : ∀ i, s0.work.data.l i ≤ s0.work.data.u i)
    {k : ℕ} {L : LoopSt d K} (hh : Head cfg env s0 1 L) {it : ℤ} {L' : LoopSt d K}
    (e : admmLoop cfg env k 1 L = .done it L') : LoopEnd cfg env s0 k it L' := by
  rcases (admmLoop_ind cfg env (Head cfg env s0) (fun it L L' h e => head_step hb it L L' h e) k 1 L hh).1 it L' e with
    ⟨h1, h2⟩ | ⟨h1, h2, L0, h3, h4⟩
  · exact .finished (by omega) h2
  · rw [iterBody_eq] at h4
    generalize hgp : (if cfg.printing = true then false else L0.canPrint) = cpv at h4
    split_ifs at h4 with c1 c2 c3 c4
    · cases h4
      refine .time (itTimed cfg env L0) L0 (within_itTimed h3.within).2 (iterated_admm hb h3.within).2 ?_ h1 (by omega) h3 c2 rfl rfl ?_ rfl
      · rw [← h3.status.1, ← h3.status.2]; unfold itTimed itAdmm; simp
      · intro hp; simp [← hgp, hp]
    · cases h4
      have hc : itCheck L0.s.settings it = true := by
        by_contra hc
        unfold itTerm at c3; rw [if_neg hc] at c3; cases c3
      have hu : itUpd cfg env it L0 = true := by unfold itUpd; simp [hc]
      obtain ⟨f, g⟩ := fresh_itInfo it h3.within hu
      refine .check (itInfo cfg env it L0) (within_itInfo it h3.within) (iterated_itInfo it hb h3.within).1 f ?_ g h1 (by omega) ?_ ?_ hc ⟨L0, h3⟩
      · rw [← h3.status.1, ← h3.status.2]; exact itInfo_status cfg env it L0
      · rw [← h3.within.same.check]; exact hc
      · have : itTerm cfg env it L0 = checkTermination false (itInfo cfg env it L0) := by unfold itTerm; rw [if_pos hc]
        rw [← this]; exact Prod.ext rfl c3

/-- How the loop can end by `goto exit`. -/
inductive LoopExit (cfg : Cfg) (env : Env d K) (s0 : Solver d K) (k : ℕ) (s : Solver d K) : Prop
  | interrupted (it : ℤ) (L0 : LoopSt d K) (head : Head cfg env s0 it L0) (lo : 1 ≤ it) (hi : it ≤ k)
      (hit : (intrCheck cfg env (admmStep env L0.s)).2 = true) (eq : s = setStatus (itAdmm cfg env L0) St.sigint)
      (within : Within s0 s) (iterated : Iterated s0 s)
  | adaptFailed (it : ℤ) (L0 : LoopSt d K) (head : Head cfg env s0 it L0) (lo : 1 ≤ it) (hi : it ≤ k)
      (within : Within s0 s) (iterated : Iterated s0 s)
      (status : s.info.status_val = s0.info.status_val ∧ s.info.status = s0.info.status)
      (fail : (adaptPhase cfg env (itDec cfg env it L0).2 (itTerm cfg env it L0).1).2 = true)
      (eq : s = (adaptPhase cfg env (itDec cfg env it L0).2 (itTerm cfg env it L0).1).1)

theorem loop_exit {cfg : Cfg} {env : Env d K} {s0 : Solver d K} (hb : ∀ i, s0.work.data.l i ≤ s0.work.data.u i)
    {k : ℕ} {L : LoopSt d K} (hh : Head cfg env s0 1 L) {s : Solver d K}
    (e : admmLoop cfg env k 1 L = .exit s) : LoopExit cfg env s0 k s := by
  obtain ⟨it, L0, h1, h2, h3, h4⟩ :=
    (admmLoop_ind cfg env (Head cfg env s0) (fun it L L' h e => head_step hb it L L' h e) k 1 L hh).2 s e
  rw [iterBody_eq] at h4
  split_ifs at h4 with c1 c2 c3 c4
  · cases h4
    refine .interrupted it L0 h3 h1 (by omega) c1 rfl ?_ ?_
    · exact within_setStatus _ (within_itTimed h3.within).1
    · exact (iterated_admm (cfg := cfg) (env := env) hb h3.within).1.of_frame (by simp) (by simp) (by simp)
  · cases h4
    have hf : (itTerm cfg env it L0).2 = false := by simpa using c3
    refine .adaptFailed it L0 h3 h1 (by omega) (within_adaptPhase _ (within_itTerm it h3.within))
      (iterated_adaptPhase _ (iterated_itInfo it hb h3.within).2) ?_ c4 rfl
    simp only [adaptPhase_info_status_val, adaptPhase_info_status]
    rw [← h3.status.1, ← h3.status.2]
    rcases itTerm_false_form hf with e | e <;> rw [e]
    · exact itInfo_status cfg env it L0
    · rw [ctState_info]; exact itInfo_status cfg env it L0

/-! ## After the loop -/

/-- Everything after `postCheck` and before polishing. -/
def postTail (cfg : Cfg) (env : Env d K) (p : Solver d K) : Solver d K :=
  postRho cfg env (postTimeLimit cfg (postMaxIter (postObj p)))

theorem postLoop_eq (cfg : Cfg) (env : Env d K) (it : ℤ) (L : LoopSt d K) :
    postLoop cfg env it L = postTail cfg env (postCheck cfg env it L) := rfl

/-- The two states carry the same iterate, data, settings and residuals. -/
structure Agree (s s' : Solver d K) : Prop where
  x : s'.work.x = s.work.x
  y : s'.work.y = s.work.y
  z : s'.work.z = s.work.z
  data : s'.work.data = s.work.data
  scaling : s'.work.scaling = s.work.scaling
  settings : s'.settings = s.settings
  pres : s'.info.prim_res = s.info.prim_res
  dres : s'.info.dual_res = s.info.dual_res
  iter : s'.info.iter = s.info.iter

theorem Agree.trans {a b c : Solver d K} (h1 : Agree a b) (h2 : Agree b c) : Agree a c :=
  ⟨h2.x.trans h1.x, h2.y.trans h1.y, h2.z.trans h1.z, h2.data.trans h1.data, h2.scaling.trans h1.scaling,
   h2.settings.trans h1.settings, h2.pres.trans h1.pres, h2.dres.trans h1.dres, h2.iter.trans h1.iter⟩

theorem agree_check (b : Bool) (s : Solver d K) : Agree s (checkTermination b s).1 := by
  constructor <;> simp

theorem agree_postObj (s : Solver d K) : Agree s (postObj s) := by
  constructor <;> simp

theorem agree_postTail (cfg : Cfg) (env : Env d K) (p : Solver d K) : Agree p (postTail cfg env p) := by
  unfold postTail; constructor <;> simp

theorem postObj_status (p : Solver d K) : (postObj p).info.status_val = p.info.status_val := by simp

/-- If the status is already final, nothing of interest changes. -/
theorem postTail_final (cfg : Cfg) (env : Env d K) (p : Solver d K) (h1 : p.info.status_val ≠ St.unsolved)
    (h2 : p.info.status_val ≠ St.timeLimit) : postTail cfg env p = postRho cfg env (postObj p) := by
  have e1 : postMaxIter (postObj p) = postObj p := by
    unfold postMaxIter; rw [if_neg]; rwa [postObj_status]
  have e2 : postTimeLimit cfg (postObj p) = postObj p := by
    unfold postTimeLimit; rw [if_neg]; simp [h2]
  unfold postTail; rw [e1, e2]

theorem postTail_unsolved (cfg : Cfg) (env : Env d K) (p : Solver d K) (h1 : p.info.status_val = St.unsolved) :
    postTail cfg env p = postRho cfg env (if (checkTermination true (postObj p)).2 then (checkTermination true (postObj p)).1
      else setStatus (checkTermination true (postObj p)).1 St.maxIter) := by
  have e1 : postMaxIter (postObj p) = (if (checkTermination true (postObj p)).2 then (checkTermination true (postObj p)).1
      else setStatus (checkTermination true (postObj p)).1 St.maxIter) := by
    unfold postMaxIter; rw [if_pos (by rwa [postObj_status])]
  unfold postTail; rw [e1]
  congr 1
  unfold postTimeLimit
  rw [if_neg]
  split_ifs with h
  · have := (checkTermination_not_limit h).2.1; simp [this]
  · simp [St.maxIter, St.timeLimit]

theorem postTail_time (cfg : Cfg) (env : Env d K) (p : Solver d K) (h1 : p.info.status_val = St.timeLimit)
    (hp : cfg.profiling = true) :
    postTail cfg env p = postRho cfg env (if (checkTermination true (postObj p)).2 then (checkTermination true (postObj p)).1
      else setStatus (checkTermination true (postObj p)).1 St.timeLimit) := by
  have e1 : postMaxIter (postObj p) = postObj p := by
    unfold postMaxIter; rw [if_neg]; rw [postObj_status, h1]; decide
  unfold postTail; rw [e1]
  congr 1
  unfold postTimeLimit
  rw [if_pos (by simp [h1, hp])]

theorem postTail_time' (cfg : Cfg) (env : Env d K) (p : Solver d K) (h1 : p.info.status_val = St.timeLimit)
    (hp : cfg.profiling = false) : postTail cfg env p = postRho cfg env (postObj p) := by
  have e1 : postMaxIter (postObj p) = postObj p := by
    unfold postMaxIter; rw [if_neg]; rw [postObj_status, h1]; decide
  unfold postTail; rw [e1]
  congr 1
  unfold postTimeLimit
  rw [if_neg (by simp [hp])]

/-- The time limit was reached in iteration `it`. -/
def TimeHit (cfg : Cfg) (env : Env d K) (s0 : Solver d K) (it : ℤ) : Prop :=
  ∃ L0, Head cfg env s0 it L0 ∧ (timeCheck cfg env (itAdmm cfg env L0)).2 = true

/-- The state `postCheck` produces. -/
inductive Checked (cfg : Cfg) (env : Env d K) (s0 : Solver d K) (k : ℕ) (it : ℤ) (L' : LoopSt d K) (p : Solver d K) : Prop
  /-- an exact termination test was made on the fresh final iterate `s1` -/
  | tested (s1 : Solver d K) (within : Within s0 s1) (iterated : Iterated s0 s1) (fresh : Fresh s1)
      (status : s1.info.status_val = s0.info.status_val ∧ s1.info.status = s0.info.status ∨
        s1.info.status_val = St.timeLimit ∧ s1.info.status = "run time limit reached" ∧ TimeHit cfg env s0 it ∧ it ≤ k)
      (lim : (checkTermination false s1).2 = true ∧ itCheck s0.settings it = true ∧ 1 ≤ it ∧ it ≤ k ∨ it = k + 1 ∨
        TimeHit cfg env s0 it ∧ 1 ≤ it ∧ it ≤ k ∧ s1.info.status_val = St.timeLimit)
      (eq : p = (checkTermination false s1).1)
  /-- the last iteration `max_iter` made an unsuccessful test; the iterate is fresh -/
  | failed (within : Within s0 p) (iterated : Iterated s0 p) (fresh : Fresh p)
      (status : p.info.status_val = s0.info.status_val ∧ p.info.status = s0.info.status) (hit : it = k + 1)
  /-- time limit in the iteration after a scheduled check: nothing is recomputed -/
  | stale (s1 : Solver d K) (within : Within s0 s1) (iterated : Iterated s0 s1)
      (sched : 1 < it ∧ it ≤ k ∧ itCheck s0.settings (it - 1) = true) (hp : cfg.profiling = true)
      (late : TimeHit cfg env s0 it)
      (eq : p = setStatus s1 St.timeLimit)

theorem checked {cfg : Cfg} {env : Env d K} {s0 : Solver d K} {k : ℕ} (hk : 1 ≤ k) {it : ℤ} {L' : LoopSt d K}
    (h : LoopEnd cfg env s0 k it L') : Checked cfg env s0 k it L' (postCheck cfg env it L') := by
  cases h with
  | check s1 within iterated fresh status iter lo hi sched stop cc head =>
    refine .tested s1 within iterated fresh (Or.inl status) (Or.inl ⟨by rw [stop], sched, lo, hi⟩) ?_
    rw [stop]; unfold postCheck; simp [cc]
  | time s1 L0 within iterated status lo hi head late s1eq eq cp cc =>
    have hp : cfg.profiling = true := by
      by_contra hp; unfold timeCheck at late; rw [if_neg hp] at late; cases late
    by_cases hc : L'.canCheck = true
    · refine .stale s1 within iterated ?_ hp ⟨L0, head, late⟩ ?_
      · rw [cc] at hc
        by_cases h1 : it = 1
        · rw [(head.first h1).1] at hc; cases hc
        · have h2 : 1 < it := lt_of_le_of_ne lo (Ne.symm h1)
          rw [(head.chk h2).1] at hc; exact ⟨h2, hi, hc⟩
      · unfold postCheck; simp [hc, eq]
    · have hpr : (cfg.printing && L'.canPrint) = false := by
        cases h : cfg.printing
        · rfl
        · simp [cp h]
      have hw : Within s0 L'.s := by rw [eq]; exact within_setStatus _ within
      refine .tested (updateInfo cfg env (it - 1) L'.s) (within_updateInfo _ hw) ?_
        (updateInfo_fresh cfg env _ _ hw.aty) (Or.inr ?_) (Or.inr (Or.inr ⟨⟨L0, head, late⟩, lo, hi, by rw [eq]; simp⟩)) ?_
      · rw [eq]; exact iterated.of_frame (by simp) (by simp) (by simp)
      · refine ⟨?_, ?_, ⟨⟨L0, head, late⟩, hi⟩⟩ <;> (rw [eq]; simp [setStatus]; try rfl)
      · unfold postCheck; simp [hc, hpr]
  | finished hit head =>
    have h1 : 1 < it := by omega
    by_cases hc : L'.canCheck = true
    · have e : postCheck cfg env it L' = L'.s := by unfold postCheck; simp [hc]
      rw [e]
      exact .failed head.within (head.iterated h1) (head.fresh h1 (Or.inl hc)).1 head.status hit
    · by_cases hpr : (cfg.printing && L'.canPrint) = true
      · refine .tested L'.s head.within (head.iterated h1) (head.fresh h1 (Or.inr (by simpa using hpr))).1 (Or.inl head.status) (Or.inr (Or.inl hit)) ?_
        unfold postCheck; simp [hc, hpr]
      · refine .tested (updateInfo cfg env (it - 1) L'.s) (within_updateInfo _ head.within) ?_
          (updateInfo_fresh cfg env _ _ head.within.aty) (Or.inl ?_) (Or.inr (Or.inl hit)) ?_
        · exact (head.iterated h1).of_frame (by simp) (by simp) (by simp)
        · simpa using head.status
        · unfold postCheck; simp [hc, hpr]

end Osqp
