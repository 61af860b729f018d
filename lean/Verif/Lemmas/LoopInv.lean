import Verif.Lemmas.Sync
import Verif.Spec.Run

/-!
# What is true at the head of every iteration and when the loop ends
-/

set_option linter.unusedSectionVars false
namespace Osqp
open Spec
variable {K : Type*} [Field K] [LinearOrder K] [IsStrictOrderedRing K] {d : Dims}

/-- Workspace, residuals and objective values are those of the current iterate. -/
def Fresh (s : Solver d K) : Prop := FreshW s ∧ FreshR s ∧ FreshO s

/-- Facts about a state inside `osqp_solve` started in `s0`. -/
structure Within (s0 s : Solver d K) : Prop where
  same : Same s0 s
  sync : Sync s
  rinv : RhoInvOK s0 → RhoInvOK s
  sol : s.solution = s0.solution
  aty : d.m = 0 → s.work.Aty = vSet 0
  hand : s.handler = s0.handler
  first : s.work.first_run = s0.work.first_run
  setup : s.info.setup_time = s0.info.setup_time
  cut : s.work.rho_update_from_solve = true → s.work.clear_update_time = s0.work.clear_update_time ∧
    s.info.update_time = s0.info.update_time
  rufs : s.work.rho_update_from_solve = s0.work.rho_update_from_solve
  stpol : s.info.status_polish = s0.info.status_polish
  poltime : s.info.polish_time = s0.info.polish_time

/-- The iterate of a state reached after at least one iteration. -/
structure Iterated (s0 s : Solver d K) : Prop where
  box : ∀ i, s.work.data.l i ≤ s.work.z i ∧ s.work.z i ≤ s.work.data.u i
  cone : RhoInvOK s0 → Cone s.work.data s.work.z s.work.y

theorem Within.of_frame {s0 s s' : Solver d K} (h : Within s0 s) (e1 : core s' = core s)
    (e2 : s'.work.scaling = s.work.scaling) (e3 : s'.settings = s.settings)
    (e4 : s'.solution = s.solution) (e5 : d.m = 0 → s'.work.Aty = s.work.Aty) (e6 : s'.handler = s.handler)
    (e7 : s'.work.first_run = s.work.first_run) (e8 : s'.info.setup_time = s.info.setup_time)
    (e9 : s'.work.clear_update_time = s.work.clear_update_time) (e10 : s'.info.update_time = s.info.update_time)
    (e11 : s'.work.rho_update_from_solve = s.work.rho_update_from_solve)
    (e12 : s'.info.status_polish = s.info.status_polish) (e13 : s'.info.polish_time = s.info.polish_time) : Within s0 s' := by
  refine ⟨h.same.trans (Same.of_eq ?_ e2 e3), h.sync.congr e1, fun hr => (h.rinv hr).congr e1, e4.trans h.sol,
    fun hm => (e5 hm).trans (h.aty hm), e6.trans h.hand, e7.trans h.first, e8.trans h.setup, ?_, e11.trans h.rufs,
    e12.trans h.stpol, e13.trans h.poltime⟩
  · simp only [core, Prod.mk.injEq] at e1; exact e1.2.2.2.1
  · intro hr; rw [e9, e10]; rw [e11] at hr; exact h.cut hr

theorem updateInfo_aty (cfg : Cfg) (env : Env d K) (iter : ℤ) (s : Solver d K) (hm : d.m = 0) :
    (updateInfo cfg env iter s).work.Aty = s.work.Aty := by
  obtain ⟨w, _⟩ := updateInfo_eqs cfg env iter s
  rw [w]
  simp only [computeReport, if_pos hm, computeObj_Aty]
  simp [computeDualRes, hm]

theorem within_itTimed {cfg : Cfg} {env : Env d K} {s0 : Solver d K} {L : LoopSt d K} (h : Within s0 L.s) :
    Within s0 (itAdmm cfg env L) ∧ Within s0 (itTimed cfg env L) := by
  constructor
  · apply h.of_frame <;> simp [itAdmm, core]
  · apply h.of_frame <;> simp [itTimed, itAdmm, core]

theorem within_itDec {cfg : Cfg} {env : Env d K} (iter : ℤ) {s0 : Solver d K} {L : LoopSt d K} (h : Within s0 L.s) :
    Within s0 (itDec cfg env iter L).1 := by
  have h1 := (within_itTimed (cfg := cfg) (env := env) h).2
  have hc : core (itDec cfg env iter L).1 = core (itTimed cfg env L) := by simp [itDec, core]
  constructor
  · exact h1.same.trans (same_adaptDecision cfg env iter _)
  · exact h1.sync.congr hc
  · exact fun hr => (h1.rinv hr).congr hc
  · rw [← h1.sol]; simp [itDec]
  · intro hm; rw [← h1.aty hm]; simp [itDec]
  · rw [← h1.hand]; simp [itDec]
  · rw [← h1.first]; simp [itDec]
  · rw [← h1.setup]; simp [itDec]
  · have := h1.cut; simpa [itDec] using this
  · rw [← h1.rufs]; simp [itDec]
  · rw [← h1.stpol]; simp [itDec]
  · rw [← h1.poltime]; simp [itDec]

theorem within_updateInfo {cfg : Cfg} {env : Env d K} (iter : ℤ) {s0 s : Solver d K} (h : Within s0 s) :
    Within s0 (updateInfo cfg env iter s) := by
  apply h.of_frame <;> (try simp [core])
  exact fun hm => updateInfo_aty cfg env iter s hm

theorem within_checkTermination (b : Bool) {s0 s : Solver d K} (h : Within s0 s) :
    Within s0 (checkTermination b s).1 := by
  apply h.of_frame <;> simp [core]

theorem within_setStatus (v : ℤ) {s0 s : Solver d K} (h : Within s0 s) : Within s0 (setStatus s v) := by
  apply h.of_frame <;> simp [core]

theorem within_itInfo {cfg : Cfg} {env : Env d K} (iter : ℤ) {s0 : Solver d K} {L : LoopSt d K} (h : Within s0 L.s) :
    Within s0 (itInfo cfg env iter L) := by
  unfold itInfo; split_ifs
  · exact within_updateInfo iter (within_itDec iter h)
  · exact within_itDec iter h

theorem within_itTerm {cfg : Cfg} {env : Env d K} (iter : ℤ) {s0 : Solver d K} {L : LoopSt d K} (h : Within s0 L.s) :
    Within s0 (itTerm cfg env iter L).1 := by
  unfold itTerm; split_ifs
  · exact within_checkTermination _ (within_itInfo iter h)
  · exact within_itInfo iter h

theorem osqpUpdateRho_timing (cfg : Cfg) (env : Env d K) (s : Solver d K) (r : K) (h : s.work.rho_update_from_solve = true) :
    (osqpUpdateRho cfg env s r).1.work.clear_update_time = s.work.clear_update_time ∧
    (osqpUpdateRho cfg env s r).1.info.update_time = s.info.update_time := by
  unfold osqpUpdateRho
  by_cases hr : r ≤ 0 <;> simp [hr, h]

theorem within_adaptPhase {cfg : Cfg} {env : Env d K} (ca : Bool) {s0 s : Solver d K} (h : Within s0 s) :
    Within s0 (adaptPhase cfg env ca s).1 := by
  constructor
  · exact h.same.trans (same_adaptPhase cfg env ca s)
  · exact sync_adaptPhase cfg env ca h.sync
  · exact fun hr => rhoInvOK_adaptPhase cfg env ca (h.rinv hr)
  · rw [← h.sol]; simp
  · intro hm; rw [← h.aty hm]; simp
  · rw [← h.hand]; simp
  · rw [← h.first]; simp
  · rw [← h.setup]; simp
  · intro hr
    have hr' : s.work.rho_update_from_solve = true := by simpa using hr
    rw [← (h.cut hr').1, ← (h.cut hr').2]
    obtain ⟨b, k, _, e⟩ := adaptPhase_form cfg env ca s
    rw [e]
    cases b
    · exact ⟨rfl, rfl⟩
    · simp only [if_true]
      unfold adaptRho
      dsimp only
      split_ifs
      · exact osqpUpdateRho_timing cfg env _ _ hr'
      · exact ⟨rfl, rfl⟩
  · rw [← h.rufs]; simp
  · rw [← h.stpol]; simp
  · rw [← h.poltime]; simp

/-! ## Iterate facts -/

theorem Iterated.of_frame {s0 s s' : Solver d K} (h : Iterated s0 s) (e1 : s'.work.data = s.work.data)
    (e2 : s'.work.z = s.work.z) (e3 : s'.work.y = s.work.y) : Iterated s0 s' := by
  constructor
  · rw [e1, e2]; exact h.box
  · rw [e1, e2, e3]; exact h.cone

theorem data_bounds {s0 s : Solver d K} (hb : ∀ i, s0.work.data.l i ≤ s0.work.data.u i) (h : Within s0 s) :
    ∀ i, s.work.data.l i ≤ s.work.data.u i := by rw [h.same.1]; exact hb

theorem iterated_admm {cfg : Cfg} {env : Env d K} {s0 : Solver d K} {L : LoopSt d K}
    (hb : ∀ i, s0.work.data.l i ≤ s0.work.data.u i) (h : Within s0 L.s) :
    Iterated s0 (itAdmm cfg env L) ∧ Iterated s0 (itTimed cfg env L) := by
  have h1 : Iterated s0 (admmStep env L.s) := by
    constructor
    · rw [admmStep_data]; exact admmStep_box env L.s (data_bounds hb h)
    · intro hr; rw [admmStep_data]
      exact admmStep_cone env L.s (h.sync.rhoOK (h.rinv hr)) (data_bounds hb h)
  constructor
  · exact h1.of_frame (by simp [itAdmm]) (by simp [itAdmm]) (by simp [itAdmm])
  · exact h1.of_frame (by simp [itTimed, itAdmm]) (by simp [itTimed, itAdmm]) (by simp [itTimed, itAdmm])

theorem iterated_itInfo {cfg : Cfg} {env : Env d K} (iter : ℤ) {s0 : Solver d K} {L : LoopSt d K}
    (hb : ∀ i, s0.work.data.l i ≤ s0.work.data.u i) (h : Within s0 L.s) :
    Iterated s0 (itInfo cfg env iter L) ∧ Iterated s0 (itTerm cfg env iter L).1 := by
  have h1 := (iterated_admm (cfg := cfg) (env := env) hb h).2
  have h2 : Iterated s0 (itInfo cfg env iter L) := by
    unfold itInfo itDec; split_ifs
    · exact h1.of_frame (by simp) (by simp) (by simp)
    · exact h1.of_frame (by simp) (by simp) (by simp)
  refine ⟨h2, ?_⟩
  unfold itTerm; split_ifs
  · exact h2.of_frame (by simp) (by simp) (by simp)
  · exact h2

theorem iterated_adaptPhase {cfg : Cfg} {env : Env d K} (ca : Bool) {s0 s : Solver d K} (h : Iterated s0 s) :
    Iterated s0 (adaptPhase cfg env ca s).1 := h.of_frame (by simp) (by simp) (by simp)

/-! ## Freshness -/

theorem Fresh.of_frame {s s' : Solver d K} (h : Fresh s) (e1 : s'.work.data = s.work.data) (e2 : s'.work.x = s.work.x)
    (e3 : s'.work.y = s.work.y) (e4 : s'.work.z = s.work.z) (e5 : s'.work.Ax = s.work.Ax) (e6 : s'.work.Px = s.work.Px)
    (e7 : s'.work.Aty = s.work.Aty) (e8 : s'.work.xtPx = s.work.xtPx) (e9 : s'.work.qtx = s.work.qtx)
    (e10 : s'.work.SC = s.work.SC) (e11 : s'.work.scaled_dual_gap = s.work.scaled_dual_gap)
    (e12 : s'.work.scaled_prim_res = s.work.scaled_prim_res) (e13 : s'.work.scaled_dual_res = s.work.scaled_dual_res)
    (f5 : s'.work.scaling = s.work.scaling)
    (f6 : s'.settings.scaling = s.settings.scaling) (f7 : s'.settings.scaled_termination = s.settings.scaled_termination)
    (f8 : s'.info.prim_res = s.info.prim_res) (f9 : s'.info.dual_res = s.info.dual_res)
    (g6 : s'.info.obj_val = s.info.obj_val) (g7 : s'.info.dual_obj_val = s.info.dual_obj_val)
    (g8 : s'.info.duality_gap = s.info.duality_gap) (g9 : s'.info.rel_kkt_error = s.info.rel_kkt_error) : Fresh s' :=
  ⟨h.1.of_eq e1 e2 e3 e4 e5 e6 e7 e8 e9 e10 e11 e12 e13, h.2.1.of_eq e1 e2 e3 e4 f5 f6 f7 f8 f9 e8 e9 e10 g9,
   h.2.2.of_eq e8 e9 e10 f5 f6 g6 g7 g8⟩

theorem fresh_adaptPhase {cfg : Cfg} {env : Env d K} (ca : Bool) {s : Solver d K} (h : Fresh s) :
    Fresh (adaptPhase cfg env ca s).1 := by
  apply h.of_frame <;> simp

theorem fresh_ctState {b : Bool} {s : Solver d K} (h : Fresh s) : Fresh (ctState b s) := by
  apply h.of_frame <;> simp

theorem fresh_itInfo {cfg : Cfg} {env : Env d K} (iter : ℤ) {s0 : Solver d K} {L : LoopSt d K} (h : Within s0 L.s)
    (hu : itUpd cfg env iter L = true) : Fresh (itInfo cfg env iter L) ∧ (itInfo cfg env iter L).info.iter = iter := by
  unfold itInfo; rw [if_pos hu]
  refine ⟨updateInfo_fresh cfg env iter _ (within_itDec iter h).aty, (updateInfo_eqs cfg env iter _).2.2.2.2.2.2.2⟩

theorem checkTermination_false_eq {b : Bool} {s : Solver d K} (h : (checkTermination b s).2 = false) :
    (checkTermination b s).1 = ctState b s := by
  have c := checkTermination_cases b s
  dsimp only at c
  rcases c with ⟨_, e⟩ | ⟨_, ⟨_, _, _, e⟩ | ⟨_, e⟩ | ⟨_, _, e⟩ | ⟨_, _, _, e⟩⟩ <;> rw [e] at h ⊢ <;> first | cases h | rfl

/-- Initial loop state, see `solveEntry`. -/
def startL (cfg : Cfg) (s0 : Solver d K) : LoopSt d K :=
  { s := s0, canPrint := cfg.printing && decide (s0.settings.verbose ≠ 0), canCheck := false }

/-- Facts at the head of iteration `iter` of a solve whose loop started in `s0`. -/
structure Head (cfg : Cfg) (env : Env d K) (s0 : Solver d K) (iter : ℤ) (L : LoopSt d K) : Prop where
  run : Runs cfg env (startL cfg s0) iter L
  within : Within s0 L.s
  status : L.s.info.status_val = s0.info.status_val ∧ L.s.info.status = s0.info.status
  one : 1 ≤ iter
  first : iter = 1 → L.canCheck = false ∧ L.s = s0
  iterated : 1 < iter → Iterated s0 L.s
  fresh : 1 < iter → (L.canCheck = true ∨ (cfg.printing = true ∧ L.canPrint = true)) →
    Fresh L.s ∧ L.s.info.iter = iter - 1
  count : 1 < iter → 1 ≤ L.s.info.iter ∧ L.s.info.iter ≤ iter - 1
  chk : 1 < iter → L.canCheck = itCheck s0.settings (iter - 1) ∧ L.canPrint = itPrint cfg s0.settings (iter - 1)

theorem Same.check {s s' : Solver d K} (h : Same s s') (it : ℤ) : itCheck s'.settings it = itCheck s.settings it := by
  obtain ⟨_, _, r, i, e⟩ := h
  unfold itCheck; rw [e]

theorem Same.print {s s' : Solver d K} (h : Same s s') (cfg : Cfg) (it : ℤ) :
    itPrint cfg s'.settings it = itPrint cfg s.settings it := by
  obtain ⟨_, _, r, i, e⟩ := h
  unfold itPrint; rw [e]

theorem itTerm_false_form {cfg : Cfg} {env : Env d K} {iter : ℤ} {L : LoopSt d K} (h : (itTerm cfg env iter L).2 = false) :
    (itTerm cfg env iter L).1 = itInfo cfg env iter L ∨ (itTerm cfg env iter L).1 = ctState false (itInfo cfg env iter L) := by
  unfold itTerm at h ⊢
  split_ifs at h ⊢
  · right; exact checkTermination_false_eq h
  · left; rfl

theorem itInfo_status (cfg : Cfg) (env : Env d K) (iter : ℤ) (L : LoopSt d K) :
    (itInfo cfg env iter L).info.status_val = L.s.info.status_val ∧ (itInfo cfg env iter L).info.status = L.s.info.status := by
  unfold itInfo itDec itTimed itAdmm; split_ifs <;> simp

theorem head_step {cfg : Cfg} {env : Env d K} {s0 : Solver d K} (hb : ∀ i, s0.work.data.l i ≤ s0.work.data.u i)
    (it : ℤ) (L L' : LoopSt d K) (h : Head cfg env s0 it L) (e : iterBody cfg env it L = .cont L') :
    Head cfg env s0 (it + 1) L' := by
  have e0 := e
  rw [iterBody_eq] at e
  split_ifs at e with h1 h2 h3 h4
  cases e
  have hf : (itTerm cfg env it L).2 = false := by simpa using h3
  have hform := itTerm_false_form hf
  have hw := within_itTerm (cfg := cfg) (env := env) it h.within
  have hst : (itTerm cfg env it L).1.info = (itInfo cfg env it L).info := by
    rcases hform with e | e <;> rw [e]
    exact ctState_info _ _
  have hcount : (1 < it → 1 ≤ L.s.info.iter ∧ L.s.info.iter ≤ it - 1) → 1 ≤ (itInfo cfg env it L).info.iter ∧ (itInfo cfg env it L).info.iter ≤ it := by
    intro hc
    by_cases hu : itUpd cfg env it L = true
    · rw [(fresh_itInfo it h.within hu).2]; exact ⟨h.one, le_rfl⟩
    · have h1 : ¬ it = 1 := by
        intro h1; apply hu; unfold itUpd; simp [h1]
      have h2 : 1 < it := lt_of_le_of_ne h.one (Ne.symm h1)
      have : (itInfo cfg env it L).info.iter = L.s.info.iter := by
        unfold itInfo; rw [if_neg hu]; unfold itDec itTimed itAdmm; simp
      rw [this]; have := hc h2; omega
  refine ⟨.step h.run e0, within_adaptPhase _ hw, ?_, ?_, ?_, ?_, ?_, ?_, ?_⟩
  · simp only [adaptPhase_info_status_val, adaptPhase_info_status, hst]
    rw [(itInfo_status cfg env it L).1, (itInfo_status cfg env it L).2]; exact h.status
  · have := h.one; omega
  · intro h1; have := h.one; omega
  · intro _; exact iterated_adaptPhase _ (iterated_itInfo it hb h.within).2
  · intro _ hc
    have hu : itUpd cfg env it L = true := by
      unfold itUpd
      rcases hc with hc | ⟨_, hc⟩
      · simp only at hc; simp [hc]
      · simp only at hc; simp [hc]
    obtain ⟨f, g⟩ := fresh_itInfo it h.within hu
    constructor
    · apply fresh_adaptPhase
      rcases hform with e | e <;> rw [e]
      · exact f
      · exact fresh_ctState f
    · simp only [adaptPhase_info_iter, hst, g]; omega
  · intro _; simp only [adaptPhase_info_iter, hst]; have := hcount h.count; omega
  · intro _; simp only [add_sub_cancel_right]; exact ⟨h.within.same.check it, h.within.same.print cfg it⟩

end Osqp
