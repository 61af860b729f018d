import Verif.Lemmas.Seen
import Verif.Lemmas.Setup
import Verif.Lemmas.HistOps
import Verif.Spec.Time

/-!
# Clock readings during a solve
-/

set_option linter.unusedSectionVars false
namespace Osqp
open Spec
variable {K : Type*} [Field K] [LinearOrder K] [IsStrictOrderedRing K] {d : Dims} {cfg : Cfg} {env : Env d K}

theorem updateRho_ticks (cfg : Cfg) (env : Env d K) (s : Solver d K) (r : K) : s.ticks ≤ (osqpUpdateRho cfg env s r).1.ticks := by
  unfold osqpUpdateRho
  by_cases hr : r ≤ 0
  · rw [if_pos hr]
  · rw [if_neg hr]
    cases hp : cfg.profiling <;> cases hf : s.work.rho_update_from_solve <;> simp [hf, addUpdateTime, toc]

theorem adaptPhase_ticks (cfg : Cfg) (env : Env d K) (ca : Bool) (s : Solver d K) : s.ticks ≤ (adaptPhase cfg env ca s).1.ticks := by
  obtain ⟨b, k, _, e⟩ := adaptPhase_form cfg env ca s
  rw [e]
  cases b
  · exact le_rfl
  · simp only [if_true]
    unfold adaptRho
    dsimp only
    split_ifs
    · exact updateRho_ticks cfg env { s with work := { s.work with rho_updated := false }, info := { s.info with rho_estimate := computeRhoEstimate env { s with work := { s.work with rho_updated := false } } } } _
    · exact le_rfl

theorem timeCheck_ticks (cfg : Cfg) (env : Env d K) (s : Solver d K) : s.ticks ≤ (timeCheck cfg env s).1.ticks := by
  unfold timeCheck; split_ifs <;> simp [toc]

theorem adaptDecision_ticks (cfg : Cfg) (env : Env d K) (it : ℤ) (s : Solver d K) : s.ticks ≤ (adaptDecision cfg env it s).1.ticks := by
  unfold adaptDecision; dsimp only; split_ifs <;> simp [toc]

theorem updateInfo_ticks (cfg : Cfg) (env : Env d K) (it : ℤ) (s : Solver d K) : s.ticks ≤ (updateInfo cfg env it s).ticks := by
  unfold updateInfo; dsimp only; split_ifs <;> simp [toc]

theorem itTimed_ticks (cfg : Cfg) (env : Env d K) (L : LoopSt d K) : L.s.ticks ≤ (itTimed cfg env L).ticks := by
  unfold itTimed; refine le_trans ?_ (timeCheck_ticks _ _ _); simp [itAdmm]

theorem itTerm_ticks (cfg : Cfg) (env : Env d K) (it : ℤ) (L : LoopSt d K) : L.s.ticks ≤ (itTerm cfg env it L).1.ticks := by
  have h1 : L.s.ticks ≤ (itDec cfg env it L).1.ticks := (itTimed_ticks cfg env L).trans (adaptDecision_ticks _ _ _ _)
  have h2 : L.s.ticks ≤ (itInfo cfg env it L).ticks := by
    unfold itInfo
    split_ifs
    · exact h1.trans (updateInfo_ticks _ _ _ _)
    · exact h1
  unfold itTerm
  split_ifs
  · simpa using h2
  · exact h2

/-- The clock is read forward in one iteration. -/
theorem iterBody_ticks (cfg : Cfg) (env : Env d K) (it : ℤ) (L : LoopSt d K) :
    L.s.ticks ≤ (match iterBody cfg env it L with | .cont L' => L'.s | .brk L' => L'.s | .exit s1 => s1).ticks := by
  have h1 := itTimed_ticks cfg env L
  have h2 := itTerm_ticks cfg env it L
  have h3 := adaptPhase_ticks cfg env (itDec cfg env it L).2 (itTerm cfg env it L).1
  rw [iterBody_eq]
  generalize (if cfg.printing = true then false else L.canPrint) = cpv
  split_ifs
  · simp [itAdmm]
  · simpa using h1
  · exact h2
  · exact h2.trans h3
  · exact h2.trans h3

theorem loop_ticks (s : Solver d K) {it : ℤ} {L' : LoopSt d K} (k : ℕ)
    (e : admmLoop cfg env k 1 (solveEntry cfg s) = .done it L') : s.ticks ≤ L'.s.ticks := by
  have hind := (admmLoop_ind cfg env (fun _ L => s.ticks ≤ L.s.ticks)
    (fun it L L' h e => by have := iterBody_ticks cfg env it L; rw [e] at this; exact h.trans this)
    k 1 (solveEntry cfg s) (by simp)).1 it L' e
  rcases hind with ⟨_, h⟩ | ⟨_, _, L0, h, hb⟩
  · exact h
  · have := iterBody_ticks cfg env it L0; rw [hb] at this; exact h.trans this

theorem postLoop_time (hp : cfg.profiling = true) (it : ℤ) (L : LoopSt d K) :
    ∃ k, L.s.ticks ≤ k ∧ (postLoop cfg env it L).ticks = k + 1 ∧ (postLoop cfg env it L).info.solve_time = env.clk k := by
  have h : L.s.ticks ≤ (postCheck cfg env it L).ticks := by
    unfold postCheck
    dsimp only
    split_ifs
    · simp
    · simpa using updateInfo_ticks cfg env (it - 1) L.s
    · exact le_rfl
  unfold postLoop postRho
  simp only [hp, if_true, toc]
  exact ⟨_, h, by simp, by simp⟩

/-- Polishing reads the clock at most once; it leaves the polishing time alone or sets it to that reading. -/
theorem postPolish_time (cfg : Cfg) (env : Env d K) (t : Solver d K) :
    (postPolish cfg env t).1.info.solve_time = t.info.solve_time ∧
    (((postPolish cfg env t).1.ticks = t.ticks ∧ (postPolish cfg env t).1.info.polish_time = t.info.polish_time) ∨
     ((postPolish cfg env t).1.ticks = t.ticks + 1 ∧ (postPolish cfg env t).1.info.polish_time = env.clk t.ticks ∧ t.settings.polishing ≠ 0 ∧
       t.info.status_val = St.solved)) := by
  unfold postPolish
  by_cases hd : t.settings.polishing ≠ 0 ∧ t.info.status_val = St.solved
  · rw [if_pos hd]
    unfold polish
    dsimp only
    cases hp : cfg.profiling <;> simp only [if_true, if_false, toc, Bool.false_eq_true]
    · split_ifs <;> simp
    · split_ifs <;> simp [hd.1, hd.2]
  · rw [if_neg hd]; exact ⟨rfl, Or.inl ⟨rfl, rfl⟩⟩

end Osqp
