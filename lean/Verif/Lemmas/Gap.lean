import Verif.Lemmas.Result

/-!
# The identity gap = primal objective − dual objective
-/

set_option linter.unusedSectionVars false
namespace Osqp
open Spec Matrix
variable {K : Type*} [Field K] [LinearOrder K] [IsStrictOrderedRing K] {d : Dims}
variable {cfg : Cfg} {env : Env d K}

def GapId (i : Info K) : Prop := hasSolution i = true → i.duality_gap = i.obj_val - i.dual_obj_val

theorem gapId_postObj (p : Solver d K) : GapId (postObj p).info := by
  intro hs
  have hs' : hasSolution p.info = true := by unfold hasSolution at hs ⊢; simpa using hs
  unfold postObj
  simp only [hs', if_true]
  obtain ⟨_, _, _, _, a5, a6, a7⟩ := computeObj_vals p p.work.x p.work.y
  rw [a5, a6, a7]; ring

theorem gapId_check (b : Bool) {s : Solver d K} (h : GapId s.info) (hs : hasSolution s.info = true) :
    GapId (checkTermination b s).1.info := by
  have c := checkTermination_cases b s
  dsimp only at c
  intro h1
  rcases c with ⟨_, e⟩ | ⟨_, ⟨_, _, _, e⟩ | ⟨_, e⟩ | ⟨_, _, e⟩ | ⟨_, _, _, e⟩⟩ <;> rw [e] at h1 ⊢
  · simp [hasSolution, updateStatus] at h1
  · exact h hs
  · rw [hasSolution_iff] at h1; cases b
    · exact absurd rfl h1.1
    · exact absurd rfl h1.2.1
  · rw [hasSolution_iff] at h1; cases b
    · exact absurd rfl h1.2.2.1
    · exact absurd rfl h1.2.2.2.1
  · rw [ctState_info]; exact h hs

theorem gapId_setStatus {s : Solver d K} (v : ℤ) (h : GapId s.info) (hs : hasSolution s.info = true) :
    GapId (setStatus s v).info := by
  intro _; exact h hs

theorem gapId_postRho {s : Solver d K} (h : GapId s.info) : GapId (postRho cfg env s).info := by
  intro h1
  have : hasSolution s.info = true := by unfold hasSolution at h1 ⊢; simpa using h1
  simpa using h this

theorem gapId_postTail (p : Solver d K) : GapId (postTail cfg env p).info := by
  have h0 := gapId_postObj p
  have key : ∀ v, hasSolution p.info = true → GapId (if (checkTermination true (postObj p)).2 then (checkTermination true (postObj p)).1
      else setStatus (checkTermination true (postObj p)).1 v).info := by
    intro v hs
    have hs' : hasSolution (postObj p).info = true := by unfold hasSolution at hs ⊢; simpa using hs
    have hg := gapId_check true h0 hs'
    split_ifs with h
    · exact hg
    · refine gapId_setStatus v hg ?_
      have c := checkTermination_cases true (postObj p)
      dsimp only at c
      rcases c with ⟨_, e⟩ | ⟨_, ⟨_, _, _, e⟩ | ⟨_, e⟩ | ⟨_, _, e⟩ | ⟨_, _, _, e⟩⟩ <;> rw [e] at h ⊢
      · exact absurd rfl h
      · exact absurd rfl h
      · exact absurd rfl h
      · exact absurd rfl h
      · rw [ctState_info]; exact hs'
  by_cases h1 : p.info.status_val = St.unsolved
  · rw [postTail_unsolved cfg env p h1]
    exact gapId_postRho (key _ (by rw [hasSolution_iff, h1]; decide))
  · by_cases h2 : p.info.status_val = St.timeLimit
    · by_cases hp : cfg.profiling = true
      · rw [postTail_time cfg env p h2 hp]
        exact gapId_postRho (key _ (by rw [hasSolution_iff, h2]; decide))
      · rw [postTail_time' cfg env p h2 (by simpa using hp)]
        exact gapId_postRho h0
    · rw [postTail_final cfg env p h1 h2]; exact gapId_postRho h0

theorem gapId_fresh {s : Solver d K} (h : FreshO s) : s.info.duality_gap = s.info.obj_val - s.info.dual_obj_val := by
  rw [h.gap, h.obj, h.dobj]; ring

theorem gapId_solve {st₀ : Settings K} {U : Data d K} {s s' : Solver d K} (h : Inv cfg st₀ U s)
    (e : osqpSolve cfg env s = (s', 0)) : GapId s'.info := by
  obtain ⟨it0, t0, hf0, _, hfin0⟩ := solve_final h e
  have hr := solve_run (env := env) h
  rw [e] at hr
  cases hr with
  | exited _ _ c _ => exact absurd c (by simp)
  | ran it L' p lend chk peq eq =>
    have hg := gapId_postTail (cfg := cfg) (env := env) p
    generalize ht : postTail cfg env p = t at *
    have h0 : d.m = 0 → t.work.Aty = vSet 0 := by
      have := final_of_checked chk
      rw [← ht]; unfold postTail at this ⊢
      exact this.within.aty
    have hseen := seen_of_finish h0 eq.symm
    intro hs
    rw [hseen.info] at hs ⊢
    have hs2 : hasSolution (postPolish cfg env t).1.info = true := by unfold hasSolution at hs ⊢; simpa using hs
    have hs3 : hasSolution t.info = true := by unfold hasSolution at hs ⊢; simpa using hs
    rcases hseen.pol with hk | hk
    · have := hg hs3
      simp [hk.obj, hk.dobj, hk.gap, this]
    · have := gapId_fresh hk.fresh.2.2
      simp [this]

end Osqp
