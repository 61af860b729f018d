import Verif.Lemmas.HistOps

/-!
# The state just before polishing, classified by how the final status was obtained
-/

set_option linter.unusedSectionVars false
namespace Osqp
open Spec
variable {K : Type*} [Field K] [LinearOrder K] [IsStrictOrderedRing K] {d : Dims}

theorem TimeHit.profiling {cfg : Cfg} {env : Env d K} {s0 : Solver d K} {it : ℤ} (h : TimeHit cfg env s0 it) :
    cfg.profiling = true := by
  obtain ⟨L0, _, late⟩ := h
  by_contra hp; unfold timeCheck at late; rw [if_neg hp] at late; cases late

/-- The iteration in which the loop stopped is the first after `k`, or the time limit was hit in it. -/
def LimitHit (cfg : Cfg) (env : Env d K) (s0 : Solver d K) (k : ℕ) (it : ℤ) : Prop :=
  it = k + 1 ∨ TimeHit cfg env s0 it ∧ 1 ≤ it ∧ it ≤ k

/-- The residuals were not recomputed: time limit right after an iteration with a scheduled check. -/
def StaleStop (cfg : Cfg) (env : Env d K) (s0 : Solver d K) (k : ℕ) (it : ℤ) : Prop :=
  1 < it ∧ it ≤ k ∧ itCheck s0.settings (it - 1) = true ∧ TimeHit cfg env s0 it

inductive Final (cfg : Cfg) (env : Env d K) (s0 : Solver d K) (k : ℕ) (it : ℤ) (t : Solver d K) : Prop
  /-- an exact test succeeded on the fresh iterate `s1` -/
  | exact (s1 : Solver d K) (within : Within s0 s1) (iterated : Iterated s0 s1) (fresh : Fresh s1)
      (stop : (checkTermination false s1).2 = true)
      (when_ : itCheck s0.settings it = true ∧ 1 ≤ it ∧ it ≤ k ∨ LimitHit cfg env s0 k it)
      (eq : t = postRho cfg env (postObj (checkTermination false s1).1))
  /-- an approximate test succeeded on `s1` after a limit -/
  | approx (s1 : Solver d K) (within : Within s0 s1) (iterated : Iterated s0 s1)
      (fresh : Fresh s1 ∨ StaleStop cfg env s0 k it) (stop : (checkTermination true s1).2 = true)
      (lim : LimitHit cfg env s0 k it)
      (eq : t = postRho cfg env (checkTermination true s1).1)
  /-- no test succeeded -/
  | limit (s1 : Solver d K) (v : ℤ) (within : Within s0 s1) (iterated : Iterated s0 s1)
      (fresh : Fresh s1 ∨ StaleStop cfg env s0 k it) (stop : (checkTermination true s1).2 = false)
      (lim : LimitHit cfg env s0 k it)
      (val : v = St.maxIter ∧ it = k + 1 ∧ s0.info.status_val = St.unsolved ∨
        v = St.timeLimit ∧ ((TimeHit cfg env s0 it ∧ it ≤ k) ∨ s0.info.status_val = St.timeLimit))
      (eq : t = postRho cfg env (setStatus (ctState true s1) v))
  /-- the status on entry was not "unsolved" and no test succeeded: it is left as it was -/
  | old (p : Solver d K) (within : Within s0 p) (iterated : Iterated s0 p) (fresh : Fresh p)
      (status : p.info.status_val = s0.info.status_val) (v0 : s0.info.status_val ≠ St.unsolved)
      (lim : it = k + 1) (eq : t = postRho cfg env (postObj p))

theorem within_postObj {s0 p : Solver d K} (h : Within s0 p) : Within s0 (postObj p) := by
  apply h.of_frame <;> simp [core]

theorem iterated_postObj {s0 p : Solver d K} (h : Iterated s0 p) : Iterated s0 (postObj p) :=
  h.of_frame (by simp) (by simp) (by simp)

theorem fresh_postObj {p : Solver d K} (h : Fresh p) : Fresh (postObj p) := by
  obtain ⟨a, b⟩ := postObj_fresh h.1
  refine ⟨a, ?_, ?_⟩
  · exact h.2.1.of_eq (by simp) (by simp) (by simp) (by simp) (by simp) (by simp) (by simp) (by simp) (by simp)
      (by rw [a.xtPx, h.1.xtPx]; simp) (by rw [a.qtx, h.1.qtx]; simp) (by rw [a.SC, h.1.SC]; simp) (by simp)
  · by_cases hs : hasSolution p.info = true
    · exact b hs
    · have : postObj p = p := by unfold postObj; rw [if_neg hs]
      rw [this]; exact h.2.2

/-- What happens when the exact test failed (or was not made) and a limit was reached. -/
theorem final_limit {cfg : Cfg} {env : Env d K} {s0 : Solver d K} {k : ℕ} {it : ℤ} {p : Solver d K}
    (hw : Within s0 p) (hi : Iterated s0 p) (hf : Fresh p ∨ StaleStop cfg env s0 k it)
    (hl : LimitHit cfg env s0 k it)
    (hs : p.info.status_val = s0.info.status_val ∧ it = k + 1 ∧ Fresh p ∨ p.info.status_val = St.timeLimit ∧ TimeHit cfg env s0 it ∧ it ≤ k) :
    Final cfg env s0 k it (postTail cfg env p) := by
  have hf' : Fresh (postObj p) ∨ StaleStop cfg env s0 k it := hf.imp fresh_postObj id
  have key : ∀ v : ℤ, (v = St.maxIter ∧ it = k + 1 ∧ s0.info.status_val = St.unsolved ∨
        v = St.timeLimit ∧ ((TimeHit cfg env s0 it ∧ it ≤ k) ∨ s0.info.status_val = St.timeLimit)) →
      postTail cfg env p = postRho cfg env (if (checkTermination true (postObj p)).2 then (checkTermination true (postObj p)).1
      else setStatus (checkTermination true (postObj p)).1 v) → Final cfg env s0 k it (postTail cfg env p) := by
    intro v hv e
    by_cases hc : (checkTermination true (postObj p)).2 = true
    · rw [if_pos hc] at e
      exact .approx (postObj p) (within_postObj hw) (iterated_postObj hi) hf' hc hl e
    · rw [if_neg hc] at e
      have hc' : (checkTermination true (postObj p)).2 = false := by simpa using hc
      rw [checkTermination_false_eq hc'] at e
      exact .limit (postObj p) v (within_postObj hw) (iterated_postObj hi) hf' hc' hl hv e
  by_cases h1 : p.info.status_val = St.unsolved
  · refine key St.maxIter ?_ (postTail_unsolved cfg env p h1)
    rcases hs with ⟨a, b, _⟩ | ⟨a, b⟩
    · exact Or.inl ⟨rfl, b, a ▸ h1⟩
    · rw [h1] at a; exact absurd a (by decide)
  · by_cases h2 : p.info.status_val = St.timeLimit
    · by_cases hp : cfg.profiling = true
      · refine key St.timeLimit ?_ (postTail_time cfg env p h2 hp)
        rcases hs with ⟨a, b, _⟩ | ⟨a, b⟩
        · exact Or.inr ⟨rfl, Or.inr (a ▸ h2)⟩
        · exact Or.inr ⟨rfl, Or.inl b⟩
      · rcases hs with ⟨a, b, c⟩ | ⟨a, b⟩
        · exact .old p hw hi c a (by rw [← a]; exact h1) b (postTail_time' cfg env p h2 (by simpa using hp))
        · exact absurd b.1.profiling hp
    · rcases hs with ⟨a, b, c⟩ | ⟨a, b⟩
      · exact .old p hw hi c a (by rw [← a]; exact h1) b (postTail_final cfg env p h1 h2)
      · exact absurd a h2

theorem final_of_checked {cfg : Cfg} {env : Env d K} {s0 : Solver d K} {k : ℕ} {it : ℤ} {L' : LoopSt d K} {p : Solver d K}
    (h : Checked cfg env s0 k it L' p) : Final cfg env s0 k it (postTail cfg env p) := by
  cases h with
  | tested s1 within iterated fresh status lim eq =>
    by_cases hc : (checkTermination false s1).2 = true
    · have hn := checkTermination_not_limit hc
      refine .exact s1 within iterated fresh hc (lim.imp (fun h => h.2) (fun h => h.imp id (fun h => ⟨h.1, h.2.1, h.2.2.1⟩))) ?_
      rw [eq]; exact postTail_final cfg env _ hn.1 hn.2.1
    · have hc' : (checkTermination false s1).2 = false := by simpa using hc
      rw [checkTermination_false_eq hc'] at eq
      have hl : LimitHit cfg env s0 k it := by
        rcases lim with h | h
        · exact absurd h.1 hc
        · exact h.imp id (fun h => ⟨h.1, h.2.1, h.2.2.1⟩)
      have hf : Fresh p := by rw [eq]; exact fresh_ctState fresh
      have hw : Within s0 p := by rw [eq, ← checkTermination_false_eq hc']; exact within_checkTermination _ within
      have hi : Iterated s0 p := by rw [eq]; exact iterated.of_frame (by simp) (by simp) (by simp)
      have hst : p.info = s1.info := by rw [eq, ctState_info]
      refine final_limit hw hi (Or.inl hf) hl ?_
      rw [hst]
      rcases status with ⟨a, _⟩ | ⟨a, _, b⟩
      · rcases lim with h' | h' | h'
        · exact absurd h'.1 hc
        · exact Or.inl ⟨a, h', hf⟩
        · exact Or.inr ⟨h'.2.2.2, h'.1, h'.2.2.1⟩
      · exact Or.inr ⟨a, b⟩
  | failed within iterated fresh status hit =>
    exact final_limit within iterated (Or.inl fresh) (Or.inl hit) (Or.inl ⟨status.1, hit, fresh⟩)
  | stale s1 within iterated sched hp late eq =>
    refine final_limit (cfg := cfg) (env := env) ?_ ?_ (Or.inr ⟨sched.1, sched.2.1, sched.2.2, late⟩) (Or.inr ⟨late, by omega, sched.2.1⟩) (Or.inr ⟨?_, late, sched.2.1⟩)
    · rw [eq]; exact within_setStatus _ within
    · rw [eq]; exact iterated.of_frame (by simp) (by simp) (by simp)
    · rw [eq]; simp

end Osqp
