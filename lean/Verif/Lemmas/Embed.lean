import Verif.Lemmas.EmbedOne
import Verif.Lemmas.EmbedTwo
import Verif.Lemmas.Adapt
import Verif.Spec.Embed

/-!
# Embedded and desktop builds run in step
-/

set_option linter.unusedSectionVars false
namespace Osqp
open Spec
variable {K : Type*} [Field K] [LinearOrder K] {d : Dims} {cfg : Cfg} {env : Env d K} {e : Emb} {s t : Solver d K}

/-- The same solver with other differences of iterates. -/
def wipe (dx : Vec K d.n) (dy : Vec K d.m) (s : Solver d K) : Solver d K := { s with work := { s.work with delta_x := dx, delta_y := dy } }

theorem wipe_step (dx : Vec K d.n) (dy : Vec K d.m) : admmStep env (wipe dx dy s) = admmStep env s := rfl

def LoopSt.wipe (dx : Vec K d.n) (dy : Vec K d.m) (L : LoopSt d K) : LoopSt d K := { L with s := Osqp.wipe dx dy L.s }

theorem wipe_body (dx : Vec K d.n) (dy : Vec K d.m) (i : ℤ) (L : LoopSt d K) : iterBodyE e cfg env i (L.wipe dx dy) = iterBodyE e cfg env i L := by
  unfold iterBodyE
  have e1 : admmStep env (L.wipe dx dy).s = admmStep env L.s := rfl
  rw [e1]
  rfl

theorem wipe_loop (dx : Vec K d.n) (dy : Vec K d.m) {k : ℕ} (hk : 0 < k) (i : ℤ) (L : LoopSt d K) :
    admmLoopE e cfg env k i (L.wipe dx dy) = admmLoopE e cfg env k i L := by
  cases k with
  | zero => omega
  | succ k => unfold admmLoopE; rw [wipe_body]

theorem wipe_entry (dx : Vec K d.n) (dy : Vec K d.m) : solveEntry cfg (wipe dx dy s) = (solveEntry cfg s).wipe dx dy := by
  unfold solveEntry LoopSt.wipe
  dsimp only
  by_cases h1 : cfg.profiling = true <;> by_cases h2 : s.work.clear_update_time = true <;> by_cases h3 : cfg.interrupt = true <;>
    by_cases h4 : s.settings.warm_starting = 0 <;>
    simp [h1, h2, h3, h4, wipe, coldStart]

theorem body_two : iterBodyE .two cfg env = iterBody cfg env := rfl

theorem loop_two (k : ℕ) : ∀ i L, admmLoopE .two cfg env k i L = admmLoop cfg env k i L := by
  induction k with
  | zero => intro i L; rfl
  | succ k ih =>
    intro i L
    unfold admmLoopE admmLoop
    rw [body_two]
    cases iterBody cfg env i L with
    | cont L' => exact ih _ _
    | brk L' => rfl
    | exit s => rfl

theorem body_one {L : LoopSt d K} (h0 : L.s.settings.adaptive_rho = 0) (i : ℤ) : iterBody cfg env i L = iterBodyE .one cfg env i L := by
  unfold iterBody iterBodyE
  have h1 : ((timeCheck cfg env (intrCheck cfg env (admmStep env L.s)).1).1).settings.adaptive_rho = 0 := by
    rw [← h0]; unfold timeCheck intrCheck; split_ifs <;> rfl
  dsimp only
  generalize intrCheck cfg env (admmStep env L.s) = r1 at h1
  generalize timeCheck cfg env r1.1 = r2 at h1
  have h2 : adaptDecision cfg env i r2.1 = (r2.1, false) := by
    unfold adaptDecision
    dsimp only
    rw [h1]; simp
  have h3 : ∀ t : Solver d K, adaptPhase cfg env false t = adaptPhaseE .one cfg env false t := fun t => by
    unfold adaptPhase adaptPhaseE
    simp
  rw [h2]
  dsimp only [adaptDecisionE]
  simp only [h3]
  rfl

theorem keep_one {L L' : LoopSt d K} {i : ℤ} (h : iterBodyE .one cfg env i L = .cont L') :
    L'.s.settings.adaptive_rho = L.s.settings.adaptive_rho ∧ L'.s.solution = L.s.solution := by
  let k : Kept d K := ⟨L.s.settings.polishing, L.s.settings.adaptive_rho, L.s.info.rho_estimate, L.s.info.rho_updates, L.s.solution⟩
  have e1 : L.hide k = L := rfl
  have := hide_iterBody (h := k) cfg env i L
  rw [e1, h] at this
  have e2 : L' = L'.hide k := by injection this
  rw [e2]
  exact ⟨rfl, rfl⟩

theorem loop_one (k : ℕ) : ∀ i (L : LoopSt d K), L.s.settings.adaptive_rho = 0 → admmLoop cfg env k i L = admmLoopE .one cfg env k i L := by
  induction k with
  | zero => intro i L _; rfl
  | succ k ih =>
    intro i L h
    unfold admmLoopE admmLoop
    rw [body_one h]
    generalize hb : iterBodyE .one cfg env i L = r
    cases r with
    | cont L' => exact ih _ _ ((keep_one hb).1.trans h)
    | brk L' => rfl
    | exit s => rfl

/-! ## The relation as an equation -/

theorem sameRun_two : SameRun .two s t ↔ t = hid 0 t.solution (wipe t.work.delta_x t.work.delta_y s) ∧ s.info.polish_time = 0 ∧
    s.solution.map (fun o => (o.x, o.y)) = t.solution.map (fun o => (o.x, o.y)) := by
  constructor
  · rintro ⟨h1, h2, h3, h4, h5, h6, h7, h8⟩
    refine ⟨?_, h3, h5⟩
    obtain ⟨a, b, c, dd, e, f, g⟩ := t
    simp only at h1 h2 h4 h5 h6 h7 h8 ⊢
    subst h1 h6 h7 h8
    unfold hid wipe
    simp only [maintained] at h2
    rw [h2, h4]
    rfl
  · rintro ⟨h1, h2, h3⟩
    exact ⟨congrArg (·.settings) h1, (by have h : t.info = s.info := congrArg (·.info) h1; rw [h]), h2, (congrArg (·.work) h1).symm, h3,
      (congrArg (·.ticks) h1).symm, (congrArg (·.polls) h1).symm, (congrArg (·.handler) h1).symm⟩

def keptOf (t : Solver d K) : Kept d K := ⟨0, 0, t.info.rho_estimate, t.info.rho_updates, t.solution⟩

theorem sameRun_one : SameRun .one s t ↔ t = hide (keptOf t) (wipe t.work.delta_x t.work.delta_y s) ∧ s.info.polish_time = 0 ∧
    s.solution.map (fun o => (o.x, o.y)) = t.solution.map (fun o => (o.x, o.y)) := by
  constructor
  · rintro ⟨h1, h2, h3, h4, h5, h6, h7, h8⟩
    refine ⟨?_, h3, h5⟩
    obtain ⟨a, b, c, dd, e, f, g⟩ := t
    simp only at h1 h2 h4 h5 h6 h7 h8 ⊢
    subst h1 h6 h7 h8
    unfold hide wipe keptOf
    have : b = { s.info with rho_estimate := b.rho_estimate, rho_updates := b.rho_updates } := by
      have := congrArg (fun i : Info K => ({ i with rho_estimate := b.rho_estimate, rho_updates := b.rho_updates } : Info K)) h2
      exact this
    dsimp only
    rw [h4]
    congr 1
  · rintro ⟨h1, h2, h3⟩
    exact ⟨congrArg (·.settings) h1, (by have h : t.info = { s.info with rho_estimate := t.info.rho_estimate, rho_updates := t.info.rho_updates } := congrArg (·.info) h1; rw [h]; rfl), h2, (congrArg (·.work) h1).symm, h3,
      (congrArg (·.ticks) h1).symm, (congrArg (·.polls) h1).symm, (congrArg (·.handler) h1).symm⟩

/-! ## Storing the solution, time keeping -/

theorem Spec.SameRun.status (h : SameRun e s t) : t.info.status_val = s.info.status_val := by
  have := congrArg (·.status_val) h.info
  cases e <;> exact this

theorem Spec.SameRun.scal (h : SameRun e s t) : t.settings.scaling = s.settings.scaling := by
  rw [h.settings]; cases e <;> rfl

theorem Spec.SameRun.store (h : SameRun e s t) (o o' : Solution d K) :
    SameRun e (storeSolutionE s o).1 (storeSolution t o').1 ∧ (storeSolutionE s o).2.x = (storeSolution t o').2.x ∧
    (storeSolutionE s o).2.y = (storeSolution t o').2.y := by
  have hs := h.status
  have hc := h.scal
  obtain ⟨h1, h2, h3, h4, h5, h6, h7, h8⟩ := h
  have hw : t.work = { s.work with delta_x := t.work.delta_x, delta_y := t.work.delta_y } := h4.symm
  have e1 : hasSolution t.info = hasSolution s.info := by unfold hasSolution; rw [hs]
  unfold storeSolutionE storeSolution
  dsimp only
  rw [e1, hc]
  by_cases hh : hasSolution s.info = true
  · rw [if_pos hh, if_pos hh]
    by_cases hz : s.settings.scaling = 0
    · simp only [hz, ne_eq, not_true_eq_false, if_false]
      refine ⟨⟨h1, h2, h3, ?_, h5, h6, h7, h8⟩, ?_, ?_⟩ <;> rw [hw]
    · simp only [hz, ne_eq, not_false_eq_true, if_true]
      refine ⟨⟨h1, h2, h3, ?_, h5, h6, h7, h8⟩, ?_, ?_⟩ <;> rw [hw]
  · rw [if_neg hh, if_neg hh]
    have e2 : (coldStart t).info = t.info := rfl
    simp only [e2]
    have key : ∀ (dx : Vec K d.n) (dy : Vec K d.m), SameRun e (coldStart s) { coldStart t with work := { (coldStart t).work with delta_x := dx, delta_y := dy } } := by
      intro dx dy
      refine ⟨h1, h2, h3, ?_, h5, h6, h7, h8⟩
      unfold coldStart; dsimp only; rw [hw]
    by_cases a : t.info.status_val = St.primInf ∨ t.info.status_val = St.primInfInacc <;>
      by_cases b : t.info.status_val = St.dualInf ∨ t.info.status_val = St.dualInfInacc
    · rw [if_pos a, if_pos b]; exact ⟨key _ _, rfl, rfl⟩
    · rw [if_pos a, if_neg b]; exact ⟨key _ _, rfl, rfl⟩
    · rw [if_neg a, if_pos b]; exact ⟨key _ _, rfl, rfl⟩
    · rw [if_neg a, if_neg b]; exact ⟨key t.work.delta_x t.work.delta_y, rfl, rfl⟩

theorem Spec.SameRun.storeOwn (h : SameRun e s t) : SameRun e (storeOwnSolutionE s) (storeOwnSolution t) := by
  unfold storeOwnSolutionE storeOwnSolution
  have h5 := h.point
  cases hs : s.solution with
  | none =>
    cases ht : t.solution with
    | none => exact h
    | some o' => rw [hs, ht] at h5; simp at h5
  | some o =>
    cases ht : t.solution with
    | none => rw [hs, ht] at h5; simp at h5
    | some o' =>
      obtain ⟨k, hx, hy⟩ := h.store o o'
      obtain ⟨k1, k2, k3, k4, k5, k6, k7, k8⟩ := k
      exact ⟨k1, k2, k3, k4, by simp [hx, hy], k6, k7, k8⟩

/-! ## A solve -/

variable [IsStrictOrderedRing K]

theorem polish_time_solve (h : s.info.polish_time = 0) (hp : s.settings.polishing = 0) : (osqpSolve cfg env s).1.info.polish_time = 0 := by
  refine (solve_keeps (fun s : Solver d K => s.info.polish_time = 0 ∧ s.settings.polishing = 0) ?_ ?_ ?_ ?_ ?_ ?_ ⟨h, hp⟩).1
  · intro s h; simpa using h
  · intro it L h
    rcases endState_eq (cfg := cfg) (env := env) it L with e | e | ⟨_, e⟩ | ⟨_, e⟩ <;> rw [e]
    · simpa [itAdmm] using h
    · simpa [itTimed, itAdmm] using h
    all_goals
      have h1 : (itInfo cfg env it L).info.polish_time = 0 ∧ (itInfo cfg env it L).settings.polishing = 0 := by
        unfold itInfo itDec itTimed itAdmm; split_ifs <;> simpa using h
      unfold itTerm
      split_ifs <;> simpa using h1
  · intro it L h; simpa using h
  · intro s h
    unfold postPolish
    rw [if_neg (by simp [h.2])]; exact h
  · intro s h; unfold endListener; split_ifs <;> exact h
  · intro s h
    have : (postTiming cfg s).info.polish_time = 0 ∧ (postTiming cfg s).settings.polishing = 0 := by
      unfold postTiming; split_ifs <;> exact h
    simpa using this

theorem Spec.SameRun.endL (k : SameRun e s t) : SameRun e (endListener cfg s) (endListener cfg t) := by
  obtain ⟨k1, k2, k3, k4, k5, k6, k7, k8⟩ := k
  unfold endListener
  split_ifs
  · exact ⟨k1, k2, k3, k4, k5, k6, k7, rfl⟩
  · exact ⟨k1, k2, k3, k4, k5, k6, k7, k8⟩

theorem loopE_two : (admmLoopE .two cfg env : ℕ → ℤ → LoopSt d K → LoopOut d K) = admmLoop cfg env := by
  funext k i L; exact loop_two k i L

theorem solve_two (h : SameRun .two s t) (hk : 0 < s.settings.max_iter.toNat) :
    (osqpSolveE .two cfg env s).2 = (osqpSolve cfg env t).2 ∧ SameRun .two (osqpSolveE .two cfg env s).1 (osqpSolve cfg env t).1 := by
  have hpt : (osqpSolve cfg env t).1.info.polish_time = 0 := by
    refine polish_time_solve ?_ ?_
    · have := h.info; simp only [maintained] at this; rw [this]; exact h.polish_time
    · rw [h.settings]; rfl
  obtain ⟨h1, h2, h3⟩ := sameRun_two.1 h
  obtain ⟨o, dx, dy, rfl, h3⟩ : ∃ o dx dy, t = hid 0 o (wipe dx dy s) ∧ s.solution.map (fun o => (o.x, o.y)) = o.map (fun o => (o.x, o.y)) :=
    ⟨_, _, _, h1, h3⟩
  clear h1
  have hself : admmLoop cfg env s.settings.max_iter.toNat 1 (solveEntry cfg s) =
      (admmLoop cfg env s.settings.max_iter.toNat 1 (solveEntry cfg s)).hid s.settings.polishing s.solution := by
    rw [← hid_loop, ← hid_entry]; rfl
  have hE : osqpSolveE .two cfg env s = match admmLoop cfg env s.settings.max_iter.toNat 1 (solveEntry cfg s) with
      | .exit s => (endListener cfg s, 1)
      | .done iter L => (endListener cfg (storeOwnSolutionE (postTiming cfg (postLoop cfg env iter L))), 0) := by
    unfold osqpSolveE
    dsimp only
    rw [loopE_two, solveEntry_settings]
    rfl
  have hD : osqpSolve cfg env (hid 0 o (wipe dx dy s)) = match (admmLoop cfg env s.settings.max_iter.toNat 1 (solveEntry cfg s)).hid 0 o with
      | .exit s => (endListener cfg s, 1)
      | .done iter L => finish cfg env (postLoop cfg env iter L) := by
    unfold osqpSolve
    dsimp only
    have a1 : ((solveEntry cfg (hid 0 o (wipe dx dy s))).s.settings.max_iter.toNat) = s.settings.max_iter.toNat := by
      rw [solveEntry_settings]; rfl
    rw [a1, hid_entry, wipe_entry, hid_loop, ← loopE_two, wipe_loop dx dy hk]
    rfl
  rw [hD] at hpt
  rw [hE, hD]
  generalize admmLoop cfg env s.settings.max_iter.toNat 1 (solveEntry cfg s) = r at *
  cases r with
  | exit s1 =>
    have hs1 : s1 = hid s.settings.polishing s.solution s1 := by
      have := hself; unfold LoopOut.hid at this; injection this
    have hs2 : s1.solution = s.solution := by rw [hs1]; rfl
    refine ⟨rfl, SameRun.endL ?_⟩
    have hq : s1.info.polish_time = 0 := by
      have := hpt
      simp only [LoopOut.hid] at this
      unfold endListener at this
      split_ifs at this <;> exact this
    exact sameRun_two.2 ⟨rfl, hq, by rw [hs2]; exact h3⟩
  | done it L =>
    have hs1 : L = L.hid s.settings.polishing s.solution := by
      have := hself; unfold LoopOut.hid at this; injection this
    have hs2 : (postTiming cfg (postLoop cfg env it L)).solution = s.solution := by
      have : (postTiming cfg (postLoop cfg env it L)).solution = L.s.solution := by simp
      rw [this, hs1]; rfl
    have hf : finish cfg env (postLoop cfg env it (L.hid 0 o)) =
        (endListener cfg (storeOwnSolution (hid 0 o (postTiming cfg (postLoop cfg env it L)))), 0) := by
      have hp : postPolish cfg env (hid 0 o (postLoop cfg env it L)) = (hid 0 o (postLoop cfg env it L), 0) := by
        unfold postPolish; rw [if_neg]; exact fun k => k.1 rfl
      rw [hid_postLoop, finish_eq, hp, hid_postTiming]
      rfl
    simp only [LoopOut.hid] at hpt ⊢
    rw [hf] at hpt ⊢
    refine ⟨rfl, SameRun.endL (SameRun.storeOwn (sameRun_two.2 ⟨rfl, ?_, by rw [hs2]; exact h3⟩))⟩
    have hq : (storeOwnSolution (hid 0 o (postTiming cfg (postLoop cfg env it L)))).info.polish_time = 0 := by
      have := hpt
      unfold endListener at this
      split_ifs at this <;> exact this
    rw [storeOwnSolution_info] at hq
    exact hq

theorem postRho_one : postRho cfg env s = hide ⟨s.settings.polishing, s.settings.adaptive_rho, computeRhoEstimate env s, s.info.rho_updates, s.solution⟩
    (postRhoE .one cfg env s) := by
  unfold postRho postRhoE
  dsimp only
  by_cases h : cfg.profiling = true
  · rw [if_pos h, if_pos h]; rfl
  · rw [if_neg h, if_neg h]; rfl

theorem postLoop_one (it : ℤ) (L : LoopSt d K) : ∃ est ups, postLoop cfg env it L =
    hide ⟨L.s.settings.polishing, L.s.settings.adaptive_rho, est, ups, L.s.solution⟩ (postLoopE .one cfg env it L) := by
  unfold postLoop postLoopE
  refine ⟨computeRhoEstimate env (postTimeLimit cfg (postMaxIter (postObj (postCheck cfg env it L)))),
    (postTimeLimit cfg (postMaxIter (postObj (postCheck cfg env it L)))).info.rho_updates, ?_⟩
  have := postRho_one (cfg := cfg) (env := env) (s := postTimeLimit cfg (postMaxIter (postObj (postCheck cfg env it L))))
  simpa using this

theorem solve_one (h : SameRun .one s t) (hk : 0 < s.settings.max_iter.toNat) :
    (osqpSolveE .one cfg env s).2 = (osqpSolve cfg env t).2 ∧ SameRun .one (osqpSolveE .one cfg env s).1 (osqpSolve cfg env t).1 := by
  have hpt : (osqpSolve cfg env t).1.info.polish_time = 0 := by
    refine polish_time_solve ?_ ?_
    · have : t.info.polish_time = s.info.polish_time := congrArg (·.polish_time) h.info
      rw [this]; exact h.polish_time
    · rw [h.settings]; rfl
  obtain ⟨h1, h2, h3⟩ := sameRun_one.1 h
  obtain ⟨k, dx, dy, rfl, hkp, hka, h3⟩ : ∃ k dx dy, t = hide k (wipe dx dy s) ∧ k.p = 0 ∧ k.a = 0 ∧
      s.solution.map (fun o => (o.x, o.y)) = k.o.map (fun o => (o.x, o.y)) := ⟨keptOf t, _, _, h1, rfl, rfl, h3⟩
  clear h1
  let ks : Kept d K := ⟨s.settings.polishing, s.settings.adaptive_rho, s.info.rho_estimate, s.info.rho_updates, s.solution⟩
  have hself : admmLoopE .one cfg env s.settings.max_iter.toNat 1 (solveEntry cfg s) =
      (admmLoopE .one cfg env s.settings.max_iter.toNat 1 (solveEntry cfg s)).hide ks := by
    rw [← hide_loop, ← hide_entry]; rfl
  have hE : osqpSolveE .one cfg env s = match admmLoopE .one cfg env s.settings.max_iter.toNat 1 (solveEntry cfg s) with
      | .exit s => (endListener cfg s, 1)
      | .done iter L => (endListener cfg (storeOwnSolutionE (postTiming cfg (postLoopE .one cfg env iter L))), 0) := by
    unfold osqpSolveE
    dsimp only
    rw [solveEntry_settings]
    rfl
  have hD : osqpSolve cfg env (hide k (wipe dx dy s)) = match (admmLoopE .one cfg env s.settings.max_iter.toNat 1 (solveEntry cfg s)).hide k with
      | .exit s => (endListener cfg s, 1)
      | .done iter L => finish cfg env (postLoop cfg env iter L) := by
    unfold osqpSolve
    dsimp only
    have a1 : ((solveEntry cfg (hide k (wipe dx dy s))).s.settings.max_iter.toNat) = s.settings.max_iter.toNat := by
      rw [solveEntry_settings]; rfl
    rw [a1, loop_one _ _ _ (by rw [solveEntry_settings]; exact hka), hide_entry, wipe_entry, hide_loop, wipe_loop dx dy hk]
    rfl
  rw [hD] at hpt
  rw [hE, hD]
  generalize admmLoopE .one cfg env s.settings.max_iter.toNat 1 (solveEntry cfg s) = r at *
  have mk : ∀ (v : Solver d K) (est : K) (ups : ℤ), v.info.polish_time = 0 → v.solution = s.solution → SameRun .one v (hide ⟨0, 0, est, ups, k.o⟩ v) := by
    intro v est ups hv hs
    exact sameRun_one.2 ⟨rfl, hv, by rw [hs]; exact h3⟩
  have mk' : ∀ (v : Solver d K) (est : K) (ups : ℤ), hide ⟨k.p, k.a, est, ups, k.o⟩ v = hide ⟨0, 0, est, ups, k.o⟩ v := by
    intro v est ups; rw [hkp, hka]
  cases r with
  | exit s1 =>
    have hs1 : s1 = hide ks s1 := by
      have := hself; unfold LoopOut.hide at this; injection this
    have hs2 : s1.solution = s.solution := by rw [hs1]; rfl
    refine ⟨rfl, SameRun.endL ?_⟩
    have hq : s1.info.polish_time = 0 := by
      have := hpt
      simp only [LoopOut.hide] at this
      unfold endListener at this
      split_ifs at this <;> exact this
    have := mk s1 k.est k.ups hq hs2
    rw [← mk'] at this
    exact this
  | done it L =>
    have hs1 : L = L.hide ks := by
      have := hself; unfold LoopOut.hide at this; injection this
    have hs2 : (postTiming cfg (postLoopE .one cfg env it L)).solution = s.solution := by
      have : (postTiming cfg (postLoopE .one cfg env it L)).solution = (postLoopE .one cfg env it L).solution := by simp
      rw [this, hs1, hide_postLoop]; rfl
    obtain ⟨est, ups, hp⟩ := postLoop_one (cfg := cfg) (env := env) it (L.hide k)
    have hp2 : postLoop cfg env it (L.hide k) = hide ⟨0, 0, est, ups, k.o⟩ (postLoopE .one cfg env it L) := by
      rw [hp, hide_postLoop, ← mk']; rfl
    have hf : finish cfg env (postLoop cfg env it (L.hide k)) =
        (endListener cfg (storeOwnSolution (hide ⟨0, 0, est, ups, k.o⟩ (postTiming cfg (postLoopE .one cfg env it L)))), 0) := by
      have hp : postPolish cfg env (hide ⟨0, 0, est, ups, k.o⟩ (postLoopE .one cfg env it L)) =
          (hide ⟨0, 0, est, ups, k.o⟩ (postLoopE .one cfg env it L), 0) := by
        unfold postPolish; rw [if_neg]; exact fun k => k.1 rfl
      rw [hp2, finish_eq, hp, hide_postTiming]
      rfl
    simp only [LoopOut.hide] at hpt ⊢
    rw [hf] at hpt ⊢
    refine ⟨rfl, SameRun.endL (SameRun.storeOwn (mk _ _ _ ?_ hs2))⟩
    have hq : (storeOwnSolution (hide ⟨0, 0, est, ups, k.o⟩ (postTiming cfg (postLoopE .one cfg env it L)))).info.polish_time = 0 := by
      have := hpt
      unfold endListener at this
      split_ifs at this <;> exact this
    rw [storeOwnSolution_info] at hq
    exact hq

theorem Spec.SameRun.solve (h : SameRun e s t) (hk : 0 < s.settings.max_iter.toNat) :
    (osqpSolveE e cfg env s).2 = (osqpSolve cfg env t).2 ∧ SameRun e (osqpSolveE e cfg env s).1 (osqpSolve cfg env t).1 := by
  cases e
  · exact solve_one h hk
  · exact solve_two h hk

/-! ## Updates -/

/-- The relation is kept when the workspaces change alike. -/
theorem Spec.SameRun.work_eq (h : SameRun e s t) {w w' : Work d K} (hw : { w with delta_x := w'.delta_x, delta_y := w'.delta_y } = w') :
    SameRun e { s with work := w } { t with work := w' } := by
  obtain ⟨k1, k2, k3, k4, k5, k6, k7, k8⟩ := h
  exact ⟨k1, k2, k3, hw, k5, k6, k7, k8⟩

theorem Spec.SameRun.clear (h : SameRun e s t) : SameRun e (clearUpdateTime s) (clearUpdateTime t) := by
  have hb : t.work.clear_update_time = s.work.clear_update_time := by rw [← h.work]
  unfold clearUpdateTime
  rw [hb]
  split_ifs
  · obtain ⟨k1, k2, k3, k4, k5, k6, k7, k8⟩ := h
    refine ⟨k1, ?_, k3, ?_, k5, k6, k7, k8⟩
    · have := congrArg (fun i : Info K => ({ i with update_time := 0 } : Info K)) k2
      cases e <;> exact this
    · rw [← k4]
  · exact h

theorem Spec.SameRun.add (h : SameRun e s t) : SameRun e (addUpdateTime env s) (addUpdateTime env t) := by
  obtain ⟨k1, k2, k3, k4, k5, k6, k7, k8⟩ := h
  refine ⟨k1, ?_, k3, k4, k5, congrArg (· + 1) k6, k7, k8⟩
  have hc : env.clk s.ticks = env.clk t.ticks := by rw [k6]
  have := congrArg (fun i : Info K => ({ i with update_time := i.update_time + env.clk s.ticks } : Info K)) k2
  unfold addUpdateTime toc
  dsimp only
  rw [← hc]
  cases e <;> exact this

theorem Spec.SameRun.reset (h : SameRun e s t) : SameRun e { s with info := resetInfoE e cfg s.info } { t with info := resetInfo cfg t.info } := by
  obtain ⟨k1, k2, k3, k4, k5, k6, k7, k8⟩ := h
  have h3 : t.info.polish_time = 0 := by
    have := congrArg (·.polish_time) k2
    cases e <;> exact this.trans k3
  refine ⟨k1, ?_, ?_, k4, k5, k6, k7, k8⟩
  · unfold resetInfo resetInfoE
    dsimp only
    by_cases hp : cfg.profiling = true
    · rw [if_pos hp, if_pos hp]
      have := congrArg (fun i : Info K => ({ updateStatus { i with solve_time := 0, polish_time := 0 } St.unsolved with rho_updates := 0 } : Info K)) k2
      cases e
      · rw [if_neg (by decide)]
        refine Eq.trans ?_ (this.trans ?_)
        · rfl
        · unfold updateStatus maintained; simp [k3]
      · rw [if_pos rfl]
        refine Eq.trans ?_ (this.trans ?_)
        · rfl
        · unfold updateStatus maintained; simp [k3]
    · rw [if_neg hp, if_neg hp]
      have := congrArg (fun i : Info K => ({ updateStatus i St.unsolved with rho_updates := 0 } : Info K)) k2
      cases e
      · rw [if_neg (by decide)]; exact this
      · rw [if_pos rfl]; exact this
  · show (resetInfoE e cfg s.info).polish_time = 0
    unfold resetInfoE; dsimp only; split_ifs <;> exact k3

theorem Spec.SameRun.bothOn (h : SameRun e s t) : t.settings.rho_is_vec = s.settings.rho_is_vec ∧ t.settings.rho = s.settings.rho ∧
    t.work.rho_update_from_solve = s.work.rho_update_from_solve := by
  rw [h.settings, ← h.work]
  cases e <;> exact ⟨rfl, rfl, rfl⟩

theorem Spec.SameRun.rhoVec (h : SameRun e s t) : (updateRhoVec env s).2 = (updateRhoVec env t).2 ∧ SameRun e (updateRhoVec env s).1 (updateRhoVec env t).1 := by
  obtain ⟨k1, k2, k3, k4, k5, k6, k7, k8⟩ := h
  have hr : t.settings.rho = s.settings.rho := by rw [k1]; cases e <;> rfl
  have hst : ({ t.settings with rho := clampRho s.settings.rho } : Settings K) = ignored e { s.settings with rho := clampRho s.settings.rho } := by
    rw [k1]; cases e <;> rfl
  obtain ⟨dx, dy, hw⟩ : ∃ dx dy, t.work = { s.work with delta_x := dx, delta_y := dy } := ⟨_, _, k4.symm⟩
  unfold updateRhoVec setRhoVec
  dsimp only
  rw [hw, hr, hst]
  dsimp only
  split_ifs
  · exact ⟨rfl, rfl, k2, k3, rfl, k5, k6, k7, k8⟩
  · exact ⟨rfl, rfl, k2, k3, rfl, k5, k6, k7, k8⟩

/-- With unchanged constraint types there is nothing to refresh. -/
theorem rhoVec_kept (hs : Sync t) (hv : t.settings.rho_is_vec ≠ 0)
    (hk : vBoundsType t.work.data.l t.work.data.u (Const.rhoTol K) (Const.infval K) = t.work.constr_type) : updateRhoVec env t = (t, 0) := by
  have hc : clampRho t.settings.rho = t.settings.rho := by
    unfold clampRho cMin cMax
    have := hs.rho_lo
    have := hs.rho_hi
    split_ifs <;> linarith
  obtain ⟨v1, v2, _⟩ := hs.vec hv
  have hch : vTypeChanged t.work.constr_type t.work.constr_type = false := by
    unfold vTypeChanged; simp
  unfold updateRhoVec setRhoVec
  dsimp only
  rw [hk, hc, hch, ← v1, ← v2]
  rfl

/-- What `osqp_update_data_vec` does after the bounds have been accepted. -/
def vecTail (cfg : Cfg) (env : Env d K) (q_new : Option (Vec K d.n)) (rh : Bool) (s : Solver d K) : Solver d K × ℤ :=
    let r := if rh && decide (s.settings.rho_is_vec ≠ 0) then updateRhoVec env s else (s, 0)
    let s := r.1
    let ef := r.2
    let s := match q_new with
      | some q =>
        let q' := if s.settings.scaling ≠ 0 then vScale (vEwProd q s.work.scaling.D) s.work.scaling.c else q
        { s with work := { s.work with data := { s.work.data with q := q' } } }
      | none => s
    let s := { s with info := resetInfo cfg s.info }
    let s := if cfg.profiling then addUpdateTime env s else s
    (s, ef)

def vecTailE (e : Emb) (cfg : Cfg) (env : Env d K) (q_new : Option (Vec K d.n)) (rh : Bool) (s : Solver d K) : Solver d K × ℤ :=
    let r := if decide (e = .two) && rh && decide (s.settings.rho_is_vec ≠ 0) then updateRhoVec env s else (s, 0)
    let s := r.1
    let ef := r.2
    let s := match q_new with
      | some q =>
        let q' := if s.settings.scaling ≠ 0 then vScale (vEwProd q s.work.scaling.D) s.work.scaling.c else q
        { s with work := { s.work with data := { s.work.data with q := q' } } }
      | none => s
    let s := { s with info := resetInfoE e cfg s.info }
    let s := if cfg.profiling then addUpdateTime env s else s
    (s, ef)

theorem Spec.SameRun.vecTail (h : SameRun e s t) (q : Option (Vec K d.n)) (rh : Bool)
    (h1 : e = .one → rh = true → t.settings.rho_is_vec ≠ 0 → updateRhoVec env t = (t, 0)) :
    (vecTailE e cfg env q rh s).2 = (Osqp.vecTail cfg env q rh t).2 ∧ SameRun e (vecTailE e cfg env q rh s).1 (Osqp.vecTail cfg env q rh t).1 := by
  have hv := h.bothOn.1
  have key : ∃ a b c, (if decide (e = .two) && rh && decide (s.settings.rho_is_vec ≠ 0) then updateRhoVec env s else (s, 0)) = (a, c) ∧
      (if rh && decide (t.settings.rho_is_vec ≠ 0) then updateRhoVec env t else (t, 0)) = (b, c) ∧ SameRun e a b := by
    cases e with
    | two =>
      rw [hv]
      by_cases hc : (rh && decide (s.settings.rho_is_vec ≠ 0)) = true
      · have hc' : (decide (Emb.two = .two) && rh && decide (s.settings.rho_is_vec ≠ 0)) = true := by simpa using hc
        rw [if_pos hc, if_pos hc']
        obtain ⟨k1, k2⟩ := h.rhoVec (env := env)
        exact ⟨_, _, _, rfl, Prod.ext rfl k1.symm, k2⟩
      · have hc' : ¬ (decide (Emb.two = .two) && rh && decide (s.settings.rho_is_vec ≠ 0)) = true := by simpa using hc
        rw [if_neg hc, if_neg hc']
        exact ⟨_, _, _, rfl, rfl, h⟩
    | one =>
      rw [if_neg (by simp)]
      by_cases hc : (rh && decide (t.settings.rho_is_vec ≠ 0)) = true
      · rw [if_pos hc, h1 rfl (by simp at hc; exact hc.1) (by simp at hc; exact hc.2)]
        exact ⟨_, _, _, rfl, rfl, h⟩
      · rw [if_neg hc]
        exact ⟨_, _, _, rfl, rfl, h⟩
  obtain ⟨a, b, c, e1, e2, k⟩ := key
  unfold vecTailE Osqp.vecTail
  dsimp only
  rw [e1, e2]
  dsimp only
  have kq : SameRun e (match q with
      | some q => { a with work := { a.work with data := { a.work.data with q := if a.settings.scaling ≠ 0 then vScale (vEwProd q a.work.scaling.D) a.work.scaling.c else q } } }
      | none => a) (match q with
      | some q => { b with work := { b.work with data := { b.work.data with q := if b.settings.scaling ≠ 0 then vScale (vEwProd q b.work.scaling.D) b.work.scaling.c else q } } }
      | none => b) := by
    cases q with
    | none => exact k
    | some q =>
      refine k.work_eq ?_
      have hw := k.work
      rw [k.scal, ← hw]
  refine ⟨rfl, ?_⟩
  by_cases hp : cfg.profiling = true
  · rw [if_pos hp, if_pos hp]
    cases q <;> exact kq.reset.add
  · rw [if_neg hp, if_neg hp]
    cases q <;> exact kq.reset

theorem vecTailE_data (q : Option (Vec K d.n)) (rh : Bool) : (vecTailE .one cfg env q rh s).1.work.data.l = s.work.data.l ∧
    (vecTailE .one cfg env q rh s).1.work.data.u = s.work.data.u := by
  have e1 : (if decide (Emb.one = .two) && rh && decide (s.settings.rho_is_vec ≠ 0) then updateRhoVec env s else (s, 0)) = (s, 0) := by
    rw [if_neg (by simp)]
  unfold vecTailE
  dsimp only
  rw [e1]
  cases q <;> by_cases hp : cfg.profiling = true <;> simp only [hp] <;> exact ⟨rfl, rfl⟩

theorem Spec.SameRun.vec (h : SameRun e s t) (q : Option (Vec K d.n)) (l u : Option (Vec K d.m))
    (h1 : e = .one → l.isSome ∨ u.isSome → (osqpUpdateDataVecE e cfg env s q l u).2 = 0 → Sync t ∧ TypesKept s (osqpUpdateDataVecE e cfg env s q l u).1) :
    (osqpUpdateDataVecE e cfg env s q l u).2 = (osqpUpdateDataVec cfg env t q l u).2 ∧
    SameRun e (osqpUpdateDataVecE e cfg env s q l u).1 (osqpUpdateDataVec cfg env t q l u).1 := by
  obtain ⟨c, hc⟩ : ∃ c, c = if cfg.profiling then clearUpdateTime s else s := ⟨_, rfl⟩
  obtain ⟨b, hb⟩ : ∃ b, b = if cfg.profiling then clearUpdateTime t else t := ⟨_, rfl⟩
  have k : SameRun e c b := by rw [hc, hb]; split_ifs; exacts [h.clear, h]
  have hsync : Sync t → Sync b := fun hs => hs.congr (by rw [hb]; unfold clearUpdateTime; split_ifs <;> rfl)
  have hct : c.work.constr_type = s.work.constr_type ∧ c.settings.rho_is_vec = s.settings.rho_is_vec := by
    rw [hc]; unfold clearUpdateTime; split_ifs <;> exact ⟨rfl, rfl⟩
  have hsc := k.scal
  obtain ⟨dx, dy, hw⟩ : ∃ dx dy, b.work = { c.work with delta_x := dx, delta_y := dy } := ⟨_, _, k.work.symm⟩
  obtain ⟨sc, hsc1⟩ : ∃ sc : Vec K d.m → Vec K d.m, ∀ v : Vec K d.m, (if c.settings.scaling ≠ 0 then vEwProd v c.work.scaling.E else v) = sc v :=
    ⟨_, fun _ => rfl⟩
  have hsc2 : ∀ v : Vec K d.m, (if b.settings.scaling ≠ 0 then vEwProd v b.work.scaling.E else v) = sc v := by
    intro v; rw [hsc, hw]; exact hsc1 v
  have go : ∀ (ok ok' : Bool) (s1 s2 t1 t2 : Solver d K), osqpUpdateDataVecE e cfg env s q l u = (if !ok then (s1, Err.dataValidation) else
        vecTailE e cfg env q true s2) → osqpUpdateDataVec cfg env t q l u = (if !ok' then (t1, Err.dataValidation) else Osqp.vecTail cfg env q true t2) →
      SameRun e s1 t1 → SameRun e s2 t2 → ok = ok' → (l.isSome ∨ u.isSome) → (Sync b → Sync t2) →
      (t2.work.constr_type = c.work.constr_type ∧ t2.settings.rho_is_vec = c.settings.rho_is_vec) →
      (osqpUpdateDataVecE e cfg env s q l u).2 = (osqpUpdateDataVec cfg env t q l u).2 ∧
      SameRun e (osqpUpdateDataVecE e cfg env s q l u).1 (osqpUpdateDataVec cfg env t q l u).1 := by
    intro ok ok' s1 s2 t1 t2 e1 e2 k1 k2 ho hl hs ht
    subst ho
    rw [e1] at h1
    rw [e1, e2]
    cases ok with
    | false => exact ⟨rfl, k1⟩
    | true =>
      simp only [Bool.not_true, Bool.false_eq_true, if_false] at h1 ⊢
      refine k2.vecTail q true ?_
      rintro rfl _ hv
      have h0 : (vecTailE .one cfg env q true s2).2 = 0 := by
        unfold vecTailE; dsimp only; rw [if_neg (by simp)]
      obtain ⟨y1, y2⟩ := h1 rfl hl h0
      refine rhoVec_kept (hs (hsync y1)) hv ?_
      have := y2 (by rw [← hct.2, ← ht.2]; exact hv)
      rw [(vecTailE_data q true).1, (vecTailE_data q true).2] at this
      rw [ht.1, hct.1, ← this, ← k2.work]
  cases l with
  | none =>
    cases u with
    | none =>
      have a1 : osqpUpdateDataVecE e cfg env s q none none = vecTailE e cfg env q false c := by rw [hc]; rfl
      have a2 : osqpUpdateDataVec cfg env t q none none = Osqp.vecTail cfg env q false b := by rw [hb]; rfl
      rw [a1, a2]
      exact k.vecTail q false (fun _ h => absurd h (by decide))
    | some u =>
      have a1 : osqpUpdateDataVecE e cfg env s q none (some u) = if !vAllLeq c.work.data.l (sc u) then
          ({ c with work := { c.work with delta_y := sc u } }, Err.dataValidation) else
          vecTailE e cfg env q true { c with work := { c.work with delta_y := c.work.data.u, data := { c.work.data with u := sc u } } } := by rw [← hsc1, hc]; rfl
      have a2 : osqpUpdateDataVec cfg env t q none (some u) = if !vAllLeq b.work.data.l (sc u) then
          ({ b with work := { b.work with delta_y := sc u } }, Err.dataValidation) else
          Osqp.vecTail cfg env q true { b with work := { b.work with delta_y := b.work.data.u, data := { b.work.data with u := sc u } } } := by
        rw [← hsc2, hb]; rfl
      refine go _ _ _ _ _ _ a1 a2 (k.work_eq (by rw [hw])) (k.work_eq (by rw [hw])) (by rw [hw]) (by simp) ?_ ⟨by rw [hw], k.bothOn.1⟩
      intro hs; exact ⟨hs.P, hs.A, hs.sigma, hs.rho_lo, hs.rho_hi, hs.vec, hs.sca⟩
  | some l =>
    cases u with
    | none =>
      have a1 : osqpUpdateDataVecE e cfg env s q (some l) none = if !vAllLeq (sc l) c.work.data.u then
          ({ c with work := { c.work with z_prev := sc l } }, Err.dataValidation) else
          vecTailE e cfg env q true { c with work := { c.work with z_prev := c.work.data.l, data := { c.work.data with l := sc l } } } := by rw [← hsc1, hc]; rfl
      have a2 : osqpUpdateDataVec cfg env t q (some l) none = if !vAllLeq (sc l) b.work.data.u then
          ({ b with work := { b.work with z_prev := sc l } }, Err.dataValidation) else
          Osqp.vecTail cfg env q true { b with work := { b.work with z_prev := b.work.data.l, data := { b.work.data with l := sc l } } } := by
        rw [← hsc2, hb]; rfl
      refine go _ _ _ _ _ _ a1 a2 (k.work_eq (by rw [hw])) (k.work_eq (by rw [hw])) (by rw [hw]) (by simp) ?_ ⟨by rw [hw], k.bothOn.1⟩
      intro hs; exact ⟨hs.P, hs.A, hs.sigma, hs.rho_lo, hs.rho_hi, hs.vec, hs.sca⟩
    | some u =>
      have a1 : osqpUpdateDataVecE e cfg env s q (some l) (some u) = if !vAllLeq (sc l) (sc u) then
          ({ c with work := { c.work with z_prev := sc l, delta_y := sc u } }, Err.dataValidation) else
          vecTailE e cfg env q true { c with work := { c.work with z_prev := c.work.data.l, delta_y := c.work.data.u, data := { c.work.data with l := sc l, u := sc u } } } := by rw [← hsc1, ← hsc1, hc]; rfl
      have a2 : osqpUpdateDataVec cfg env t q (some l) (some u) = if !vAllLeq (sc l) (sc u) then
          ({ b with work := { b.work with z_prev := sc l, delta_y := sc u } }, Err.dataValidation) else
          Osqp.vecTail cfg env q true { b with work := { b.work with z_prev := b.work.data.l, delta_y := b.work.data.u, data := { b.work.data with l := sc l, u := sc u } } } := by
        rw [← hsc2, ← hsc2, hb]; rfl
      refine go _ _ _ _ _ _ a1 a2 (k.work_eq (by rw [hw])) (k.work_eq (by rw [hw])) rfl (by simp) ?_ ⟨by rw [hw], k.bothOn.1⟩
      intro hs; exact ⟨hs.P, hs.A, hs.sigma, hs.rho_lo, hs.rho_hi, hs.vec, hs.sca⟩

/-- Both calls are undefined, or both return the same code in related states. -/
def Alike (e : Emb) (a b : Option (Solver d K × ℤ)) : Prop :=
  (a = none ∧ b = none) ∨ ∃ s t c, a = some (s, c) ∧ b = some (t, c) ∧ SameRun e s t

theorem Spec.SameRun.mat (h : SameRun .two s t) (p a : MatUpd K) :
    Alike .two (osqpUpdateDataMatE cfg env s p a) (osqpUpdateDataMat cfg env t p a) := by
  obtain ⟨c, hc⟩ : ∃ c, c = if cfg.profiling then clearUpdateTime s else s := ⟨_, rfl⟩
  obtain ⟨b, hb⟩ : ∃ b, b = if cfg.profiling then clearUpdateTime t else t := ⟨_, rfl⟩
  have k : SameRun .two c b := by rw [hc, hb]; split_ifs; exacts [h.clear, h]
  have hsc := k.scal
  obtain ⟨dx, dy, hw⟩ : ∃ dx dy, b.work = { c.work with delta_x := dx, delta_y := dy } := ⟨_, _, k.work.symm⟩
  unfold osqpUpdateDataMatE osqpUpdateDataMat
  dsimp only
  rw [← hc, ← hb]
  by_cases h1 : matUpdBad d.P.nnz p = true
  · rw [if_pos h1, if_pos h1]; exact .inr ⟨_, _, _, rfl, rfl, k⟩
  rw [if_neg h1, if_neg h1]
  by_cases h2 : matUpdBad d.A.nnz a = true
  · rw [if_pos h2, if_pos h2]; exact .inr ⟨_, _, _, rfl, rfl, k⟩
  rw [if_neg h2, if_neg h2]
  clear hb
  obtain ⟨bs, bi, bw, bo, bt, bp, bh⟩ := b
  dsimp only at hw hsc ⊢
  subst hw
  have hbs : bs = { c.settings with polishing := 0 } := k.settings
  subst hbs
  dsimp only
  generalize (if c.settings.scaling ≠ 0 then unscaleData c.work.scaling c.work.data else c.work.data) = D0
  cases h3 : matUpdApply D0.P p with
  | none => exact .inl ⟨rfl, rfl⟩
  | some P =>
    cases h4 : matUpdApply D0.A a with
    | none => exact .inl ⟨rfl, rfl⟩
    | some A =>
      dsimp only
      generalize (if c.settings.scaling ≠ 0 then scaleData env c.settings.scaling { D0 with P := P, A := A } else
        ({ D0 with P := P, A := A }, c.work.scaling)) = r
      generalize (if c.settings.scaling ≠ 0 then linsysUpdateMat env c.work.linsys r.1 none d.P.nnz none d.A.nnz
        else linsysUpdateMat env c.work.linsys r.1 p.idx (matUpdCnt d.P.nnz p) a.idx (matUpdCnt d.A.nnz a)) = upd
      cases upd with
      | none => exact .inl ⟨rfl, rfl⟩
      | some x =>
        obtain ⟨ls, ef⟩ := x
        dsimp only
        have kk := (k.work_eq (w := { c.work with data := r.1, scaling := r.2, linsys := ls })
          (w' := { c.work with delta_x := dx, delta_y := dy, data := r.1, scaling := r.2, linsys := ls }) rfl).reset (cfg := cfg)
        by_cases hp : cfg.profiling = true
        · rw [if_pos hp, if_pos hp]; exact .inr ⟨_, _, _, rfl, rfl, kk.add⟩
        · rw [if_neg hp, if_neg hp]; exact .inr ⟨_, _, _, rfl, rfl, kk⟩

theorem Spec.SameRun.rho (h : SameRun e s t) (r : K) :
    (osqpUpdateRho cfg env s r).2 = (osqpUpdateRho cfg env t r).2 ∧ SameRun e (osqpUpdateRho cfg env s r).1 (osqpUpdateRho cfg env t r).1 := by
  unfold osqpUpdateRho
  by_cases h1 : r ≤ 0
  · rw [if_pos h1, if_pos h1]; exact ⟨rfl, h⟩
  rw [if_neg h1, if_neg h1]
  dsimp only
  rw [h.bothOn.2.2]
  obtain ⟨c, hc⟩ : ∃ c, c = if (cfg.profiling && !s.work.rho_update_from_solve) = true then clearUpdateTime s else s := ⟨_, rfl⟩
  obtain ⟨b, hb⟩ : ∃ b, b = if (cfg.profiling && !s.work.rho_update_from_solve) = true then clearUpdateTime t else t := ⟨_, rfl⟩
  have k : SameRun e c b := by rw [hc, hb]; split_ifs; exacts [h.clear, h]
  rw [← hc, ← hb]
  have hv := k.bothOn.1
  have hd : ∀ u : Solver d K, (setRho u r).work.rho_update_from_solve = u.work.rho_update_from_solve := by
    intro u; unfold setRho; dsimp only; split_ifs <;> rfl
  have k2 : SameRun e (setRho c r) (setRho b r) := by
    obtain ⟨k1, k2, k3, k4, k5, k6, k7, k8⟩ := k
    have hst : ({ b.settings with rho := clampRho r } : Settings K) = ignored e { c.settings with rho := clampRho r } := by
      rw [k1]; cases e <;> rfl
    obtain ⟨dx, dy, hw⟩ : ∃ dx dy, b.work = { c.work with delta_x := dx, delta_y := dy } := ⟨_, _, k4.symm⟩
    unfold setRho
    dsimp only
    by_cases h0 : c.settings.rho_is_vec = 0
    · rw [if_neg (show ¬ c.settings.rho_is_vec ≠ 0 from fun h => h h0), if_neg (show ¬ b.settings.rho_is_vec ≠ 0 from fun h => h (hv.trans h0))]
      exact ⟨hst, k2, k3, by rw [hw], k5, k6, k7, k8⟩
    · rw [if_pos (show c.settings.rho_is_vec ≠ 0 from h0), if_pos (show b.settings.rho_is_vec ≠ 0 by rw [hv]; exact h0)]
      exact ⟨hst, k2, k3, by rw [hw], k5, k6, k7, k8⟩
  have hr := k2.bothOn.2.1
  obtain ⟨dx, dy, hw⟩ : ∃ dx dy, (setRho b r).work = { (setRho c r).work with delta_x := dx, delta_y := dy } := ⟨_, _, k2.work.symm⟩
  have hl : linsysUpdateRho env (setRho b r).work.linsys (setRho b r).work.rho_vec (setRho b r).settings.rho =
      linsysUpdateRho env (setRho c r).work.linsys (setRho c r).work.rho_vec (setRho c r).settings.rho := by rw [hr, hw]
  rw [hl]
  generalize linsysUpdateRho env (setRho c r).work.linsys (setRho c r).work.rho_vec (setRho c r).settings.rho = x
  have k3 := k2.work_eq (w := { (setRho c r).work with linsys := x.1 }) (w' := { (setRho b r).work with linsys := x.1 }) (by rw [hw])
  refine ⟨rfl, ?_⟩
  have hbc : (setRho b r).work.rho_update_from_solve = (setRho c r).work.rho_update_from_solve := by rw [hd, hd, k.bothOn.2.2]
  by_cases hp : (cfg.profiling && !(setRho c r).work.rho_update_from_solve) = true
  · rw [if_pos hp, if_pos (by rw [hbc]; exact hp)]; exact k3.add
  · rw [if_neg hp, if_neg (by rw [hbc]; exact hp)]; exact k3

def warmFlag (s : Solver d K) : Solver d K := if s.settings.warm_starting = 0 then { s with settings := { s.settings with warm_starting := 1 } } else s
def warmX (x : Vec K d.n) (s : Solver d K) : Solver d K :=
  { s with work := { s.work with x := if s.settings.scaling ≠ 0 then vEwProd x s.work.scaling.Dinv else x } }
def warmY (y : Vec K d.m) (s : Solver d K) : Solver d K :=
  { s with work := { s.work with y := if s.settings.scaling ≠ 0 then vScale (vEwProd y s.work.scaling.Einv) s.work.scaling.c else y } }
def warmZ (s : Solver d K) : Solver d K := { s with work := { s.work with z := spMul d.A s.work.data.A s.work.x } }

theorem Spec.SameRun.flag (h : SameRun e s t) : SameRun e (warmFlag s) (warmFlag t) := by
  have hws : t.settings.warm_starting = s.settings.warm_starting := by rw [h.settings]; cases e <;> rfl
  unfold warmFlag
  by_cases h0 : s.settings.warm_starting = 0
  · rw [if_pos h0, if_pos (hws.trans h0)]
    obtain ⟨k1, k2, k3, k4, k5, k6, k7, k8⟩ := h
    refine ⟨?_, k2, k3, k4, k5, k6, k7, k8⟩
    dsimp only
    rw [k1]; cases e <;> rfl
  · rw [if_neg h0, if_neg (by rw [hws]; exact h0)]; exact h

theorem Spec.SameRun.warm_x (h : SameRun e s t) (x : Vec K d.n) : SameRun e (warmX x s) (warmX x t) := by
  refine h.work_eq ?_
  rw [h.scal, ← h.work]

theorem Spec.SameRun.warm_y (h : SameRun e s t) (y : Vec K d.m) : SameRun e (warmY y s) (warmY y t) := by
  refine h.work_eq ?_
  rw [h.scal, ← h.work]

theorem Spec.SameRun.warm_z (h : SameRun e s t) : SameRun e (warmZ s) (warmZ t) := by
  refine h.work_eq ?_
  rw [← h.work]

theorem Spec.SameRun.warm (h : SameRun e s t) (x : Option (Vec K d.n)) (y : Option (Vec K d.m)) :
    (osqpWarmStart s x y).2 = (osqpWarmStart t x y).2 ∧ SameRun e (osqpWarmStart s x y).1 (osqpWarmStart t x y).1 := by
  refine ⟨rfl, ?_⟩
  cases x with
  | none =>
    cases y with
    | none => exact h.flag
    | some y => exact h.flag.warm_y y
  | some x =>
    cases y with
    | none => exact (h.flag.warm_x x).warm_z
    | some y => exact ((h.flag.warm_x x).warm_y y).warm_z

theorem Spec.SameRun.cold (h : SameRun e s t) : SameRun e (coldStart s) (coldStart t) := by
  refine h.work_eq ?_
  rw [← h.work]

theorem validate_off (n : Settings K) :
    validateSettings cfg { n with polishing := if n.polishing = 1 then 0 else n.polishing } false = validateSettings cfg n false := by
  unfold validateSettings
  by_cases hp : n.polishing = 1
  · simp [hp]
  · simp [hp]

theorem validate_pol {n : Settings K} (h : ¬ validateSettings cfg n false = true) : n.polishing = 0 ∨ n.polishing = 1 := by
  by_contra hc
  push_neg at hc
  apply h
  unfold validateSettings
  simp [hc.1, hc.2]

theorem Spec.SameRun.sett (h : SameRun e s t) (n : Settings K) :
    (osqpUpdateSettings cfg s (some n)).2 = (osqpUpdateSettings cfg t (some { n with polishing := if n.polishing = 1 then 0 else n.polishing })).2 ∧
    SameRun e (osqpUpdateSettings cfg s (some n)).1 (osqpUpdateSettings cfg t (some { n with polishing := if n.polishing = 1 then 0 else n.polishing })).1 := by
  unfold osqpUpdateSettings
  dsimp only
  rw [validate_off]
  by_cases hv : validateSettings cfg n false = true
  · rw [if_pos hv, if_pos hv]; exact ⟨rfl, h⟩
  · rw [if_neg hv, if_neg hv]
    have hp : (if n.polishing = 1 then 0 else n.polishing) = 0 := by
      rcases validate_pol hv with h | h <;> simp [h]
    rw [hp]
    obtain ⟨k1, k2, k3, k4, k5, k6, k7, k8⟩ := h
    refine ⟨rfl, ?_, k2, k3, k4, k5, k6, k7, k8⟩
    dsimp only
    rw [k1]
    cases e <;> rfl

/-! ## One call -/

theorem alike_of {a b : Solver d K × ℤ} (h : a.2 = b.2 ∧ SameRun e a.1 b.1) : Alike e (some a) (some b) :=
  .inr ⟨a.1, b.1, a.2, rfl, by rw [h.1], h.2⟩

theorem Spec.SameRun.step (h : SameRun e s t) (hi : 0 < s.settings.max_iter.toNat) (hs : Sync t) (op : Op d K) (hx : op.exists e)
    (h1 : e = .one → ∀ q l u, op = .updateDataVec q l u → l.isSome ∨ u.isSome → (osqpUpdateDataVecE e cfg env s q l u).2 = 0 →
      TypesKept s (osqpUpdateDataVecE e cfg env s q l u).1) :
    Alike e (apiStepE e cfg env s op) (apiStep cfg env t (offOp op)) := by
  cases op with
  | solve => exact alike_of (h.solve hi)
  | updateDataVec q l u => exact alike_of (h.vec q l u fun he hl hc => ⟨hs, h1 he q l u rfl hl hc⟩)
  | updateDataMat p a =>
    have he : e = .two := hx
    subst he
    exact h.mat p a
  | updateRho r =>
    have he : e = .two := hx
    subst he
    exact alike_of (h.rho r)
  | updateSettings n =>
    cases n with
    | none => exact alike_of ⟨rfl, h⟩
    | some n => exact alike_of (h.sett n)
  | warmStart x y => exact alike_of (h.warm x y)
  | coldStart => exact alike_of ⟨rfl, h.cold⟩
  | getSolution o => exact alike_of (a := ((storeSolutionE s o).1, 0)) ⟨rfl, (h.store o o).1⟩

end Osqp
