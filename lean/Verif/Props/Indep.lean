import Verif.Lemmas.Indep
import Verif.Lemmas.Adapt
import Verif.Spec.Indep
import Verif.Cex.Stale

/-!
# C27: without warm starting a solve does not depend on what came before
-/

set_option linter.unusedSectionVars false
namespace Osqp
open Spec
variable {K : Type*} [Field K] [LinearOrder K] [IsStrictOrderedRing K] {d : Dims} {cfg : Cfg} {env : Env d K}
  {D₀ D₁ : Data d K} {st₀ st₁ : Settings K} {U V : Data d K} {s t s' t' : Solver d K}

theorem calm_of (h : Inv cfg st₀ U s) (hu : Undisturbed cfg env s) : Calm cfg env s.settings.max_iter (solveEntry cfg s) := by
  intro j L hj run
  obtain ⟨h1, h2, h3⟩ := hu
  have hj1 : 1 ≤ j := (head_of_runs h run).one
  refine ⟨⟨?_, ?_⟩, ?_⟩
  · unfold intrCheck
    by_cases hi : cfg.interrupt = true
    · rw [if_pos hi]; exact h2 hi _
    · rw [if_neg hi]
  · by_contra hc
    refine h1 j ⟨hj1, hj, L, run, ?_⟩
    rw [Bool.not_eq_false] at hc
    unfold timeCheck at hc
    by_cases hp : cfg.profiling = true
    · rw [if_pos hp] at hc
      simp only [toc, itAdmm, intrCheck_settings, intrCheck_work, intrCheck_ticks, intrCheck_info, admmStep_settings,
        admmStep_first_run, admmStep_ticks, admmStep_info, Bool.and_eq_true, decide_eq_true_eq] at hc
      exact ⟨hp, hc.1, hc.2⟩
    · rw [if_neg hp] at hc; cases hc
  · obtain ⟨r, i, e⟩ := (fromCall (head_of_runs h run).within).settings
    unfold NotTimed
    rw [e]; exact h3

theorem entry_er0 (k : Bool) (hs : Inv cfg st₀ U s) (ht : Inv cfg st₁ V t) (h0 : d.m = 0 → s.work.scaled_prim_res = t.work.scaled_prim_res)
    (h : SameProblem s t) (hw : s.settings.warm_starting = 0) (hk : s.settings.adaptive_rho = 3 → s.work.last_rel_kkt = t.work.last_rel_kkt)
    (hst : k = true → stOf s = stOf t) : er0 k (solveEntry cfg s).s = er0 k (solveEntry cfg t).s := by
  have e1 : ∀ s : Solver d K, s.settings.warm_starting = 0 → er0 k (solveEntry cfg s).s = er0 k (coldStart s) := by
    intro s hw
    have a1 : ∀ a : Solver d K, a.settings = s.settings → er0 k (coldStart a) = er0 k (coldStart s) →
        er0 k (if a.settings.warm_starting = 0 then coldStart a else a) = er0 k (coldStart s) := by
      intro a h1 h2; rw [h1, if_pos hw]; exact h2
    unfold solveEntry
    dsimp only
    apply a1
    · split_ifs <;> rfl
    · split_ifs <;> rfl
  rw [e1 s hw, e1 t (by rw [← h.settings]; exact hw)]
  obtain ⟨g1, g2, g3, g4, g5, g6, g7, g8⟩ := h
  have hA : d.m = 0 → s.work.Aty = t.work.Aty := fun hm => by rw [hs.aty hm, ht.aty hm]
  have hX : d.m = 0 → s.work.Ax = t.work.Ax := fun hm => by funext i; exact absurd i.2 (by omega)
  have hsv : (if k = true then s.info.status_val else 0) = (if k = true then t.info.status_val else 0) := by
    split_ifs with hk1
    · exact congrArg Prod.fst (hst hk1)
    · rfl
  have hss : (if k = true then s.info.status else "") = (if k = true then t.info.status else "") := by
    split_ifs with hk1
    · exact congrArg Prod.snd (hst hk1)
    · rfl
  have hl : (if s.settings.adaptive_rho = 3 then s.work.last_rel_kkt else 0) = (if s.settings.adaptive_rho = 3 then t.work.last_rel_kkt else 0) := by
    split_ifs with h3
    · exact hk h3
    · rfl
  unfold er0 er1 noScratch noRes noInfo er coldStart
  dsimp only
  rw [hsv, hss, hl, ← g1, g2, g3, g4, g5, g6, g7, g8]
  by_cases hm : d.m = 0
  · simp only [hm, if_true]; rw [hA hm, hX hm, h0 hm]
  · simp only [hm, if_false]

theorem SameResult.of {a b : Solver d K} (h : er true a = er true b) (hx : a.solution.map (·.x) = b.solution.map (·.x))
    (hy : a.solution.map (·.y) = b.solution.map (·.y)) (hs : a.info.status_val ≠ St.nonCvx → a.solution = b.solution) : SameResult a b :=
  ⟨congrArg (fun t => t.settings) h, congrArg (fun t => t.work.x) h, congrArg (fun t => t.work.y) h, congrArg (fun t => t.work.z) h,
   congrArg (fun t => t.info.status_val) h, congrArg (fun t => t.info.status) h, congrArg (fun t => t.info.iter) h,
   congrArg (fun t => t.info.obj_val) h, congrArg (fun t => t.info.dual_obj_val) h, congrArg (fun t => t.info.duality_gap) h,
   congrArg (fun t => t.info.prim_res) h, congrArg (fun t => t.info.dual_res) h, congrArg (fun t => t.info.rel_kkt_error) h, hx, hy, hs⟩

theorem er_true_of {a b : Solver d K} (h : er false a = er false b) (hs : stOf a = stOf b) : er true a = er true b := by
  have e : ∀ a : Solver d K, er true a = { er false a with info := { (er false a).info with status := (stOf a).2, status_val := (stOf a).1 } } := fun _ => rfl
  rw [e a, e b, h, hs]

/-- **C27 (partial).** With warm starting off, two solves of the same problem with the same settings and the same current
step size end alike, whatever the two solvers did before: same return code and, if it is 0, same iterate, status,
iteration count, objective values, residuals, new step size and stored solution.
Missing: a solve that used up all its iterations without passing a check keeps the status of the previous
solve, so then the status before the call must agree (`c27_counterexample`); and with the KKT-error based adaptation
the KKT error of the last adaptation, which earlier solves leave behind, must agree. -/
theorem c27_independent_partial (hsq : SqrtPos env) (hist : Hist cfg env D₀ st₀ U s) (hist' : Hist cfg env D₁ st₁ V t)
    (same : SameProblem s t) (cold : s.settings.warm_starting = 0)
    (alloc : s.solution.isSome = t.solution.isSome)
    (kkt : s.settings.adaptive_rho = 3 → s.work.last_rel_kkt = t.work.last_rel_kkt)
    (status : s.info.status_val = t.info.status_val ∨ ¬ AllDone cfg env s)
    (us : Undisturbed cfg env s) (ut : Undisturbed cfg env t) :
    (osqpSolve cfg env s).2 = (osqpSolve cfg env t).2 ∧
    ((osqpSolve cfg env s).2 = 0 → SameResult (osqpSolve cfg env s).1 (osqpSolve cfg env t).1) := by
  have is := hist_inv hsq hist
  have it := hist_inv hsq hist'
  have h0 : d.m = 0 → s.work.scaled_prim_res = t.work.scaled_prim_res := fun hm => by rw [spres0_hist hsq hist hm, spres0_hist hsq hist' hm]
  have hmax := entry_maxIter (cfg := cfg) is
  have es : (solveEntry cfg s).s.settings.max_iter = s.settings.max_iter := by simp
  have et : (solveEntry cfg t).s.settings.max_iter = s.settings.max_iter := by rw [same.settings]; simp
  obtain ⟨n, hn⟩ : ∃ n, s.settings.max_iter.toNat = n + 1 := ⟨s.settings.max_iter.toNat - 1, by rw [es] at hmax; omega⟩
  have hn' : ((n + 1 : ℕ) : ℤ) = s.settings.max_iter := by rw [← hn]; rw [es] at hmax; omega
  have cs := calm_of is us
  have ct := calm_of it ut
  rw [← same.settings] at ct
  rw [← hn'] at cs ct
  have key : (∃ a b, admmLoop cfg env (n + 1) 1 (solveEntry cfg s) = .exit a ∧ admmLoop cfg env (n + 1) 1 (solveEntry cfg t) = .exit b) ∨
      ∃ j L M, admmLoop cfg env (n + 1) 1 (solveEntry cfg s) = .done j L ∧ admmLoop cfg env (n + 1) 1 (solveEntry cfg t) = .done j M ∧
        er true L.s = er true M.s ∧ L.canPrint = M.canPrint ∧ L.canCheck = M.canCheck := by
    rcases status with h | h
    · have hst : stOf s = stOf t := by
        have a := is.status.1; have b := it.status.1
        rw [h, b] at a
        exact Prod.ext h (Option.some.inj a).symm
      have r := er_loop_first cfg env true n cs ct (entry_er0 (cfg := cfg) true is it h0 same cold kkt (fun _ => hst))
      cases eL : admmLoop cfg env (n + 1) 1 (solveEntry cfg s) <;> cases eM : admmLoop cfg env (n + 1) 1 (solveEntry cfg t) <;> rw [eL, eM] at r
      · obtain ⟨rfl, a, b, c, _⟩ := r
        exact Or.inr ⟨_, _, _, rfl, rfl, a, b, c⟩
      · exact r.elim
      · exact r.elim
      · exact Or.inl ⟨_, _, rfl, rfl⟩
    · have r := er_loop_first cfg env false n cs ct (entry_er0 (cfg := cfg) false is it h0 same cold kkt (fun h => by cases h))
      cases eL : admmLoop cfg env (n + 1) 1 (solveEntry cfg s) <;> cases eM : admmLoop cfg env (n + 1) 1 (solveEntry cfg t) <;> rw [eL, eM] at r
      · obtain ⟨rfl, a, b, c, hs | ht⟩ := r
        · exact Or.inr ⟨_, _, _, rfl, rfl, er_true_of a hs, b, c⟩
        · exfalso
          rcases (admmLoop_ind cfg env (Runs cfg env (solveEntry cfg s)) (fun it L L' h e => .step h e) (n + 1) 1 _ .start).1 _ _ eL with ⟨h1, h2⟩ | ⟨h1, h2, _⟩
          · rw [h1, add_comm, hn'] at h2; exact h ⟨_, h2⟩
          · rw [ht] at h2; exact absurd h2 (lt_irrefl _)
      · exact r.elim
      · exact r.elim
      · exact Or.inl ⟨_, _, rfl, rfl⟩
  unfold osqpSolve
  dsimp only
  rw [es, et, hn]
  rcases key with ⟨a, b, e1, e2⟩ | ⟨j, L, M, e1, e2, hr, hp, hc⟩
  · rw [e1, e2]
    exact ⟨rfl, fun h => absurd h (one_ne_zero (α := ℤ))⟩
  · rw [e1, e2]
    dsimp only
    have hl := er_postLoop cfg env j hr hp hc
    have sols : (postLoop cfg env j L).solution.isSome = (postLoop cfg env j M).solution.isSome := by
      have w1 := within_postTail (cfg := cfg) (env := env) (checked (by omega) (loop_end (entry_bounds is) (head_entry (env := env) is) e1)).within
      have w2 := within_postTail (cfg := cfg) (env := env) (checked (by omega) (loop_end (entry_bounds it) (head_entry (env := env) it) e2)).within
      rw [postLoop_eq, postLoop_eq, w1.sol, w2.sol]
      simpa using alloc
    obtain ⟨f1, f2, f3⟩ := er_finish cfg env hl sols
    exact ⟨f1, fun h => SameResult.of f2 (f3 h).1 (f3 h).2.1 (f3 h).2.2⟩

end Osqp
