import Verif.Lemmas.Cert

/-!
# What the user sees after `osqp_solve` returned 0
-/

set_option linter.unusedSectionVars false
namespace Osqp
open Spec Matrix
variable {K : Type*} [Field K] [LinearOrder K] [IsStrictOrderedRing K] {d : Dims}

/-- `s'` is what `osqp_solve` returns when `t` is the state before polishing. -/
structure Seen (cfg : Cfg) (env : Env d K) (t s' : Solver d K) : Prop where
  settings : s'.settings = t.settings
  data : s'.work.data = t.work.data
  scaling : s'.work.scaling = t.work.scaling
  status : s'.info.status_val = t.info.status_val
  info : s'.info = (postTiming cfg (postPolish cfg env t).1).info
  pol : PolKept t (postPolish cfg env t).1 ∨ PolDone t (postPolish cfg env t).1
  sol : s'.solution = (storeOwnSolution (postTiming cfg (postPolish cfg env t).1)).solution
  work : s'.work = (storeOwnSolution (postTiming cfg (postPolish cfg env t).1)).work

theorem seen_of_finish {cfg : Cfg} {env : Env d K} {t s' : Solver d K} (h0 : d.m = 0 → t.work.Aty = vSet 0)
    (e : finish cfg env t = (s', 0)) : Seen cfg env t s' := by
  have hs := finish_ok e
  subst hs
  refine ⟨by simp, by simp, by simp, by simp, by simp, polish_cases cfg env t h0, by simp, by simp⟩

theorem Final.within {cfg : Cfg} {env : Env d K} {s0 : Solver d K} {k : ℕ} {it : ℤ} {t : Solver d K}
    (h : Final cfg env s0 k it t) : Within s0 t := by
  have hr : ∀ p : Solver d K, Within s0 p → Within s0 (postRho cfg env p) := fun p hp => by
    apply hp.of_frame <;> simp [core]
  have hc : ∀ p : Solver d K, ∀ b, Within s0 p → Within s0 (ctState b p) := fun p b hp => by
    apply hp.of_frame <;> simp [core]
  cases h with
  | exact s1 within _ _ _ _ eq => rw [eq]; exact hr _ (within_postObj (within_checkTermination _ within))
  | approx s1 within _ _ _ _ eq => rw [eq]; exact hr _ (within_checkTermination _ within)
  | limit s1 v within _ _ _ _ _ eq => rw [eq]; exact hr _ (within_setStatus _ (hc _ _ within))
  | old p within _ _ _ _ _ eq => rw [eq]; exact hr _ (within_postObj within)

theorem solve_seen {cfg : Cfg} {env : Env d K} {st₀ : Settings K} {U : Data d K} {s s' : Solver d K} (h : Inv cfg st₀ U s)
    (e : osqpSolve cfg env s = (s', 0)) :
    ∃ it t, Final cfg env (solveEntry cfg s).s s.settings.max_iter.toNat it t ∧
      Count cfg env (solveEntry cfg s).s s.settings.max_iter.toNat it t.info.iter ∧ Seen cfg env t s' := by
  obtain ⟨it, t, hf, hn, hfin⟩ := solve_final h e
  exact ⟨it, t, hf, hn, seen_of_finish hf.within.aty hfin⟩

theorem effSc_congr {s t : Solver d K} (h1 : t.settings.scaling = s.settings.scaling) (h2 : t.work.scaling = s.work.scaling) :
    effSc t = effSc s := by unfold effSc; rw [h1, h2]

theorem rowScale_congr {s t : Solver d K} (h1 : t.settings.scaling = s.settings.scaling) (h2 : t.work.scaling = s.work.scaling) :
    rowScale t = rowScale s := by unfold rowScale; rw [h1, h2]

theorem costScale_congr {s t : Solver d K} (h1 : t.settings.scaling = s.settings.scaling) (h2 : t.work.scaling = s.work.scaling) :
    costScale t = costScale s := by unfold costScale; rw [h1, h2]

/-- Facts about `Within` seen from the state in which `osqp_solve` was called. -/
structure FromCall (s t : Solver d K) : Prop where
  data : t.work.data = s.work.data
  scaling : t.work.scaling = s.work.scaling
  settings : ∃ r i, t.settings = { s.settings with rho := r, adaptive_rho_interval := i }

theorem FromCall.eps_abs {s t : Solver d K} (h : FromCall s t) : t.settings.eps_abs = s.settings.eps_abs := by
  obtain ⟨r, i, e⟩ := h.settings; rw [e]
theorem FromCall.eps_rel {s t : Solver d K} (h : FromCall s t) : t.settings.eps_rel = s.settings.eps_rel := by
  obtain ⟨r, i, e⟩ := h.settings; rw [e]
theorem FromCall.eps_prim_inf {s t : Solver d K} (h : FromCall s t) : t.settings.eps_prim_inf = s.settings.eps_prim_inf := by
  obtain ⟨r, i, e⟩ := h.settings; rw [e]
theorem FromCall.eps_dual_inf {s t : Solver d K} (h : FromCall s t) : t.settings.eps_dual_inf = s.settings.eps_dual_inf := by
  obtain ⟨r, i, e⟩ := h.settings; rw [e]
theorem FromCall.check_dualgap {s t : Solver d K} (h : FromCall s t) : t.settings.check_dualgap = s.settings.check_dualgap := by
  obtain ⟨r, i, e⟩ := h.settings; rw [e]
theorem FromCall.polishing {s t : Solver d K} (h : FromCall s t) : t.settings.polishing = s.settings.polishing := by
  obtain ⟨r, i, e⟩ := h.settings; rw [e]
theorem FromCall.scalingOn {s t : Solver d K} (h : FromCall s t) : t.settings.scaling = s.settings.scaling := by
  obtain ⟨r, i, e⟩ := h.settings; rw [e]
theorem FromCall.user {s t : Solver d K} (h : FromCall s t) (hu : UserCriteria s) : UserCriteria t := by
  obtain ⟨r, i, e⟩ := h.settings; unfold UserCriteria; rw [e]; exact hu
theorem FromCall.rep {s t : Solver d K} (h : FromCall s t) {U : Data d K}
    (hr : Represents s.settings s.work.scaling U s.work.data) : Represents t.settings t.work.scaling U t.work.data := by
  obtain ⟨r, i, e⟩ := h.settings
  unfold Represents at *; rw [e, h.data, h.scaling]; exact hr

theorem fromCall {cfg : Cfg} {s t : Solver d K} (h : Within (solveEntry cfg s).s t) : FromCall s t := by
  obtain ⟨a, b, r, i, c⟩ := h.same
  have hc : (solveEntry cfg s).s.settings = s.settings := by simp
  refine ⟨by rw [a]; simp, by rw [b]; simp, r, i, by rw [c, hc]⟩

theorem Agree.fromCall {s a b : Solver d K} (hf : FromCall s a) (h : Agree a b) : FromCall s b := by
  obtain ⟨r, i, e⟩ := hf.settings
  exact ⟨h.data.trans hf.data, h.scaling.trans hf.scaling, r, i, h.settings.trans e⟩

theorem agree_postRho (cfg : Cfg) (env : Env d K) (s : Solver d K) : Agree s (postRho cfg env s) := by
  constructor <;> simp

/-- The stored solution for a solution-carrying status. -/
theorem Seen.stored {cfg : Cfg} {env : Env d K} {t s' : Solver d K} (h : Seen cfg env t s') {sol : Solution d K}
    (hsol : s'.solution = some sol) (hs : hasSolution t.info = true) :
    sol.x = toX (effSc t) (postPolish cfg env t).1.work.x ∧ sol.y = toY (effSc t) (postPolish cfg env t).1.work.y ∧
    sol.prim_inf_cert = vSet (Const.nan K) ∧ sol.dual_inf_cert = vSet (Const.nan K) := by
  have e := h.sol
  rw [hsol] at e
  have hs0 : ∃ sol0, (postTiming cfg (postPolish cfg env t).1).solution = some sol0 := by
    cases hc : (postTiming cfg (postPolish cfg env t).1).solution with
    | none => unfold storeOwnSolution at e; rw [hc] at e; dsimp only at e; rw [hc] at e; cases e
    | some a => exact ⟨a, rfl⟩
  obtain ⟨sol0, h0⟩ := hs0
  have hst : hasSolution (postTiming cfg (postPolish cfg env t).1).info = true := by
    unfold hasSolution at hs ⊢; simpa using hs
  rw [store_has h0 hst] at e
  injection e with e
  have he : effSc (postTiming cfg (postPolish cfg env t).1) = effSc t := effSc_congr (by simp) (by simp)
  rw [e, he]; simp

theorem Seen.storedPrim {cfg : Cfg} {env : Env d K} {t s' : Solver d K} (h : Seen cfg env t s') {sol : Solution d K}
    (hsol : s'.solution = some sol) (hs : t.info.status_val = St.primInf ∨ t.info.status_val = St.primInfInacc) :
    sol = ⟨vSet (Const.nan K), vSet (Const.nan K), fun i => t.work.delta_y i * (1 / normInf t.work.delta_y), vSet (Const.nan K)⟩ := by
  have e := h.sol
  rw [hsol] at e
  have hs0 : ∃ sol0, (postTiming cfg (postPolish cfg env t).1).solution = some sol0 := by
    cases hc : (postTiming cfg (postPolish cfg env t).1).solution with
    | none => unfold storeOwnSolution at e; rw [hc] at e; dsimp only at e; rw [hc] at e; cases e
    | some a => exact ⟨a, rfl⟩
  obtain ⟨sol0, h0⟩ := hs0
  have hp : (postPolish cfg env t).1 = t := by
    unfold postPolish; rw [if_neg]; rcases hs with hs | hs <;> rw [hs] <;> simp [St.primInf, St.primInfInacc, St.solved]
  rw [hp] at h0 e
  rw [store_prim h0 (by simpa using hs)] at e
  injection e with e; rw [e]; simp

theorem Seen.storedDual {cfg : Cfg} {env : Env d K} {t s' : Solver d K} (h : Seen cfg env t s') {sol : Solution d K}
    (hsol : s'.solution = some sol) (hs : t.info.status_val = St.dualInf ∨ t.info.status_val = St.dualInfInacc) :
    sol = ⟨vSet (Const.nan K), vSet (Const.nan K), vSet (Const.nan K), fun i => t.work.delta_x i * (1 / normInf t.work.delta_x)⟩ := by
  have e := h.sol
  rw [hsol] at e
  have hs0 : ∃ sol0, (postTiming cfg (postPolish cfg env t).1).solution = some sol0 := by
    cases hc : (postTiming cfg (postPolish cfg env t).1).solution with
    | none => unfold storeOwnSolution at e; rw [hc] at e; dsimp only at e; rw [hc] at e; cases e
    | some a => exact ⟨a, rfl⟩
  obtain ⟨sol0, h0⟩ := hs0
  have hp : (postPolish cfg env t).1 = t := by
    unfold postPolish; rw [if_neg]; rcases hs with hs | hs <;> rw [hs] <;> simp [St.dualInf, St.dualInfInacc, St.solved]
  rw [hp] at h0 e
  rw [store_dual h0 (by simpa using hs)] at e
  injection e with e; rw [e]; simp

/-! ## What a successful test says -/

/-- Result of a successful test, read off the status. -/
theorem check_solved {b : Bool} {s1 : Solver d K} (hc : (checkTermination b s1).2 = true)
    (hs : (checkTermination b s1).1.info.status_val = St.solved ∨ (checkTermination b s1).1.info.status_val = St.solvedInacc) :
    (d.m = 0 ∨ s1.info.prim_res < primTol s1 (s1.settings.eps_abs * ctK b) (s1.settings.eps_rel * ctK b)) ∧
    s1.info.dual_res < dualTol s1 (s1.settings.eps_abs * ctK b) (s1.settings.eps_rel * ctK b) ∧ ctGap b s1 ∧
    (checkTermination b s1).1 = setStatus s1 (if b then St.solvedInacc else St.solved) := by
  have c := checkTermination_cases b s1
  dsimp only at c
  rcases c with ⟨_, e⟩ | ⟨_, ⟨h1, h2, h3, e⟩ | ⟨_, e⟩ | ⟨_, _, e⟩ | ⟨_, _, _, e⟩⟩
  · rw [e] at hs; exact absurd hs (by simp [updateStatus, St.nonCvx, St.solved, St.solvedInacc])
  · exact ⟨h1, h2, h3, by rw [e]⟩
  · rw [e] at hs; exact absurd hs (by cases b <;> simp [setStatus, updateStatus, St.primInf, St.primInfInacc, St.solved, St.solvedInacc])
  · rw [e] at hs; exact absurd hs (by cases b <;> simp [setStatus, updateStatus, St.dualInf, St.dualInfInacc, St.solved, St.solvedInacc])
  · rw [e] at hc; cases hc

theorem check_primInf {b : Bool} {s1 : Solver d K} (hu : UserCriteria s1) (hc : (checkTermination b s1).2 = true)
    (hs : (checkTermination b s1).1.info.status_val = St.primInf ∨ (checkTermination b s1).1.info.status_val = St.primInfInacc) :
    (isPrimalInfeasible s1 (s1.settings.eps_prim_inf * ctK b)).2 = true ∧ (checkTermination b s1).1.work.delta_y = certY s1 := by
  have c := checkTermination_cases b s1
  dsimp only at c
  rcases c with ⟨_, e⟩ | ⟨_, ⟨h1, h2, h3, e⟩ | ⟨⟨h1, h2⟩, e⟩ | ⟨_, _, e⟩ | ⟨_, _, _, e⟩⟩
  · rw [e] at hs; exact absurd hs (by simp [updateStatus, St.nonCvx, St.primInf, St.primInfInacc])
  · rw [e] at hs; exact absurd hs (by cases b <;> simp [setStatus, updateStatus, St.primInf, St.primInfInacc, St.solved, St.solvedInacc])
  · refine ⟨h2, ?_⟩
    rw [e]
    have hp : ctState b s1 = (isPrimalInfeasible s1 (s1.settings.eps_prim_inf * ctK b)).1 := by
      unfold ctState; rw [if_neg h1]
    dsimp only
    have hset : (ctState b s1).settings = s1.settings := by simp
    have hscl : (ctState b s1).work.scaling = s1.work.scaling := by simp
    have hdy : (ctState b s1).work.delta_y = vProjectPolar s1.work.delta_y s1.work.data.l s1.work.data.u (Const.infval K) := by
      rw [hp, isPrimalInfeasible_fst]
    have := certY_eq hu (vProjectPolar s1.work.delta_y s1.work.data.l s1.work.data.u (Const.infval K))
    unfold certY; rw [← this, hset]
    split_ifs
    · simp only [hscl, hdy]
    · exact hdy
  · rw [e] at hs; exact absurd hs (by cases b <;> simp [setStatus, updateStatus, St.dualInf, St.dualInfInacc, St.primInf, St.primInfInacc])
  · rw [e] at hc; cases hc

theorem check_dualInf {b : Bool} {s1 : Solver d K} (hu : UserCriteria s1) (hc : (checkTermination b s1).2 = true)
    (hs : (checkTermination b s1).1.info.status_val = St.dualInf ∨ (checkTermination b s1).1.info.status_val = St.dualInfInacc) :
    isDualInfeasible s1 (s1.settings.eps_dual_inf * ctK b) = true ∧ (checkTermination b s1).1.work.delta_x = certX s1 := by
  have c := checkTermination_cases b s1
  dsimp only at c
  rcases c with ⟨_, e⟩ | ⟨_, ⟨h1, h2, h3, e⟩ | ⟨_, e⟩ | ⟨_, ⟨h1, h2⟩, e⟩ | ⟨_, _, _, e⟩⟩
  · rw [e] at hs; exact absurd hs (by simp [updateStatus, St.nonCvx, St.dualInf, St.dualInfInacc])
  · rw [e] at hs; exact absurd hs (by cases b <;> simp [setStatus, updateStatus, St.dualInf, St.dualInfInacc, St.solved, St.solvedInacc])
  · rw [e] at hs; exact absurd hs (by cases b <;> simp [setStatus, updateStatus, St.dualInf, St.dualInfInacc, St.primInf, St.primInfInacc])
  · refine ⟨h2, ?_⟩
    rw [e]
    dsimp only
    have hset : (ctState b s1).settings = s1.settings := by simp
    have hscl : (ctState b s1).work.scaling = s1.work.scaling := by simp
    have hdx : (ctState b s1).work.delta_x = s1.work.delta_x := by simp
    have := certX_eq hu s1.work.delta_x
    unfold certX; rw [← this, hset]
    split_ifs
    · simp only [hscl, hdx]
    · exact hdx
  · rw [e] at hc; cases hc

end Osqp
