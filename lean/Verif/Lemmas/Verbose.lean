import Verif.Lemmas.Printing

/-!
# Without printing the verbosity is not read
-/

set_option linter.unusedSectionVars false
namespace Osqp
variable {K : Type*} [Field K] [LinearOrder K] [IsStrictOrderedRing K] {d : Dims} (cfg : Cfg) (env : Env d K) {v : ℤ}

/-- The same solver with another verbosity. -/
def setVerbose (v : ℤ) (s : Solver d K) : Solver d K := { s with settings := { s.settings with verbose := v } }

def LoopSt.setVerbose (v : ℤ) (L : LoopSt d K) : LoopSt d K := { L with s := Osqp.setVerbose v L.s }

theorem sv_admmStep (s : Solver d K) : admmStep env (setVerbose v s) = setVerbose v (admmStep env s) := rfl

theorem sv_intrCheck (s : Solver d K) : intrCheck cfg env (setVerbose v s) = (setVerbose v (intrCheck cfg env s).1, (intrCheck cfg env s).2) := by
  unfold intrCheck; split_ifs <;> rfl

theorem sv_timeCheck (s : Solver d K) : timeCheck cfg env (setVerbose v s) = (setVerbose v (timeCheck cfg env s).1, (timeCheck cfg env s).2) := by
  unfold timeCheck; split_ifs <;> rfl

theorem sv_adaptDecision (i : ℤ) (s : Solver d K) :
    adaptDecision cfg env i (setVerbose v s) = (setVerbose v (adaptDecision cfg env i s).1, (adaptDecision cfg env i s).2) := by
  unfold adaptDecision
  have e : (setVerbose v s).settings.adaptive_rho = s.settings.adaptive_rho := rfl
  have e2 : (setVerbose v s).settings.adaptive_rho_interval = s.settings.adaptive_rho_interval := rfl
  have e3 : (toc env (setVerbose v s)).2.settings.adaptive_rho_fraction * (toc env (setVerbose v s)).2.info.setup_time =
    (toc env s).2.settings.adaptive_rho_fraction * (toc env s).2.info.setup_time := rfl
  have e4 : (toc env (setVerbose v s)).1 = (toc env s).1 := rfl
  dsimp only
  rw [e, e2, e3, e4]
  split_ifs <;> rfl

theorem sv_computeReport (s : Solver d K) (x : Vec K d.n) (z y : Vec K d.m) :
    computeReport (setVerbose v s) x z y = (setVerbose v (computeReport s x z y).1, (computeReport s x z y).2) := by
  unfold computeReport computePrimRes computeDualRes computeObj
  dsimp only
  have e : (setVerbose v s).settings.unscaledTerm = s.settings.unscaledTerm := rfl
  have e2 : (setVerbose v s).settings.scaling = s.settings.scaling := rfl
  by_cases hm : d.m = 0 <;> by_cases hs : s.settings.scaling = 0 <;>
    simp only [hm, hs, e2, if_true, if_false, ne_eq, not_true, not_false_iff] <;> rfl

theorem sv_updateInfo (i : ℤ) (s : Solver d K) : updateInfo cfg env i (setVerbose v s) = setVerbose v (updateInfo cfg env i s) := by
  unfold updateInfo
  have h := sv_computeReport (v := v) s s.work.x s.work.z s.work.y
  have e : (setVerbose v s).work = s.work := rfl
  rw [e, h]
  split_ifs <;> rfl

theorem sv_isPrimalInfeasible (eps : K) (s : Solver d K) :
    isPrimalInfeasible (setVerbose v s) eps = (setVerbose v (isPrimalInfeasible s eps).1, (isPrimalInfeasible s eps).2) := by
  refine Prod.ext ?_ ?_
  · dsimp only; rw [isPrimalInfeasible_fst, isPrimalInfeasible_fst]; rfl
  · have h : ∀ (b1 b2 : Prop) [Decidable b1] [Decidable b2] (u₁ u₂ u₃ : Solver d K) (c1 : Bool),
        (if b1 then (if b2 then (u₁, c1) else (u₂, false)) else (u₃, false)).2 = (if b1 then (if b2 then c1 else false) else false) := by
      intro b1 b2 _ _ u₁ u₂ u₃ c1; split_ifs <;> rfl
    unfold isPrimalInfeasible
    dsimp only
    rw [h, h]
    rfl

theorem sv_ctTail (b : Bool) (s : Solver d K) (p1 p2 p3 p4 p5 : Bool) :
    ctTail b (setVerbose v s) p1 p2 p3 p4 p5 = (setVerbose v (ctTail b s p1 p2 p3 p4 p5).1, (ctTail b s p1 p2 p3 p4 p5).2) := by
  cases p1 <;> cases p2 <;> cases p3 <;> cases p4 <;> cases p5 <;> rfl

theorem sv_checkTermination (b : Bool) (s : Solver d K) :
    checkTermination b (setVerbose v s) = (setVerbose v (checkTermination b s).1, (checkTermination b s).2) := by
  have e2 : (setVerbose v s).info = s.info := rfl
  by_cases hn : s.info.prim_res > Const.infty K ∨ s.info.dual_res > Const.infty K
  · unfold checkTermination; dsimp only
    rw [if_pos hn, if_pos (by rw [e2]; exact hn)]; rfl
  have h1 := checkTermination_tail b s hn
  have h2 := checkTermination_tail b (setVerbose v s) (by rw [e2]; exact hn)
  dsimp only at h1 h2
  rw [h2, h1]
  have hp : ∀ a r, primTol (setVerbose v s) a r = primTol s a r := fun _ _ => rfl
  have hd : ∀ a r, dualTol (setVerbose v s) a r = dualTol s a r := fun _ _ => rfl
  have hdi : ∀ a, isDualInfeasible (setVerbose v s) a = isDualInfeasible s a := fun _ => rfl
  have hg : ctGapB b (setVerbose v s) = ctGapB b s := rfl
  have e5 : (setVerbose v s).settings.eps_abs = s.settings.eps_abs := rfl
  have e6 : (setVerbose v s).settings.eps_rel = s.settings.eps_rel := rfl
  have e7 : (setVerbose v s).settings.eps_dual_inf = s.settings.eps_dual_inf := rfl
  have e8 : (setVerbose v s).settings.eps_prim_inf = s.settings.eps_prim_inf := rfl
  rw [sv_isPrimalInfeasible]
  simp only [hp, hd, hdi, hg, e2, e5, e6, e7, e8, sv_ctTail]
  split_ifs <;> rfl

theorem sv_linsysUpdateRho (s : Solver d K) : linsysUpdateRho env (setVerbose v s).work.linsys (setVerbose v s).work.rho_vec (setVerbose v s).settings.rho =
    linsysUpdateRho env s.work.linsys s.work.rho_vec s.settings.rho := rfl

theorem sv_setRho (s : Solver d K) (r : K) : setRho (setVerbose v s) r = setVerbose v (setRho s r) := by
  unfold setRho; dsimp only
  have e : (setVerbose v s).settings.rho_is_vec = s.settings.rho_is_vec := rfl
  rw [e]; split_ifs <;> rfl

theorem sv_clear (s : Solver d K) : clearUpdateTime (setVerbose v s) = setVerbose v (clearUpdateTime s) := by
  unfold clearUpdateTime
  have e : (setVerbose v s).work = s.work := rfl
  rw [e]; split_ifs <;> rfl

theorem sv_add (s : Solver d K) : addUpdateTime env (setVerbose v s) = setVerbose v (addUpdateTime env s) := rfl

theorem sv_osqpUpdateRho (s : Solver d K) (r : K) :
    osqpUpdateRho cfg env (setVerbose v s) r = (setVerbose v (osqpUpdateRho cfg env s r).1, (osqpUpdateRho cfg env s r).2) := by
  unfold osqpUpdateRho
  by_cases hr : r ≤ 0
  · rw [if_pos hr, if_pos hr]
  rw [if_neg hr, if_neg hr]
  dsimp only
  have e : (setVerbose v s).work = s.work := rfl
  have h1 : (if (cfg.profiling && !(setVerbose v s).work.rho_update_from_solve) = true then clearUpdateTime (setVerbose v s) else setVerbose v s) =
      setVerbose v (if (cfg.profiling && !s.work.rho_update_from_solve) = true then clearUpdateTime s else s) := by
    rw [e, sv_clear]; split_ifs <;> rfl
  rw [h1, sv_setRho, sv_linsysUpdateRho]
  generalize setRho _ r = t
  have e2 : (setVerbose v t).work = t.work := rfl
  simp only [e2]
  split_ifs <;> rfl

theorem sv_adaptRho (s : Solver d K) : adaptRho cfg env (setVerbose v s) = (setVerbose v (adaptRho cfg env s).1, (adaptRho cfg env s).2) := by
  unfold adaptRho
  have e : computeRhoEstimate env (setVerbose v s) = computeRhoEstimate env s := rfl
  dsimp only
  rw [e]
  have e2 : (setVerbose v s).settings.rho = s.settings.rho := rfl
  have e3 : (setVerbose v s).settings.adaptive_rho_tolerance = s.settings.adaptive_rho_tolerance := rfl
  rw [e2, e3]
  have h := sv_osqpUpdateRho cfg env (v := v) { s with info := { s.info with rho_estimate := computeRhoEstimate env s } } (computeRhoEstimate env s)
  have e4 : ({ setVerbose v s with info := { (setVerbose v s).info with rho_estimate := computeRhoEstimate env s } } : Solver d K) =
    setVerbose v { s with info := { s.info with rho_estimate := computeRhoEstimate env s } } := rfl
  rw [e4, h]
  split_ifs <;> rfl

theorem sv_adaptPhase (b : Bool) (s : Solver d K) :
    adaptPhase cfg env b (setVerbose v s) = (setVerbose v (adaptPhase cfg env b s).1, (adaptPhase cfg env b s).2) := by
  rw [adaptPhase_tail, adaptPhase_tail]
  show adaptTail cfg env b (setVerbose v { s with work := { s.work with rho_updated := false } }) = _
  generalize ({ s with work := { s.work with rho_updated := false } } : Solver d K) = s
  unfold adaptTail
  dsimp only
  have e : (setVerbose v s).settings.adaptive_rho = s.settings.adaptive_rho := rfl
  have e2 : (setVerbose v s).settings.adaptive_rho_fraction = s.settings.adaptive_rho_fraction := rfl
  have e3 : (setVerbose v s).work = s.work := rfl
  have e4 : (setVerbose v s).info = s.info := rfl
  rw [e, e2, e3, e4, sv_adaptRho]
  have h1 : ∀ (c : Bool) (t : Solver d K), (if c = true then (setVerbose v (adaptRho cfg env t).1, (adaptRho cfg env t).2) else (setVerbose v t, 0)) =
      (setVerbose v (if c = true then adaptRho cfg env t else (t, 0)).1, (if c = true then adaptRho cfg env t else (t, 0)).2) := by
    intro c t; split_ifs <;> rfl
  rw [h1]
  generalize (if (if (b && decide (s.settings.adaptive_rho = 3)) = true then
      decide (s.info.rel_kkt_error ≤ s.settings.adaptive_rho_fraction * s.work.last_rel_kkt)
    else b) = true then adaptRho cfg env s else (s, 0)) = r
  have e6 : (setVerbose v r.1).work = r.1.work := rfl
  dsimp only
  rw [e6]
  split_ifs <;> rfl

def IterOut.setVerbose (v : ℤ) : IterOut d K → IterOut d K
  | .cont L => .cont (L.setVerbose v)
  | .brk L => .brk (L.setVerbose v)
  | .exit s => .exit (Osqp.setVerbose v s)

theorem sv_iterBody (hp : cfg.printing = false) (i : ℤ) (L : LoopSt d K) : iterBody cfg env i (L.setVerbose v) = ((iterBody cfg env i L).setVerbose v) := by
  unfold iterBody
  have e1 : (L.setVerbose v).s = setVerbose v L.s := rfl
  have e2 : (L.setVerbose v).canPrint = L.canPrint := rfl
  have e3 : (L.setVerbose v).canCheck = L.canCheck := rfl
  dsimp only
  simp only [e1, e2, e3, sv_admmStep, sv_intrCheck, sv_timeCheck]
  generalize intrCheck cfg env _ = r1
  generalize timeCheck cfg env _ = r2
  by_cases h1 : r1.2 = true
  · rw [if_pos h1, if_pos h1]; rfl
  rw [if_neg h1, if_neg h1]
  by_cases h2 : r2.2 = true
  · rw [if_pos h2, if_pos h2]; rfl
  rw [if_neg h2, if_neg h2]
  have e4 : (setVerbose v r2.1).settings.check_termination = r2.1.settings.check_termination := rfl
  simp only [e4, hp, Bool.false_and, sv_adaptDecision]
  have h3 : ∀ (c : Bool) (t : Solver d K), (if c = true then updateInfo cfg env i (setVerbose v t) else setVerbose v t) =
      setVerbose v (if c = true then updateInfo cfg env i t else t) := by
    intro c t; rw [sv_updateInfo]; split_ifs <;> rfl
  have h4 : ∀ (c : Bool) (t : Solver d K), (if c = true then checkTermination false (setVerbose v t) else (setVerbose v t, false)) =
      (setVerbose v (if c = true then checkTermination false t else (t, false)).1, (if c = true then checkTermination false t else (t, false)).2) := by
    intro c t; rw [sv_checkTermination]; split_ifs <;> rfl
  rw [h3, h4]
  simp only [sv_adaptPhase]
  split_ifs <;> rfl

def LoopOut.setVerbose (v : ℤ) : LoopOut d K → LoopOut d K
  | .done i L => .done i (L.setVerbose v)
  | .exit s => .exit (Osqp.setVerbose v s)

theorem sv_loop (hp : cfg.printing = false) (k : ℕ) : ∀ (i : ℤ) (L : LoopSt d K), admmLoop cfg env k i (L.setVerbose v) = ((admmLoop cfg env k i L).setVerbose v) := by
  induction k with
  | zero => intro i L; rfl
  | succ k ih =>
    intro i L
    unfold admmLoop
    rw [sv_iterBody cfg env hp]
    cases iterBody cfg env i L with
    | cont L' => exact ih _ _
    | brk L' => rfl
    | exit s => rfl

theorem sv_entry (hp : cfg.printing = false) (s : Solver d K) : solveEntry cfg (setVerbose v s) = ((solveEntry cfg s).setVerbose v) := by
  unfold solveEntry LoopSt.setVerbose
  have e : (setVerbose v s).work = s.work := rfl
  dsimp only
  by_cases h1 : cfg.profiling = true <;> by_cases h2 : s.work.clear_update_time = true <;> by_cases h3 : cfg.interrupt = true <;>
    by_cases h4 : s.settings.warm_starting = 0 <;>
    simp [hp, h1, h2, h3, h4, setVerbose, coldStart]

theorem sv_postLoop (i : ℤ) (L : LoopSt d K) : postLoop cfg env i (L.setVerbose v) = setVerbose v (postLoop cfg env i L) := by
  have h1 : postCheck cfg env i (L.setVerbose v) = setVerbose v (postCheck cfg env i L) := by
    unfold postCheck
    have e1 : (L.setVerbose v).s = setVerbose v L.s := rfl
    have e2 : (L.setVerbose v).canPrint = L.canPrint := rfl
    have e3 : (L.setVerbose v).canCheck = L.canCheck := rfl
    dsimp only
    rw [e1, e2, e3, sv_updateInfo]
    have h4 : (if (cfg.printing && L.canPrint) = true then setVerbose v L.s else setVerbose v (updateInfo cfg env (i - 1) L.s)) =
      setVerbose v (if (cfg.printing && L.canPrint) = true then L.s else updateInfo cfg env (i - 1) L.s) := by split_ifs <;> rfl
    rw [h4, sv_checkTermination]
    split_ifs <;> rfl
  have h2 : ∀ t : Solver d K, postObj (setVerbose v t) = setVerbose v (postObj t) := by
    intro t
    unfold postObj computeObj
    have e2 : (setVerbose v t).info = t.info := rfl
    have e3 : (setVerbose v t).settings.scaling = t.settings.scaling := rfl
    dsimp only
    rw [e2, e3]
    by_cases h1 : hasSolution t.info = true <;> by_cases h3 : t.settings.scaling = 0 <;> simp [h1, h3, setVerbose]
  have h3 : ∀ t : Solver d K, postMaxIter (setVerbose v t) = setVerbose v (postMaxIter t) := by
    intro t
    unfold postMaxIter
    have e2 : (setVerbose v t).info = t.info := rfl
    dsimp only
    rw [e2, sv_checkTermination]
    split_ifs <;> rfl
  have h4 : ∀ t : Solver d K, postTimeLimit cfg (setVerbose v t) = setVerbose v (postTimeLimit cfg t) := by
    intro t
    unfold postTimeLimit
    have e2 : (setVerbose v t).info = t.info := rfl
    dsimp only
    rw [e2, sv_checkTermination]
    split_ifs <;> rfl
  have h5 : ∀ t : Solver d K, postRho cfg env (setVerbose v t) = setVerbose v (postRho cfg env t) := by
    intro t
    unfold postRho
    split_ifs <;> rfl
  unfold postLoop
  rw [h1, h2, h3, h4, h5]

theorem sv_storeSolution (s : Solver d K) (sol : Solution d K) :
    storeSolution (setVerbose v s) sol = (setVerbose v (storeSolution s sol).1, (storeSolution s sol).2) := by
  unfold storeSolution
  have e : (setVerbose v s).info = s.info := rfl
  have e2 : (setVerbose v s).settings.scaling = s.settings.scaling := rfl
  have e3 : (coldStart (setVerbose v s)).info = (coldStart s).info := rfl
  dsimp only
  rw [e, e2, e3]
  by_cases h1 : hasSolution s.info = true
  · rw [if_pos h1, if_pos h1]
    by_cases h2 : s.settings.scaling ≠ 0
    · rw [if_pos h2, if_pos h2]; rfl
    · rw [if_neg h2, if_neg h2]; rfl
  · rw [if_neg h1, if_neg h1]
    by_cases h2 : (coldStart s).info.status_val = St.primInf ∨ (coldStart s).info.status_val = St.primInfInacc <;>
    by_cases h3 : (coldStart s).info.status_val = St.dualInf ∨ (coldStart s).info.status_val = St.dualInfInacc
    · rw [if_pos h2, if_pos h2, if_pos h3, if_pos h3]; rfl
    · rw [if_pos h2, if_pos h2, if_neg h3, if_neg h3]; rfl
    · rw [if_neg h2, if_neg h2, if_pos h3, if_pos h3]; rfl
    · rw [if_neg h2, if_neg h2, if_neg h3, if_neg h3]; rfl

theorem sv_storeOwn (s : Solver d K) : storeOwnSolution (setVerbose v s) = setVerbose v (storeOwnSolution s) := by
  unfold storeOwnSolution
  have e : (setVerbose v s).solution = s.solution := rfl
  rw [e]
  cases s.solution with
  | none => rfl
  | some sol => dsimp only; rw [sv_storeSolution]; rfl

theorem sv_postTiming (s : Solver d K) : postTiming cfg (setVerbose v s) = setVerbose v (postTiming cfg s) := by
  unfold postTiming
  by_cases h : cfg.profiling = true
  · rw [if_pos h, if_pos h]; rfl
  · rw [if_neg h, if_neg h]

theorem sv_endListener (s : Solver d K) : endListener cfg (setVerbose v s) = setVerbose v (endListener cfg s) := by
  unfold endListener; split_ifs <;> rfl


theorem sv_polishTail (pt : Vec K d.n × Vec K d.m × Vec K d.m) (s : Solver d K) (r : Report K) :
    polishTail cfg env pt (setVerbose v s, r) = (setVerbose v (polishTail cfg env pt (s, r)).1, (polishTail cfg env pt (s, r)).2) := by
  unfold polishTail
  dsimp only
  by_cases hp : cfg.profiling = true
  · simp only [hp, if_true]
    have e1 : ((toc env (setVerbose v s)).2).info.prim_res = ((toc env s).2).info.prim_res := rfl
    have e2 : ((toc env (setVerbose v s)).2).info.dual_res = ((toc env s).2).info.dual_res := rfl
    rw [e1, e2]
    split_ifs <;> rfl
  · simp only [if_neg hp]
    have e1 : (setVerbose v s).info.prim_res = s.info.prim_res := rfl
    have e2 : (setVerbose v s).info.dual_res = s.info.dual_res := rfl
    rw [e1, e2]
    split_ifs <;> rfl

theorem sv_polish (s : Solver d K) : polish cfg env (setVerbose v s) = (setVerbose v (polish cfg env s).1, (polish cfg env s).2) := by
  rw [polish_eq, polish_eq]
  have e1 : (setVerbose v s).work = s.work := rfl
  have e2 : (setVerbose v s).settings.sigma = s.settings.sigma := rfl
  have e3 : (setVerbose v s).settings.polish_refine_iter = s.settings.polish_refine_iter := rfl
  rw [e1, e2, e3]
  generalize activeFlags s.work.data.l s.work.data.u s.work.z s.work.y = flags
  by_cases h1 : nActive flags = 0
  · rw [if_pos h1, if_pos h1]; rfl
  rw [if_neg h1, if_neg h1]
  by_cases h2 : env.polFactor s.work.data flags s.settings.sigma < d.n
  · rw [if_pos h2, if_pos h2]; rfl
  rw [if_neg h2, if_neg h2]
  dsimp only
  generalize polishPoint s.work.data flags _ = pt
  rw [sv_computeReport]
  exact sv_polishTail cfg env pt _ _

theorem sv_finish (s : Solver d K) : finish cfg env (setVerbose v s) = (setVerbose v (finish cfg env s).1, (finish cfg env s).2) := by
  have h : postPolish cfg env (setVerbose v s) = (setVerbose v (postPolish cfg env s).1, (postPolish cfg env s).2) := by
    unfold postPolish
    have e1 : (setVerbose v s).settings.polishing = s.settings.polishing := rfl
    have e2 : (setVerbose v s).info = s.info := rfl
    rw [e1, e2, sv_polish]
    split_ifs <;> rfl
  unfold finish
  dsimp only
  rw [h]
  dsimp only
  rw [sv_postTiming, sv_storeOwn, sv_endListener, sv_endListener]
  split_ifs <;> rfl

/-- In a build without printing the verbosity has no effect. -/
theorem sv_solve (hp : cfg.printing = false) (s : Solver d K) :
    osqpSolve cfg env (setVerbose v s) = (setVerbose v (osqpSolve cfg env s).1, (osqpSolve cfg env s).2) := by
  unfold osqpSolve
  rw [sv_entry cfg hp]
  have e : ((solveEntry cfg s).setVerbose v).s.settings.max_iter = (solveEntry cfg s).s.settings.max_iter := rfl
  dsimp only
  rw [e, sv_loop cfg env hp]
  cases admmLoop cfg env (solveEntry cfg s).s.settings.max_iter.toNat 1 (solveEntry cfg s) with
  | exit t => simp only [LoopOut.setVerbose, sv_endListener]
  | done i L => simp only [LoopOut.setVerbose, sv_postLoop, sv_finish]

end Osqp
