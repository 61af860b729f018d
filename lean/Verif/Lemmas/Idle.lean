import Verif.Lemmas.Indep
import Verif.Lemmas.Embed

/-!
# The setting `delta` is not read
-/

set_option linter.unusedSectionVars false
namespace Osqp
variable {K : Type*} [Field K] [LinearOrder K] [IsStrictOrderedRing K] {d : Dims} (cfg : Cfg) (env : Env d K) {v : K}

/-- The same solver with another `delta`. -/
def setDelta (v : K) (s : Solver d K) : Solver d K := { s with settings := { s.settings with delta := v } }

def LoopSt.setDelta (v : K) (L : LoopSt d K) : LoopSt d K := { L with s := Osqp.setDelta v L.s }

theorem sd_admmStep (s : Solver d K) : admmStep env (setDelta v s) = setDelta v (admmStep env s) := rfl

theorem sd_intrCheck (s : Solver d K) : intrCheck cfg env (setDelta v s) = (setDelta v (intrCheck cfg env s).1, (intrCheck cfg env s).2) := by
  unfold intrCheck; split_ifs <;> rfl

theorem sd_timeCheck (s : Solver d K) : timeCheck cfg env (setDelta v s) = (setDelta v (timeCheck cfg env s).1, (timeCheck cfg env s).2) := by
  unfold timeCheck; split_ifs <;> rfl

theorem sd_adaptDecision (i : ℤ) (s : Solver d K) :
    adaptDecision cfg env i (setDelta v s) = (setDelta v (adaptDecision cfg env i s).1, (adaptDecision cfg env i s).2) := by
  unfold adaptDecision
  have e : (setDelta v s).settings.adaptive_rho = s.settings.adaptive_rho := rfl
  have e2 : (setDelta v s).settings.adaptive_rho_interval = s.settings.adaptive_rho_interval := rfl
  have e3 : (toc env (setDelta v s)).2.settings.adaptive_rho_fraction * (toc env (setDelta v s)).2.info.setup_time =
    (toc env s).2.settings.adaptive_rho_fraction * (toc env s).2.info.setup_time := rfl
  have e4 : (toc env (setDelta v s)).1 = (toc env s).1 := rfl
  dsimp only
  rw [e, e2, e3, e4]
  split_ifs <;> rfl

theorem sd_computeReport (s : Solver d K) (x : Vec K d.n) (z y : Vec K d.m) :
    computeReport (setDelta v s) x z y = (setDelta v (computeReport s x z y).1, (computeReport s x z y).2) := by
  unfold computeReport computePrimRes computeDualRes computeObj
  dsimp only
  have e : (setDelta v s).settings.unscaledTerm = s.settings.unscaledTerm := rfl
  have e2 : (setDelta v s).settings.scaling = s.settings.scaling := rfl
  by_cases hm : d.m = 0 <;> by_cases hs : s.settings.scaling = 0 <;>
    simp only [hm, hs, e2, if_true, if_false, ne_eq, not_true, not_false_iff] <;> rfl

theorem sd_updateInfo (i : ℤ) (s : Solver d K) : updateInfo cfg env i (setDelta v s) = setDelta v (updateInfo cfg env i s) := by
  unfold updateInfo
  have h := sd_computeReport (v := v) s s.work.x s.work.z s.work.y
  have e : (setDelta v s).work = s.work := rfl
  rw [e, h]
  split_ifs <;> rfl

theorem sd_isPrimalInfeasible (eps : K) (s : Solver d K) :
    isPrimalInfeasible (setDelta v s) eps = (setDelta v (isPrimalInfeasible s eps).1, (isPrimalInfeasible s eps).2) := by
  refine Prod.ext ?_ ?_
  · dsimp only; rw [isPrimalInfeasible_fst, isPrimalInfeasible_fst]; rfl
  · have h : ∀ (b1 b2 : Prop) [Decidable b1] [Decidable b2] (u₁ u₂ u₃ : Solver d K) (c1 : Bool),
        (if b1 then (if b2 then (u₁, c1) else (u₂, false)) else (u₃, false)).2 = (if b1 then (if b2 then c1 else false) else false) := by
      intro b1 b2 _ _ u₁ u₂ u₃ c1; split_ifs <;> rfl
    unfold isPrimalInfeasible
    dsimp only
    rw [h, h]
    rfl

theorem sd_ctTail (b : Bool) (s : Solver d K) (p1 p2 p3 p4 p5 : Bool) :
    ctTail b (setDelta v s) p1 p2 p3 p4 p5 = (setDelta v (ctTail b s p1 p2 p3 p4 p5).1, (ctTail b s p1 p2 p3 p4 p5).2) := by
  cases p1 <;> cases p2 <;> cases p3 <;> cases p4 <;> cases p5 <;> rfl

theorem sd_checkTermination (b : Bool) (s : Solver d K) :
    checkTermination b (setDelta v s) = (setDelta v (checkTermination b s).1, (checkTermination b s).2) := by
  have e2 : (setDelta v s).info = s.info := rfl
  by_cases hn : s.info.prim_res > Const.infty K ∨ s.info.dual_res > Const.infty K
  · unfold checkTermination; dsimp only
    rw [if_pos hn, if_pos (by rw [e2]; exact hn)]; rfl
  have h1 := checkTermination_tail b s hn
  have h2 := checkTermination_tail b (setDelta v s) (by rw [e2]; exact hn)
  dsimp only at h1 h2
  rw [h2, h1]
  have hp : ∀ a r, primTol (setDelta v s) a r = primTol s a r := fun _ _ => rfl
  have hd : ∀ a r, dualTol (setDelta v s) a r = dualTol s a r := fun _ _ => rfl
  have hdi : ∀ a, isDualInfeasible (setDelta v s) a = isDualInfeasible s a := fun _ => rfl
  have hg : ctGapB b (setDelta v s) = ctGapB b s := rfl
  have e5 : (setDelta v s).settings.eps_abs = s.settings.eps_abs := rfl
  have e6 : (setDelta v s).settings.eps_rel = s.settings.eps_rel := rfl
  have e7 : (setDelta v s).settings.eps_dual_inf = s.settings.eps_dual_inf := rfl
  have e8 : (setDelta v s).settings.eps_prim_inf = s.settings.eps_prim_inf := rfl
  rw [sd_isPrimalInfeasible]
  simp only [hp, hd, hdi, hg, e2, e5, e6, e7, e8, sd_ctTail]
  split_ifs <;> rfl

theorem sd_linsysUpdateRho (s : Solver d K) : linsysUpdateRho env (setDelta v s).work.linsys (setDelta v s).work.rho_vec (setDelta v s).settings.rho =
    linsysUpdateRho env s.work.linsys s.work.rho_vec s.settings.rho := rfl

theorem sd_setRho (s : Solver d K) (r : K) : setRho (setDelta v s) r = setDelta v (setRho s r) := by
  unfold setRho; dsimp only
  have e : (setDelta v s).settings.rho_is_vec = s.settings.rho_is_vec := rfl
  rw [e]; split_ifs <;> rfl

theorem sd_clear (s : Solver d K) : clearUpdateTime (setDelta v s) = setDelta v (clearUpdateTime s) := by
  unfold clearUpdateTime
  have e : (setDelta v s).work = s.work := rfl
  rw [e]; split_ifs <;> rfl

theorem sd_add (s : Solver d K) : addUpdateTime env (setDelta v s) = setDelta v (addUpdateTime env s) := rfl

theorem sd_osqpUpdateRho (s : Solver d K) (r : K) :
    osqpUpdateRho cfg env (setDelta v s) r = (setDelta v (osqpUpdateRho cfg env s r).1, (osqpUpdateRho cfg env s r).2) := by
  unfold osqpUpdateRho
  by_cases hr : r ≤ 0
  · rw [if_pos hr, if_pos hr]
  rw [if_neg hr, if_neg hr]
  dsimp only
  have e : (setDelta v s).work = s.work := rfl
  have h1 : (if (cfg.profiling && !(setDelta v s).work.rho_update_from_solve) = true then clearUpdateTime (setDelta v s) else setDelta v s) =
      setDelta v (if (cfg.profiling && !s.work.rho_update_from_solve) = true then clearUpdateTime s else s) := by
    rw [e, sd_clear]; split_ifs <;> rfl
  rw [h1, sd_setRho, sd_linsysUpdateRho]
  generalize setRho _ r = t
  have e2 : (setDelta v t).work = t.work := rfl
  simp only [e2]
  split_ifs <;> rfl

theorem sd_adaptRho (s : Solver d K) : adaptRho cfg env (setDelta v s) = (setDelta v (adaptRho cfg env s).1, (adaptRho cfg env s).2) := by
  unfold adaptRho
  have e : computeRhoEstimate env (setDelta v s) = computeRhoEstimate env s := rfl
  dsimp only
  rw [e]
  have e2 : (setDelta v s).settings.rho = s.settings.rho := rfl
  have e3 : (setDelta v s).settings.adaptive_rho_tolerance = s.settings.adaptive_rho_tolerance := rfl
  rw [e2, e3]
  have h := sd_osqpUpdateRho cfg env (v := v) { s with info := { s.info with rho_estimate := computeRhoEstimate env s } } (computeRhoEstimate env s)
  have e4 : ({ setDelta v s with info := { (setDelta v s).info with rho_estimate := computeRhoEstimate env s } } : Solver d K) =
    setDelta v { s with info := { s.info with rho_estimate := computeRhoEstimate env s } } := rfl
  rw [e4, h]
  split_ifs <;> rfl

theorem sd_adaptPhase (b : Bool) (s : Solver d K) :
    adaptPhase cfg env b (setDelta v s) = (setDelta v (adaptPhase cfg env b s).1, (adaptPhase cfg env b s).2) := by
  rw [adaptPhase_tail, adaptPhase_tail]
  show adaptTail cfg env b (setDelta v { s with work := { s.work with rho_updated := false } }) = _
  generalize ({ s with work := { s.work with rho_updated := false } } : Solver d K) = s
  unfold adaptTail
  dsimp only
  have e : (setDelta v s).settings.adaptive_rho = s.settings.adaptive_rho := rfl
  have e2 : (setDelta v s).settings.adaptive_rho_fraction = s.settings.adaptive_rho_fraction := rfl
  have e3 : (setDelta v s).work = s.work := rfl
  have e4 : (setDelta v s).info = s.info := rfl
  rw [e, e2, e3, e4, sd_adaptRho]
  have h1 : ∀ (c : Bool) (t : Solver d K), (if c = true then (setDelta v (adaptRho cfg env t).1, (adaptRho cfg env t).2) else (setDelta v t, 0)) =
      (setDelta v (if c = true then adaptRho cfg env t else (t, 0)).1, (if c = true then adaptRho cfg env t else (t, 0)).2) := by
    intro c t; split_ifs <;> rfl
  rw [h1]
  generalize (if (if (b && decide (s.settings.adaptive_rho = 3)) = true then
      decide (s.info.rel_kkt_error ≤ s.settings.adaptive_rho_fraction * s.work.last_rel_kkt)
    else b) = true then adaptRho cfg env s else (s, 0)) = r
  have e6 : (setDelta v r.1).work = r.1.work := rfl
  dsimp only
  rw [e6]
  split_ifs <;> rfl

def IterOut.setDelta (v : K) : IterOut d K → IterOut d K
  | .cont L => .cont (L.setDelta v)
  | .brk L => .brk (L.setDelta v)
  | .exit s => .exit (Osqp.setDelta v s)

theorem sd_iterBody (i : ℤ) (L : LoopSt d K) : iterBody cfg env i (L.setDelta v) = ((iterBody cfg env i L).setDelta v) := by
  unfold iterBody
  have e1 : (L.setDelta v).s = setDelta v L.s := rfl
  have e2 : (L.setDelta v).canPrint = L.canPrint := rfl
  have e3 : (L.setDelta v).canCheck = L.canCheck := rfl
  dsimp only
  simp only [e1, e2, e3, sd_admmStep, sd_intrCheck, sd_timeCheck]
  generalize intrCheck cfg env _ = r1
  generalize timeCheck cfg env _ = r2
  by_cases h1 : r1.2 = true
  · rw [if_pos h1, if_pos h1]; rfl
  rw [if_neg h1, if_neg h1]
  by_cases h2 : r2.2 = true
  · rw [if_pos h2, if_pos h2]; rfl
  rw [if_neg h2, if_neg h2]
  have e4 : (setDelta v r2.1).settings.check_termination = r2.1.settings.check_termination := rfl
  have e5 : (setDelta v r2.1).settings.verbose = r2.1.settings.verbose := rfl
  simp only [e4, e5, sd_adaptDecision]
  have h3 : ∀ (c : Bool) (t : Solver d K), (if c = true then updateInfo cfg env i (setDelta v t) else setDelta v t) =
      setDelta v (if c = true then updateInfo cfg env i t else t) := by
    intro c t; rw [sd_updateInfo]; split_ifs <;> rfl
  have h4 : ∀ (c : Bool) (t : Solver d K), (if c = true then checkTermination false (setDelta v t) else (setDelta v t, false)) =
      (setDelta v (if c = true then checkTermination false t else (t, false)).1, (if c = true then checkTermination false t else (t, false)).2) := by
    intro c t; rw [sd_checkTermination]; split_ifs <;> rfl
  rw [h3, h4]
  simp only [sd_adaptPhase]
  split_ifs <;> rfl

def LoopOut.setDelta (v : K) : LoopOut d K → LoopOut d K
  | .done i L => .done i (L.setDelta v)
  | .exit s => .exit (Osqp.setDelta v s)

theorem sd_loop (k : ℕ) : ∀ (i : ℤ) (L : LoopSt d K), admmLoop cfg env k i (L.setDelta v) = ((admmLoop cfg env k i L).setDelta v) := by
  induction k with
  | zero => intro i L; rfl
  | succ k ih =>
    intro i L
    unfold admmLoop
    rw [sd_iterBody cfg env]
    cases iterBody cfg env i L with
    | cont L' => exact ih _ _
    | brk L' => rfl
    | exit s => rfl

theorem sd_entry (s : Solver d K) : solveEntry cfg (setDelta v s) = ((solveEntry cfg s).setDelta v) := by
  unfold solveEntry LoopSt.setDelta
  have e : (setDelta v s).work = s.work := rfl
  dsimp only
  by_cases h1 : cfg.profiling = true <;> by_cases h2 : s.work.clear_update_time = true <;> by_cases h3 : cfg.interrupt = true <;>
    by_cases h4 : s.settings.warm_starting = 0 <;>
    simp [h1, h2, h3, h4, setDelta, coldStart]

theorem sd_postLoop (i : ℤ) (L : LoopSt d K) : postLoop cfg env i (L.setDelta v) = setDelta v (postLoop cfg env i L) := by
  have h1 : postCheck cfg env i (L.setDelta v) = setDelta v (postCheck cfg env i L) := by
    unfold postCheck
    have e1 : (L.setDelta v).s = setDelta v L.s := rfl
    have e2 : (L.setDelta v).canPrint = L.canPrint := rfl
    have e3 : (L.setDelta v).canCheck = L.canCheck := rfl
    dsimp only
    rw [e1, e2, e3, sd_updateInfo]
    have h4 : (if (cfg.printing && L.canPrint) = true then setDelta v L.s else setDelta v (updateInfo cfg env (i - 1) L.s)) =
      setDelta v (if (cfg.printing && L.canPrint) = true then L.s else updateInfo cfg env (i - 1) L.s) := by split_ifs <;> rfl
    rw [h4, sd_checkTermination]
    split_ifs <;> rfl
  have h2 : ∀ t : Solver d K, postObj (setDelta v t) = setDelta v (postObj t) := by
    intro t
    unfold postObj computeObj
    have e2 : (setDelta v t).info = t.info := rfl
    have e3 : (setDelta v t).settings.scaling = t.settings.scaling := rfl
    dsimp only
    rw [e2, e3]
    by_cases h1 : hasSolution t.info = true <;> by_cases h3 : t.settings.scaling = 0 <;> simp [h1, h3, setDelta]
  have h3 : ∀ t : Solver d K, postMaxIter (setDelta v t) = setDelta v (postMaxIter t) := by
    intro t
    unfold postMaxIter
    have e2 : (setDelta v t).info = t.info := rfl
    dsimp only
    rw [e2, sd_checkTermination]
    split_ifs <;> rfl
  have h4 : ∀ t : Solver d K, postTimeLimit cfg (setDelta v t) = setDelta v (postTimeLimit cfg t) := by
    intro t
    unfold postTimeLimit
    have e2 : (setDelta v t).info = t.info := rfl
    dsimp only
    rw [e2, sd_checkTermination]
    split_ifs <;> rfl
  have h5 : ∀ t : Solver d K, postRho cfg env (setDelta v t) = setDelta v (postRho cfg env t) := by
    intro t
    unfold postRho
    split_ifs <;> rfl
  unfold postLoop
  rw [h1, h2, h3, h4, h5]

theorem sd_storeSolution (s : Solver d K) (sol : Solution d K) :
    storeSolution (setDelta v s) sol = (setDelta v (storeSolution s sol).1, (storeSolution s sol).2) := by
  unfold storeSolution
  have e : (setDelta v s).info = s.info := rfl
  have e2 : (setDelta v s).settings.scaling = s.settings.scaling := rfl
  have e3 : (coldStart (setDelta v s)).info = (coldStart s).info := rfl
  dsimp only
  rw [e, e2, e3]
  by_cases h1 : hasSolution s.info = true
  · rw [if_pos h1, if_pos h1]
    by_cases h2 : s.settings.scaling ≠ 0
    · rw [if_pos h2, if_pos h2]; rfl
    · rw [if_neg h2, if_neg h2]; rfl
  · rw [if_neg h1, if_neg h1]
    by_cases h2 : (coldStart s).info.status_val = St.primInf ∨ (coldStart s).info.status_val = St.primInfInacc <;>
    by_cases h3 : (coldStart s).info.status_val = St.dualInf ∨ (coldStart s).info.status_val = St.dualInfInacc
    · rw [if_pos h2, if_pos h2, if_pos h3, if_pos h3]; rfl
    · rw [if_pos h2, if_pos h2, if_neg h3, if_neg h3]; rfl
    · rw [if_neg h2, if_neg h2, if_pos h3, if_pos h3]; rfl
    · rw [if_neg h2, if_neg h2, if_neg h3, if_neg h3]; rfl

theorem sd_storeOwn (s : Solver d K) : storeOwnSolution (setDelta v s) = setDelta v (storeOwnSolution s) := by
  unfold storeOwnSolution
  have e : (setDelta v s).solution = s.solution := rfl
  rw [e]
  cases s.solution with
  | none => rfl
  | some sol => dsimp only; rw [sd_storeSolution]; rfl

theorem sd_postTiming (s : Solver d K) : postTiming cfg (setDelta v s) = setDelta v (postTiming cfg s) := by
  unfold postTiming
  by_cases h : cfg.profiling = true
  · rw [if_pos h, if_pos h]; rfl
  · rw [if_neg h, if_neg h]

theorem sd_endListener (s : Solver d K) : endListener cfg (setDelta v s) = setDelta v (endListener cfg s) := by
  unfold endListener; split_ifs <;> rfl


theorem sd_polishTail (pt : Vec K d.n × Vec K d.m × Vec K d.m) (s : Solver d K) (r : Report K) :
    polishTail cfg env pt (setDelta v s, r) = (setDelta v (polishTail cfg env pt (s, r)).1, (polishTail cfg env pt (s, r)).2) := by
  unfold polishTail
  dsimp only
  by_cases hp : cfg.profiling = true
  · simp only [hp, if_true]
    have e1 : ((toc env (setDelta v s)).2).info.prim_res = ((toc env s).2).info.prim_res := rfl
    have e2 : ((toc env (setDelta v s)).2).info.dual_res = ((toc env s).2).info.dual_res := rfl
    rw [e1, e2]
    split_ifs <;> rfl
  · simp only [if_neg hp]
    have e1 : (setDelta v s).info.prim_res = s.info.prim_res := rfl
    have e2 : (setDelta v s).info.dual_res = s.info.dual_res := rfl
    rw [e1, e2]
    split_ifs <;> rfl

theorem sd_polish (s : Solver d K) : polish cfg env (setDelta v s) = (setDelta v (polish cfg env s).1, (polish cfg env s).2) := by
  rw [polish_eq, polish_eq]
  have e1 : (setDelta v s).work = s.work := rfl
  have e2 : (setDelta v s).settings.sigma = s.settings.sigma := rfl
  have e3 : (setDelta v s).settings.polish_refine_iter = s.settings.polish_refine_iter := rfl
  rw [e1, e2, e3]
  generalize activeFlags s.work.data.l s.work.data.u s.work.z s.work.y = flags
  by_cases h1 : nActive flags = 0
  · rw [if_pos h1, if_pos h1]; rfl
  rw [if_neg h1, if_neg h1]
  by_cases h2 : env.polFactor s.work.data flags s.settings.sigma < d.n
  · rw [if_pos h2, if_pos h2]; rfl
  rw [if_neg h2, if_neg h2]
  dsimp only
  generalize polishPoint s.work.data flags _ = pt
  rw [sd_computeReport]
  exact sd_polishTail cfg env pt _ _

theorem sd_finish (s : Solver d K) : finish cfg env (setDelta v s) = (setDelta v (finish cfg env s).1, (finish cfg env s).2) := by
  have h : postPolish cfg env (setDelta v s) = (setDelta v (postPolish cfg env s).1, (postPolish cfg env s).2) := by
    unfold postPolish
    have e1 : (setDelta v s).settings.polishing = s.settings.polishing := rfl
    have e2 : (setDelta v s).info = s.info := rfl
    rw [e1, e2, sd_polish]
    split_ifs <;> rfl
  unfold finish
  dsimp only
  rw [h]
  dsimp only
  rw [sd_postTiming, sd_storeOwn, sd_endListener, sd_endListener]
  split_ifs <;> rfl

/-- The setting has no effect on a solve. -/
theorem sd_solve (s : Solver d K) :
    osqpSolve cfg env (setDelta v s) = (setDelta v (osqpSolve cfg env s).1, (osqpSolve cfg env s).2) := by
  unfold osqpSolve
  rw [sd_entry cfg]
  have e : ((solveEntry cfg s).setDelta v).s.settings.max_iter = (solveEntry cfg s).s.settings.max_iter := rfl
  dsimp only
  rw [e, sd_loop cfg env]
  cases admmLoop cfg env (solveEntry cfg s).s.settings.max_iter.toNat 1 (solveEntry cfg s) with
  | exit t => simp only [LoopOut.setDelta, sd_endListener]
  | done i L => simp only [LoopOut.setDelta, sd_postLoop, sd_finish]

/-! ## The other calls -/

theorem sd_updateRhoVec (s : Solver d K) : updateRhoVec env (setDelta v s) = (setDelta v (updateRhoVec env s).1, (updateRhoVec env s).2) := by
  have h : setRhoVec (setDelta v s) = (setDelta v (setRhoVec s).1, (setRhoVec s).2) := rfl
  unfold updateRhoVec
  dsimp only
  rw [h]
  dsimp only
  split_ifs <;> rfl

theorem sd_vecTail (q : Option (Vec K d.n)) (b : Bool) (s : Solver d K) : vecTail cfg env q b (setDelta v s) = (setDelta v (vecTail cfg env q b s).1, (vecTail cfg env q b s).2) := by
  unfold vecTail
  dsimp only
  have e : (setDelta v s).settings.rho_is_vec = s.settings.rho_is_vec := rfl
  have h1 : (if (b && decide ((setDelta v s).settings.rho_is_vec ≠ 0)) = true then updateRhoVec env (setDelta v s) else (setDelta v s, 0)) =
      (setDelta v (if (b && decide (s.settings.rho_is_vec ≠ 0)) = true then updateRhoVec env s else (s, 0)).1,
        (if (b && decide (s.settings.rho_is_vec ≠ 0)) = true then updateRhoVec env s else (s, 0)).2) := by
    rw [e, sd_updateRhoVec]; split_ifs <;> rfl
  rw [h1]
  generalize (if (b && decide (s.settings.rho_is_vec ≠ 0)) = true then updateRhoVec env s else (s, 0)) = r
  obtain ⟨t, ef⟩ := r
  dsimp only
  by_cases hp : cfg.profiling = true
  · simp only [hp, if_true]
    cases q with
    | none => rfl
    | some q => dsimp only; by_cases hs : t.settings.scaling ≠ 0 <;> rfl
  · simp only [if_neg hp]
    cases q with
    | none => rfl
    | some q => dsimp only; by_cases hs : t.settings.scaling ≠ 0 <;> rfl

/-- Bounds as `osqp_update_data_vec` stores them. -/
def scaled (b : Solver d K) (w : Vec K d.m) : Vec K d.m := if b.settings.scaling ≠ 0 then vEwProd w b.work.scaling.E else w

/-- `osqp_update_data_vec` after the update time was cleared. -/
def vecCore (q : Option (Vec K d.n)) : Option (Vec K d.m) → Option (Vec K d.m) → Solver d K → Solver d K × ℤ
  | none, none, b => vecTail cfg env q false b
  | none, some u, b => if !vAllLeq b.work.data.l (scaled b u) then ({ b with work := { b.work with delta_y := scaled b u } }, Err.dataValidation)
      else vecTail cfg env q true { b with work := { b.work with delta_y := b.work.data.u, data := { b.work.data with u := scaled b u } } }
  | some l, none, b => if !vAllLeq (scaled b l) b.work.data.u then ({ b with work := { b.work with z_prev := scaled b l } }, Err.dataValidation)
      else vecTail cfg env q true { b with work := { b.work with z_prev := b.work.data.l, data := { b.work.data with l := scaled b l } } }
  | some l, some u, b => if !vAllLeq (scaled b l) (scaled b u) then ({ b with work := { b.work with z_prev := scaled b l, delta_y := scaled b u } }, Err.dataValidation)
      else vecTail cfg env q true { b with work := { b.work with z_prev := b.work.data.l, delta_y := b.work.data.u, data := { b.work.data with l := scaled b l, u := scaled b u } } }

theorem vec_core (q : Option (Vec K d.n)) (l u : Option (Vec K d.m)) (s : Solver d K) :
    osqpUpdateDataVec cfg env s q l u = vecCore cfg env q l u (if cfg.profiling then clearUpdateTime s else s) := by
  cases l <;> cases u <;> rfl

theorem sd_if {P : Prop} [Decidable P] {x y x' y' : Solver d K × ℤ} (h1 : x = (setDelta v x'.1, x'.2)) (h2 : y = (setDelta v y'.1, y'.2)) :
    (if P then x else y) = (setDelta v (if P then x' else y').1, (if P then x' else y').2) := by
  split_ifs <;> assumption

theorem sd_vecCore (q : Option (Vec K d.n)) (l u : Option (Vec K d.m)) (s : Solver d K) :
    vecCore cfg env q l u (setDelta v s) = (setDelta v (vecCore cfg env q l u s).1, (vecCore cfg env q l u s).2) := by
  cases l with
  | none => cases u with
    | none => exact sd_vecTail cfg env q false s
    | some u => exact sd_if rfl (sd_vecTail cfg env q true { s with work := { s.work with delta_y := s.work.data.u, data := { s.work.data with u := scaled s u } } })
  | some l => cases u with
    | none => exact sd_if rfl (sd_vecTail cfg env q true { s with work := { s.work with z_prev := s.work.data.l, data := { s.work.data with l := scaled s l } } })
    | some u => exact sd_if rfl (sd_vecTail cfg env q true
        { s with work := { s.work with z_prev := s.work.data.l, delta_y := s.work.data.u, data := { s.work.data with l := scaled s l, u := scaled s u } } })

theorem sd_updateVec (q : Option (Vec K d.n)) (l u : Option (Vec K d.m)) (s : Solver d K) :
    osqpUpdateDataVec cfg env (setDelta v s) q l u = (setDelta v (osqpUpdateDataVec cfg env s q l u).1, (osqpUpdateDataVec cfg env s q l u).2) := by
  have h0 : (if cfg.profiling = true then clearUpdateTime (setDelta v s) else setDelta v s) = setDelta v (if cfg.profiling = true then clearUpdateTime s else s) := by
    rw [sd_clear]; split_ifs <;> rfl
  rw [vec_core, vec_core, h0, sd_vecCore]

theorem sd_updateMat (p a : MatUpd K) (s : Solver d K) :
    osqpUpdateDataMat cfg env (setDelta v s) p a = (osqpUpdateDataMat cfg env s p a).map (fun r => (setDelta v r.1, r.2)) := by
  unfold osqpUpdateDataMat
  have h0 : (if cfg.profiling = true then clearUpdateTime (setDelta v s) else setDelta v s) = setDelta v (if cfg.profiling = true then clearUpdateTime s else s) := by
    rw [sd_clear]; split_ifs <;> rfl
  rw [h0]
  generalize (if cfg.profiling = true then clearUpdateTime s else s) = s
  dsimp only
  by_cases h1 : matUpdBad d.P.nnz p = true
  · rw [if_pos h1, if_pos h1]; rfl
  rw [if_neg h1, if_neg h1]
  by_cases h2 : matUpdBad d.A.nnz a = true
  · rw [if_pos h2, if_pos h2]; rfl
  rw [if_neg h2, if_neg h2]
  have e1 : (setDelta v s).settings.scaling = s.settings.scaling := rfl
  have e2 : (setDelta v s).work = s.work := rfl
  have e3 : (setDelta v s).info = s.info := rfl
  simp only [e1, e2, e3]
  generalize (if s.settings.scaling ≠ 0 then unscaleData s.work.scaling s.work.data else s.work.data) = D0
  cases matUpdApply D0.P p with
  | none => rfl
  | some P =>
    cases matUpdApply D0.A a with
    | none => rfl
    | some A =>
      dsimp only
      generalize (if s.settings.scaling ≠ 0 then scaleData env s.settings.scaling { D0 with P := P, A := A } else ({ D0 with P := P, A := A }, s.work.scaling)) = r
      generalize (if s.settings.scaling ≠ 0 then linsysUpdateMat env s.work.linsys r.1 none d.P.nnz none d.A.nnz
        else linsysUpdateMat env s.work.linsys r.1 p.idx (matUpdCnt d.P.nnz p) a.idx (matUpdCnt d.A.nnz a)) = w
      cases w with
      | none => rfl
      | some w => obtain ⟨ls, ef⟩ := w; dsimp only; split_ifs <;> rfl

theorem sd_warm (x : Option (Vec K d.n)) (y : Option (Vec K d.m)) (s : Solver d K) :
    osqpWarmStart (setDelta v s) x y = (setDelta v (osqpWarmStart s x y).1, (osqpWarmStart s x y).2) := by
  have hs : ∀ (P : Prop) [Decidable P] (x y x' y' : Solver d K), x = setDelta v x' → y = setDelta v y' → (if P then x else y) = setDelta v (if P then x' else y') := by
    intro P _ x y x' y' h1 h2; split_ifs <;> assumption
  unfold osqpWarmStart
  have h0 : (if (setDelta v s).settings.warm_starting = 0 then
      ({ setDelta v s with settings := { (setDelta v s).settings with warm_starting := 1 } } : Solver d K) else setDelta v s) =
      setDelta v (if s.settings.warm_starting = 0 then { s with settings := { s.settings with warm_starting := 1 } } else s) := hs _ _ _ _ _ rfl rfl
  rw [h0]
  generalize (if s.settings.warm_starting = 0 then ({ s with settings := { s.settings with warm_starting := 1 } } : Solver d K) else s) = s
  cases x <;> cases y <;> rfl

/-- Every call but a change of the settings commutes with a change of `delta`. -/
theorem sd_step (op : Op d K) (hop : ∀ st, op ≠ .updateSettings st) (s : Solver d K) :
    apiStep cfg env (setDelta v s) op = (apiStep cfg env s op).map (fun r => (setDelta v r.1, r.2)) := by
  cases op with
  | solve => exact congrArg some (sd_solve cfg env s)
  | updateDataVec q l u => exact congrArg some (sd_updateVec cfg env q l u s)
  | updateDataMat p a => exact sd_updateMat cfg env p a s
  | updateRho r => exact congrArg some (sd_osqpUpdateRho cfg env s r)
  | updateSettings st => exact absurd rfl (hop st)
  | warmStart x y => exact congrArg some (sd_warm x y s)
  | coldStart => rfl
  | getSolution dst =>
    show some ((storeSolution (setDelta v s) dst).1, (0 : ℤ)) = _
    rw [sd_storeSolution]; rfl

end Osqp
