import Verif.Lemmas.Twin
import Verif.Spec.Embed

/-!
# The iterations of a solve do not depend on the polishing setting nor on the stored solution
-/

set_option linter.unusedSectionVars false
namespace Osqp
variable {K : Type*} [Field K] [LinearOrder K] {d : Dims} (cfg : Cfg) (env : Env d K) {p : ℤ} {o : Option (Solution d K)}

/-- The same solver with other values there. -/
def hid (p : ℤ) (o : Option (Solution d K)) (s : Solver d K) : Solver d K := { s with settings := { s.settings with polishing := p }, solution := o }

def LoopSt.hid (p : ℤ) (o : Option (Solution d K)) (L : LoopSt d K) : LoopSt d K := { L with s := Osqp.hid p o L.s }

theorem hid_admmStep (s : Solver d K) : admmStep env (hid p o s) = hid p o (admmStep env s) := rfl

theorem hid_intrCheck (s : Solver d K) : intrCheck cfg env (hid p o s) = (hid p o (intrCheck cfg env s).1, (intrCheck cfg env s).2) := by
  unfold intrCheck; split_ifs <;> rfl

theorem hid_timeCheck (s : Solver d K) : timeCheck cfg env (hid p o s) = (hid p o (timeCheck cfg env s).1, (timeCheck cfg env s).2) := by
  unfold timeCheck; split_ifs <;> rfl

theorem hid_adaptDecision (i : ℤ) (s : Solver d K) :
    adaptDecision cfg env i (hid p o s) = (hid p o (adaptDecision cfg env i s).1, (adaptDecision cfg env i s).2) := by
  unfold adaptDecision
  have e : (hid p o s).settings.adaptive_rho = s.settings.adaptive_rho := rfl
  have e2 : (hid p o s).settings.adaptive_rho_interval = s.settings.adaptive_rho_interval := rfl
  have e3 : (toc env (hid p o s)).2.settings.adaptive_rho_fraction * (toc env (hid p o s)).2.info.setup_time =
    (toc env s).2.settings.adaptive_rho_fraction * (toc env s).2.info.setup_time := rfl
  have e4 : (toc env (hid p o s)).1 = (toc env s).1 := rfl
  dsimp only
  rw [e, e2, e3, e4]
  split_ifs <;> rfl

theorem hid_computeReport (s : Solver d K) (x : Vec K d.n) (z y : Vec K d.m) :
    computeReport (hid p o s) x z y = (hid p o (computeReport s x z y).1, (computeReport s x z y).2) := by
  unfold computeReport computePrimRes computeDualRes computeObj
  dsimp only
  have e : (hid p o s).settings.unscaledTerm = s.settings.unscaledTerm := rfl
  have e2 : (hid p o s).settings.scaling = s.settings.scaling := rfl
  by_cases hm : d.m = 0 <;> by_cases hs : s.settings.scaling = 0 <;>
    simp only [hm, hs, e2, if_true, if_false, ne_eq, not_true, not_false_iff] <;> rfl

theorem hid_updateInfo (i : ℤ) (s : Solver d K) : updateInfo cfg env i (hid p o s) = hid p o (updateInfo cfg env i s) := by
  unfold updateInfo
  have h := hid_computeReport (p := p) (o := o) s s.work.x s.work.z s.work.y
  have e : (hid p o s).work = s.work := rfl
  rw [e, h]
  split_ifs <;> rfl

theorem hid_isPrimalInfeasible (eps : K) (s : Solver d K) :
    isPrimalInfeasible (hid p o s) eps = (hid p o (isPrimalInfeasible s eps).1, (isPrimalInfeasible s eps).2) := by
  refine Prod.ext ?_ ?_
  · dsimp only; rw [isPrimalInfeasible_fst, isPrimalInfeasible_fst]; rfl
  · have h : ∀ (b1 b2 : Prop) [Decidable b1] [Decidable b2] (u v w : Solver d K) (c1 : Bool),
        (if b1 then (if b2 then (u, c1) else (v, false)) else (w, false)).2 = (if b1 then (if b2 then c1 else false) else false) := by
      intro b1 b2 _ _ u v w c1; split_ifs <;> rfl
    unfold isPrimalInfeasible
    dsimp only
    rw [h, h]
    rfl

theorem hid_ctTail (b : Bool) (s : Solver d K) (p1 p2 p3 p4 p5 : Bool) :
    ctTail b (hid p o s) p1 p2 p3 p4 p5 = (hid p o (ctTail b s p1 p2 p3 p4 p5).1, (ctTail b s p1 p2 p3 p4 p5).2) := by
  cases p1 <;> cases p2 <;> cases p3 <;> cases p4 <;> cases p5 <;> rfl

theorem hid_checkTermination (b : Bool) (s : Solver d K) :
    checkTermination b (hid p o s) = (hid p o (checkTermination b s).1, (checkTermination b s).2) := by
  have e2 : (hid p o s).info = s.info := rfl
  by_cases hn : s.info.prim_res > Const.infty K ∨ s.info.dual_res > Const.infty K
  · unfold checkTermination; dsimp only
    rw [if_pos hn, if_pos (by rw [e2]; exact hn)]; rfl
  have h1 := checkTermination_tail b s hn
  have h2 := checkTermination_tail b (hid p o s) (by rw [e2]; exact hn)
  dsimp only at h1 h2
  rw [h2, h1]
  have hp : ∀ a r, primTol (hid p o s) a r = primTol s a r := fun _ _ => rfl
  have hd : ∀ a r, dualTol (hid p o s) a r = dualTol s a r := fun _ _ => rfl
  have hdi : ∀ a, isDualInfeasible (hid p o s) a = isDualInfeasible s a := fun _ => rfl
  have hg : ctGapB b (hid p o s) = ctGapB b s := rfl
  have e5 : (hid p o s).settings.eps_abs = s.settings.eps_abs := rfl
  have e6 : (hid p o s).settings.eps_rel = s.settings.eps_rel := rfl
  have e7 : (hid p o s).settings.eps_dual_inf = s.settings.eps_dual_inf := rfl
  have e8 : (hid p o s).settings.eps_prim_inf = s.settings.eps_prim_inf := rfl
  rw [hid_isPrimalInfeasible]
  simp only [hp, hd, hdi, hg, e2, e5, e6, e7, e8, hid_ctTail]
  split_ifs <;> rfl

theorem hid_linsysUpdateRho (s : Solver d K) : linsysUpdateRho env (hid p o s).work.linsys (hid p o s).work.rho_vec (hid p o s).settings.rho =
    linsysUpdateRho env s.work.linsys s.work.rho_vec s.settings.rho := rfl

theorem hid_setRho (s : Solver d K) (r : K) : setRho (hid p o s) r = hid p o (setRho s r) := by
  unfold setRho; dsimp only
  have e : (hid p o s).settings.rho_is_vec = s.settings.rho_is_vec := rfl
  rw [e]; split_ifs <;> rfl

theorem hid_clear (s : Solver d K) : clearUpdateTime (hid p o s) = hid p o (clearUpdateTime s) := by
  unfold clearUpdateTime
  have e : (hid p o s).work = s.work := rfl
  rw [e]; split_ifs <;> rfl

theorem hid_add (s : Solver d K) : addUpdateTime env (hid p o s) = hid p o (addUpdateTime env s) := rfl

theorem hid_osqpUpdateRho (s : Solver d K) (r : K) :
    osqpUpdateRho cfg env (hid p o s) r = (hid p o (osqpUpdateRho cfg env s r).1, (osqpUpdateRho cfg env s r).2) := by
  unfold osqpUpdateRho
  by_cases hr : r ≤ 0
  · rw [if_pos hr, if_pos hr]
  rw [if_neg hr, if_neg hr]
  dsimp only
  have e : (hid p o s).work = s.work := rfl
  have h1 : (if (cfg.profiling && !(hid p o s).work.rho_update_from_solve) = true then clearUpdateTime (hid p o s) else hid p o s) =
      hid p o (if (cfg.profiling && !s.work.rho_update_from_solve) = true then clearUpdateTime s else s) := by
    rw [e, hid_clear]; split_ifs <;> rfl
  rw [h1, hid_setRho, hid_linsysUpdateRho]
  generalize setRho _ r = t
  have e2 : (hid p o t).work = t.work := rfl
  simp only [e2]
  split_ifs <;> rfl

theorem hid_adaptRho (s : Solver d K) : adaptRho cfg env (hid p o s) = (hid p o (adaptRho cfg env s).1, (adaptRho cfg env s).2) := by
  unfold adaptRho
  have e : computeRhoEstimate env (hid p o s) = computeRhoEstimate env s := rfl
  dsimp only
  rw [e]
  have e2 : (hid p o s).settings.rho = s.settings.rho := rfl
  have e3 : (hid p o s).settings.adaptive_rho_tolerance = s.settings.adaptive_rho_tolerance := rfl
  rw [e2, e3]
  have h := hid_osqpUpdateRho (p := p) (o := o) cfg env { s with info := { s.info with rho_estimate := computeRhoEstimate env s } } (computeRhoEstimate env s)
  have e4 : ({ hid p o s with info := { (hid p o s).info with rho_estimate := computeRhoEstimate env s } } : Solver d K) =
    hid p o { s with info := { s.info with rho_estimate := computeRhoEstimate env s } } := rfl
  rw [e4, h]
  split_ifs <;> rfl

theorem hid_adaptPhase (b : Bool) (s : Solver d K) :
    adaptPhase cfg env b (hid p o s) = (hid p o (adaptPhase cfg env b s).1, (adaptPhase cfg env b s).2) := by
  rw [adaptPhase_tail, adaptPhase_tail]
  show adaptTail cfg env b (hid p o { s with work := { s.work with rho_updated := false } }) = _
  generalize ({ s with work := { s.work with rho_updated := false } } : Solver d K) = s
  unfold adaptTail
  dsimp only
  have e : (hid p o s).settings.adaptive_rho = s.settings.adaptive_rho := rfl
  have e2 : (hid p o s).settings.adaptive_rho_fraction = s.settings.adaptive_rho_fraction := rfl
  have e3 : (hid p o s).work = s.work := rfl
  have e4 : (hid p o s).info = s.info := rfl
  rw [e, e2, e3, e4, hid_adaptRho]
  have h1 : ∀ (c : Bool) (t : Solver d K), (if c = true then (hid p o (adaptRho cfg env t).1, (adaptRho cfg env t).2) else (hid p o t, 0)) =
      (hid p o (if c = true then adaptRho cfg env t else (t, 0)).1, (if c = true then adaptRho cfg env t else (t, 0)).2) := by
    intro c t; split_ifs <;> rfl
  rw [h1]
  generalize (if (if (b && decide (s.settings.adaptive_rho = 3)) = true then
      decide (s.info.rel_kkt_error ≤ s.settings.adaptive_rho_fraction * s.work.last_rel_kkt)
    else b) = true then adaptRho cfg env s else (s, 0)) = r
  have e6 : (hid p o r.1).work = r.1.work := rfl
  dsimp only
  rw [e6]
  split_ifs <;> rfl

def IterOut.hid (p : ℤ) (o : Option (Solution d K)) : IterOut d K → IterOut d K
  | .cont L => .cont (L.hid p o)
  | .brk L => .brk (L.hid p o)
  | .exit s => .exit (Osqp.hid p o s)

theorem hid_iterBody (i : ℤ) (L : LoopSt d K) : iterBody cfg env i (L.hid p o) = (iterBody cfg env i L).hid p o := by
  unfold iterBody
  have e1 : (L.hid p o).s = hid p o L.s := rfl
  have e2 : (L.hid p o).canPrint = L.canPrint := rfl
  have e3 : (L.hid p o).canCheck = L.canCheck := rfl
  dsimp only
  simp only [e1, e2, e3, hid_admmStep, hid_intrCheck, hid_timeCheck]
  generalize intrCheck cfg env _ = r1
  generalize timeCheck cfg env _ = r2
  by_cases h1 : r1.2 = true
  · rw [if_pos h1, if_pos h1]; rfl
  rw [if_neg h1, if_neg h1]
  by_cases h2 : r2.2 = true
  · rw [if_pos h2, if_pos h2]; rfl
  rw [if_neg h2, if_neg h2]
  have e4 : (hid p o r2.1).settings.check_termination = r2.1.settings.check_termination := rfl
  have e5 : (hid p o r2.1).settings.verbose = r2.1.settings.verbose := rfl
  simp only [e4, e5, hid_adaptDecision]
  have h3 : ∀ (c : Bool) (t : Solver d K), (if c = true then updateInfo cfg env i (hid p o t) else hid p o t) =
      hid p o (if c = true then updateInfo cfg env i t else t) := by
    intro c t; rw [hid_updateInfo]; split_ifs <;> rfl
  have h4 : ∀ (c : Bool) (t : Solver d K), (if c = true then checkTermination false (hid p o t) else (hid p o t, false)) =
      (hid p o (if c = true then checkTermination false t else (t, false)).1, (if c = true then checkTermination false t else (t, false)).2) := by
    intro c t; rw [hid_checkTermination]; split_ifs <;> rfl
  rw [h3, h4]
  simp only [hid_adaptPhase]
  split_ifs <;> rfl

def LoopOut.hid (p : ℤ) (o : Option (Solution d K)) : LoopOut d K → LoopOut d K
  | .done i L => .done i (L.hid p o)
  | .exit s => .exit (Osqp.hid p o s)

theorem hid_loop (k : ℕ) : ∀ (i : ℤ) (L : LoopSt d K), admmLoop cfg env k i (L.hid p o) = (admmLoop cfg env k i L).hid p o := by
  induction k with
  | zero => intro i L; rfl
  | succ k ih =>
    intro i L
    unfold admmLoop
    rw [hid_iterBody]
    cases iterBody cfg env i L with
    | cont L' => exact ih _ _
    | brk L' => rfl
    | exit s => rfl

theorem hid_entry (s : Solver d K) : solveEntry cfg (hid p o s) = (solveEntry cfg s).hid p o := by
  unfold solveEntry LoopSt.hid
  have e : (hid p o s).work = s.work := rfl
  dsimp only
  by_cases h1 : cfg.profiling = true <;> by_cases h2 : s.work.clear_update_time = true <;> by_cases h3 : cfg.interrupt = true <;>
    by_cases h4 : s.settings.warm_starting = 0 <;>
    simp [h1, h2, h3, h4, hid, coldStart]

theorem hid_postLoop (i : ℤ) (L : LoopSt d K) : postLoop cfg env i (L.hid p o) = hid p o (postLoop cfg env i L) := by
  have h1 : postCheck cfg env i (L.hid p o) = hid p o (postCheck cfg env i L) := by
    unfold postCheck
    have e1 : (L.hid p o).s = hid p o L.s := rfl
    have e2 : (L.hid p o).canPrint = L.canPrint := rfl
    have e3 : (L.hid p o).canCheck = L.canCheck := rfl
    dsimp only
    rw [e1, e2, e3, hid_updateInfo]
    have h4 : (if (cfg.printing && L.canPrint) = true then hid p o L.s else hid p o (updateInfo cfg env (i - 1) L.s)) =
      hid p o (if (cfg.printing && L.canPrint) = true then L.s else updateInfo cfg env (i - 1) L.s) := by split_ifs <;> rfl
    rw [h4, hid_checkTermination]
    split_ifs <;> rfl
  have h2 : ∀ t : Solver d K, postObj (hid p o t) = hid p o (postObj t) := by
    intro t
    unfold postObj computeObj
    have e2 : (hid p o t).info = t.info := rfl
    have e3 : (hid p o t).settings.scaling = t.settings.scaling := rfl
    dsimp only
    rw [e2, e3]
    by_cases h1 : hasSolution t.info = true <;> by_cases h3 : t.settings.scaling = 0 <;> simp [h1, h3, hid]
  have h3 : ∀ t : Solver d K, postMaxIter (hid p o t) = hid p o (postMaxIter t) := by
    intro t
    unfold postMaxIter
    have e2 : (hid p o t).info = t.info := rfl
    dsimp only
    rw [e2, hid_checkTermination]
    split_ifs <;> rfl
  have h4 : ∀ t : Solver d K, postTimeLimit cfg (hid p o t) = hid p o (postTimeLimit cfg t) := by
    intro t
    unfold postTimeLimit
    have e2 : (hid p o t).info = t.info := rfl
    dsimp only
    rw [e2, hid_checkTermination]
    split_ifs <;> rfl
  have h5 : ∀ t : Solver d K, postRho cfg env (hid p o t) = hid p o (postRho cfg env t) := by
    intro t
    unfold postRho
    split_ifs <;> rfl
  unfold postLoop
  rw [h1, h2, h3, h4, h5]

theorem hid_postTiming (s : Solver d K) : postTiming cfg (hid p o s) = hid p o (postTiming cfg s) := by
  unfold postTiming
  by_cases h : cfg.profiling = true
  · rw [if_pos h, if_pos h]; rfl
  · rw [if_neg h, if_neg h]

theorem hid_endListener (s : Solver d K) : endListener cfg (hid p o s) = hid p o (endListener cfg s) := by
  unfold endListener; split_ifs <;> rfl

end Osqp
