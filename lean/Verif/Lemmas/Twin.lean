import Verif.Lemmas.Outcome

/-!
# A solve with polishing switched off runs the same iterations
-/

set_option linter.unusedSectionVars false
namespace Osqp
variable {K : Type*} [Field K] [LinearOrder K] {d : Dims} (cfg : Cfg) (env : Env d K)

/-- The same solver with the `polishing` setting off. -/
def noPolish (s : Solver d K) : Solver d K := { s with settings := { s.settings with polishing := 0 } }

def LoopSt.noPolish (L : LoopSt d K) : LoopSt d K := { L with s := Osqp.noPolish L.s }

theorem np_admmStep (s : Solver d K) : admmStep env (noPolish s) = noPolish (admmStep env s) := rfl

theorem np_intrCheck (s : Solver d K) : intrCheck cfg env (noPolish s) = (noPolish (intrCheck cfg env s).1, (intrCheck cfg env s).2) := by
  unfold intrCheck; split_ifs <;> rfl

theorem np_timeCheck (s : Solver d K) : timeCheck cfg env (noPolish s) = (noPolish (timeCheck cfg env s).1, (timeCheck cfg env s).2) := by
  unfold timeCheck; split_ifs <;> rfl

theorem np_adaptDecision (i : ℤ) (s : Solver d K) :
    adaptDecision cfg env i (noPolish s) = (noPolish (adaptDecision cfg env i s).1, (adaptDecision cfg env i s).2) := by
  unfold adaptDecision
  have e : (noPolish s).settings.adaptive_rho = s.settings.adaptive_rho := rfl
  have e2 : (noPolish s).settings.adaptive_rho_interval = s.settings.adaptive_rho_interval := rfl
  have e3 : (toc env (noPolish s)).2.settings.adaptive_rho_fraction * (toc env (noPolish s)).2.info.setup_time =
    (toc env s).2.settings.adaptive_rho_fraction * (toc env s).2.info.setup_time := rfl
  have e4 : (toc env (noPolish s)).1 = (toc env s).1 := rfl
  dsimp only
  rw [e, e2, e3, e4]
  split_ifs <;> rfl

theorem np_computeReport (s : Solver d K) (x : Vec K d.n) (z y : Vec K d.m) :
    computeReport (noPolish s) x z y = (noPolish (computeReport s x z y).1, (computeReport s x z y).2) := by
  unfold computeReport computePrimRes computeDualRes computeObj
  dsimp only
  have e : (noPolish s).settings.unscaledTerm = s.settings.unscaledTerm := rfl
  have e2 : (noPolish s).settings.scaling = s.settings.scaling := rfl
  by_cases hm : d.m = 0 <;> by_cases hs : s.settings.scaling = 0 <;>
    simp only [hm, hs, e2, if_true, if_false, ne_eq, not_true, not_false_iff] <;> rfl

theorem np_updateInfo (i : ℤ) (s : Solver d K) : updateInfo cfg env i (noPolish s) = noPolish (updateInfo cfg env i s) := by
  unfold updateInfo
  have h := np_computeReport s s.work.x s.work.z s.work.y
  have e : (noPolish s).work = s.work := rfl
  rw [e, h]
  split_ifs <;> rfl

theorem np_isPrimalInfeasible (eps : K) (s : Solver d K) :
    isPrimalInfeasible (noPolish s) eps = (noPolish (isPrimalInfeasible s eps).1, (isPrimalInfeasible s eps).2) := by
  refine Prod.ext ?_ ?_
  · dsimp only; rw [isPrimalInfeasible_fst, isPrimalInfeasible_fst]; rfl
  · have h : ∀ (b1 b2 : Prop) [Decidable b1] [Decidable b2] (u v w : Solver d K) (c1 : Bool),
        (if b1 then (if b2 then (u, c1) else (v, false)) else (w, false)).2 = (if b1 then (if b2 then c1 else false) else false) := by
      intro b1 b2 _ _ u v w c1; split_ifs <;> rfl
    unfold isPrimalInfeasible
    dsimp only
    rw [h, h]
    rfl

theorem np_ctTail (b : Bool) (s : Solver d K) (p1 p2 p3 p4 p5 : Bool) :
    ctTail b (noPolish s) p1 p2 p3 p4 p5 = (noPolish (ctTail b s p1 p2 p3 p4 p5).1, (ctTail b s p1 p2 p3 p4 p5).2) := by
  cases p1 <;> cases p2 <;> cases p3 <;> cases p4 <;> cases p5 <;> rfl

theorem np_checkTermination (b : Bool) (s : Solver d K) :
    checkTermination b (noPolish s) = (noPolish (checkTermination b s).1, (checkTermination b s).2) := by
  have e2 : (noPolish s).info = s.info := rfl
  by_cases hn : s.info.prim_res > Const.infty K ∨ s.info.dual_res > Const.infty K
  · unfold checkTermination; dsimp only
    rw [if_pos hn, if_pos (by rw [e2]; exact hn)]; rfl
  have h1 := checkTermination_tail b s hn
  have h2 := checkTermination_tail b (noPolish s) (by rw [e2]; exact hn)
  dsimp only at h1 h2
  rw [h2, h1]
  have hp : ∀ a r, primTol (noPolish s) a r = primTol s a r := fun _ _ => rfl
  have hd : ∀ a r, dualTol (noPolish s) a r = dualTol s a r := fun _ _ => rfl
  have hdi : ∀ a, isDualInfeasible (noPolish s) a = isDualInfeasible s a := fun _ => rfl
  have hg : ctGapB b (noPolish s) = ctGapB b s := rfl
  have e5 : (noPolish s).settings.eps_abs = s.settings.eps_abs := rfl
  have e6 : (noPolish s).settings.eps_rel = s.settings.eps_rel := rfl
  have e7 : (noPolish s).settings.eps_dual_inf = s.settings.eps_dual_inf := rfl
  have e8 : (noPolish s).settings.eps_prim_inf = s.settings.eps_prim_inf := rfl
  rw [np_isPrimalInfeasible]
  simp only [hp, hd, hdi, hg, e2, e5, e6, e7, e8, np_ctTail]
  split_ifs <;> rfl

theorem np_linsysUpdateRho (s : Solver d K) : linsysUpdateRho env (noPolish s).work.linsys (noPolish s).work.rho_vec (noPolish s).settings.rho =
    linsysUpdateRho env s.work.linsys s.work.rho_vec s.settings.rho := rfl

theorem np_setRho (s : Solver d K) (r : K) : setRho (noPolish s) r = noPolish (setRho s r) := by
  unfold setRho; dsimp only
  have e : (noPolish s).settings.rho_is_vec = s.settings.rho_is_vec := rfl
  rw [e]; split_ifs <;> rfl

theorem np_clear (s : Solver d K) : clearUpdateTime (noPolish s) = noPolish (clearUpdateTime s) := by
  unfold clearUpdateTime
  have e : (noPolish s).work = s.work := rfl
  rw [e]; split_ifs <;> rfl

theorem np_add (s : Solver d K) : addUpdateTime env (noPolish s) = noPolish (addUpdateTime env s) := rfl

theorem np_osqpUpdateRho (s : Solver d K) (r : K) :
    osqpUpdateRho cfg env (noPolish s) r = (noPolish (osqpUpdateRho cfg env s r).1, (osqpUpdateRho cfg env s r).2) := by
  unfold osqpUpdateRho
  by_cases hr : r ≤ 0
  · rw [if_pos hr, if_pos hr]
  rw [if_neg hr, if_neg hr]
  dsimp only
  have e : (noPolish s).work = s.work := rfl
  have h1 : (if (cfg.profiling && !(noPolish s).work.rho_update_from_solve) = true then clearUpdateTime (noPolish s) else noPolish s) =
      noPolish (if (cfg.profiling && !s.work.rho_update_from_solve) = true then clearUpdateTime s else s) := by
    rw [e, np_clear]; split_ifs <;> rfl
  rw [h1, np_setRho, np_linsysUpdateRho]
  generalize setRho _ r = t
  have e2 : (noPolish t).work = t.work := rfl
  simp only [e2]
  split_ifs <;> rfl

theorem np_adaptRho (s : Solver d K) : adaptRho cfg env (noPolish s) = (noPolish (adaptRho cfg env s).1, (adaptRho cfg env s).2) := by
  unfold adaptRho
  have e : computeRhoEstimate env (noPolish s) = computeRhoEstimate env s := rfl
  dsimp only
  rw [e]
  have e2 : (noPolish s).settings.rho = s.settings.rho := rfl
  have e3 : (noPolish s).settings.adaptive_rho_tolerance = s.settings.adaptive_rho_tolerance := rfl
  rw [e2, e3]
  have h := np_osqpUpdateRho cfg env { s with info := { s.info with rho_estimate := computeRhoEstimate env s } } (computeRhoEstimate env s)
  have e4 : ({ noPolish s with info := { (noPolish s).info with rho_estimate := computeRhoEstimate env s } } : Solver d K) =
    noPolish { s with info := { s.info with rho_estimate := computeRhoEstimate env s } } := rfl
  rw [e4, h]
  split_ifs <;> rfl

/-- `adaptPhase` after `rho_updated` was reset. -/
def adaptTail (canAdapt : Bool) (s : Solver d K) : Solver d K × Bool :=
  let r := if (if canAdapt && decide (s.settings.adaptive_rho = 3) then
      decide (s.info.rel_kkt_error ≤ s.settings.adaptive_rho_fraction * s.work.last_rel_kkt)
    else canAdapt) then adaptRho cfg env s else (s, 0)
  if r.2 ≠ 0 then (r.1, true)
  else if r.1.work.rho_updated then
    ({ r.1 with work := { r.1.work with last_rel_kkt := r.1.info.rel_kkt_error } }, false)
  else (r.1, false)

theorem adaptPhase_tail (b : Bool) (s : Solver d K) :
    adaptPhase cfg env b s = adaptTail cfg env b { s with work := { s.work with rho_updated := false } } := rfl

theorem np_adaptPhase (b : Bool) (s : Solver d K) :
    adaptPhase cfg env b (noPolish s) = (noPolish (adaptPhase cfg env b s).1, (adaptPhase cfg env b s).2) := by
  rw [adaptPhase_tail, adaptPhase_tail]
  show adaptTail cfg env b (noPolish { s with work := { s.work with rho_updated := false } }) = _
  generalize ({ s with work := { s.work with rho_updated := false } } : Solver d K) = s
  unfold adaptTail
  dsimp only
  have e : (noPolish s).settings.adaptive_rho = s.settings.adaptive_rho := rfl
  have e2 : (noPolish s).settings.adaptive_rho_fraction = s.settings.adaptive_rho_fraction := rfl
  have e3 : (noPolish s).work = s.work := rfl
  have e4 : (noPolish s).info = s.info := rfl
  rw [e, e2, e3, e4, np_adaptRho]
  have h1 : ∀ (c : Bool) (t : Solver d K), (if c = true then (noPolish (adaptRho cfg env t).1, (adaptRho cfg env t).2) else (noPolish t, 0)) =
      (noPolish (if c = true then adaptRho cfg env t else (t, 0)).1, (if c = true then adaptRho cfg env t else (t, 0)).2) := by
    intro c t; split_ifs <;> rfl
  rw [h1]
  generalize (if (if (b && decide (s.settings.adaptive_rho = 3)) = true then
      decide (s.info.rel_kkt_error ≤ s.settings.adaptive_rho_fraction * s.work.last_rel_kkt)
    else b) = true then adaptRho cfg env s else (s, 0)) = r
  have e6 : (noPolish r.1).work = r.1.work := rfl
  dsimp only
  rw [e6]
  split_ifs <;> rfl

def IterOut.noPolish : IterOut d K → IterOut d K
  | .cont L => .cont L.noPolish
  | .brk L => .brk L.noPolish
  | .exit s => .exit (Osqp.noPolish s)

theorem np_iterBody (i : ℤ) (L : LoopSt d K) : iterBody cfg env i L.noPolish = (iterBody cfg env i L).noPolish := by
  unfold iterBody
  have e1 : L.noPolish.s = noPolish L.s := rfl
  have e2 : L.noPolish.canPrint = L.canPrint := rfl
  have e3 : L.noPolish.canCheck = L.canCheck := rfl
  dsimp only
  simp only [e1, e2, e3, np_admmStep, np_intrCheck, np_timeCheck]
  generalize intrCheck cfg env _ = r1
  generalize timeCheck cfg env _ = r2
  by_cases h1 : r1.2 = true
  · rw [if_pos h1, if_pos h1]; rfl
  rw [if_neg h1, if_neg h1]
  by_cases h2 : r2.2 = true
  · rw [if_pos h2, if_pos h2]; rfl
  rw [if_neg h2, if_neg h2]
  have e4 : (noPolish r2.1).settings.check_termination = r2.1.settings.check_termination := rfl
  have e5 : (noPolish r2.1).settings.verbose = r2.1.settings.verbose := rfl
  simp only [e4, e5, np_adaptDecision]
  have h3 : ∀ (c : Bool) (t : Solver d K), (if c = true then updateInfo cfg env i (noPolish t) else noPolish t) =
      noPolish (if c = true then updateInfo cfg env i t else t) := by
    intro c t; rw [np_updateInfo]; split_ifs <;> rfl
  have h4 : ∀ (c : Bool) (t : Solver d K), (if c = true then checkTermination false (noPolish t) else (noPolish t, false)) =
      (noPolish (if c = true then checkTermination false t else (t, false)).1, (if c = true then checkTermination false t else (t, false)).2) := by
    intro c t; rw [np_checkTermination]; split_ifs <;> rfl
  rw [h3, h4]
  simp only [np_adaptPhase]
  split_ifs <;> rfl

def LoopOut.noPolish : LoopOut d K → LoopOut d K
  | .done i L => .done i L.noPolish
  | .exit s => .exit (Osqp.noPolish s)

theorem np_loop (k : ℕ) : ∀ (i : ℤ) (L : LoopSt d K), admmLoop cfg env k i L.noPolish = (admmLoop cfg env k i L).noPolish := by
  induction k with
  | zero => intro i L; rfl
  | succ k ih =>
    intro i L
    unfold admmLoop
    rw [np_iterBody]
    cases iterBody cfg env i L with
    | cont L' => exact ih _ _
    | brk L' => rfl
    | exit s => rfl

theorem np_entry (s : Solver d K) : solveEntry cfg (noPolish s) = (solveEntry cfg s).noPolish := by
  unfold solveEntry LoopSt.noPolish
  have e : (noPolish s).work = s.work := rfl
  dsimp only
  by_cases h1 : cfg.profiling = true <;> by_cases h2 : s.work.clear_update_time = true <;> by_cases h3 : cfg.interrupt = true <;>
    by_cases h4 : s.settings.warm_starting = 0 <;>
    simp [h1, h2, h3, h4, noPolish, coldStart]

theorem np_postLoop (i : ℤ) (L : LoopSt d K) : postLoop cfg env i L.noPolish = noPolish (postLoop cfg env i L) := by
  have h1 : postCheck cfg env i L.noPolish = noPolish (postCheck cfg env i L) := by
    unfold postCheck
    have e1 : L.noPolish.s = noPolish L.s := rfl
    have e2 : L.noPolish.canPrint = L.canPrint := rfl
    have e3 : L.noPolish.canCheck = L.canCheck := rfl
    dsimp only
    rw [e1, e2, e3, np_updateInfo]
    have h4 : (if (cfg.printing && L.canPrint) = true then noPolish L.s else noPolish (updateInfo cfg env (i - 1) L.s)) =
      noPolish (if (cfg.printing && L.canPrint) = true then L.s else updateInfo cfg env (i - 1) L.s) := by split_ifs <;> rfl
    rw [h4, np_checkTermination]
    split_ifs <;> rfl
  have h2 : ∀ t : Solver d K, postObj (noPolish t) = noPolish (postObj t) := by
    intro t
    unfold postObj computeObj
    have e2 : (noPolish t).info = t.info := rfl
    have e3 : (noPolish t).settings.scaling = t.settings.scaling := rfl
    dsimp only
    rw [e2, e3]
    by_cases h1 : hasSolution t.info = true <;> by_cases h3 : t.settings.scaling = 0 <;> simp [h1, h3, noPolish]
  have h3 : ∀ t : Solver d K, postMaxIter (noPolish t) = noPolish (postMaxIter t) := by
    intro t
    unfold postMaxIter
    have e2 : (noPolish t).info = t.info := rfl
    dsimp only
    rw [e2, np_checkTermination]
    split_ifs <;> rfl
  have h4 : ∀ t : Solver d K, postTimeLimit cfg (noPolish t) = noPolish (postTimeLimit cfg t) := by
    intro t
    unfold postTimeLimit
    have e2 : (noPolish t).info = t.info := rfl
    dsimp only
    rw [e2, np_checkTermination]
    split_ifs <;> rfl
  have h5 : ∀ t : Solver d K, postRho cfg env (noPolish t) = noPolish (postRho cfg env t) := by
    intro t
    unfold postRho
    split_ifs <;> rfl
  unfold postLoop
  rw [h1, h2, h3, h4, h5]

theorem np_storeSolution (s : Solver d K) (sol : Solution d K) :
    storeSolution (noPolish s) sol = (noPolish (storeSolution s sol).1, (storeSolution s sol).2) := by
  unfold storeSolution
  have e : (noPolish s).info = s.info := rfl
  have e2 : (noPolish s).settings.scaling = s.settings.scaling := rfl
  have e3 : (coldStart (noPolish s)).info = (coldStart s).info := rfl
  dsimp only
  rw [e, e2, e3]
  by_cases h1 : hasSolution s.info = true
  · rw [if_pos h1, if_pos h1]
    by_cases h2 : s.settings.scaling ≠ 0
    · rw [if_pos h2, if_pos h2]; rfl
    · rw [if_neg h2, if_neg h2]; rfl
  · rw [if_neg h1, if_neg h1]
    by_cases h2 : (coldStart s).info.status_val = St.primInf ∨ (coldStart s).info.status_val = St.primInfInacc <;>
    by_cases h3 : (coldStart s).info.status_val = St.dualInf ∨ (coldStart s).info.status_val = St.dualInfInacc
    · rw [if_pos h2, if_pos h2, if_pos h3, if_pos h3]; rfl
    · rw [if_pos h2, if_pos h2, if_neg h3, if_neg h3]; rfl
    · rw [if_neg h2, if_neg h2, if_pos h3, if_pos h3]; rfl
    · rw [if_neg h2, if_neg h2, if_neg h3, if_neg h3]; rfl

theorem np_storeOwn (s : Solver d K) : storeOwnSolution (noPolish s) = noPolish (storeOwnSolution s) := by
  unfold storeOwnSolution
  have e : (noPolish s).solution = s.solution := rfl
  rw [e]
  cases s.solution with
  | none => rfl
  | some sol => dsimp only; rw [np_storeSolution]; rfl

theorem np_postTiming (s : Solver d K) : postTiming cfg (noPolish s) = noPolish (postTiming cfg s) := by
  unfold postTiming
  by_cases h : cfg.profiling = true
  · rw [if_pos h, if_pos h]; rfl
  · rw [if_neg h, if_neg h]

theorem np_endListener (s : Solver d K) : endListener cfg (noPolish s) = noPolish (endListener cfg s) := by
  unfold endListener; split_ifs <;> rfl

/-- The solve with polishing off: same exits, and otherwise the same state before polishing, which is then skipped. -/
theorem np_solve (s : Solver d K) :
    (∃ t, osqpSolve cfg env s = (endListener cfg t, 1) ∧ osqpSolve cfg env (noPolish s) = (endListener cfg (noPolish t), 1)) ∨
    ∃ t, osqpSolve cfg env s = finish cfg env t ∧
      osqpSolve cfg env (noPolish s) = (endListener cfg (storeOwnSolution (postTiming cfg (noPolish t))), 0) := by
  unfold osqpSolve
  rw [np_entry]
  have e : (solveEntry cfg s).noPolish.s.settings.max_iter = (solveEntry cfg s).s.settings.max_iter := rfl
  dsimp only
  rw [e, np_loop]
  cases admmLoop cfg env (solveEntry cfg s).s.settings.max_iter.toNat 1 (solveEntry cfg s) with
  | exit t => exact Or.inl ⟨t, rfl, rfl⟩
  | done i L =>
    refine Or.inr ⟨postLoop cfg env i L, rfl, ?_⟩
    simp only [LoopOut.noPolish, np_postLoop]
    unfold finish postPolish
    have : ¬ ((noPolish (postLoop cfg env i L)).settings.polishing ≠ 0 ∧ (noPolish (postLoop cfg env i L)).info.status_val = St.solved) := by
      rintro ⟨h, _⟩; exact h rfl
    rw [if_neg this]
    rfl

end Osqp
