import Verif.Lemmas.Twin
import Verif.Lemmas.RunEnd

/-!
# What a solve depends on

`er k s` forgets the parts of the solver state that do not influence the iterations: statistics, times, clock and poll cursors,
stored solution, and (if `k = false`) the status.  Every phase of a solve that is not stopped from outside maps states with equal
`er k` to states with equal `er k`.
-/

set_option linter.unusedSectionVars false
namespace Osqp
variable {K : Type*} [Field K] [LinearOrder K] [IsStrictOrderedRing K] {d : Dims} (cfg : Cfg) (env : Env d K) (k : Bool)

def er (s : Solver d K) : Solver d K :=
  { s with
    info := { s.info with status := (if k then s.info.status else ""), status_val := (if k then s.info.status_val else 0),
                          status_polish := 0, rho_updates := 0, rho_estimate := 0, setup_time := 0, solve_time := 0,
                          update_time := 0, polish_time := 0, run_time := 0, primdual_int := 0 }
    work := { s.work with rho_updated := false, first_run := false, clear_update_time := false, rho_update_from_solve := false,
                          last_rel_kkt := if s.settings.adaptive_rho = 3 then s.work.last_rel_kkt else 0 }
    solution := none, ticks := 0, polls := 0, handler := false }

theorem er_er (s : Solver d K) : er k (er k s) = er k s := by
  unfold er; cases k <;> by_cases h : s.settings.adaptive_rho = 3 <;> simp [h]

theorem er_admmStep (s : Solver d K) : er k (admmStep env (er k s)) = er k (admmStep env s) := by
  have h : admmStep env (er k s) = er k (admmStep env s) := rfl
  rw [h, er_er]

theorem er_itTimed (L : LoopSt d K) : er k (itTimed cfg env L) = er k (admmStep env L.s) := by
  have h1 : ∀ s : Solver d K, er k (intrCheck cfg env s).1 = er k s := by intro s; unfold intrCheck; split_ifs <;> rfl
  have h2 : ∀ s : Solver d K, er k (timeCheck cfg env s).1 = er k s := by intro s; unfold timeCheck; split_ifs <;> rfl
  unfold itTimed itAdmm; rw [h2, h1]

theorem er_computeReport (s : Solver d K) (x : Vec K d.n) (z y : Vec K d.m) :
    computeReport (er k s) x z y = (er k (computeReport s x z y).1, (computeReport s x z y).2) := by
  unfold computeReport computePrimRes computeDualRes computeObj
  dsimp only
  have e : (er k s).settings.unscaledTerm = s.settings.unscaledTerm := rfl
  have e2 : (er k s).settings.scaling = s.settings.scaling := rfl
  by_cases hm : d.m = 0 <;> by_cases hs : s.settings.scaling = 0 <;>
    simp only [hm, hs, e2, if_true, if_false, ne_eq, not_true, not_false_iff] <;> rfl

theorem er_updateInfo (i : ℤ) (s : Solver d K) : er k (updateInfo cfg env i (er k s)) = er k (updateInfo cfg env i s) := by
  unfold updateInfo
  have h := er_computeReport k s s.work.x s.work.z s.work.y
  have e1 : (er k s).work.x = s.work.x := rfl
  have e2 : (er k s).work.y = s.work.y := rfl
  have e3 : (er k s).work.z = s.work.z := rfl
  rw [e1, e2, e3, h]
  generalize computeReport s s.work.x s.work.z s.work.y = r
  split_ifs <;> cases k <;> by_cases h : r.1.settings.adaptive_rho = 3 <;> simp [er, h, toc]

theorem er_isPrimalInfeasible (eps : K) (s : Solver d K) :
    isPrimalInfeasible (er k s) eps = (er k (isPrimalInfeasible s eps).1, (isPrimalInfeasible s eps).2) := by
  refine Prod.ext ?_ ?_
  · dsimp only; rw [isPrimalInfeasible_fst, isPrimalInfeasible_fst]; rfl
  · have h : ∀ (b1 b2 : Prop) [Decidable b1] [Decidable b2] (u v w : Solver d K) (c1 : Bool),
        (if b1 then (if b2 then (u, c1) else (v, false)) else (w, false)).2 = (if b1 then (if b2 then c1 else false) else false) := by
      intro b1 b2 _ _ u v w c1; split_ifs <;> rfl
    unfold isPrimalInfeasible
    dsimp only
    rw [h, h]
    rfl

/-- Status after a call that stopped. -/
def stOf (s : Solver d K) : ℤ × String := (s.info.status_val, s.info.status)

theorem er_ctTail (b : Bool) (s : Solver d K) (p1 p2 p3 p4 p5 : Bool) :
    er k (ctTail b (er k s) p1 p2 p3 p4 p5).1 = er k (ctTail b s p1 p2 p3 p4 p5).1 ∧
    (ctTail b (er k s) p1 p2 p3 p4 p5).2 = (ctTail b s p1 p2 p3 p4 p5).2 ∧
    ((ctTail b s p1 p2 p3 p4 p5).2 = true → stOf (ctTail b (er k s) p1 p2 p3 p4 p5).1 = stOf (ctTail b s p1 p2 p3 p4 p5).1) := by
  have hu : (er k s).settings.unscaledTerm = s.settings.unscaledTerm := rfl
  unfold ctTail
  by_cases h3 : s.settings.adaptive_rho = 3 <;> by_cases hs : s.settings.unscaledTerm <;>
    cases p1 <;> cases p2 <;> cases p3 <;> cases p4 <;> cases p5 <;> cases k <;>
    simp [er, setStatus, updateStatus, h3, hs, hu, stOf] <;> cases b <;> rfl

theorem er_checkTermination (b : Bool) (s : Solver d K) :
    er k (checkTermination b (er k s)).1 = er k (checkTermination b s).1 ∧ (checkTermination b (er k s)).2 = (checkTermination b s).2 ∧
    ((checkTermination b s).2 = true → stOf (checkTermination b (er k s)).1 = stOf (checkTermination b s).1) := by
  have e1 : (er k s).info.prim_res = s.info.prim_res := rfl
  have e2 : (er k s).info.dual_res = s.info.dual_res := rfl
  by_cases hn : s.info.prim_res > Const.infty K ∨ s.info.dual_res > Const.infty K
  · unfold checkTermination; dsimp only
    rw [if_pos hn, if_pos (by rw [e1, e2]; exact hn)]
    refine ⟨?_, rfl, fun _ => ?_⟩
    · cases k <;> by_cases h3 : s.settings.adaptive_rho = 3 <;> simp [er, setStatus, updateStatus, h3]
    · simp [stOf, setStatus, updateStatus, statusMessage, St.nonCvx]
  have h1 := checkTermination_tail b s hn
  have h2 := checkTermination_tail b (er k s) (by rw [e1, e2]; exact hn)
  dsimp only at h1 h2
  rw [h2, h1]
  have hp : ∀ a r, primTol (er k s) a r = primTol s a r := fun _ _ => rfl
  have hd : ∀ a r, dualTol (er k s) a r = dualTol s a r := fun _ _ => rfl
  have hdi : ∀ a, isDualInfeasible (er k s) a = isDualInfeasible s a := fun _ => rfl
  have hg : ctGapB b (er k s) = ctGapB b s := rfl
  have e5 : (er k s).settings.eps_abs = s.settings.eps_abs := rfl
  have e6 : (er k s).settings.eps_rel = s.settings.eps_rel := rfl
  have e7 : (er k s).settings.eps_dual_inf = s.settings.eps_dual_inf := rfl
  have e8 : (er k s).settings.eps_prim_inf = s.settings.eps_prim_inf := rfl
  rw [er_isPrimalInfeasible]
  simp only [hp, hd, hdi, hg, e1, e2, e5, e6, e7, e8]
  by_cases hc : (decide (d.m = 0) || decide (s.info.prim_res < primTol s (s.settings.eps_abs * ctK b) (s.settings.eps_rel * ctK b))) = true
  · simp only [if_pos hc]; exact er_ctTail k b s _ _ _ _ _
  · simp only [if_neg hc]; exact er_ctTail k b _ _ _ _ _ _

theorem er_osqpUpdateRho (s : Solver d K) (r : K) :
    er k (osqpUpdateRho cfg env (er k s) r).1 = er k (osqpUpdateRho cfg env s r).1 ∧
    (osqpUpdateRho cfg env (er k s) r).2 = (osqpUpdateRho cfg env s r).2 := by
  unfold osqpUpdateRho
  by_cases hr : r ≤ 0
  · rw [if_pos hr, if_pos hr]; exact ⟨er_er k s, rfl⟩
  rw [if_neg hr, if_neg hr]
  have hc : ∀ (b : Bool) (t : Solver d K), er k (if b = true then clearUpdateTime t else t) = er k t := by
    intro b t; unfold clearUpdateTime; split_ifs <;> rfl
  have ha : ∀ (b : Bool) (t : Solver d K), er k (if b = true then addUpdateTime env t else t) = er k t := by
    intro b t; unfold addUpdateTime; split_ifs <;> rfl
  have hset : ∀ t : Solver d K, setRho (er k t) r = er k (setRho t r) := by
    intro t
    unfold setRho; dsimp only
    have e : (er k t).settings.rho_is_vec = t.settings.rho_is_vec := rfl
    rw [e]; split_ifs <;> rfl
  dsimp only
  have key : ∀ t u : Solver d K, er k t = er k u → er k (setRho t r) = er k (setRho u r) := by
    intro t u h; rw [← hset, ← hset, h]
  generalize hA : (if (cfg.profiling && !(er k s).work.rho_update_from_solve) = true then clearUpdateTime (er k s) else er k s) = A
  generalize hB : (if (cfg.profiling && !s.work.rho_update_from_solve) = true then clearUpdateTime s else s) = B
  have hAB : er k A = er k B := by rw [← hA, ← hB, hc, hc, er_er]
  have h1 := key A B hAB
  generalize setRho A r = A1 at *
  generalize setRho B r = B1 at *
  have f1 : A1.work.linsys = B1.work.linsys := congrArg (fun t => t.work.linsys) h1
  have f2 : A1.work.rho_vec = B1.work.rho_vec := congrArg (fun t => t.work.rho_vec) h1
  have f3 : A1.settings = B1.settings := congrArg (fun t => t.settings) h1
  have f4 : linsysUpdateRho env A1.work.linsys A1.work.rho_vec A1.settings.rho =
    linsysUpdateRho env B1.work.linsys B1.work.rho_vec B1.settings.rho := by rw [f1, f2, f3]
  rw [f4, ha, ha]
  refine ⟨?_, rfl⟩
  generalize (linsysUpdateRho env B1.work.linsys B1.work.rho_vec B1.settings.rho).1 = ls
  have : ∀ t : Solver d K, er k { t with work := { t.work with linsys := ls } } =
      { er k t with work := { (er k t).work with linsys := ls } } := fun t => rfl
  rw [this, this, h1]

theorem er_congr {s t : Solver d K} (h : er k s = er k t) {f : Solver d K → Solver d K} (hf : ∀ s, er k (f (er k s)) = er k (f s)) :
    er k (f s) = er k (f t) := by rw [← hf s, ← hf t, h]

/-- The condition under which `adapt_rho` changes the step size. -/
def adaptCond (s : Solver d K) : Prop :=
  computeRhoEstimate env s > s.settings.rho * s.settings.adaptive_rho_tolerance ∨
  computeRhoEstimate env s < s.settings.rho / s.settings.adaptive_rho_tolerance

theorem er_adaptRho (s : Solver d K) (h0 : s.work.rho_updated = false) :
    er k (adaptRho cfg env (er k s)).1 = er k (adaptRho cfg env s).1 ∧ (adaptRho cfg env (er k s)).2 = (adaptRho cfg env s).2 ∧
    (adaptRho cfg env (er k s)).1.work.rho_updated = (adaptRho cfg env s).1.work.rho_updated := by
  unfold adaptRho
  have e : computeRhoEstimate env (er k s) = computeRhoEstimate env s := rfl
  have e2 : (er k s).settings.rho = s.settings.rho := rfl
  have e3 : (er k s).settings.adaptive_rho_tolerance = s.settings.adaptive_rho_tolerance := rfl
  dsimp only
  rw [e, e2, e3]
  by_cases hc : computeRhoEstimate env s > s.settings.rho * s.settings.adaptive_rho_tolerance ∨
      computeRhoEstimate env s < s.settings.rho / s.settings.adaptive_rho_tolerance
  · rw [if_pos hc, if_pos hc]
    have h1 := er_osqpUpdateRho cfg env k { s with info := { s.info with rho_estimate := computeRhoEstimate env s } } (computeRhoEstimate env s)
    have h2 := er_osqpUpdateRho cfg env k { er k s with info := { (er k s).info with rho_estimate := computeRhoEstimate env s } } (computeRhoEstimate env s)
    have e4 : er k { er k s with info := { (er k s).info with rho_estimate := computeRhoEstimate env s } } =
      er k { s with info := { s.info with rho_estimate := computeRhoEstimate env s } } := er_er k s
    rw [e4, h1.1, h1.2] at h2
    generalize osqpUpdateRho cfg env { er k s with info := { (er k s).info with rho_estimate := computeRhoEstimate env s } } (computeRhoEstimate env s) = A at *
    generalize osqpUpdateRho cfg env { s with info := { s.info with rho_estimate := computeRhoEstimate env s } } (computeRhoEstimate env s) = B at *
    exact ⟨h2.1.symm, h2.2.symm, rfl⟩
  · rw [if_neg hc, if_neg hc]
    refine ⟨er_er k s, rfl, h0.symm⟩

theorem er_adaptPhase (b : Bool) (s : Solver d K) :
    er k (adaptPhase cfg env b (er k s)).1 = er k (adaptPhase cfg env b s).1 ∧ (adaptPhase cfg env b (er k s)).2 = (adaptPhase cfg env b s).2 := by
  rw [adaptPhase_tail, adaptPhase_tail]
  have e0 : ({ er k s with work := { (er k s).work with rho_updated := false } } : Solver d K) =
    er k { s with work := { s.work with rho_updated := false } } := rfl
  rw [e0]
  have h0 : ({ s with work := { s.work with rho_updated := false } } : Solver d K).work.rho_updated = false := rfl
  generalize ({ s with work := { s.work with rho_updated := false } } : Solver d K) = s at *
  unfold adaptTail
  dsimp only
  have e1 : (er k s).settings.adaptive_rho = s.settings.adaptive_rho := rfl
  have e2 : (er k s).settings.adaptive_rho_fraction = s.settings.adaptive_rho_fraction := rfl
  have e3 : (er k s).info.rel_kkt_error = s.info.rel_kkt_error := rfl
  have hcond : (if (b && decide ((er k s).settings.adaptive_rho = 3)) = true then
      decide ((er k s).info.rel_kkt_error ≤ (er k s).settings.adaptive_rho_fraction * (er k s).work.last_rel_kkt) else b) =
      (if (b && decide (s.settings.adaptive_rho = 3)) = true then
      decide (s.info.rel_kkt_error ≤ s.settings.adaptive_rho_fraction * s.work.last_rel_kkt) else b) := by
    rw [e1, e2, e3]
    by_cases h3 : s.settings.adaptive_rho = 3
    · have : (er k s).work.last_rel_kkt = s.work.last_rel_kkt := by show (if _ then _ else _) = _; rw [if_pos h3]
      rw [this]
    · simp [h3]
  rw [hcond]
  generalize (if (b && decide (s.settings.adaptive_rho = 3)) = true then
      decide (s.info.rel_kkt_error ≤ s.settings.adaptive_rho_fraction * s.work.last_rel_kkt) else b) = c
  have hr : er k (if c = true then adaptRho cfg env (er k s) else (er k s, 0)).1 = er k (if c = true then adaptRho cfg env s else (s, 0)).1 ∧
      (if c = true then adaptRho cfg env (er k s) else (er k s, 0)).2 = (if c = true then adaptRho cfg env s else (s, 0)).2 ∧
      (if c = true then adaptRho cfg env (er k s) else (er k s, 0)).1.work.rho_updated = (if c = true then adaptRho cfg env s else (s, 0)).1.work.rho_updated := by
    cases c
    · exact ⟨er_er k s, rfl, h0.symm⟩
    · exact er_adaptRho cfg env k s h0
  generalize (if c = true then adaptRho cfg env (er k s) else (er k s, 0)) = A at *
  generalize (if c = true then adaptRho cfg env s else (s, 0)) = B at *
  obtain ⟨r1, r2, r3⟩ := hr
  by_cases h2 : B.2 ≠ 0
  · rw [if_pos h2, if_pos (by rw [r2]; exact h2)]; exact ⟨r1, rfl⟩
  rw [if_neg h2, if_neg (by rw [r2]; exact h2)]
  by_cases h4 : B.1.work.rho_updated = true
  · rw [if_pos h4, if_pos (by rw [r3]; exact h4)]
    refine ⟨?_, rfl⟩
    dsimp only
    have hk : A.1.info.rel_kkt_error = B.1.info.rel_kkt_error := congrArg (fun t => t.info.rel_kkt_error) r1
    have hs : A.1.settings = B.1.settings := congrArg (fun t => t.settings) r1
    rw [hk]
    generalize B.1.info.rel_kkt_error = v
    have : ∀ t : Solver d K, er k { t with work := { t.work with last_rel_kkt := v } } =
      { er k t with work := { (er k t).work with last_rel_kkt := if t.settings.adaptive_rho = 3 then v else 0 } } := fun t => rfl
    rw [this, this, r1, hs]
  · rw [if_neg h4, if_neg (by rw [r3]; exact h4)]; exact ⟨r1, rfl⟩

/-! ## One iteration -/

/-- The step-size adaptation is not driven by the clock. -/
def NotTimed (st : Settings K) : Prop := st.adaptive_rho ≠ 2 ∨ cfg.profiling = false

def decOf (st : Settings K) (i : ℤ) : Bool := if st.adaptive_rho = 3 ∨ st.adaptive_rho = 1 then intervalRule st i else false

theorem adaptDecision_quiet {s : Solver d K} (i : ℤ) (h : NotTimed cfg s.settings) : adaptDecision cfg env i s = (s, decOf s.settings i) := by
  unfold adaptDecision decOf
  dsimp only
  rcases h with h | h
  · rw [if_neg h]; split_ifs <;> rfl
  · by_cases h2 : s.settings.adaptive_rho = 2
    · rw [if_pos h2, h, if_neg (by simp), h2, if_neg (by simp)]
    · rw [if_neg h2]; split_ifs <;> rfl

theorem er_settings {s t : Solver d K} (h : er k s = er k t) : s.settings = t.settings := congrArg (fun t => t.settings) h

theorem itTimed_settings (L : LoopSt d K) : (itTimed cfg env L).settings = L.s.settings := by simp [itTimed, itAdmm]

theorem itDec_quiet {L : LoopSt d K} (i : ℤ) (h : NotTimed cfg L.s.settings) :
    itDec cfg env i L = (itTimed cfg env L, decOf L.s.settings i) := by
  unfold itDec
  rw [adaptDecision_quiet cfg env i (by rw [itTimed_settings]; exact h), itTimed_settings]

theorem er_itInfo {L M : LoopSt d K} (i : ℤ) (h : er k L.s = er k M.s) (hq : NotTimed cfg L.s.settings) :
    er k (itInfo cfg env i L) = er k (itInfo cfg env i M) := by
  have hs := er_settings k h
  have ht : er k (itTimed cfg env L) = er k (itTimed cfg env M) := by
    rw [er_itTimed, er_itTimed]; exact er_congr k h (er_admmStep env k)
  unfold itInfo itUpd
  rw [itDec_quiet cfg env i hq, itDec_quiet cfg env i (by rw [← hs]; exact hq), ← hs]
  split_ifs
  · exact er_congr k ht (er_updateInfo cfg env k i)
  · exact ht

theorem er_term_of_info {L M : LoopSt d K} (i : ℤ) (hs : L.s.settings = M.s.settings)
    (hi : er k (itInfo cfg env i L) = er k (itInfo cfg env i M)) :
    er k (itTerm cfg env i L).1 = er k (itTerm cfg env i M).1 ∧ (itTerm cfg env i L).2 = (itTerm cfg env i M).2 ∧
    ((itTerm cfg env i L).2 = true → stOf (itTerm cfg env i L).1 = stOf (itTerm cfg env i M).1 ∧ itCheck L.s.settings i = true) := by
  unfold itTerm
  rw [← hs]
  have a := er_checkTermination k false (itInfo cfg env i L)
  have b := er_checkTermination k false (itInfo cfg env i M)
  by_cases hc : itCheck L.s.settings i = true
  · simp only [if_pos hc]
    refine ⟨?_, ?_, fun h => ⟨?_, hc⟩⟩
    · rw [← a.1, ← b.1, hi]
    · rw [← a.2.1, ← b.2.1, hi]
    · rw [← a.2.2 h, ← b.2.2 (by rw [← b.2.1, ← hi, a.2.1]; exact h), hi]
  · simp only [if_neg hc]
    exact ⟨hi, by trivial, fun h => by cases h⟩

/-- Neither the user nor the clock stops the iteration. -/
def NoStop (L : LoopSt d K) : Prop :=
  (intrCheck cfg env (admmStep env L.s)).2 = false ∧ (timeCheck cfg env (itAdmm cfg env L)).2 = false

/-- Related outcomes of an iteration. -/
def OutRel : IterOut d K → IterOut d K → Prop
  | .cont L, .cont M => er k L.s = er k M.s ∧ L.canPrint = M.canPrint ∧ L.canCheck = M.canCheck
  | .brk L, .brk M => er k L.s = er k M.s ∧ L.canPrint = M.canPrint ∧ L.canCheck = M.canCheck ∧ stOf L.s = stOf M.s
  | .exit _, .exit _ => True
  | _, _ => False

theorem er_iter_of_info {L M : LoopSt d K} (i : ℤ) (hs : L.s.settings = M.s.settings) (hq : NotTimed cfg L.s.settings)
    (hL : NoStop cfg env L) (hM : NoStop cfg env M) (hi : er k (itInfo cfg env i L) = er k (itInfo cfg env i M)) :
    OutRel k (iterBody cfg env i L) (iterBody cfg env i M) := by
  obtain ⟨t1, t2, t3⟩ := er_term_of_info cfg env k i hs hi
  have a1 : ¬ (intrCheck cfg env (admmStep env L.s)).2 = true := by rw [hL.1]; simp
  have a2 : ¬ (timeCheck cfg env (itAdmm cfg env L)).2 = true := by rw [hL.2]; simp
  have a3 : ¬ (intrCheck cfg env (admmStep env M.s)).2 = true := by rw [hM.1]; simp
  have a4 : ¬ (timeCheck cfg env (itAdmm cfg env M)).2 = true := by rw [hM.2]; simp
  rw [iterBody_eq, iterBody_eq]
  generalize (if cfg.printing = true then false else L.canPrint) = cp1
  generalize (if cfg.printing = true then false else M.canPrint) = cp2
  rw [if_neg a1, if_neg a2, if_neg a3, if_neg a4]
  rw [← t2]
  by_cases h1 : (itTerm cfg env i L).2 = true
  · rw [if_pos h1, if_pos h1]
    exact ⟨t1, by rw [hs], by rw [hs], (t3 h1).1⟩
  · rw [if_neg h1, if_neg h1]
    have hd : (itDec cfg env i L).2 = (itDec cfg env i M).2 := by
      rw [itDec_quiet cfg env i hq, itDec_quiet cfg env i (by rw [← hs]; exact hq), hs]
    rw [hd]
    have a := er_adaptPhase cfg env k (itDec cfg env i M).2 (itTerm cfg env i L).1
    have b := er_adaptPhase cfg env k (itDec cfg env i M).2 (itTerm cfg env i M).1
    have h2 : (adaptPhase cfg env (itDec cfg env i M).2 (itTerm cfg env i L).1).2 = (adaptPhase cfg env (itDec cfg env i M).2 (itTerm cfg env i M).1).2 := by
      rw [← a.2, ← b.2, t1]
    rw [h2]
    split_ifs
    · trivial
    · exact ⟨by rw [← a.1, ← b.1, t1], by rw [hs], by rw [hs]⟩

/-! ## The loop -/

/-- Related outcomes of the loop: same last iteration, and the same status if the loop was left by a passed check. -/
def EndRel (top : ℤ) : LoopOut d K → LoopOut d K → Prop
  | .done i L, .done j M => i = j ∧ er k L.s = er k M.s ∧ L.canPrint = M.canPrint ∧ L.canCheck = M.canCheck ∧ (stOf L.s = stOf M.s ∨ i = top)
  | .exit _, .exit _ => True
  | _, _ => False

/-- The loop started in `L₀` is never stopped from outside and not adapted by the clock, up to iteration `top`. -/
def Calm (top : ℤ) (L₀ : LoopSt d K) : Prop := ∀ j L, j ≤ top → Spec.Runs cfg env L₀ j L → NoStop cfg env L ∧ NotTimed cfg L.s.settings

theorem er_loop_step {L₀ M₀ : LoopSt d K} {top : ℤ} (n : ℕ)
    (ih : ∀ (i : ℤ) (L M : LoopSt d K), i + n ≤ top + 1 → Spec.Runs cfg env L₀ i L → Spec.Runs cfg env M₀ i M → er k L.s = er k M.s → L.canPrint = M.canPrint →
      L.canCheck = M.canCheck → EndRel k (i + n) (admmLoop cfg env n i L) (admmLoop cfg env n i M))
    (i : ℤ) (L M : LoopSt d K) (hi : i + (n + 1 : ℕ) ≤ top + 1) (rL : Spec.Runs cfg env L₀ i L) (rM : Spec.Runs cfg env M₀ i M)
    (h : OutRel k (iterBody cfg env i L) (iterBody cfg env i M)) :
    EndRel k (i + (n + 1 : ℕ)) (admmLoop cfg env (n + 1) i L) (admmLoop cfg env (n + 1) i M) := by
  unfold admmLoop
  cases eL : iterBody cfg env i L with
  | cont L' =>
    cases eM : iterBody cfg env i M with
    | cont M' =>
      rw [eL, eM] at h
      have := ih (i + 1) L' M' (by push_cast at hi; omega) (.step rL eL) (.step rM eM) h.1 h.2.1 h.2.2
      have e : i + ((n + 1 : ℕ) : ℤ) = i + 1 + n := by push_cast; ring
      rw [e]; exact this
    | brk M' => rw [eL, eM] at h; exact h.elim
    | exit s => rw [eL, eM] at h; exact h.elim
  | brk L' =>
    cases eM : iterBody cfg env i M with
    | cont M' => rw [eL, eM] at h; exact h.elim
    | brk M' => rw [eL, eM] at h; exact ⟨rfl, h.1, h.2.1, h.2.2.1, Or.inl h.2.2.2⟩
    | exit s => rw [eL, eM] at h; exact h.elim
  | exit s =>
    cases eM : iterBody cfg env i M with
    | cont M' => rw [eL, eM] at h; exact h.elim
    | brk M' => rw [eL, eM] at h; exact h.elim
    | exit s => trivial

theorem er_loop {L₀ M₀ : LoopSt d K} {top : ℤ} (hL : Calm cfg env top L₀) (hM : Calm cfg env top M₀) (n : ℕ) : ∀ (i : ℤ) (L M : LoopSt d K),
    i + n ≤ top + 1 → Spec.Runs cfg env L₀ i L → Spec.Runs cfg env M₀ i M → er k L.s = er k M.s → L.canPrint = M.canPrint → L.canCheck = M.canCheck →
    EndRel k (i + n) (admmLoop cfg env n i L) (admmLoop cfg env n i M) := by
  induction n with
  | zero =>
    intro i L M _ _ _ h1 h2 h3
    unfold admmLoop
    exact ⟨rfl, h1, h2, h3, Or.inr (by simp)⟩
  | succ n ih =>
    intro i L M hi rL rM h1 h2 h3
    have hi' : i ≤ top := by push_cast at hi; omega
    obtain ⟨a, b⟩ := hL i L hi' rL
    obtain ⟨c, _⟩ := hM i M hi' rM
    exact er_loop_step cfg env k n ih i L M hi rL rM
      (er_iter_of_info cfg env k i (er_settings k h1) b a c (er_itInfo cfg env k i h1 b))

/-! ## The first iteration -/

def noInfo (s : Solver d K) : Solver d K :=
  { s with info := { s.info with iter := 0, obj_val := 0, dual_obj_val := 0, duality_gap := 0, prim_res := 0, dual_res := 0, rel_kkt_error := 0 } }

def noRes (s : Solver d K) : Solver d K :=
  { s with work := { s.work with Px := vSet 0, scaled_dual_res := 0, scaled_dual_gap := 0, xtPx := 0, qtx := 0, SC := 0,
                                 Ax := (if d.m = 0 then s.work.Ax else vSet 0), Aty := (if d.m = 0 then s.work.Aty else vSet 0),
                                 scaled_prim_res := (if d.m = 0 then s.work.scaled_prim_res else 0) } }

def noScratch (s : Solver d K) : Solver d K :=
  { s with work := { s.work with x_prev := vSet 0, z_prev := vSet 0, delta_x := vSet 0, delta_y := vSet 0 } }

/-- `er` without the quantities `update_info` computes. -/
def er1 (s : Solver d K) : Solver d K := er k (noRes (noInfo s))

/-- `er1` without the scratch vectors of an iteration. -/
def er0 (s : Solver d K) : Solver d K := er1 k (noScratch s)

theorem noRes_noRes (s : Solver d K) : noRes (noRes s) = noRes s := by
  unfold noRes; by_cases hm : d.m = 0 <;> simp [hm]

theorem er1_er1 (s : Solver d K) : er1 k (er1 k s) = er1 k s := by
  have h : er1 k (er1 k s) = er k (er k (noRes (noRes (noInfo s)))) := rfl
  rw [h, er_er, noRes_noRes]; rfl

theorem er0_admmStep (s : Solver d K) : er1 k (admmStep env (er0 k s)) = er1 k (admmStep env s) := by
  have h : er1 k (admmStep env (er0 k s)) = er1 k (er1 k (admmStep env s)) := rfl
  rw [h, er1_er1]

theorem er1_itTimed (L : LoopSt d K) : er1 k (itTimed cfg env L) = er1 k (admmStep env L.s) := by
  have h1 : ∀ s : Solver d K, er1 k (intrCheck cfg env s).1 = er1 k s := by intro s; unfold intrCheck; split_ifs <;> rfl
  have h2 : ∀ s : Solver d K, er1 k (timeCheck cfg env s).1 = er1 k s := by intro s; unfold timeCheck; split_ifs <;> rfl
  unfold itTimed itAdmm; rw [h2, h1]

theorem report_noRes (s : Solver d K) (x : Vec K d.n) (z y : Vec K d.m) : computeReport (noRes s) x z y = computeReport s x z y := by
  unfold computeReport computePrimRes computeDualRes computeObj
  dsimp only
  have e2 : (noRes s).settings.scaling = s.settings.scaling := rfl
  by_cases hm : d.m = 0 <;> by_cases hs : s.settings.scaling = 0 <;>
    simp only [noRes, hm, hs, if_true, if_false, ne_eq, not_true, not_false_iff]

theorem report_noInfo (s : Solver d K) (x : Vec K d.n) (z y : Vec K d.m) :
    computeReport (noInfo s) x z y = (noInfo (computeReport s x z y).1, (computeReport s x z y).2) := by
  unfold computeReport computePrimRes computeDualRes computeObj
  dsimp only
  have e2 : (noInfo s).settings.scaling = s.settings.scaling := rfl
  by_cases hm : d.m = 0 <;> by_cases hs : s.settings.scaling = 0 <;>
    simp only [hm, hs, e2, if_true, if_false, ne_eq, not_true, not_false_iff] <;> rfl

theorem updateInfo_noInfo (i : ℤ) (s : Solver d K) : updateInfo cfg env i (noInfo s) = updateInfo cfg env i s := by
  unfold updateInfo
  have h := report_noInfo s s.work.x s.work.z s.work.y
  have e1 : (noInfo s).work.x = s.work.x := rfl
  have e2 : (noInfo s).work.y = s.work.y := rfl
  have e3 : (noInfo s).work.z = s.work.z := rfl
  rw [e1, e2, e3, h]
  generalize computeReport s s.work.x s.work.z s.work.y = r
  rfl

theorem updateInfo_noRes (i : ℤ) (s : Solver d K) : updateInfo cfg env i (noRes s) = updateInfo cfg env i s := by
  unfold updateInfo
  have h := report_noRes s s.work.x s.work.z s.work.y
  have e1 : (noRes s).work.x = s.work.x := rfl
  have e2 : (noRes s).work.y = s.work.y := rfl
  have e3 : (noRes s).work.z = s.work.z := rfl
  rw [e1, e2, e3, h]

theorem er1_updateInfo {s t : Solver d K} (i : ℤ) (h : er1 k s = er1 k t) : er k (updateInfo cfg env i s) = er k (updateInfo cfg env i t) := by
  have e : ∀ s : Solver d K, er k (updateInfo cfg env i (er1 k s)) = er k (updateInfo cfg env i s) := by
    intro s; unfold er1; rw [er_updateInfo, updateInfo_noRes, updateInfo_noInfo]
  rw [← e s, ← e t, h]

theorem er_loop_first {L M : LoopSt d K} (n : ℕ) (hL : Calm cfg env (n + 1 : ℕ) L) (hM : Calm cfg env (n + 1 : ℕ) M) (h : er0 k L.s = er0 k M.s) :
    EndRel k (1 + (n + 1 : ℕ)) (admmLoop cfg env (n + 1) 1 L) (admmLoop cfg env (n + 1) 1 M) := by
  obtain ⟨a, b⟩ := hL 1 L (by push_cast; omega) .start
  obtain ⟨c, _⟩ := hM 1 M (by push_cast; omega) .start
  have hs : L.s.settings = M.s.settings := congrArg (fun t => t.settings) h
  refine er_loop_step cfg env k n (er_loop cfg env k hL hM n) 1 L M (by omega) .start .start (er_iter_of_info cfg env k 1 hs b a c ?_)
  have ht : er1 k (itTimed cfg env L) = er1 k (itTimed cfg env M) := by
    rw [er1_itTimed, er1_itTimed, ← er0_admmStep env k L.s, ← er0_admmStep env k M.s, h]
  unfold itInfo itUpd
  rw [itDec_quiet cfg env 1 b, itDec_quiet cfg env 1 (by rw [← hs]; exact b), ← hs]
  simp only [decide_true, Bool.or_true, if_true]
  exact er1_updateInfo cfg env k 1 ht

/-! ## After the loop -/

theorem er_postCheck (i : ℤ) {L M : LoopSt d K} (h : er true L.s = er true M.s) (h1 : L.canPrint = M.canPrint) (h2 : L.canCheck = M.canCheck) :
    er true (postCheck cfg env i L) = er true (postCheck cfg env i M) := by
  unfold postCheck
  dsimp only
  rw [h1, h2]
  split_ifs
  · exact er_congr true (f := fun s => (checkTermination false s).1) h (fun s => (er_checkTermination true false s).1)
  · exact er_congr true (f := fun s => (checkTermination false s).1) (er_congr true h (er_updateInfo cfg env true (i - 1))) (fun s => (er_checkTermination true false s).1)
  · exact h

theorem er_postObj (s : Solver d K) : er true (postObj (er true s)) = er true (postObj s) := by
  unfold postObj computeObj
  dsimp only
  have e : hasSolution (er true s).info = hasSolution s.info := rfl
  have e2 : (er true s).settings.scaling = s.settings.scaling := rfl
  rw [e]
  by_cases h3 : s.settings.adaptive_rho = 3 <;> by_cases hs : s.settings.scaling = 0 <;> split_ifs <;> simp_all [er]

theorem er_setStatus (s : Solver d K) (v : ℤ) : er true (setStatus (er true s) v) = er true (setStatus s v) := by
  unfold setStatus updateStatus
  by_cases h3 : s.settings.adaptive_rho = 3 <;> simp [er, h3]

theorem er_postMaxIter (s : Solver d K) : er true (postMaxIter (er true s)) = er true (postMaxIter s) := by
  unfold postMaxIter
  dsimp only
  have e : (er true s).info.status_val = s.info.status_val := rfl
  rw [e]
  have a := er_checkTermination true true s
  by_cases h : s.info.status_val = St.unsolved
  · simp only [if_pos h]
    rw [a.2.1]
    split_ifs
    · exact a.1
    · exact er_congr true (f := fun s => setStatus s _) a.1 (fun s => er_setStatus s _)
  · simp only [if_neg h]; exact er_er true s

theorem er_postTimeLimit (s : Solver d K) : er true (postTimeLimit cfg (er true s)) = er true (postTimeLimit cfg s) := by
  unfold postTimeLimit
  dsimp only
  have e : (er true s).info.status_val = s.info.status_val := rfl
  rw [e]
  have a := er_checkTermination true true s
  by_cases h : (cfg.profiling && decide (s.info.status_val = St.timeLimit)) = true
  · simp only [if_pos h]
    rw [a.2.1]
    split_ifs
    · exact a.1
    · exact er_congr true (f := fun s => setStatus s _) a.1 (fun s => er_setStatus s _)
  · simp only [if_neg h]; exact er_er true s

theorem er_postRho (s : Solver d K) : er true (postRho cfg env s) = er true s := by
  unfold postRho; dsimp only; split_ifs <;> rfl

theorem er_postLoop (i : ℤ) {L M : LoopSt d K} (h : er true L.s = er true M.s) (h1 : L.canPrint = M.canPrint) (h2 : L.canCheck = M.canCheck) :
    er true (postLoop cfg env i L) = er true (postLoop cfg env i M) := by
  unfold postLoop
  rw [er_postRho, er_postRho]
  exact er_congr true (er_congr true (er_congr true (er_postCheck cfg env i h h1 h2) er_postObj) er_postMaxIter) (er_postTimeLimit cfg)

/-- The end of `polish`, after the candidate's residuals are known. -/
def polishTail (pt : Vec K d.n × Vec K d.m × Vec K d.m) (rr : Solver d K × Report K) : Solver d K × ℤ :=
  let s := rr.1
  let r := rr.2
  let s := if cfg.profiling then
      let r := toc env s
      let t := r.1
      let s := r.2
      { s with info := { s.info with polish_time := t } }
    else s
  let s := { s with info := { s.info with rel_kkt_error := relKkt r } }
  if polishAccept r.pres r.dres s.info.prim_res s.info.dual_res then
    ({ s with
        info := { s.info with obj_val := r.obj, dual_obj_val := r.dobj, duality_gap := r.gap,
                              prim_res := r.pres, dual_res := r.dres, status_polish := Pol.success }
        work := { s.work with x := pt.1, z := pt.2.1, y := pt.2.2 } }, 0)
  else ({ s with info := { s.info with status_polish := Pol.failed } }, 0)

theorem er_polishTail (pt : Vec K d.n × Vec K d.m × Vec K d.m) (s : Solver d K) (r : Report K) :
    er true (polishTail cfg env pt (er true s, r)).1 = er true (polishTail cfg env pt (s, r)).1 ∧
    (polishTail cfg env pt (er true s, r)).2 = (polishTail cfg env pt (s, r)).2 := by
  unfold polishTail
  dsimp only
  have e1 : (er true s).info.prim_res = s.info.prim_res := rfl
  have e2 : (er true s).info.dual_res = s.info.dual_res := rfl
  have f1 : ∀ s : Solver d K, (if cfg.profiling = true then { (toc env s).2 with info := { (toc env s).2.info with polish_time := (toc env s).1 } } else s).info.prim_res = s.info.prim_res := by
    intro s; split_ifs <;> rfl
  have f2 : ∀ s : Solver d K, (if cfg.profiling = true then { (toc env s).2 with info := { (toc env s).2.info with polish_time := (toc env s).1 } } else s).info.dual_res = s.info.dual_res := by
    intro s; split_ifs <;> rfl
  rw [f1, f2, f1, f2, e1, e2]
  cases polishAccept r.pres r.dres s.info.prim_res s.info.dual_res <;> by_cases h3 : s.settings.adaptive_rho = 3 <;>
    by_cases hp : cfg.profiling = true <;> simp [er, h3, hp, toc]

theorem polish_eq (s : Solver d K) : polish cfg env s =
    if nActive (activeFlags s.work.data.l s.work.data.u s.work.z s.work.y) = 0 then
      ({ s with info := { s.info with status_polish := Pol.noActiveSet } }, 0)
    else if env.polFactor s.work.data (activeFlags s.work.data.l s.work.data.u s.work.z s.work.y) s.settings.sigma < d.n then
      ({ s with info := { s.info with status_polish := Pol.linsysError } }, Err.nonCvx)
    else
      let flags := activeFlags s.work.data.l s.work.data.u s.work.z s.work.y
      let b := formRhsRed s.work.data flags
      let pt := polishPoint s.work.data flags (refineLoop env s.work.data flags s.settings.sigma b s.settings.polish_refine_iter.toNat
        (env.polSolve s.work.data flags s.settings.sigma b.1 b.2))
      polishTail cfg env pt (computeReport s pt.1 pt.2.1 pt.2.2) := rfl

theorem er_polish (s : Solver d K) : er true (polish cfg env (er true s)).1 = er true (polish cfg env s).1 ∧
    (polish cfg env (er true s)).2 = (polish cfg env s).2 := by
  rw [polish_eq, polish_eq]
  have e1 : (er true s).work.data = s.work.data := rfl
  have e2 : (er true s).work.z = s.work.z := rfl
  have e3 : (er true s).work.y = s.work.y := rfl
  have e4 : (er true s).settings = s.settings := rfl
  rw [e1, e2, e3, e4]
  generalize activeFlags s.work.data.l s.work.data.u s.work.z s.work.y = flags
  by_cases h1 : nActive flags = 0
  · rw [if_pos h1, if_pos h1]
    by_cases h3 : s.settings.adaptive_rho = 3 <;> simp [er, h3]
  rw [if_neg h1, if_neg h1]
  by_cases h2 : env.polFactor s.work.data flags s.settings.sigma < d.n
  · rw [if_pos h2, if_pos h2]
    by_cases h3 : s.settings.adaptive_rho = 3 <;> simp [er, h3]
  rw [if_neg h2, if_neg h2]
  dsimp only
  generalize polishPoint s.work.data flags _ = pt
  rw [er_computeReport]
  exact er_polishTail cfg env pt _ _

theorem er_postPolish (s : Solver d K) : er true (postPolish cfg env (er true s)).1 = er true (postPolish cfg env s).1 ∧
    (postPolish cfg env (er true s)).2 = (postPolish cfg env s).2 := by
  unfold postPolish
  have e : ((er true s).settings.polishing ≠ 0 ∧ (er true s).info.status_val = St.solved) = (s.settings.polishing ≠ 0 ∧ s.info.status_val = St.solved) := rfl
  by_cases h : s.settings.polishing ≠ 0 ∧ s.info.status_val = St.solved
  · rw [if_pos h, if_pos (e ▸ h)]; exact er_polish cfg env s
  · rw [if_neg h, if_neg (by rw [e]; exact h)]; exact ⟨er_er true s, rfl⟩

theorem er_storeSolution (s : Solver d K) (dst dst' : Solution d K) :
    er true (storeSolution (er true s) dst).1 = er true (storeSolution s dst').1 ∧
    (storeSolution (er true s) dst).2.x = (storeSolution s dst').2.x ∧
    (storeSolution (er true s) dst).2.y = (storeSolution s dst').2.y ∧
    (s.info.status_val ≠ St.nonCvx → (storeSolution (er true s) dst).2 = (storeSolution s dst').2) := by
  unfold storeSolution
  dsimp only
  have e1 : hasSolution (er true s).info = hasSolution s.info := rfl
  have e2 : (er true s).settings.scaling = s.settings.scaling := rfl
  rw [e1, e2]
  by_cases h : hasSolution s.info = true
  · rw [if_pos h, if_pos h]
    by_cases h3 : s.settings.adaptive_rho = 3 <;> by_cases hs : s.settings.scaling = 0 <;> simp [hs, h3, er]
  · rw [if_neg h, if_neg h]
    have h' : s.info.status_val = St.primInf ∨ s.info.status_val = St.primInfInacc ∨ s.info.status_val = St.dualInf ∨
      s.info.status_val = St.dualInfInacc ∨ s.info.status_val = St.nonCvx := by
      by_contra hc
      simp only [not_or] at hc
      exact h (by simp [hasSolution, hc])
    rcases h' with h' | h' | h' | h' | h' <;> by_cases h3 : s.settings.adaptive_rho = 3 <;>
      simp [er, coldStart, h', h3, St.primInf, St.primInfInacc, St.dualInf, St.dualInfInacc, St.nonCvx]

theorem er_store {s t : Solver d K} (h : er true s = er true t) (hs : s.solution.isSome = t.solution.isSome) :
    er true (storeOwnSolution s) = er true (storeOwnSolution t) ∧
    (storeOwnSolution s).solution.map (·.x) = (storeOwnSolution t).solution.map (·.x) ∧
    (storeOwnSolution s).solution.map (·.y) = (storeOwnSolution t).solution.map (·.y) ∧
    (s.info.status_val ≠ St.nonCvx → (storeOwnSolution s).solution = (storeOwnSolution t).solution) := by
  have hv : s.info.status_val = t.info.status_val := congrArg (fun t => t.info.status_val) h
  unfold storeOwnSolution
  cases e1 : s.solution with
  | none =>
    cases e2 : t.solution with
    | none => exact ⟨h, by simp [e1, e2], by simp [e1, e2], fun _ => by rw [e1, e2]⟩
    | some b => rw [e1, e2] at hs; cases hs
  | some a =>
    cases e2 : t.solution with
    | none => rw [e1, e2] at hs; cases hs
    | some b =>
      obtain ⟨a1, a2, a3, a4⟩ := er_storeSolution s a a
      obtain ⟨b1, b2, b3, b4⟩ := er_storeSolution t a b
      rw [← h] at b1 b2 b3 b4
      refine ⟨a1.symm.trans b1, ?_, ?_, fun hn => ?_⟩
      · simp only [Option.map_some]; rw [← a2, b2]
      · simp only [Option.map_some]; rw [← a3, b3]
      · simp only; rw [← a4 hn, b4 (by rw [← hv]; exact hn)]

theorem er_finish {s t : Solver d K} (h : er true s = er true t) (hs : s.solution.isSome = t.solution.isSome) :
    (finish cfg env s).2 = (finish cfg env t).2 ∧ er true (finish cfg env s).1 = er true (finish cfg env t).1 ∧
    ((finish cfg env s).2 = 0 →
      (finish cfg env s).1.solution.map (·.x) = (finish cfg env t).1.solution.map (·.x) ∧
      (finish cfg env s).1.solution.map (·.y) = (finish cfg env t).1.solution.map (·.y) ∧
      ((finish cfg env s).1.info.status_val ≠ St.nonCvx → (finish cfg env s).1.solution = (finish cfg env t).1.solution)) := by
  have hE : ∀ s : Solver d K, er true (endListener cfg s) = er true s := by intro s; unfold endListener; split_ifs <;> rfl
  have hES : ∀ s : Solver d K, (endListener cfg s).solution = s.solution := by intro s; unfold endListener; split_ifs <;> rfl
  have hT : ∀ s : Solver d K, er true (postTiming cfg s) = er true s := by intro s; unfold postTiming; split_ifs <;> rfl
  have hTS : ∀ s : Solver d K, (postTiming cfg s).solution = s.solution := by intro s; unfold postTiming; split_ifs <;> rfl
  have hp1 : er true (postPolish cfg env s).1 = er true (postPolish cfg env t).1 := by
    rw [← (er_postPolish cfg env s).1, ← (er_postPolish cfg env t).1, h]
  have hp2 : (postPolish cfg env s).2 = (postPolish cfg env t).2 := by
    rw [← (er_postPolish cfg env s).2, ← (er_postPolish cfg env t).2, h]
  have hps : ∀ s : Solver d K, (postPolish cfg env s).1.solution = s.solution := by intro s; simp
  rw [finish_eq, finish_eq, ← hp2]
  have hst := er_store (s := postTiming cfg (postPolish cfg env s).1) (t := postTiming cfg (postPolish cfg env t).1)
    (by rw [hT, hT, hp1]) (by rw [hTS, hTS, hps, hps, hs])
  split_ifs with hc
  · exact ⟨rfl, by rw [hE, hE, hp1], fun h0 => by dsimp only at h0; rw [h0] at hc; exact absurd hc (by decide)⟩
  · refine ⟨rfl, by rw [hE, hE]; exact hst.1, fun _ => ⟨by rw [hES, hES]; exact hst.2.1, by rw [hES, hES]; exact hst.2.2.1, fun hn => ?_⟩⟩
    rw [hES, hES]
    refine hst.2.2.2 ?_
    have : ∀ p : Solver d K, (endListener cfg (storeOwnSolution p)).info.status_val = p.info.status_val := by intro p; simp
    rw [← this]; exact hn

end Osqp
