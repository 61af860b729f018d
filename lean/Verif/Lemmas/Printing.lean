import Verif.Lemmas.Indep

/-!
# A build without printing computes the same
-/

set_option linter.unusedSectionVars false
namespace Osqp
variable {K : Type*} [Field K] [LinearOrder K] [IsStrictOrderedRing K] {d : Dims} (cfg : Cfg) (env : Env d K)

/-- The parts of `t` that an adaptation of the step size leaves, and the others of `u`. -/
def adj (t u : Solver d K) : Solver d K :=
  { t with
    settings := { t.settings with rho := u.settings.rho }
    info := { t.info with rho_updates := u.info.rho_updates, rho_estimate := u.info.rho_estimate, update_time := u.info.update_time }
    work := { t.work with linsys := u.work.linsys, rho_vec := u.work.rho_vec, rho_inv_vec := u.work.rho_inv_vec, rho_inv := u.work.rho_inv,
                          rho_updated := u.work.rho_updated, last_rel_kkt := u.work.last_rel_kkt, clear_update_time := u.work.clear_update_time }
    ticks := u.ticks }

theorem adaptPhase_adj (b : Bool) (t : Solver d K) : (adaptPhase cfg env b t).1 = adj t (adaptPhase cfg env b t).1 := by
  have h := adaptPhase_frame cfg env b t
  generalize (adaptPhase cfg env b t).1 = u at *
  obtain ⟨st, info, work, sol, ti, po, ha⟩ := u
  cases st; cases info; cases work
  simp only at h
  simp only [adj, Solver.mk.injEq, h, true_and, and_true]

theorem settled_adj (i : ℤ) (T u : Solver d K) : er true (updateInfo cfg env i (adj (updateInfo cfg env i T) u)) = er true (adj (updateInfo cfg env i T) u) := by
  unfold updateInfo computeReport computePrimRes computeDualRes computeObj
  dsimp only
  by_cases hm : d.m = 0 <;> by_cases hs : T.settings.scaling = 0 <;> by_cases ht : T.settings.scaled_termination = 0 <;> by_cases hp : cfg.profiling = true <;>
    by_cases h3 : T.settings.adaptive_rho = 3 <;>
    simp [adj, hm, hs, ht, hp, h3, er, toc, Settings.unscaledTerm]

theorem settled (i : ℤ) (b : Bool) (T : Solver d K) :
    er true (updateInfo cfg env i (adaptPhase cfg env b (updateInfo cfg env i T)).1) = er true (adaptPhase cfg env b (updateInfo cfg env i T)).1 := by
  rw [adaptPhase_adj]; exact settled_adj cfg env i T _

theorem er0_updateInfo (i : ℤ) (s : Solver d K) : er0 true (updateInfo cfg env i s) = er0 true s := by
  unfold updateInfo computeReport computePrimRes computeDualRes computeObj
  dsimp only
  by_cases hm : d.m = 0 <;> by_cases hs : s.settings.scaling = 0 <;> by_cases hp : cfg.profiling = true <;>
    by_cases h3 : s.settings.adaptive_rho = 3 <;>
    simp [er0, er1, noScratch, noRes, noInfo, hm, hs, hp, h3, er, toc]

theorem er0_of_er1 {s t : Solver d K} (h : er1 true s = er1 true t) : er0 true s = er0 true t := by
  have e : ∀ s : Solver d K, er0 true s = noScratch (er1 true s) := fun _ => rfl
  rw [e, e, h]

theorem er1_of_er {s t : Solver d K} (h : er true s = er true t) : er1 true s = er1 true t := by
  have e : ∀ s : Solver d K, er1 true s = noRes (noInfo (er true s)) := fun _ => rfl
  rw [e, e, h]

theorem er_adapt_false (s : Solver d K) : er true (adaptPhase cfg env false s).1 = er true s := by
  rw [adaptPhase_tail]; unfold adaptTail; simp [er]

/-! ## One iteration -/

/-- The build without printing. -/
def Cfg.mute (cfg : Cfg) : Cfg := { cfg with printing := false }

/-- What the build with printing (`L`) and the one without (`M`) share before iteration `i`; the second part is about the end of the loop. -/
structure PrintAlike (i : ℤ) (L M : LoopSt d K) : Prop where
  head : er0 true L.s = er0 true M.s
  check : L.canCheck = M.canCheck
  checked : M.canCheck = true → er true L.s = er true M.s
  unchecked : M.canCheck = false → er true (if (cfg.printing && L.canPrint) = true then L.s else updateInfo cfg env (i - 1) L.s) = er true (updateInfo cfg env (i - 1) M.s)

/-- Related outcomes of an iteration. -/
def PrintOut (i : ℤ) : IterOut d K → IterOut d K → Prop
  | .cont L, .cont M => PrintAlike cfg env (i + 1) L M
  | .brk L, .brk M => er true L.s = er true M.s ∧ L.canCheck = true ∧ M.canCheck = true
  | .exit _, .exit _ => True
  | _, _ => False

theorem er_adaptPhase2 {s t : Solver d K} (b : Bool) (h : er true s = er true t) :
    er true (adaptPhase cfg env b s).1 = er true (adaptPhase cfg env b t).1 ∧ (adaptPhase cfg env b s).2 = (adaptPhase cfg env b t).2 := by
  have a := er_adaptPhase cfg env true b s
  have c := er_adaptPhase cfg env true b t
  exact ⟨by rw [← a.1, ← c.1, h], by rw [← a.2, ← c.2, h]⟩

theorem iter_alike {L M : LoopSt d K} (i : ℤ) (h : er0 true L.s = er0 true M.s) (hq : NotTimed cfg L.s.settings) (hL : NoStop cfg env L) (hM : NoStop cfg.mute env M) :
    PrintOut cfg env i (iterBody cfg env i L) (iterBody cfg.mute env i M) := by
  have hs : L.s.settings = M.s.settings := congrArg (fun t => t.settings) h
  have hqM : NotTimed cfg M.s.settings := by rw [← hs]; exact hq
  have a1 : ¬ (intrCheck cfg env (admmStep env L.s)).2 = true := by rw [hL.1]; simp
  have a2 : ¬ (timeCheck cfg env (itAdmm cfg env L)).2 = true := by rw [hL.2]; simp
  have a3 : ¬ (intrCheck cfg.mute env (admmStep env M.s)).2 = true := by rw [hM.1]; simp
  have a4 : ¬ (timeCheck cfg.mute env (itAdmm cfg.mute env M)).2 = true := by rw [hM.2]; simp
  have ht : er1 true (itTimed cfg env L) = er1 true (itTimed cfg env M) := by
    rw [er1_itTimed, er1_itTimed, ← er0_admmStep env true L.s, ← er0_admmStep env true M.s, h]
  have dL := itDec_quiet cfg env i hq
  have dM : itDec cfg.mute env i M = (itTimed cfg env M, decOf L.s.settings i) := by
    have : itDec cfg.mute env i M = itDec cfg env i M := rfl
    rw [this, itDec_quiet cfg env i hqM, hs]
  rw [iterBody_eq, iterBody_eq]
  generalize (if cfg.printing = true then false else L.canPrint) = cp1
  generalize (if cfg.mute.printing = true then false else M.canPrint) = cp2
  rw [if_neg a1, if_neg a2, if_neg a3, if_neg a4]
  have eA : ∀ b (s : Solver d K), adaptPhase cfg.mute env b s = adaptPhase cfg env b s := fun _ _ => rfl
  have eU : ∀ j (s : Solver d K), updateInfo cfg.mute env j s = updateInfo cfg env j s := fun _ _ => rfl
  have pM : itPrint cfg.mute M.s.settings i = false := rfl
  rw [dL, dM, eA, pM]
  dsimp only
  by_cases hu : itUpd cfg.mute env i M = true
  · -- both evaluate
    have iM : itInfo cfg.mute env i M = updateInfo cfg env i (itTimed cfg env M) := by unfold itInfo; rw [if_pos hu, dM, eU]
    have huL : itUpd cfg env i L = true := by
      unfold itUpd at hu ⊢
      rw [dM, pM] at hu
      rw [dL, hs]
      rw [hs] at hu
      revert hu
      cases itCheck M.s.settings i <;> cases itPrint cfg M.s.settings i <;> cases decOf M.s.settings i <;> cases decide (i = 1) <;> simp
    have iL : itInfo cfg env i L = updateInfo cfg env i (itTimed cfg env L) := by unfold itInfo; rw [if_pos huL, dL]
    have hi : er true (updateInfo cfg env i (itTimed cfg env L)) = er true (updateInfo cfg env i (itTimed cfg env M)) := er1_updateInfo cfg env true i ht
    unfold itTerm
    rw [iL, iM, hs]
    by_cases hc : itCheck M.s.settings i = true
    · have a := er_checkTermination true false (updateInfo cfg env i (itTimed cfg env L))
      have b := er_checkTermination true false (updateInfo cfg env i (itTimed cfg env M))
      have t1 : er true (checkTermination false (updateInfo cfg env i (itTimed cfg env L))).1 = er true (checkTermination false (updateInfo cfg env i (itTimed cfg env M))).1 := by
        rw [← a.1, ← b.1, hi]
      have t2 : (checkTermination false (updateInfo cfg env i (itTimed cfg env L))).2 = (checkTermination false (updateInfo cfg env i (itTimed cfg env M))).2 := by
        rw [← a.2.1, ← b.2.1, hi]
      simp only [if_pos hc]
      rw [t2]
      by_cases c2 : (checkTermination false (updateInfo cfg env i (itTimed cfg env M))).2 = true
      · rw [if_pos c2, if_pos c2]; exact ⟨t1, hc, hc⟩
      rw [if_neg c2, if_neg c2]
      obtain ⟨p1, p2⟩ := er_adaptPhase2 cfg env (decOf M.s.settings i) t1
      rw [p2]
      split_ifs
      · trivial
      · exact ⟨er0_of_er1 (er1_of_er p1), rfl, fun _ => p1, fun c => absurd hc (by rw [show itCheck M.s.settings i = false from c]; simp)⟩
    · simp only [if_neg hc, Bool.false_eq_true, if_false]
      obtain ⟨p1, p2⟩ := er_adaptPhase2 cfg env (decOf M.s.settings i) hi
      rw [p2]
      split_ifs
      · trivial
      · refine ⟨er0_of_er1 (er1_of_er p1), rfl, fun c => absurd c hc, fun _ => ?_⟩
        dsimp only
        rw [add_sub_cancel_right, settled cfg env i (decOf M.s.settings i) (itTimed cfg env M)]
        split_ifs
        · exact p1
        · rw [settled cfg env i (decOf M.s.settings i) (itTimed cfg env L)]; exact p1
  · -- the build without printing does not
    have iM : itInfo cfg.mute env i M = itTimed cfg env M := by unfold itInfo; rw [if_neg hu, dM]
    have hu' : itCheck M.s.settings i = false ∧ decOf M.s.settings i = false ∧ i ≠ 1 := by
      unfold itUpd at hu
      rw [dM, pM, hs] at hu
      simpa [and_assoc] using hu
    obtain ⟨hc, hd, h1⟩ := hu'
    unfold itTerm
    rw [iM, hs, hc, hd]
    simp only [Bool.false_eq_true, if_false]
    have n2 : ∀ s : Solver d K, (adaptPhase cfg env false s).2 = false := fun s => by unfold adaptPhase; simp
    rw [n2, n2]
    simp only [Bool.false_eq_true, if_false]
    by_cases hpr : itPrint cfg M.s.settings i = true
    · have iL : itInfo cfg env i L = updateInfo cfg env i (itTimed cfg env L) := by
        unfold itInfo itUpd; rw [hs, hpr, dL]; simp
      rw [iL]
      refine ⟨?_, rfl, fun c => absurd c (by simp), fun _ => ?_⟩
      · dsimp only
        rw [er0_of_er1 (er1_of_er (er_adapt_false cfg env _)), er0_of_er1 (er1_of_er (er_adapt_false cfg env _)), er0_updateInfo, er0_of_er1 ht]
      · have hcp : cfg.printing = true := by unfold itPrint at hpr; simp only [Bool.and_eq_true] at hpr; exact hpr.1.1
        dsimp only
        rw [add_sub_cancel_right, hcp, hpr]
        simp only [Bool.and_self, if_true]
        rw [er_adapt_false, er1_updateInfo cfg env true i ht]
        exact (er_congr true (er_adapt_false cfg env _) (er_updateInfo cfg env true i)).symm
    · have iL : itInfo cfg env i L = itTimed cfg env L := by
        unfold itInfo itUpd
        rw [hs, dL, hc]
        simp only [Bool.not_eq_true] at hpr
        rw [hpr, hs, hd]; simp [h1]
      rw [iL]
      refine ⟨?_, rfl, fun c => absurd c (by simp), fun _ => ?_⟩
      · dsimp only
        rw [er0_of_er1 (er1_of_er (er_adapt_false cfg env _)), er0_of_er1 (er1_of_er (er_adapt_false cfg env _)), er0_of_er1 ht]
      · simp only [Bool.not_eq_true] at hpr
        dsimp only
        rw [add_sub_cancel_right, hpr]
        simp only [Bool.and_false, Bool.false_eq_true, if_false]
        rw [er_congr true (er_adapt_false cfg env _) (er_updateInfo cfg env true i), er_congr true (er_adapt_false cfg env (itTimed cfg env M)) (er_updateInfo cfg env true i)]
        exact er1_updateInfo cfg env true i ht

end Osqp
