import Verif.Lemmas.RunEnd
import Verif.Lemmas.Setup
import Verif.Spec.Rho

/-!
# Step-size adaptation
-/

set_option linter.unusedSectionVars false
namespace Osqp
open Spec Matrix
variable {K : Type*} [Field K] [LinearOrder K] [IsStrictOrderedRing K] {d : Dims} {cfg : Cfg} {env : Env d K}
  {D₀ U : Data d K} {st₀ : Settings K} {s s' : Solver d K}

/-! ## Nothing to be primal infeasible without constraints -/

theorem computeReport_spres0 (hm : d.m = 0) (s : Solver d K) (x : Vec K d.n) (z y : Vec K d.m) :
    (computeReport s x z y).1.work.scaled_prim_res = s.work.scaled_prim_res := by
  simp [computeReport, hm]

theorem updateInfo_spres0 (hm : d.m = 0) (it : ℤ) (s : Solver d K) :
    (updateInfo cfg env it s).work.scaled_prim_res = s.work.scaled_prim_res := by
  obtain ⟨w, _⟩ := updateInfo_eqs cfg env it s
  rw [w]; exact computeReport_spres0 hm _ _ _ _

theorem polish_spres0 (hm : d.m = 0) (s : Solver d K) :
    (polish cfg env s).1.work.scaled_prim_res = s.work.scaled_prim_res := by
  unfold polish; dsimp only
  split_ifs <;> simp [computeReport_spres0 hm]

theorem postPolish_spres0 (hm : d.m = 0) (s : Solver d K) :
    (postPolish cfg env s).1.work.scaled_prim_res = s.work.scaled_prim_res := by
  unfold postPolish; split_ifs
  · exact polish_spres0 hm s
  · rfl

theorem itInfo_spres0 (hm : d.m = 0) (it : ℤ) (L : LoopSt d K) :
    (itInfo cfg env it L).work.scaled_prim_res = L.s.work.scaled_prim_res ∧
    (itTerm cfg env it L).1.work.scaled_prim_res = L.s.work.scaled_prim_res := by
  have h1 : (itInfo cfg env it L).work.scaled_prim_res = L.s.work.scaled_prim_res := by
    unfold itInfo itDec itTimed itAdmm; split_ifs <;> simp [updateInfo_spres0 hm]
  refine ⟨h1, ?_⟩
  unfold itTerm; split_ifs <;> simp [h1]

theorem endState_eq (it : ℤ) (L : LoopSt d K) :
    endState (iterBody cfg env it L) = setStatus (itAdmm cfg env L) St.sigint ∨
    endState (iterBody cfg env it L) = setStatus (itTimed cfg env L) St.timeLimit ∨
    ((itTerm cfg env it L).2 = true ∧ endState (iterBody cfg env it L) = (itTerm cfg env it L).1) ∨
    ((itTerm cfg env it L).2 = false ∧
      endState (iterBody cfg env it L) = (adaptPhase cfg env (itDec cfg env it L).2 (itTerm cfg env it L).1).1) := by
  rw [iterBody_eq]
  generalize hgp : (if cfg.printing = true then false else L.canPrint) = cpv
  split_ifs with h1 h2 h3 h4
  · left; rfl
  · right; left; rfl
  · right; right; left; exact ⟨h3, rfl⟩
  · right; right; right; exact ⟨by simpa using h3, rfl⟩
  · right; right; right; exact ⟨by simpa using h3, rfl⟩

theorem endState_spres0 (hm : d.m = 0) (it : ℤ) (L : LoopSt d K) :
    (endState (iterBody cfg env it L)).work.scaled_prim_res = L.s.work.scaled_prim_res := by
  rcases endState_eq (cfg := cfg) (env := env) it L with e | e | ⟨_, e⟩ | ⟨_, e⟩ <;> rw [e]
  · simp [itAdmm]
  · simp [itTimed, itAdmm]
  · exact (itInfo_spres0 hm it L).2
  · rw [adaptPhase_scaled_prim_res]; exact (itInfo_spres0 hm it L).2

theorem runs_spres0 (hm : d.m = 0) {L₀ L : LoopSt d K} {it : ℤ} (h : Runs cfg env L₀ it L) :
    L.s.work.scaled_prim_res = L₀.s.work.scaled_prim_res := by
  induction h with
  | start => rfl
  | @step it L L' _ e ih =>
    rw [← ih, ← endState_spres0 (cfg := cfg) (env := env) hm it L, e]; rfl

/-- A property of states kept by every iteration and every phase after the loop is kept by a solve. -/
theorem solve_keeps (P : Solver d K → Prop) (h0 : ∀ s, P s → P (solveEntry cfg s).s)
    (h1 : ∀ it L, P L.s → P (endState (iterBody cfg env it L)))
    (h2 : ∀ it L, P L.s → P (postLoop cfg env it L)) (h3 : ∀ s, P s → P (postPolish cfg env s).1)
    (h4 : ∀ s, P s → P (endListener cfg s)) (h5 : ∀ s, P s → P (storeOwnSolution (postTiming cfg s)))
    {s : Solver d K} (h : P s) : P (osqpSolve cfg env s).1 := by
  have hind := admmLoop_ind cfg env (fun _ L => P L.s) (fun it L L' h e => by have := h1 it L h; rw [e] at this; exact this)
    (solveEntry cfg s).s.settings.max_iter.toNat 1 (solveEntry cfg s) (h0 s h)
  cases e : admmLoop cfg env (solveEntry cfg s).s.settings.max_iter.toNat 1 (solveEntry cfg s) with
  | exit s1 =>
    have he : osqpSolve cfg env s = (endListener cfg s1, 1) := by unfold osqpSolve; dsimp only; rw [e]
    obtain ⟨it, L0, _, _, hp, hb⟩ := hind.2 s1 e
    rw [he]
    have := h1 it L0 hp
    rw [hb] at this
    exact h4 _ this
  | done it L' =>
    have he : osqpSolve cfg env s = finish cfg env (postLoop cfg env it L') := by unfold osqpSolve; dsimp only; rw [e]
    have hL : P L'.s := by
      rcases hind.1 it L' e with ⟨_, hp⟩ | ⟨_, _, L0, hp, hb⟩
      · exact hp
      · have := h1 it L0 hp
        rw [hb] at this
        exact this
    have hp := h3 _ (h2 it L' hL)
    rw [he, finish_eq]
    split_ifs
    · exact h4 _ hp
    · exact h4 _ (h5 _ hp)

/-! ## The estimate -/

theorem estimate_eq {s : Solver d K} (h : FreshW s) (h0 : d.m = 0 → s.work.scaled_prim_res = 0) :
    computeRhoEstimate env s = (ofData s.work.data).estimate env.sqrt s.settings.rho s.work.x s.work.z s.work.y := by
  have e1 : s.work.scaled_prim_res = (ofData s.work.data).primRes s.work.x s.work.z := by
    unfold QP.primRes ofData
    by_cases hm : d.m = 0
    · rw [h0 hm]
      refine ((normInf_eq_of _ 0 le_rfl (fun i => absurd i.2 (by omega)) (Or.inl rfl))).symm
    · rw [h.spres hm, vNormInf_eq, h.Ax, spMul_eq]; rfl
  have e2 : s.work.scaled_dual_res = (ofData s.work.data).dualRes s.work.x s.work.y := by
    unfold QP.dualRes QP.stat ofData
    rw [h.sdres, vNormInf_eq, h.Px, h.Aty, spMulT_eq, symMul_eq]
    congr 1; funext j; simp only [vPlus]; ring
  have e3 : s.work.Ax = (ofData s.work.data).A *ᵥ s.work.x := by rw [h.Ax, spMul_eq]; rfl
  have e4 : s.work.Px = (ofData s.work.data).P *ᵥ s.work.x := by rw [h.Px, symMul_eq]; rfl
  have e5 : s.work.Aty = (ofData s.work.data).Aᵀ *ᵥ s.work.y := by rw [h.Aty, spMulT_eq]; rfl
  have e6 : (Const.divisionTol K) = 1 / 10 ^ 30 := rfl
  unfold computeRhoEstimate QP.estimate QP.relPrim QP.relDual
  simp only [cMax_eq, vNormInf_eq, e1, e2, e3, e4, e5, e6, clampRho, cMin_eq]
  rfl

theorem estimate_mem (s : Solver d K) :
    Const.rhoMin K ≤ computeRhoEstimate env s ∧ computeRhoEstimate env s ≤ Const.rhoMax K := by
  unfold computeRhoEstimate; dsimp only
  split_ifs
  · exact ⟨le_rfl, rhoMin_le_rhoMax⟩
  · exact ⟨rhoMin_le_rhoMax, le_rfl⟩
  · exact ⟨clampRho_lo _, clampRho_hi _⟩

/-- What `adapt_rho` does. -/
theorem adaptRho_rule (s : Solver d K) :
    let e := computeRhoEstimate env s
    let s1 := (adaptRho cfg env s).1
    s1.info.rho_estimate = e ∧ s1.settings.adaptive_rho_interval = s.settings.adaptive_rho_interval ∧
    (FarFrom s.settings.adaptive_rho_tolerance s.settings.rho e →
      s1.settings.rho = e ∧ s1.info.rho_updates = s.info.rho_updates + 1 ∧ s1.work.rho_updated = true) ∧
    (¬ FarFrom s.settings.adaptive_rho_tolerance s.settings.rho e →
      s1.settings.rho = s.settings.rho ∧ s1.info.rho_updates = s.info.rho_updates ∧ s1.work.rho_updated = s.work.rho_updated) := by
  intro e s1
  have hm := estimate_mem (env := env) s
  have hp : ¬ e ≤ 0 := not_le.2 (rhoMin_pos.trans_le hm.1)
  have hc : clampRho e = e := clampRho_of_mem hm.1 hm.2
  by_cases hf : FarFrom s.settings.adaptive_rho_tolerance s.settings.rho e
  · have hf' : computeRhoEstimate env s > s.settings.rho * s.settings.adaptive_rho_tolerance ∨
        computeRhoEstimate env s < s.settings.rho / s.settings.adaptive_rho_tolerance := hf
    have hs1 : s1 = (let r := osqpUpdateRho cfg env { s with info := { s.info with rho_estimate := e } } e
        ({ r.1 with info := { r.1.info with rho_updates := r.1.info.rho_updates + 1 }, work := { r.1.work with rho_updated := true } } : Solver d K)) := by
      show (adaptRho cfg env s).1 = _
      unfold adaptRho; dsimp only; rw [if_pos hf']
    refine ⟨by rw [hs1]; simp, ?_, fun _ => ⟨?_, ?_, ?_⟩, fun h => absurd hf h⟩
    · rw [hs1]; simp only [osqpUpdateRho_settings, if_neg hp]
    · rw [hs1]; simp only [osqpUpdateRho_settings, if_neg hp, hc]
    · rw [hs1]; simp
    · rw [hs1]
  · have hf' : ¬ (computeRhoEstimate env s > s.settings.rho * s.settings.adaptive_rho_tolerance ∨
        computeRhoEstimate env s < s.settings.rho / s.settings.adaptive_rho_tolerance) := hf
    have hs1 : s1 = { s with info := { s.info with rho_estimate := e } } := by
      show (adaptRho cfg env s).1 = _
      unfold adaptRho; dsimp only; rw [if_neg hf']
    rw [hs1]
    exact ⟨rfl, rfl, fun h => absurd h hf, fun _ => ⟨rfl, rfl, rfl⟩⟩

/-- Whether `adapt_rho` is called. -/
def attempts (ca : Bool) (s : Solver d K) : Prop :=
  ca = true ∧ (s.settings.adaptive_rho = 3 → s.info.rel_kkt_error ≤ s.settings.adaptive_rho_fraction * s.work.last_rel_kkt)

/-- What the adaptation phase of an iteration does. -/
theorem adaptPhase_rule (ca : Bool) (s : Solver d K) :
    let e := computeRhoEstimate env s
    let s1 := (adaptPhase cfg env ca s).1
    s1.info.rel_kkt_error = s.info.rel_kkt_error ∧
    s1.settings.adaptive_rho_interval = s.settings.adaptive_rho_interval ∧
    (attempts ca s → s1.info.rho_estimate = e ∧
      (FarFrom s.settings.adaptive_rho_tolerance s.settings.rho e →
        s1.settings.rho = e ∧ s1.info.rho_updates = s.info.rho_updates + 1 ∧
        ((adaptPhase cfg env ca s).2 = false → s1.work.last_rel_kkt = s1.info.rel_kkt_error)) ∧
      (¬ FarFrom s.settings.adaptive_rho_tolerance s.settings.rho e →
        s1.settings.rho = s.settings.rho ∧ s1.info.rho_updates = s.info.rho_updates ∧ s1.work.last_rel_kkt = s.work.last_rel_kkt)) ∧
    (¬ attempts ca s → s1.info.rho_estimate = s.info.rho_estimate ∧ s1.settings.rho = s.settings.rho ∧
      s1.info.rho_updates = s.info.rho_updates ∧ s1.work.last_rel_kkt = s.work.last_rel_kkt) := by
  intro e s1
  set s0 : Solver d K := { s with work := { s.work with rho_updated := false } } with hs0
  have hr := adaptRho_rule (cfg := cfg) (env := env) s0
  have he : computeRhoEstimate env s0 = e := rfl
  dsimp only at hr
  rw [he] at hr
  obtain ⟨r1, r2, r3, r4⟩ := hr
  have hkk : (adaptRho cfg env s0).1.info.rel_kkt_error = s.info.rel_kkt_error := by simp [hs0]
  have hlk : (adaptRho cfg env s0).1.work.last_rel_kkt = s.work.last_rel_kkt := by simp [hs0]
  by_cases ha : attempts ca s
  · have hca : (if (ca && decide (s.settings.adaptive_rho = 3)) = true then
        decide (s.info.rel_kkt_error ≤ s.settings.adaptive_rho_fraction * s.work.last_rel_kkt) else ca) = true := by
      split_ifs with h
      · simp only [Bool.and_eq_true, decide_eq_true_eq] at h
        exact decide_eq_true (ha.2 h.2)
      · exact ha.1
    have hph : adaptPhase cfg env ca s = (if (adaptRho cfg env s0).2 ≠ 0 then ((adaptRho cfg env s0).1, true)
        else if (adaptRho cfg env s0).1.work.rho_updated then
          ({ (adaptRho cfg env s0).1 with work := { (adaptRho cfg env s0).1.work with last_rel_kkt := (adaptRho cfg env s0).1.info.rel_kkt_error } }, false)
        else ((adaptRho cfg env s0).1, false)) := by
      unfold adaptPhase; dsimp only
      simp only [hca, if_true]
      rfl
    refine ⟨?_, ?_, fun _ => ⟨?_, fun hf => ?_, fun hf => ?_⟩, fun h => absurd ha h⟩
    · show (adaptPhase cfg env ca s).1.info.rel_kkt_error = _
      rw [hph]; split_ifs <;> exact hkk
    · show (adaptPhase cfg env ca s).1.settings.adaptive_rho_interval = _
      rw [hph]; split_ifs <;> exact r2
    · show (adaptPhase cfg env ca s).1.info.rho_estimate = _
      rw [hph]; split_ifs <;> exact r1
    · obtain ⟨a, b, c⟩ := r3 hf
      refine ⟨?_, ?_, ?_⟩
      · show (adaptPhase cfg env ca s).1.settings.rho = _
        rw [hph]; split_ifs <;> exact a
      · show (adaptPhase cfg env ca s).1.info.rho_updates = _
        rw [hph]; split_ifs <;> exact b
      · show _ → (adaptPhase cfg env ca s).1.work.last_rel_kkt = (adaptPhase cfg env ca s).1.info.rel_kkt_error
        rw [hph]; split_ifs <;> simp
    · obtain ⟨a, b, c⟩ := r4 hf
      have hc' : (adaptRho cfg env s0).1.work.rho_updated = false := c
      refine ⟨?_, ?_, ?_⟩
      · show (adaptPhase cfg env ca s).1.settings.rho = _
        rw [hph]; split_ifs <;> exact a
      · show (adaptPhase cfg env ca s).1.info.rho_updates = _
        rw [hph]; split_ifs <;> exact b
      · show (adaptPhase cfg env ca s).1.work.last_rel_kkt = _
        rw [hph]; simp only [hc', Bool.false_eq_true, if_false]; split_ifs <;> exact hlk
  · have hca : (if (ca && decide (s.settings.adaptive_rho = 3)) = true then
        decide (s.info.rel_kkt_error ≤ s.settings.adaptive_rho_fraction * s.work.last_rel_kkt) else ca) = false := by
      split_ifs with h
      · simp only [Bool.and_eq_true, decide_eq_true_eq] at h
        refine decide_eq_false fun hk => ha ⟨h.1, fun _ => hk⟩
      · by_contra hc
        have hc' : ca = true := by simpa using hc
        apply ha
        refine ⟨hc', fun h3 => absurd ?_ h⟩
        rw [hc']; simpa [hs0] using h3
    have hph : (adaptPhase cfg env ca s).1 = s0 := by
      unfold adaptPhase; dsimp only
      simp only [hca, Bool.false_eq_true, if_false, ne_eq, not_true]
      rfl
    have hs1 : s1 = s0 := hph
    rw [hs1]
    exact ⟨rfl, rfl, fun h => absurd h ha, fun _ => ⟨rfl, rfl, rfl, rfl⟩⟩

/-- The decision to adapt. -/
theorem adaptDecision_rule (it : ℤ) (s : Solver d K) (hp : cfg.profiling = false → s.settings.adaptive_rho ≠ 2)
    (hr : 0 ≤ s.settings.adaptive_rho ∧ s.settings.adaptive_rho ≤ 3) :
    let r := adaptDecision cfg env it s
    (r.2 = true ↔ s.settings.adaptive_rho ≠ 0 ∧ r.1.settings.adaptive_rho_interval ≠ 0 ∧ r.1.settings.adaptive_rho_interval ∣ it) ∧
    (s.settings.adaptive_rho ≠ 2 → r.1 = s) ∧ (s.settings.adaptive_rho_interval ≠ 0 → r.1.settings.adaptive_rho_interval = s.settings.adaptive_rho_interval) ∧
    (r.1.settings.adaptive_rho_interval = s.settings.adaptive_rho_interval ∨
      r.1.settings.adaptive_rho_interval = timeInterval s.settings it) := by
  have hrule : ∀ st : Settings K, intervalRule st it = true ↔ st.adaptive_rho_interval ≠ 0 ∧ st.adaptive_rho_interval ∣ it := by
    intro st; unfold intervalRule
    simp only [Bool.and_eq_true, decide_eq_true_eq, Int.dvd_iff_emod_eq_zero]
  intro r
  have hr' : r = adaptDecision cfg env it s := rfl
  unfold adaptDecision at hr'
  dsimp only at hr'
  by_cases h2 : s.settings.adaptive_rho = 2
  · have hpr : cfg.profiling = true := by
      by_contra h; exact hp (by simpa using h) h2
    rw [if_pos h2, if_pos hpr] at hr'
    by_cases h0 : s.settings.adaptive_rho_interval = 0
    · rw [if_pos h0] at hr'
      split_ifs at hr'
      · rw [hr']
        refine ⟨?_, fun h => absurd h2 h, fun h => absurd h0 h, Or.inr rfl⟩
        dsimp only; rw [hrule]
        simp [toc, h2]
      · rw [hr']
        refine ⟨?_, fun h => absurd h2 h, fun h => absurd h0 h, Or.inl rfl⟩
        simp [toc, h0]
    · rw [if_neg h0] at hr'
      rw [hr']
      refine ⟨?_, fun h => absurd h2 h, fun _ => rfl, Or.inl rfl⟩
      dsimp only; rw [hrule]; simp [h2]
  · rw [if_neg h2] at hr'
    split_ifs at hr' with h3
    · rw [hr']
      refine ⟨?_, fun _ => rfl, fun _ => rfl, Or.inl rfl⟩
      dsimp only; rw [hrule]
      have : s.settings.adaptive_rho ≠ 0 := by omega
      simp [this]
    · rw [hr']
      refine ⟨?_, fun _ => rfl, fun _ => rfl, Or.inl rfl⟩
      have : s.settings.adaptive_rho = 0 := by omega
      simp [this]

/-! ## Constraint types -/

/-- The constraint types are those of the current bounds. -/
def Typed (s : Solver d K) : Prop := s.settings.rho_is_vec ≠ 0 →
  s.work.constr_type = vBoundsType s.work.data.l s.work.data.u (Const.rhoTol K) (Const.infval K)

theorem Typed.congr (h : Typed s) (e1 : s'.settings.rho_is_vec = s.settings.rho_is_vec) (e2 : s'.work.constr_type = s.work.constr_type)
    (e3 : s'.work.data.l = s.work.data.l) (e4 : s'.work.data.u = s.work.data.u) : Typed s' := by
  unfold Typed; rw [e1, e2, e3, e4]; exact h

theorem typed_updateRhoVec (env : Env d K) (s : Solver d K) : Typed (updateRhoVec env s).1 := by
  intro _
  unfold updateRhoVec setRhoVec
  dsimp only; split_ifs <;> rfl

theorem typed_iter {it : ℤ} {L : LoopSt d K} (h : Typed L.s) : Typed (endState (iterBody cfg env it L)) := by
  rcases endState_eq (cfg := cfg) (env := env) it L with e | e | ⟨_, e⟩ | ⟨_, e⟩ <;> rw [e]
  · exact h.congr (by simp [itAdmm]) (by simp [itAdmm]) (by simp [itAdmm]) (by simp [itAdmm])
  · exact h.congr (by simp [itAdmm, itTimed]) (by simp [itAdmm, itTimed]) (by simp [itAdmm, itTimed]) (by simp [itAdmm, itTimed])
  all_goals
    have hc := (core_itTerm cfg env it L).2.2.2
    simp only [core, Prod.mk.injEq] at hc
    obtain ⟨_, c2, _, c4, _, _, _, _, c9⟩ := hc
    refine h.congr ?_ ?_ ?_ ?_ <;> simp [c2, c4, c9]

theorem typed_solve (h : Typed s) : Typed (osqpSolve cfg env s).1 := by
  refine solve_keeps Typed (fun s h => ?_) (fun it L h => typed_iter h) (fun it L h => ?_) (fun s h => ?_) (fun s h => ?_)
    (fun s h => ?_) h
  all_goals exact h.congr (by simp) (by simp) (by simp) (by simp)

theorem typed_vec (h : Inv cfg st₀ U s) (q : Option (Vec K d.n)) (l u : Option (Vec K d.m))
    (ht : Typed s ∨ ((l ≠ none ∨ u ≠ none) ∧ ∀ i, (l.getD U.l) i ≤ (u.getD U.u) i)) : Typed (osqpUpdateDataVec cfg env s q l u).1 := by
  rw [osqpUpdateDataVec_eq q l u (rep_bounds h.rep h.bounds)]
  dsimp only
  have hclr : ∀ {t : Solver d K}, Typed t → Typed (if cfg.profiling then clearUpdateTime t else t) := by
    intro t ht; split_ifs
    · exact ht.congr (by simp) (by simp) (by simp) (by simp)
    · exact ht
  have hadd : ∀ {t : Solver d K}, Typed t → Typed (if cfg.profiling then addUpdateTime env t else t) := by
    intro t ht; split_ifs
    · exact ht.congr (by simp) (by simp) (by simp) (by simp)
    · exact ht
  have h1 : Inv cfg st₀ U (if cfg.profiling then clearUpdateTime s else s) := inv_clear h cfg.profiling
  have h2 : Typed s → Typed (if cfg.profiling then clearUpdateTime s else s) := hclr
  generalize (if cfg.profiling then clearUpdateTime s else s) = s1 at *
  by_cases hacc : ∀ i, ((l.map (scB s)).getD s.work.data.l) i ≤ ((u.map (scB s)).getD s.work.data.u) i
  · rw [if_pos hacc]
    refine hadd ?_
    have key : Typed (vecRho env (vecBounds s1 l u) l u).1 := by
      unfold vecRho
      split_ifs with hb
      · exact typed_updateRhoVec _ _
      · by_cases hv : s1.settings.rho_is_vec = 0
        · intro h0; exact absurd hv h0
        · have hn : l = none ∧ u = none := by
            have hv' : (vecBounds s1 l u).settings.rho_is_vec ≠ 0 := hv
            cases l <;> cases u <;> simp [hv'] at hb ⊢
          obtain ⟨rfl, rfl⟩ := hn
          have ht' : Typed s := by
            rcases ht with ht | ⟨hn', _⟩
            · exact ht
            · simp at hn'
          exact (h2 ht').congr rfl rfl rfl rfl
    refine key.congr ?_ ?_ ?_ ?_ <;> (unfold vecQ; cases q <;> rfl)
  · rw [if_neg hacc]
    have ht' : Typed s := by
      rcases ht with ht | ⟨_, hn'⟩
      · exact ht
      · exact absurd ((vec_accept_iff h l u).2 hn') hacc
    exact (h2 ht').congr rfl rfl rfl rfl

theorem typed_mat (h : Inv cfg st₀ U s) {p a : MatUpd K} {code : ℤ}
    (e : osqpUpdateDataMat cfg env s p a = some (s', code))
    (hx : s.settings.scaling = 0 ∨ ¬ (MatArgsOK d.P.nnz p ∧ MatArgsOK d.A.nnz a)) (ht : Typed s) : Typed s' := by
  have hclr : Typed (if cfg.profiling then clearUpdateTime s else s) := by
    split_ifs
    · exact ht.congr (by simp) (by simp) (by simp) (by simp)
    · exact ht
  rcases osqpUpdateDataMat_some h e with ⟨_, _, e1⟩ | ⟨_, _, _, e1⟩ | ⟨hp, ha, r, ls, hr, hl, e1⟩
  · rw [e1]; exact hclr
  · rw [e1]; exact hclr
  · rcases hx with h0 | h0
    · have hU := h.rep.2 h0
      rw [if_neg (not_not.2 h0)] at hr
      have e2 : s'.settings.rho_is_vec = s.settings.rho_is_vec ∧ s'.work.constr_type = s.work.constr_type ∧ s'.work.data = r.1 := by
        rw [e1]; dsimp only; split_ifs <;> simp
      refine ht.congr e2.1 e2.2.1 ?_ ?_ <;> rw [e2.2.2, hr, hU]
    · exact absurd ⟨hp, ha⟩ h0

theorem typed_current (hsq : SqrtPos env) (h : BoundsCurrent cfg env D₀ st₀ U s) : Hist cfg env D₀ st₀ U s ∧ Typed s := by
  induction h with
  | setup e => exact ⟨.setup e, fun hv => (made e).types (by rw [(made e).settings] at hv; exact hv)⟩
  | @bounds U s s' q l u code hH hn hacc e =>
    refine ⟨.step hH e, ?_⟩
    simp only [apiStep, Option.some.injEq] at e
    have := typed_vec (env := env) (hist_inv hsq hH) q l u (Or.inr ⟨hn, hacc⟩)
    rw [e] at this; exact this
  | @step U s s' op code _ hop e ih =>
    obtain ⟨hH, ht⟩ := ih
    refine ⟨.step hH e, ?_⟩
    have hI := hist_inv hsq hH
    cases op with
    | solve => simp only [apiStep, Option.some.injEq] at e; have := typed_solve (cfg := cfg) (env := env) ht; rw [e] at this; exact this
    | updateDataVec q l u =>
      simp only [apiStep, Option.some.injEq] at e
      have := typed_vec (env := env) hI q l u (Or.inl ht)
      rw [e] at this; exact this
    | updateDataMat p a =>
      refine typed_mat hI e ?_ ht
      rw [hI.fixed.scaling]; exact hop p a rfl
    | updateRho r =>
      simp only [apiStep, Option.some.injEq] at e
      have : Typed (osqpUpdateRho cfg env s r).1 := ht.congr (by simp) (by simp) (by simp) (by simp)
      rw [e] at this; exact this
    | updateSettings st =>
      simp only [apiStep, Option.some.injEq] at e
      have : Typed (osqpUpdateSettings cfg s st).1 := by
        unfold osqpUpdateSettings
        cases st with
        | none => exact ht
        | some n => dsimp only; split_ifs <;> exact ht
      rw [e] at this; exact this
    | warmStart x y =>
      simp only [apiStep, Option.some.injEq] at e
      have : Typed (osqpWarmStart s x y).1 := by
        unfold osqpWarmStart
        cases x <;> cases y <;> dsimp only <;> split_ifs <;> exact ht
      rw [e] at this; exact this
    | coldStart => simp only [apiStep, Option.some.injEq, Prod.mk.injEq] at e; rw [← e.1]; exact ht
    | getSolution dst =>
      simp only [apiStep, Option.some.injEq, Prod.mk.injEq] at e
      rw [← e.1]
      exact ht.congr (by simp [osqpGetSolution]) (by simp [osqpGetSolution]) (by simp [osqpGetSolution]) (by simp [osqpGetSolution])

/-! ## Histories -/

/-- Calls other than `osqp_solve` keep these two fields. -/
theorem op_keeps (h : Inv cfg st₀ U s) {op : Op d K} {code : ℤ} (hop : op ≠ .solve) (e : apiStep cfg env s op = some (s', code)) :
    s'.settings.adaptive_rho_interval = s.settings.adaptive_rho_interval ∧ s'.work.scaled_prim_res = s.work.scaled_prim_res := by
  have hc1 : (if cfg.profiling then clearUpdateTime s else s).settings.adaptive_rho_interval = s.settings.adaptive_rho_interval ∧
      (if cfg.profiling then clearUpdateTime s else s).work.scaled_prim_res = s.work.scaled_prim_res := by split_ifs <;> simp
  have hadd : ∀ t : Solver d K, (if cfg.profiling then addUpdateTime env t else t).settings.adaptive_rho_interval = t.settings.adaptive_rho_interval ∧
      (if cfg.profiling then addUpdateTime env t else t).work.scaled_prim_res = t.work.scaled_prim_res := by intro t; split_ifs <;> simp
  cases op with
  | solve => exact absurd rfl hop
  | updateDataVec q l u =>
    simp only [apiStep, Option.some.injEq] at e
    rw [osqpUpdateDataVec_eq q l u (rep_bounds h.rep h.bounds)] at e
    dsimp only at e
    generalize (if cfg.profiling then clearUpdateTime s else s) = s1 at *
    have h2 : ∀ t : Solver d K, (vecQ t q).settings = t.settings ∧ (vecQ t q).work.scaled_prim_res = t.work.scaled_prim_res := by
      intro t; unfold vecQ; cases q <;> simp
    have h3 : (vecRho env (vecBounds s1 l u) l u).1.settings.adaptive_rho_interval = s1.settings.adaptive_rho_interval ∧
        (vecRho env (vecBounds s1 l u) l u).1.work.scaled_prim_res = s1.work.scaled_prim_res := by
      unfold vecRho; split_ifs <;> simp [vecBounds]
    by_cases hb : ∀ i, ((l.map (scB s)).getD s.work.data.l) i ≤ ((u.map (scB s)).getD s.work.data.u) i
    · rw [if_pos hb, Prod.mk.injEq] at e
      rw [← e.1, (hadd _).1, (hadd _).2, ← hc1.1, ← hc1.2, ← h3.1, ← h3.2]
      exact ⟨by rw [(h2 _).1], (h2 _).2⟩
    · rw [if_neg hb, Prod.mk.injEq] at e
      rw [← e.1]; exact hc1
  | updateDataMat p a =>
    rcases osqpUpdateDataMat_some h e with ⟨_, _, e1⟩ | ⟨_, _, _, e1⟩ | ⟨_, _, r, ls, _, _, e1⟩
    · rw [e1]; exact hc1
    · rw [e1]; exact hc1
    · rw [e1]; dsimp only
      rw [(hadd _).1, (hadd _).2]; exact hc1
  | updateRho r =>
    simp only [apiStep, Option.some.injEq] at e
    rw [show s' = (osqpUpdateRho cfg env s r).1 by rw [e]]; simp
  | updateSettings st =>
    simp only [apiStep, Option.some.injEq] at e
    rw [show s' = (osqpUpdateSettings cfg s st).1 by rw [e]]
    unfold osqpUpdateSettings
    cases st with
    | none => exact ⟨rfl, rfl⟩
    | some n => dsimp only; split_ifs <;> exact ⟨rfl, rfl⟩
  | warmStart x y =>
    simp only [apiStep, Option.some.injEq] at e
    rw [show s' = (osqpWarmStart s x y).1 by rw [e]]
    unfold osqpWarmStart
    cases x <;> cases y <;> dsimp only <;> split_ifs <;> exact ⟨rfl, rfl⟩
  | coldStart => simp only [apiStep, Option.some.injEq, Prod.mk.injEq] at e; rw [← e.1]; exact ⟨rfl, rfl⟩
  | getSolution dst =>
    simp only [apiStep, Option.some.injEq, Prod.mk.injEq] at e
    rw [← e.1]; simp [osqpGetSolution]

theorem spres0_hist (hsq : SqrtPos env) (h : Hist cfg env D₀ st₀ U s) (hm : d.m = 0) : s.work.scaled_prim_res = 0 := by
  induction h with
  | setup e => exact (made e).spres
  | @step U s s' op code hH e ih =>
    by_cases hop : op = .solve
    · subst hop
      simp only [apiStep, Option.some.injEq] at e
      rw [show s' = (osqpSolve cfg env s).1 by rw [e]]
      refine solve_keeps (fun t => t.work.scaled_prim_res = 0) (fun s h => ?_) (fun it L h => ?_) (fun it L h => ?_) (fun s h => ?_) (fun s h => ?_)
        (fun s h => ?_) ih
      · simpa using h
      · rw [endState_spres0 hm, h]
      · have hp : (postCheck cfg env it L).work.scaled_prim_res = 0 := by
          unfold postCheck; split_ifs <;> simp [updateInfo_spres0 hm, h]
        unfold postLoop
        simp [hp]
      · rw [postPolish_spres0 hm, h]
      · simpa using h
      · simpa using h
    · rw [(op_keeps (hist_inv hsq hH) hop e).2, ih]

theorem itTerm_rho (it : ℤ) (L : LoopSt d K) :
    (itTerm cfg env it L).1.settings.rho = L.s.settings.rho ∧ (itTerm cfg env it L).1.info.rho_updates = L.s.info.rho_updates ∧
    (itTerm cfg env it L).1.info.rho_estimate = L.s.info.rho_estimate := by
  have h1 : (itInfo cfg env it L).settings.rho = L.s.settings.rho ∧ (itInfo cfg env it L).info.rho_updates = L.s.info.rho_updates ∧
      (itInfo cfg env it L).info.rho_estimate = L.s.info.rho_estimate := by
    unfold itInfo itDec itTimed itAdmm; split_ifs <;> simp
  unfold itTerm; split_ifs
  · simpa using h1
  · exact h1

theorem itTerm_interval (it : ℤ) (L : LoopSt d K) :
    (itTerm cfg env it L).1.settings.adaptive_rho_interval = (itDec cfg env it L).1.settings.adaptive_rho_interval ∧
    (itTerm cfg env it L).1.settings.adaptive_rho = L.s.settings.adaptive_rho ∧
    (itTerm cfg env it L).1.settings.adaptive_rho_fraction = L.s.settings.adaptive_rho_fraction ∧
    (itTerm cfg env it L).1.settings.adaptive_rho_tolerance = L.s.settings.adaptive_rho_tolerance ∧
    (itTerm cfg env it L).1.work.last_rel_kkt = L.s.work.last_rel_kkt := by
  have h1 : (itInfo cfg env it L).settings.adaptive_rho_interval = (itDec cfg env it L).1.settings.adaptive_rho_interval ∧
      (itInfo cfg env it L).settings.adaptive_rho = L.s.settings.adaptive_rho ∧
      (itInfo cfg env it L).settings.adaptive_rho_fraction = L.s.settings.adaptive_rho_fraction ∧
      (itInfo cfg env it L).settings.adaptive_rho_tolerance = L.s.settings.adaptive_rho_tolerance ∧
      (itInfo cfg env it L).work.last_rel_kkt = L.s.work.last_rel_kkt := by
    unfold itInfo; split_ifs <;> simp [itDec, itTimed, itAdmm]
  unfold itTerm; split_ifs
  · simpa using h1
  · exact h1

theorem cont_form {it : ℤ} {L L' : LoopSt d K} (e : iterBody cfg env it L = .cont L') : (itTerm cfg env it L).2 = false ∧
    endState (iterBody cfg env it L) = (adaptPhase cfg env (itDec cfg env it L).2 (itTerm cfg env it L).1).1 := by
  rw [iterBody_eq] at e ⊢
  generalize hgp : (if cfg.printing = true then false else L.canPrint) = cpv at e ⊢
  split_ifs at e with h1 h2 h3 h4
  exact ⟨by simpa using h3, by rw [if_neg h1, if_neg h2, if_neg h3, if_neg h4]; rfl⟩

/-- The mode is one of the four; without timing it is not the time-based one. -/
theorem mode_runs (h : Inv cfg st₀ U s) {it : ℤ} {L : LoopSt d K} (run : Runs cfg env (solveEntry cfg s) it L) :
    L.s.settings.adaptive_rho = st₀.adaptive_rho ∧ L.s.settings.adaptive_rho_tolerance = s.settings.adaptive_rho_tolerance ∧
    1 ≤ L.s.settings.adaptive_rho_tolerance ∧
    (cfg.profiling = false → L.s.settings.adaptive_rho ≠ 2) ∧ (0 ≤ L.s.settings.adaptive_rho ∧ L.s.settings.adaptive_rho ≤ 3) := by
  obtain ⟨r, i, e⟩ := (fromCall (head_of_runs h run).within).settings
  have ha : L.s.settings.adaptive_rho = st₀.adaptive_rho := by rw [e]; exact h.fixed.adaptive_rho
  have ht : L.s.settings.adaptive_rho_tolerance = s.settings.adaptive_rho_tolerance := by rw [e]
  refine ⟨ha, ht, ?_, ?_, ?_⟩
  · rw [ht, h.fixed.adaptive_rho_tolerance]; exact h.valid0.adaptive_rho_tolerance
  · rw [ha]; exact h.valid0.adaptive_time
  · rw [ha]; exact h.valid0.adaptive_rho

/-- What an attempted adaptation does. -/
theorem adapted (h : Inv cfg st₀ U s) (h0 : d.m = 0 → s.work.scaled_prim_res = 0) {it : ℤ} {L : LoopSt d K}
    (run : Runs cfg env (solveEntry cfg s) it L) (hf : (itTerm cfg env it L).2 = false)
    (e : endState (iterBody cfg env it L) = (adaptPhase cfg env (itDec cfg env it L).2 (itTerm cfg env it L).1).1)
    (ha : attempts (itDec cfg env it L).2 (itTerm cfg env it L).1) :
    let s' := endState (iterBody cfg env it L)
    let est := (ofData s.work.data).estimate env.sqrt L.s.settings.rho s'.work.x s'.work.z s'.work.y
    AdaptDue it L.s s' ∧ s'.info.rho_estimate = est ∧
    (FarFrom s.settings.adaptive_rho_tolerance L.s.settings.rho est → s'.settings.rho = est ∧ s'.info.rho_updates = L.s.info.rho_updates + 1) ∧
    (¬ FarFrom s.settings.adaptive_rho_tolerance L.s.settings.rho est → s'.settings.rho = L.s.settings.rho ∧ s'.info.rho_updates = L.s.info.rho_updates) ∧
    (FarFrom s.settings.adaptive_rho_tolerance L.s.settings.rho est → s'.settings.rho ≠ L.s.settings.rho) := by
  have hw := (head_of_runs h run).within
  have hwT := within_itTerm (cfg := cfg) (env := env) it hw
  obtain ⟨m1, m2, m3, m4, m5⟩ := mode_runs h run
  obtain ⟨i1, i2, i3, i4, i5⟩ := itTerm_interval (cfg := cfg) (env := env) it L
  obtain ⟨b1, b2, b3⟩ := itTerm_rho (cfg := cfg) (env := env) it L
  have hset : (itTimed cfg env L).settings = L.s.settings := by simp [itTimed, itAdmm]
  have hdec := adaptDecision_rule (cfg := cfg) (env := env) it (itTimed cfg env L) (by rw [hset]; exact m4) (by rw [hset]; exact m5)
  have hd : (itDec cfg env it L).2 = true ↔ _ := hdec.1
  have hfresh : Fresh (itTerm cfg env it L).1 := by
    have hu : itUpd cfg env it L = true := by unfold itUpd; rw [ha.1]; simp
    have := (fresh_itInfo it hw hu).1
    rcases itTerm_false_form hf with e | e <;> rw [e]
    · exact this
    · exact fresh_ctState this
  have hest := estimate_eq (env := env) hfresh.1 (fun hm => by
    rw [(itInfo_spres0 (cfg := cfg) (env := env) hm it L).2, runs_spres0 hm run]; simpa using h0 hm)
  obtain ⟨p1, p2, p3, _⟩ := adaptPhase_rule (cfg := cfg) (env := env) (itDec cfg env it L).2 (itTerm cfg env it L).1
  obtain ⟨q1, q2, q3⟩ := p3 ha
  rw [hest, (fromCall hwT).data, b1] at q1 q2 q3
  rw [i4, m2, b2] at q2 q3
  rw [e]
  intro s' est
  have hx : s'.work.x = (itTerm cfg env it L).1.work.x := by simp [s']
  have hz : s'.work.z = (itTerm cfg env it L).1.work.z := by simp [s']
  have hy : s'.work.y = (itTerm cfg env it L).1.work.y := by simp [s']
  have hest' : est = (ofData s.work.data).estimate env.sqrt L.s.settings.rho (itTerm cfg env it L).1.work.x
      (itTerm cfg env it L).1.work.z (itTerm cfg env it L).1.work.y := by simp only [est]; rw [hx, hz, hy]
  rw [← hest'] at q1 q2 q3
  refine ⟨⟨?_, ?_, ?_, ?_⟩, q1, fun hh => ⟨(q2 hh).1, (q2 hh).2.1⟩, fun hh => ⟨(q3 hh).1, (q3 hh).2.1⟩, fun hh => ?_⟩
  · have := (hd.1 ha.1).1; rwa [hset] at this
  · have := (hd.1 ha.1).2.1; rw [p2, i1]; exact this
  · have := (hd.1 ha.1).2.2; rw [p2, i1]; exact this
  · intro h3
    have := ha.2 (by rw [i2]; exact h3)
    rw [i3, i5] at this
    rw [p1]; exact this
  · rw [(q2 hh).1]
    have hpos : 0 < L.s.settings.rho := rhoMin_pos.trans_le hw.sync.rho_lo
    rw [m2] at m3
    rcases hh with hh | hh
    · intro hc; rw [hc] at hh; nlinarith
    · intro hc; rw [hc, lt_div_iff₀ (by linarith)] at hh; nlinarith

theorem attempts_of_due (h : Inv cfg st₀ U s) {it : ℤ} {L : LoopSt d K} (run : Runs cfg env (solveEntry cfg s) it L)
    (due : AdaptDue it L.s (adaptPhase cfg env (itDec cfg env it L).2 (itTerm cfg env it L).1).1) :
    attempts (itDec cfg env it L).2 (itTerm cfg env it L).1 := by
  obtain ⟨m1, m2, m3, m4, m5⟩ := mode_runs h run
  obtain ⟨i1, i2, i3, i4, i5⟩ := itTerm_interval (cfg := cfg) (env := env) it L
  have hset : (itTimed cfg env L).settings = L.s.settings := by simp [itTimed, itAdmm]
  have hdec := adaptDecision_rule (cfg := cfg) (env := env) it (itTimed cfg env L) (by rw [hset]; exact m4) (by rw [hset]; exact m5)
  obtain ⟨p1, p2, _, _⟩ := adaptPhase_rule (cfg := cfg) (env := env) (itDec cfg env it L).2 (itTerm cfg env it L).1
  obtain ⟨d1, d2, d3, d4⟩ := due
  rw [p2, i1] at d2 d3
  refine ⟨hdec.1.2 ⟨by rw [hset]; exact d1, d2, d3⟩, fun h3 => ?_⟩
  rw [i2] at h3
  have := d4 h3
  rw [p1] at this
  rw [i3, i5]; exact this

/-- The interval in force at the end of an iteration. -/
theorem interval_end {it : ℤ} {L : LoopSt d K} (m4 : cfg.profiling = false → L.s.settings.adaptive_rho ≠ 2)
    (m5 : 0 ≤ L.s.settings.adaptive_rho ∧ L.s.settings.adaptive_rho ≤ 3) :
    let i' := (endState (iterBody cfg env it L)).settings.adaptive_rho_interval
    i' = L.s.settings.adaptive_rho_interval ∨
    (L.s.settings.adaptive_rho = 2 ∧ L.s.settings.adaptive_rho_interval = 0 ∧ i' = timeInterval L.s.settings it) := by
  intro i'
  obtain ⟨i1, i2, i3, i4, i5⟩ := itTerm_interval (cfg := cfg) (env := env) it L
  have hset : (itTimed cfg env L).settings = L.s.settings := by simp [itTimed, itAdmm]
  have hdec := adaptDecision_rule (cfg := cfg) (env := env) it (itTimed cfg env L) (by rw [hset]; exact m4) (by rw [hset]; exact m5)
  dsimp only at hdec
  rw [hset] at hdec
  obtain ⟨_, d2, d3, d4⟩ := hdec
  have key : (itDec cfg env it L).1.settings.adaptive_rho_interval = L.s.settings.adaptive_rho_interval ∨
      (L.s.settings.adaptive_rho = 2 ∧ L.s.settings.adaptive_rho_interval = 0 ∧ (itDec cfg env it L).1.settings.adaptive_rho_interval = timeInterval L.s.settings it) := by
    by_cases h2 : L.s.settings.adaptive_rho = 2
    · by_cases h0 : L.s.settings.adaptive_rho_interval = 0
      · rcases d4 with d4 | d4
        · left; exact d4
        · right; exact ⟨h2, h0, d4⟩
      · left; exact d3 h0
    · left; unfold itDec; rw [d2 h2, hset]
  rcases endState_eq (cfg := cfg) (env := env) it L with e | e | ⟨_, e⟩ | ⟨_, e⟩
  · left; simp only [i']; rw [e]; simp [itAdmm]
  · left; simp only [i']; rw [e]; simp [itTimed, itAdmm]
  · simp only [i']; rw [e, i1]; exact key
  · simp only [i']; rw [e, adaptPhase_settings_adaptive_rho_interval, i1]; exact key

/-- A property of the interval that holds initially and of every interval chosen in time mode holds always. -/
theorem interval_hist (hsq : SqrtPos env) (P : ℤ → Prop) (h0 : P (setupInterval st₀))
    (h1 : st₀.adaptive_rho = 2 → P 0 → ∀ (st : Settings K) it, P (timeInterval st it)) (hist : Hist cfg env D₀ st₀ U s) :
    P s.settings.adaptive_rho_interval ∧ ∀ {it : ℤ} {L : LoopSt d K}, Runs cfg env (solveEntry cfg s) it L →
      P (endState (iterBody cfg env it L)).settings.adaptive_rho_interval := by
  have step : ∀ {it : ℤ} {L : LoopSt d K}, L.s.settings.adaptive_rho = st₀.adaptive_rho → ValidFixed cfg st₀ →
      P L.s.settings.adaptive_rho_interval → P (endState (iterBody cfg env it L)).settings.adaptive_rho_interval := by
    intro it L m1 hv hp
    rcases interval_end (cfg := cfg) (env := env) (it := it) (L := L) (by rw [m1]; exact hv.adaptive_time) (by rw [m1]; exact hv.adaptive_rho) with e | ⟨a, b, e⟩ <;> rw [e]
    · exact hp
    · rw [b] at hp; exact h1 (by rw [← m1, a]) hp _ _
  have main : P s.settings.adaptive_rho_interval := by
    induction hist with
    | setup e => rw [(made e).settings]; exact h0
    | @step U s s' op code hH e ih =>
      have hI := hist_inv hsq hH
      by_cases hop : op = .solve
      · subst hop
        simp only [apiStep, Option.some.injEq] at e
        rw [show s' = (osqpSolve cfg env s).1 by rw [e]]
        have hk := solve_keeps (cfg := cfg) (env := env) (fun t => t.settings.adaptive_rho = st₀.adaptive_rho ∧ P t.settings.adaptive_rho_interval)
          (fun s h => by simpa using h) (fun it L h => ⟨?_, step h.1 hI.valid0 h.2⟩)
          (fun it L h => by simpa using h) (fun s h => by simpa using h) (fun s h => by simpa using h)
          (fun s h => by simpa using h) (s := s) ⟨hI.fixed.adaptive_rho, ih⟩
        · exact hk.2
        · rw [← h.1]
          obtain ⟨_, i2, _⟩ := itTerm_interval (cfg := cfg) (env := env) it L
          rcases endState_eq (cfg := cfg) (env := env) it L with e | e | ⟨_, e⟩ | ⟨_, e⟩ <;> rw [e]
          · simp [itAdmm]
          · simp [itTimed, itAdmm]
          · exact i2
          · simpa using i2
      · rw [(op_keeps hI hop e).1]; exact ih
  refine ⟨main, ?_⟩
  intro it L run
  have hI := hist_inv hsq hist
  induction run with
  | start => exact step (by simpa using hI.fixed.adaptive_rho) hI.valid0 (by simpa using main)
  | @step it L L' r e ih =>
    rw [e] at ih
    exact step (mode_runs hI (.step r e)).1 hI.valid0 ih

theorem setupInterval_eq (st : Settings K) : setupInterval st = documentedInterval st := by
  unfold setupInterval documentedInterval
  split_ifs <;> simp_all

/-- The matrix held by the linear-system solver, in terms of the user's data. -/
theorem held_current {sg : K} (h : Sync s) (hr : Represents s.settings s.work.scaling U s.work.data) (hs : s.settings.sigma = sg) :
    heldMatrix s.work.linsys = kktMatrix
      (fun i j => costScale s * (colScale s i * (ofData U).P i j * colScale s j))
      (fun i j => rowScale s i * (ofData U).A i j * colScale s j) sg (steps s) := by
  obtain ⟨ok, is⟩ := rep_eff hr
  have hcol : colScale s = (effSc s).D := by funext j; unfold colScale effSc; split_ifs <;> rfl
  have eP : denseSym d.P s.work.data.P = fun i j => costScale s * (colScale s i * (ofData U).P i j * colScale s j) := by
    rw [costScale_eff, hcol, show s.work.data.P = fun k => U.P k * (effSc s).D (d.P.row k) * (effSc s).D (d.P.col k) * (effSc s).c by
      funext k; rw [is.P k]; ring, denseSym_scale]; rfl
  have eA : dense d.A s.work.data.A = fun i j => rowScale s i * (ofData U).A i j * colScale s j := by
    rw [rowScale_eff, hcol, show s.work.data.A = fun k => U.A k * (effSc s).E (d.A.row k) * (effSc s).D (d.A.col k) by
      funext k; rw [is.A k]; ring, dense_scale]; rfl
  unfold heldMatrix kktMatrix
  rw [h.P, h.A, h.sigma, hs, eP, eA]
  congr 2
  funext i
  unfold steps
  by_cases hv : s.settings.rho_is_vec = 0
  · obtain ⟨a, b⟩ := h.sca hv
    rw [a]; simp [hv, b]
  · rw [(h.vec hv).2.2]; simp [hv, vRecip]

end Osqp
