import Verif.Lemmas.Outcome

/-!
# Termination tests in the user's coordinates
-/

set_option linter.unusedSectionVars false
namespace Osqp
open Spec Matrix
variable {K : Type*} [Field K] [LinearOrder K] [IsStrictOrderedRing K] {d : Dims}

section
variable {s : Solver d K} {U : Data d K}

/-- The report of a fresh state, in user coordinates. -/
theorem user_report (hrep : Represents s.settings s.work.scaling U s.work.data) (hu : UserCriteria s) (h : Fresh s) :
    ReportOf (ofData U) s.info (toX (effSc s) s.work.x) (toZ (effSc s) s.work.z) (toY (effSc s) s.work.y) (userGapY s) := by
  obtain ⟨a, b, c⟩ := user_obj hrep h.1 h.2.2
  exact ⟨a, b, c, user_pres hrep hu h.2.1, user_dres hrep hu h.2.1⟩

theorem user_converged (hrep : Represents s.settings s.work.scaling U s.work.data) (hu : UserCriteria s) (h : Fresh s) {ea er : K}
    (hp : d.m = 0 ∨ s.info.prim_res < primTol s ea er) (hd : s.info.dual_res < dualTol s ea er) :
    (ofData U).Converged ea er (toX (effSc s) s.work.x) (toZ (effSc s) s.work.z) (toY (effSc s) s.work.y) := by
  constructor
  · intro hm
    rcases hp with hp | hp
    · exact absurd hp hm
    · rwa [user_pres hrep hu h.2.1, user_primTol hrep hu h.1] at hp
  · rwa [user_dres hrep hu h.2.1, user_dualTol hrep hu h.1] at hd

theorem user_gapOK (hrep : Represents s.settings s.work.scaling U s.work.data) (hu : UserCriteria s) (h : Fresh s) {b : Bool}
    (hg : ctGap b s) (hc : s.settings.check_dualgap ≠ 0) :
    |(ofData U).gap (toX (effSc s) s.work.x) (userGapY s)| <
      (ofData U).gapTol (s.settings.eps_abs * ctK b) (s.settings.eps_rel * ctK b) (toX (effSc s) s.work.x) (userGapY s) := by
  have := hg hc
  rwa [cAbs_eq, user_gap hrep hu h, user_gapTol hrep hu h.1] at this

theorem user_box (hrep : Represents s.settings s.work.scaling U s.work.data)
    (hb : ∀ i, s.work.data.l i ≤ s.work.z i ∧ s.work.z i ≤ s.work.data.u i) : (ofData U).InBox (toZ (effSc s) s.work.z) := by
  obtain ⟨ok, is⟩ := rep_eff hrep
  intro i
  have hE := ok.E_pos i
  obtain ⟨a, b⟩ := hb i
  rw [is.l] at a; rw [is.u] at b
  unfold toZ; rw [ok.Einv]
  simp only [ofData]
  constructor
  · rw [one_div, inv_mul_eq_div, le_div_iff₀ hE]; linarith
  · rw [one_div, inv_mul_eq_div, div_le_iff₀ hE]; linarith

theorem user_cone (hrep : Represents s.settings s.work.scaling U s.work.data)
    (hc : Cone s.work.data s.work.z s.work.y) : (ofData U).NormalCone (toZ (effSc s) s.work.z) (toY (effSc s) s.work.y) := by
  obtain ⟨ok, is⟩ := rep_eff hrep
  intro i
  have hE := ok.E_pos i
  have hp : 0 < (effSc s).cinv * (effSc s).E i := mul_pos (cinv_pos ok) hE
  obtain ⟨_, a, b⟩ := hc i
  have e : toY (effSc s) s.work.y i = (effSc s).cinv * (effSc s).E i * s.work.y i := by unfold toY; ring
  rw [e]
  refine ⟨fun h => ?_, fun h => ?_⟩
  · have := a ((mul_pos_iff_of_pos_left hp).1 h)
    unfold toZ; rw [this, is.u, ok.Einv]; simp only [ofData]; field_simp
  · have hy : s.work.y i < 0 := by
      by_contra hn; exact absurd h (not_lt.2 (mul_nonneg hp.le (not_lt.1 hn)))
    have := b hy
    unfold toZ; rw [this, is.l, ok.Einv]; simp only [ofData]; field_simp

theorem support_smul {n m : ℕ} (Q : QP n m K) {t : K} (ht : 0 ≤ t) (v : Fin m → K) : Q.support (fun i => t * v i) = t * Q.support v := by
  unfold QP.support
  rw [Finset.mul_sum]
  refine Finset.sum_congr rfl fun i _ => ?_
  rw [← mul_max_zero ht, ← mul_min_zero ht]; ring

theorem mulVec_smul' {n m : ℕ} (A : Matrix (Fin n) (Fin m) K) (t : K) (v : Fin m → K) (j : Fin n) :
    (A *ᵥ (fun i => t * v i)) j = t * (A *ᵥ v) j := by
  simp only [mulVec, dotProduct, Finset.mul_sum]
  exact Finset.sum_congr rfl fun i _ => by ring

theorem divTol_pos : (0 : K) < Const.divisionTol K := by unfold Const.divisionTol Const.infty; positivity

theorem infval_eq : Const.infval K = 10 ^ 26 := by
  unfold Const.infval Const.infty Const.minScaling; norm_num

/-- Normalised vector. -/
theorem normInf_normalised {n : ℕ} {v : Fin n → K} (h : 0 < normInf v) : normInf (fun i => 1 / normInf v * v i) = 1 := by
  rw [← normInf_const_mul (by positivity)]; field_simp

theorem primalCert_of {v : Fin d.m → K} {e : Fin d.m → K} {eps : K} {Q : QP d.n d.m K} (hn : 0 < normInf v)
    (hs : normInf (Q.Aᵀ *ᵥ v) < eps * normInf v) (hneg : Q.support v < 0)
    (hup : ∀ i, 10 ^ 26 < e i * Q.u i → v i ≤ 0) (hlo : ∀ i, e i * Q.l i < -10 ^ 26 → 0 ≤ v i) :
    Q.PrimalCert e eps (fun i => v i * (1 / normInf v)) := by
  have ht : 0 < 1 / normInf v := by positivity
  have ev : (fun i => v i * (1 / normInf v)) = fun i => 1 / normInf v * v i := by funext i; ring
  rw [ev]
  constructor
  · exact normInf_normalised hn
  · have : (Q.Aᵀ *ᵥ fun i => 1 / normInf v * v i) = fun j => 1 / normInf v * (Q.Aᵀ *ᵥ v) j := by
      funext j; exact mulVec_smul' _ _ _ _
    rw [this, ← normInf_const_mul ht.le, one_div, inv_mul_eq_div, div_lt_iff₀ hn]; exact hs
  · rw [support_smul _ ht.le]; exact mul_neg_of_pos_of_neg ht hneg
  · intro i h; exact mul_nonpos_of_nonneg_of_nonpos ht.le (hup i h)
  · intro i h; exact mul_nonneg ht.le (hlo i h)

theorem dualCert_of {v : Fin d.n → K} {e : Fin d.m → K} {eps : K} {Q : QP d.n d.m K} (hn : 0 < normInf v)
    (hs : normInf (Q.P *ᵥ v) < eps * normInf v) (hneg : Q.q ⬝ᵥ v < 0)
    (hup : ∀ i, e i * Q.u i < 10 ^ 26 → (Q.A *ᵥ v) i ≤ eps * normInf v)
    (hlo : ∀ i, -10 ^ 26 < e i * Q.l i → -(eps * normInf v) ≤ (Q.A *ᵥ v) i) :
    Q.DualCert e eps (fun i => v i * (1 / normInf v)) := by
  have ht : 0 < 1 / normInf v := by positivity
  have ev : (fun i => v i * (1 / normInf v)) = fun i => 1 / normInf v * v i := by funext i; ring
  rw [ev]
  constructor
  · exact normInf_normalised hn
  · have : (Q.P *ᵥ fun i => 1 / normInf v * v i) = fun j => 1 / normInf v * (Q.P *ᵥ v) j := by
      funext j; exact mulVec_smul' _ _ _ _
    rw [this, ← normInf_const_mul ht.le, one_div, inv_mul_eq_div, div_lt_iff₀ hn]; exact hs
  · have : Q.q ⬝ᵥ (fun i => 1 / normInf v * v i) = 1 / normInf v * (Q.q ⬝ᵥ v) := by
      simp only [dotProduct, Finset.mul_sum]; exact Finset.sum_congr rfl fun i _ => by ring
    rw [this]; exact mul_neg_of_pos_of_neg ht hneg
  · intro i h; rw [mulVec_smul', one_div, inv_mul_eq_div, div_le_iff₀ hn]; exact hup i h
  · intro i h; rw [mulVec_smul', one_div, inv_mul_eq_div, le_div_iff₀ hn]; have := hlo i h; linarith

/-- The projected `delta_y`, in the coordinates used for the certificate. -/
def certY (s : Solver d K) : Vec K d.m := fun i =>
  vProjectPolar s.work.delta_y s.work.data.l s.work.data.u (Const.infval K) i * (effSc s).E i

/-- `delta_x`, in the coordinates used for the certificate. -/
def certX (s : Solver d K) : Vec K d.n := fun j => s.work.delta_x j * (effSc s).D j

theorem certY_eq (hu : UserCriteria s) (dy : Vec K d.m) :
    (if s.settings.unscaledTerm then vEwProd dy s.work.scaling.E else dy) = fun i => dy i * (effSc s).E i := by
  unfold effSc
  by_cases h : s.settings.scaling = 0
  · have : ¬ s.settings.unscaledTerm := by rw [unscaledTerm_iff hu]; exact not_not.2 h
    rw [if_neg this]; simp [h, unitSc]
  · rw [if_pos ((unscaledTerm_iff hu).2 h), if_pos h]; rfl

theorem certX_eq (hu : UserCriteria s) (dx : Vec K d.n) :
    (if s.settings.unscaledTerm then vEwProd dx s.work.scaling.D else dx) = fun i => dx i * (effSc s).D i := by
  unfold effSc
  by_cases h : s.settings.scaling = 0
  · have : ¬ s.settings.unscaledTerm := by rw [unscaledTerm_iff hu]; exact not_not.2 h
    rw [if_neg this]; simp [h, unitSc]
  · rw [if_pos ((unscaledTerm_iff hu).2 h), if_pos h]; rfl

theorem user_primalCert (hrep : Represents s.settings s.work.scaling U s.work.data) (hu : UserCriteria s) {eps : K}
    (h : (isPrimalInfeasible s eps).2 = true) :
    (ofData U).PrimalCert (rowScale s) eps (fun i => certY s i * (1 / normInf (certY s))) := by
  obtain ⟨ok, is⟩ := rep_eff hrep
  unfold isPrimalInfeasible at h
  dsimp only at h
  generalize hdy : vProjectPolar s.work.delta_y s.work.data.l s.work.data.u (Const.infval K) = dy at h
  have hcy : certY s = fun i => dy i * (effSc s).E i := by unfold certY; rw [hdy]
  have hnrm : (if s.settings.unscaledTerm then vNormInf (vEwProd s.work.scaling.E dy) else vNormInf dy) = normInf (certY s) := by
    rw [hcy, ← certY_eq hu, ← vNormInf_eq]
    split_ifs
    · congr 1; funext i; simp [vEwProd, mul_comm]
    · rfl
  have hAty : (if s.settings.unscaledTerm then vEwProd (spMulT d.A s.work.data.A dy) s.work.scaling.Dinv else spMulT d.A s.work.data.A dy) =
      (ofData U).Aᵀ *ᵥ certY s := by
    have e : ∀ v : Vec K d.n, (if s.settings.unscaledTerm then vEwProd v s.work.scaling.Dinv else v) = fun j => v j * (effSc s).Dinv j := by
      intro v; unfold effSc
      by_cases h : s.settings.scaling = 0
      · have : ¬ s.settings.unscaledTerm := by rw [unscaledTerm_iff hu]; exact not_not.2 h
        rw [if_neg this]; simp [h, unitSc]
      · rw [if_pos ((unscaledTerm_iff hu).2 h), if_pos h]; rfl
    rw [e]; funext j
    have hD := (ok.D_pos j).ne'
    rw [spMulT_eq, mulVec_scaled_AT is, ok.Dinv, hcy]
    have : (fun i => (effSc s).E i * dy i) = fun i => dy i * (effSc s).E i := by funext i; ring
    rw [this]; simp only [ofData]; field_simp
  rw [hnrm, hAty] at h
  split_ifs at h with h1 h2
  have hn : 0 < normInf (certY s) := lt_trans divTol_pos h1
  rw [decide_eq_true_eq, vNormInf_eq] at h
  refine primalCert_of hn h ?_ ?_ ?_
  · have e := support_user ok is dy
    have hc := cinv_pos ok
    have : toY (effSc s) dy = fun i => (effSc s).cinv * certY s i := by funext i; rw [hcy]; unfold toY; ring
    rw [this, support_smul _ hc.le, mul_comm] at e
    have e' := mul_left_cancel₀ hc.ne' e
    rw [← e']; exact h2
  · intro i hi
    rw [rowScale_eff] at hi
    have hu' : s.work.data.u i > Const.infval K := by rw [is.u, infval_eq]; exact hi
    rw [hcy]; dsimp only
    refine mul_nonpos_of_nonpos_of_nonneg ?_ (ok.E_pos i).le
    rw [← hdy, vProjectPolar_apply]
    split_ifs with hh
    · exact le_rfl
    · by_contra hc; exact hh (Or.inl ⟨hu', not_le.1 hc⟩)
  · intro i hi
    rw [rowScale_eff] at hi
    have hl' : s.work.data.l i < -Const.infval K := by rw [is.l, infval_eq]; exact hi
    rw [hcy]; dsimp only
    refine mul_nonneg ?_ (ok.E_pos i).le
    rw [← hdy, vProjectPolar_apply]
    split_ifs with hh
    · exact le_rfl
    · by_contra hc; exact hh (Or.inr ⟨hl', not_le.1 hc⟩)

theorem user_dualCert (hrep : Represents s.settings s.work.scaling U s.work.data) (hu : UserCriteria s) {eps : K}
    (h : isDualInfeasible s eps = true) :
    (ofData U).DualCert (rowScale s) eps (fun i => certX s i * (1 / normInf (certX s))) := by
  obtain ⟨ok, is⟩ := rep_eff hrep
  have hc := ok.c_pos
  unfold isDualInfeasible at h
  dsimp only at h
  have hcx : certX s = toX (effSc s) s.work.delta_x := by funext j; unfold certX toX; ring
  have hnrm : (if s.settings.unscaledTerm then vScaledNormInf s.work.scaling.D s.work.delta_x else vNormInf s.work.delta_x) = normInf (certX s) := by
    have := certX_eq hu s.work.delta_x
    unfold certX; rw [← this]
    split_ifs
    · rw [vScaledNormInf_eq]; congr 1; funext i; simp [vEwProd, mul_comm]
    · rw [vNormInf_eq]
  have hcs : (if s.settings.unscaledTerm then s.work.scaling.c else 1) = (effSc s).c := by
    unfold effSc
    by_cases h : s.settings.scaling = 0
    · have : ¬ s.settings.unscaledTerm := by rw [unscaledTerm_iff hu]; exact not_not.2 h
      rw [if_neg this]; simp [h, unitSc]
    · rw [if_pos ((unscaledTerm_iff hu).2 h), if_pos h]
  have eD : ∀ v : Vec K d.n, (if s.settings.unscaledTerm then vEwProd v s.work.scaling.Dinv else v) = fun j => v j * (effSc s).Dinv j := by
    intro v; unfold effSc
    by_cases h : s.settings.scaling = 0
    · have : ¬ s.settings.unscaledTerm := by rw [unscaledTerm_iff hu]; exact not_not.2 h
      rw [if_neg this]; simp [h, unitSc]
    · rw [if_pos ((unscaledTerm_iff hu).2 h), if_pos h]; rfl
  have eE : ∀ v : Vec K d.m, (if s.settings.unscaledTerm then vEwProd v s.work.scaling.Einv else v) = fun j => v j * (effSc s).Einv j := by
    intro v; unfold effSc
    by_cases h : s.settings.scaling = 0
    · have : ¬ s.settings.unscaledTerm := by rw [unscaledTerm_iff hu]; exact not_not.2 h
      rw [if_neg this]; simp [h, unitSc]
    · rw [if_pos ((unscaledTerm_iff hu).2 h), if_pos h]; rfl
  rw [hnrm, hcs, eD, eE] at h
  split_ifs at h with h1 h2 h3
  have hn : 0 < normInf (certX s) := lt_trans divTol_pos h1
  rw [vInReccone_iff] at h
  refine dualCert_of hn ?_ ?_ ?_ ?_
  · have e : (fun j => symMul d.P s.work.data.P s.work.delta_x j * (effSc s).Dinv j) =
        fun j => (effSc s).c * ((ofData U).P *ᵥ certX s) j := by
      funext j
      have hD := (ok.D_pos j).ne'
      rw [symMul_eq, mulVec_scaled_P is, ok.Dinv, hcx]; simp only [ofData]; unfold toX
      generalize (denseSym d.P U.P *ᵥ fun j => (effSc s).D j * s.work.delta_x j) j = w
      field_simp
    rw [e, vNormInf_eq, ← normInf_const_mul hc.le, mul_assoc] at h3
    exact lt_of_mul_lt_mul_left h3 hc.le
  · have e := lin_user ok is s.work.delta_x
    rw [vDot_eq] at h2
    rw [hcx]; simp only [ofData]; rw [← e]
    exact mul_neg_of_neg_of_pos h2 (cinv_pos ok)
  · intro i hi
    rw [rowScale_eff] at hi
    have hu' : s.work.data.u i < Const.infval K := by rw [is.u, infval_eq]; exact hi
    have := (h i).1 hu'
    rw [spMul_eq, mul_comm, toZ_A ok is, ← hcx] at this
    exact this
  · intro i hi
    rw [rowScale_eff] at hi
    have hl' : s.work.data.l i > -Const.infval K := by rw [is.l, infval_eq]; exact hi
    have := (h i).2 hl'
    rw [spMul_eq, mul_comm _ ((effSc s).Einv i), toZ_A ok is, ← hcx] at this
    exact this

/-- The primal infeasibility check in the user's units. -/
theorem primInf_iff (hrep : Represents s.settings s.work.scaling U s.work.data) (hu : UserCriteria s) {eps : K} :
    (isPrimalInfeasible s eps).2 = true ↔ 1 / 10 ^ 30 < normInf (certY s) ∧ (ofData U).support (certY s) < 0 ∧
      normInf ((ofData U).Aᵀ *ᵥ certY s) < eps * normInf (certY s) := by
  obtain ⟨ok, is⟩ := rep_eff hrep
  unfold isPrimalInfeasible
  dsimp only
  generalize hdy : vProjectPolar s.work.delta_y s.work.data.l s.work.data.u (Const.infval K) = dy
  have hcy : certY s = fun i => dy i * (effSc s).E i := by unfold certY; rw [hdy]
  have hnrm : (if s.settings.unscaledTerm then vNormInf (vEwProd s.work.scaling.E dy) else vNormInf dy) = normInf (certY s) := by
    rw [hcy, ← certY_eq hu, ← vNormInf_eq]
    split_ifs
    · congr 1; funext i; simp [vEwProd, mul_comm]
    · rfl
  have hAty : (if s.settings.unscaledTerm then vEwProd (spMulT d.A s.work.data.A dy) s.work.scaling.Dinv else spMulT d.A s.work.data.A dy) =
      (ofData U).Aᵀ *ᵥ certY s := by
    have e : ∀ v : Vec K d.n, (if s.settings.unscaledTerm then vEwProd v s.work.scaling.Dinv else v) = fun j => v j * (effSc s).Dinv j := by
      intro v; unfold effSc
      by_cases h : s.settings.scaling = 0
      · have : ¬ s.settings.unscaledTerm := by rw [unscaledTerm_iff hu]; exact not_not.2 h
        rw [if_neg this]; simp [h, unitSc]
      · rw [if_pos ((unscaledTerm_iff hu).2 h), if_pos h]; rfl
    rw [e]; funext j
    have hD := (ok.D_pos j).ne'
    rw [spMulT_eq, mulVec_scaled_AT is, ok.Dinv, hcy]
    have : (fun i => (effSc s).E i * dy i) = fun i => dy i * (effSc s).E i := by funext i; ring
    rw [this]; simp only [ofData]; field_simp
  have hsup : vDotPos s.work.data.u dy + vDotNeg s.work.data.l dy = (ofData U).support (certY s) := by
    have e := support_user ok is dy
    have hc := cinv_pos ok
    have : toY (effSc s) dy = fun i => (effSc s).cinv * certY s i := by funext i; rw [hcy]; unfold toY; ring
    rw [this, support_smul _ hc.le, mul_comm] at e
    exact mul_left_cancel₀ hc.ne' e
  have e1 : normInf (certY s) > Const.divisionTol K ↔ 1 / 10 ^ 30 < normInf (certY s) := Iff.rfl
  rw [hnrm, hAty, hsup, ← e1, vNormInf_eq]
  clear e1 hsup hAty hnrm hcy
  split_ifs with h1 h2
  · simp only [h1, h2, true_and, decide_eq_true_eq]
  · simp only [h2, false_and, and_false, Bool.false_eq_true]
  · simp only [h1, false_and, Bool.false_eq_true]

/-- The dual infeasibility check in the user's units. -/
theorem dualInf_iff (hrep : Represents s.settings s.work.scaling U s.work.data) (hu : UserCriteria s) {eps : K} :
    isDualInfeasible s eps = true ↔ 1 / 10 ^ 30 < normInf (certX s) ∧ U.q ⬝ᵥ certX s < 0 ∧
      normInf ((ofData U).P *ᵥ certX s) < eps * normInf (certX s) ∧
      ∀ i, (rowScale s i * U.u i < 10 ^ 26 → ((ofData U).A *ᵥ certX s) i ≤ eps * normInf (certX s)) ∧
        (-10 ^ 26 < rowScale s i * U.l i → -(eps * normInf (certX s)) ≤ ((ofData U).A *ᵥ certX s) i) := by
  obtain ⟨ok, is⟩ := rep_eff hrep
  have hc := ok.c_pos
  unfold isDualInfeasible
  dsimp only
  have hcx : certX s = toX (effSc s) s.work.delta_x := by funext j; unfold certX toX; ring
  have hnrm : (if s.settings.unscaledTerm then vScaledNormInf s.work.scaling.D s.work.delta_x else vNormInf s.work.delta_x) = normInf (certX s) := by
    have := certX_eq hu s.work.delta_x
    unfold certX; rw [← this]
    split_ifs
    · rw [vScaledNormInf_eq]; congr 1; funext i; simp [vEwProd, mul_comm]
    · rw [vNormInf_eq]
  have hcs : (if s.settings.unscaledTerm then s.work.scaling.c else 1) = (effSc s).c := by
    unfold effSc
    by_cases h : s.settings.scaling = 0
    · have : ¬ s.settings.unscaledTerm := by rw [unscaledTerm_iff hu]; exact not_not.2 h
      rw [if_neg this]; simp [h, unitSc]
    · rw [if_pos ((unscaledTerm_iff hu).2 h), if_pos h]
  have eD : ∀ v : Vec K d.n, (if s.settings.unscaledTerm then vEwProd v s.work.scaling.Dinv else v) = fun j => v j * (effSc s).Dinv j := by
    intro v; unfold effSc
    by_cases h : s.settings.scaling = 0
    · have : ¬ s.settings.unscaledTerm := by rw [unscaledTerm_iff hu]; exact not_not.2 h
      rw [if_neg this]; simp [h, unitSc]
    · rw [if_pos ((unscaledTerm_iff hu).2 h), if_pos h]; rfl
  have eE : ∀ v : Vec K d.m, (if s.settings.unscaledTerm then vEwProd v s.work.scaling.Einv else v) = fun j => v j * (effSc s).Einv j := by
    intro v; unfold effSc
    by_cases h : s.settings.scaling = 0
    · have : ¬ s.settings.unscaledTerm := by rw [unscaledTerm_iff hu]; exact not_not.2 h
      rw [if_neg this]; simp [h, unitSc]
    · rw [if_pos ((unscaledTerm_iff hu).2 h), if_pos h]; rfl
  rw [hnrm, hcs, eD, eE]
  have e2 : vDot s.work.data.q s.work.delta_x < 0 ↔ U.q ⬝ᵥ certX s < 0 := by
    have e := lin_user ok is s.work.delta_x
    rw [vDot_eq, hcx, ← e]
    exact ⟨fun h => mul_neg_of_neg_of_pos h (cinv_pos ok), fun h => by
      by_contra hc'; exact absurd (mul_nonneg (not_lt.1 hc') (cinv_pos ok).le) (not_le.2 h)⟩
  have e3 : vNormInf (fun j => symMul d.P s.work.data.P s.work.delta_x j * (effSc s).Dinv j) < (effSc s).c * eps * normInf (certX s) ↔
      normInf ((ofData U).P *ᵥ certX s) < eps * normInf (certX s) := by
    have e : (fun j => symMul d.P s.work.data.P s.work.delta_x j * (effSc s).Dinv j) =
        fun j => (effSc s).c * ((ofData U).P *ᵥ certX s) j := by
      funext j
      have hD := (ok.D_pos j).ne'
      rw [symMul_eq, mulVec_scaled_P is, ok.Dinv, hcx]; simp only [ofData]; unfold toX
      generalize (denseSym d.P U.P *ᵥ fun j => (effSc s).D j * s.work.delta_x j) j = w
      field_simp
    rw [e, vNormInf_eq, ← normInf_const_mul hc.le, mul_assoc]
    exact mul_lt_mul_iff_of_pos_left hc
  have e4 : vInReccone (fun j => spMul d.A s.work.data.A s.work.delta_x j * (effSc s).Einv j) s.work.data.l s.work.data.u (Const.infval K)
      (eps * normInf (certX s)) = true ↔
      ∀ i, (rowScale s i * U.u i < 10 ^ 26 → ((ofData U).A *ᵥ certX s) i ≤ eps * normInf (certX s)) ∧
        (-10 ^ 26 < rowScale s i * U.l i → -(eps * normInf (certX s)) ≤ ((ofData U).A *ᵥ certX s) i) := by
    rw [vInReccone_iff]
    refine forall_congr' fun i => ?_
    rw [spMul_eq, mul_comm _ ((effSc s).Einv i), toZ_A ok is, ← hcx, rowScale_eff, is.u, is.l, infval_eq]
    rfl
  have e1 : normInf (certX s) > Const.divisionTol K ↔ 1 / 10 ^ 30 < normInf (certX s) := Iff.rfl
  rw [← e2, ← e3, ← e4, ← e1]
  clear e1 e2 e3 e4 eD eE hnrm hcs hcx
  split_ifs with h1 h2 h3
  · simp only [h1, h2, h3, true_and]
  · simp only [h3, false_and, and_false, Bool.false_eq_true]
  · simp only [h2, false_and, and_false, Bool.false_eq_true]
  · simp only [h1, false_and, Bool.false_eq_true]

end

end Osqp
