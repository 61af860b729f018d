import Verif.Lemmas.Final
import Verif.Spec.Termination

/-!
# Residuals, tolerances and certificates in the user's coordinates
-/

set_option linter.unusedSectionVars false
namespace Osqp
open Spec Matrix
variable {K : Type*} [Field K] [LinearOrder K] [IsStrictOrderedRing K] {d : Dims}

/-- No scaling. -/
def unitSc : Scaling d K := ⟨1, 1, fun _ => 1, fun _ => 1, fun _ => 1, fun _ => 1⟩

/-- The scaling in effect: none when scaling is disabled. -/
def effSc (s : Solver d K) : Scaling d K := if s.settings.scaling ≠ 0 then s.work.scaling else unitSc

theorem rep_eff {s : Solver d K} {U : Data d K} (h : Represents s.settings s.work.scaling U s.work.data) :
    ScalingOK (effSc s) ∧ IsScaled (effSc s) U s.work.data := by
  unfold effSc
  by_cases h0 : s.settings.scaling = 0
  · rw [if_neg (not_not.2 h0), h.2 h0]
    constructor <;> constructor <;> simp [unitSc]
  · rw [if_pos h0]; exact h.1 h0

def toX (sc : Scaling d K) (x : Vec K d.n) : Vec K d.n := fun j => sc.D j * x j
def toZ (sc : Scaling d K) (z : Vec K d.m) : Vec K d.m := fun i => sc.Einv i * z i
def toY (sc : Scaling d K) (y : Vec K d.m) : Vec K d.m := fun i => sc.cinv * (sc.E i * y i)

section Coord
variable {sc : Scaling d K} {U D : Data d K}

theorem toZ_A (ok : ScalingOK sc) (hs : IsScaled sc U D) (x : Vec K d.n) (i : Fin d.m) :
    sc.Einv i * (dense d.A D.A *ᵥ x) i = (dense d.A U.A *ᵥ toX sc x) i := by
  have := (ok.E_pos i).ne'
  rw [mulVec_scaled_A hs, ok.Einv]; unfold toX; field_simp

theorem toX_P (ok : ScalingOK sc) (hs : IsScaled sc U D) (x : Vec K d.n) (j : Fin d.n) :
    sc.cinv * (sc.Dinv j * (denseSym d.P D.P *ᵥ x) j) = (denseSym d.P U.P *ᵥ toX sc x) j := by
  have := (ok.D_pos j).ne'
  have := ok.c_pos.ne'
  rw [mulVec_scaled_P hs, ok.Dinv, ok.cinv]; unfold toX; field_simp

theorem toY_lin (A : Matrix (Fin d.n) (Fin d.m) K) (y : Vec K d.m) (j : Fin d.n) :
    (A *ᵥ toY sc y) j = sc.cinv * (A *ᵥ (fun i => sc.E i * y i)) j := by
  simp only [mulVec, dotProduct, Finset.mul_sum, toY]
  exact Finset.sum_congr rfl fun i _ => by ring

theorem toY_AT (ok : ScalingOK sc) (hs : IsScaled sc U D) (y : Vec K d.m) (j : Fin d.n) :
    sc.cinv * (sc.Dinv j * ((dense d.A D.A)ᵀ *ᵥ y) j) = ((dense d.A U.A)ᵀ *ᵥ toY sc y) j := by
  have := (ok.D_pos j).ne'
  have := ok.c_pos.ne'
  rw [mulVec_scaled_AT hs, ok.Dinv, toY_lin]; field_simp

theorem toX_q (ok : ScalingOK sc) (hs : IsScaled sc U D) (j : Fin d.n) :
    sc.cinv * (sc.Dinv j * D.q j) = U.q j := by
  have := (ok.D_pos j).ne'
  have := ok.c_pos.ne'
  rw [hs.q, ok.Dinv, ok.cinv]; field_simp

theorem quad_user (ok : ScalingOK sc) (hs : IsScaled sc U D) (x : Vec K d.n) :
    (denseSym d.P D.P *ᵥ x) ⬝ᵥ x * sc.cinv = toX sc x ⬝ᵥ (denseSym d.P U.P *ᵥ toX sc x) := by
  simp only [dotProduct, Finset.sum_mul]
  refine Finset.sum_congr rfl fun j _ => ?_
  have := (ok.D_pos j).ne'
  rw [← toX_P ok hs x j, ok.Dinv]; unfold toX; field_simp

theorem lin_user (ok : ScalingOK sc) (hs : IsScaled sc U D) (x : Vec K d.n) :
    (D.q ⬝ᵥ x) * sc.cinv = U.q ⬝ᵥ toX sc x := by
  simp only [dotProduct, Finset.sum_mul]
  refine Finset.sum_congr rfl fun j _ => ?_
  have := (ok.D_pos j).ne'
  rw [← toX_q ok hs j, ok.Dinv]; unfold toX; field_simp

theorem mul_max_zero {a b : K} (h : 0 ≤ a) : a * max b 0 = max (a * b) 0 := by
  rw [mul_max_of_nonneg _ _ h, mul_zero]

theorem mul_min_zero {a b : K} (h : 0 ≤ a) : a * min b 0 = min (a * b) 0 := by
  rw [mul_min_of_nonneg _ _ h, mul_zero]

theorem cinv_pos (ok : ScalingOK sc) : 0 < sc.cinv := by rw [ok.cinv]; exact one_div_pos.2 ok.c_pos

theorem support_user (ok : ScalingOK sc) (hs : IsScaled sc U D) (y : Vec K d.m) :
    (vDotPos D.u y + vDotNeg D.l y) * sc.cinv = (ofData U).support (toY sc y) := by
  rw [vDotPos_eq, vDotNeg_eq, ← Finset.sum_add_distrib, Finset.sum_mul]
  unfold QP.support
  refine Finset.sum_congr rfl fun i _ => ?_
  have hp : 0 ≤ sc.cinv * sc.E i := mul_nonneg (cinv_pos ok).le (ok.E_pos i).le
  have e1 : max (toY sc y i) 0 = sc.cinv * sc.E i * max (y i) 0 := by
    rw [mul_max_zero hp]; unfold toY; rw [mul_assoc]
  have e2 : min (toY sc y i) 0 = sc.cinv * sc.E i * min (y i) 0 := by
    rw [mul_min_zero hp]; unfold toY; rw [mul_assoc]
  rw [e1, e2, hs.u, hs.l]; simp only [ofData]; ring

theorem normInf_const_mul {n : ℕ} {c : K} (hc : 0 ≤ c) (v : Fin n → K) : c * normInf v = normInf (fun i => c * v i) := by
  apply le_antisymm
  · rcases hc.eq_or_lt with h | h
    · rw [← h, zero_mul]; exact normInf_nonneg _
    · rw [← le_div_iff₀' h, normInf_le_iff]
      refine ⟨div_nonneg (normInf_nonneg _) hc, fun i => ?_⟩
      rw [le_div_iff₀' h]
      have := le_normInf (fun i => c * v i) i
      simpa [abs_mul, abs_of_nonneg hc] using this
  · rw [normInf_le_iff]
    refine ⟨mul_nonneg hc (normInf_nonneg v), fun i => ?_⟩
    rw [abs_mul, abs_of_nonneg hc]; exact mul_le_mul_of_nonneg_left (le_normInf v i) hc

end Coord

theorem rowScale_eff (s : Solver d K) : rowScale s = (effSc s).E := by
  funext i; unfold rowScale effSc; split_ifs <;> rfl

theorem costScale_eff (s : Solver d K) : costScale s = (effSc s).c := by
  unfold costScale effSc; split_ifs <;> rfl

theorem costInv_eff (s : Solver d K) : costInv s = (effSc s).cinv := by
  unfold costInv effSc; split_ifs <;> rfl

theorem unscaledTerm_iff {s : Solver d K} (hu : UserCriteria s) : s.settings.unscaledTerm ↔ s.settings.scaling ≠ 0 := by
  unfold Settings.unscaledTerm; rcases hu with h | h <;> simp [h]

theorem vNormInf_one {n : ℕ} (v : Vec K n) : vNormInf v = normInf (fun i => 1 * v i) := by
  rw [vNormInf_eq]; simp

/-- Rewriting of the two branches of every norm used in the criteria. -/
theorem norm_E {s : Solver d K} (hu : UserCriteria s) (v : Vec K d.m) :
    (if s.settings.unscaledTerm then vScaledNormInf s.work.scaling.Einv v else vNormInf v) =
      normInf (fun i => (effSc s).Einv i * v i) := by
  unfold effSc
  by_cases h : s.settings.scaling = 0
  · rw [if_neg (by rw [unscaledTerm_iff hu]; exact not_not.2 h), if_neg (not_not.2 h)]; exact vNormInf_one v
  · rw [if_pos ((unscaledTerm_iff hu).2 h), if_pos h]; exact vScaledNormInf_eq _ _

theorem norm_D {s : Solver d K} (hu : UserCriteria s) (v : Vec K d.n) :
    (if s.settings.unscaledTerm then vScaledNormInf s.work.scaling.Dinv v else vNormInf v) =
      normInf (fun i => (effSc s).Dinv i * v i) := by
  unfold effSc
  by_cases h : s.settings.scaling = 0
  · rw [if_neg (by rw [unscaledTerm_iff hu]; exact not_not.2 h), if_neg (not_not.2 h)]; exact vNormInf_one v
  · rw [if_pos ((unscaledTerm_iff hu).2 h), if_pos h]; exact vScaledNormInf_eq _ _

section User
variable {s : Solver d K} {U : Data d K}

theorem user_pres (hrep : Represents s.settings s.work.scaling U s.work.data) (hu : UserCriteria s) (h : FreshR s) :
    s.info.prim_res = (ofData U).primRes (toX (effSc s) s.work.x) (toZ (effSc s) s.work.z) := by
  obtain ⟨ok, is⟩ := rep_eff hrep
  rw [h.pres, norm_E hu]
  unfold QP.primRes; congr 1; funext i
  simp only [vMinus, spMul_eq, mul_sub, toZ_A ok is]; rfl

theorem user_dres (hrep : Represents s.settings s.work.scaling U s.work.data) (hu : UserCriteria s) (h : FreshR s) :
    s.info.dual_res = (ofData U).dualRes (toX (effSc s) s.work.x) (toY (effSc s) s.work.y) := by
  obtain ⟨ok, is⟩ := rep_eff hrep
  have e : ∀ v : Vec K d.n, (if s.settings.unscaledTerm then s.work.scaling.cinv * vScaledNormInf s.work.scaling.Dinv v else vNormInf v) =
      (effSc s).cinv * normInf (fun i => (effSc s).Dinv i * v i) := by
    intro v; rw [← norm_D hu]
    unfold effSc
    by_cases h : s.settings.scaling = 0
    · have : ¬ s.settings.unscaledTerm := by rw [unscaledTerm_iff hu]; exact not_not.2 h
      simp [this, h, unitSc]
    · have : s.settings.unscaledTerm := (unscaledTerm_iff hu).2 h
      simp [this, h]
  rw [h.dres, e, normInf_const_mul (cinv_pos ok).le]
  unfold QP.dualRes; congr 1; funext j
  simp only [vPlus, symMul_eq, spMulT_eq, mul_add, toX_P ok is, toX_q ok is, toY_AT ok is]
  simp only [QP.stat, ofData]; ring

theorem user_xtPx (hrep : Represents s.settings s.work.scaling U s.work.data) (h : FreshW s) :
    s.work.xtPx * costInv s = toX (effSc s) s.work.x ⬝ᵥ ((ofData U).P *ᵥ toX (effSc s) s.work.x) := by
  obtain ⟨ok, is⟩ := rep_eff hrep
  rw [h.xtPx, h.Px, costInv_eff, vDot_eq, symMul_eq, quad_user ok is]; rfl

theorem user_qtx (hrep : Represents s.settings s.work.scaling U s.work.data) (h : FreshW s) :
    s.work.qtx * costInv s = (ofData U).q ⬝ᵥ toX (effSc s) s.work.x := by
  obtain ⟨ok, is⟩ := rep_eff hrep
  rw [h.qtx, costInv_eff, vDot_eq, lin_user ok is]; rfl

/-- The multiplier used in the reported support function and gap, in user coordinates. -/
def userGapY (s : Solver d K) : Vec K d.m := toY (effSc s) (gapY s.work.data s.work.y)

theorem user_SC (hrep : Represents s.settings s.work.scaling U s.work.data) (h : FreshW s) :
    s.work.SC * costInv s = (ofData U).support (userGapY s) := by
  obtain ⟨ok, is⟩ := rep_eff hrep
  rw [h.SC, costInv_eff, support_user ok is]; rfl

theorem user_obj (hrep : Represents s.settings s.work.scaling U s.work.data) (h : FreshW s) (ho : FreshO s) :
    s.info.obj_val = (ofData U).obj (toX (effSc s) s.work.x) ∧
    s.info.dual_obj_val = (ofData U).dualObj (toX (effSc s) s.work.x) (userGapY s) ∧
    s.info.duality_gap = (ofData U).gap (toX (effSc s) s.work.x) (userGapY s) := by
  refine ⟨?_, ?_, ?_⟩
  · rw [ho.obj]; unfold QP.obj; rw [← user_xtPx hrep h, ← user_qtx hrep h]; ring
  · rw [ho.dobj]; unfold QP.dualObj; rw [← user_xtPx hrep h, ← user_SC hrep h]; ring
  · rw [ho.gap]; unfold QP.gap; rw [← user_xtPx hrep h, ← user_qtx hrep h, ← user_SC hrep h]; ring

theorem gapY_apply (D : Data d K) (y : Vec K d.m) (i : Fin d.m) :
    ((10 ^ 26 < D.u i ∧ 0 < y i) ∨ (D.l i < -10 ^ 26 ∧ y i < 0) ∨ |y i| < 1 / 10 ^ 15 → gapY D y i = 0) ∧
    (¬ ((10 ^ 26 < D.u i ∧ 0 < y i) ∨ (D.l i < -10 ^ 26 ∧ y i < 0) ∨ |y i| < 1 / 10 ^ 15) → gapY D y i = y i) := by
  have hi : Const.infval K = 10 ^ 26 := by
    unfold Const.infval Const.infty Const.minScaling; norm_num
  have h0 : (0 : K) < 1 / 10 ^ 15 := by positivity
  unfold gapY vRoundToZero Const.zeroDeadzone
  rw [cAbs_eq]
  unfold vProjectPolar
  simp only [hi, cMin_eq, cMax_eq, gt_iff_lt]
  rcases lt_trichotomy (y i) 0 with hy | hy | hy
  · have m1 : min (y i) 0 = y i := min_eq_left hy.le
    have m2 : max (y i) 0 = 0 := max_eq_right hy.le
    simp only [m1, m2]
    split_ifs <;> simp_all [not_lt.2 hy.le]
  · simp only [hy, min_self, max_self]; simp [h0]
  · have m1 : min (y i) 0 = 0 := min_eq_right hy.le
    have m2 : max (y i) 0 = y i := max_eq_left hy.le
    simp only [m1, m2]
    split_ifs <;> simp_all [not_lt.2 hy.le]

theorem userGapY_cleaned (hrep : Represents s.settings s.work.scaling U s.work.data) :
    (ofData U).Cleaned (rowScale s) (costScale s) (toY (effSc s) s.work.y) (userGapY s) := by
  obtain ⟨ok, is⟩ := rep_eff hrep
  intro i
  obtain ⟨a, b⟩ := gapY_apply s.work.data s.work.y i
  have hE := ok.E_pos i
  have hc := ok.c_pos
  have hp : 0 < (effSc s).cinv * (effSc s).E i := mul_pos (cinv_pos ok) hE
  have e1 : toY (effSc s) s.work.y i = (effSc s).cinv * (effSc s).E i * s.work.y i := by unfold toY; ring
  have e2 : (effSc s).c * (toY (effSc s) s.work.y i / (effSc s).E i) = s.work.y i := by
    rw [e1, ok.cinv]; field_simp
  have e3 : (0 < toY (effSc s) s.work.y i) ↔ 0 < s.work.y i := by rw [e1]; exact mul_pos_iff_of_pos_left hp
  have e4 : (toY (effSc s) s.work.y i < 0) ↔ s.work.y i < 0 := by
    rw [e1]; exact ⟨fun h => by by_contra hc; exact absurd h (not_lt.2 (mul_nonneg hp.le (not_lt.1 hc))), fun h => mul_neg_of_pos_of_neg hp h⟩
  rw [rowScale_eff, costScale_eff, e2, e3, e4]
  have eu : (effSc s).E i * (ofData U).u i = s.work.data.u i := (is.u i).symm
  have el : (effSc s).E i * (ofData U).l i = s.work.data.l i := (is.l i).symm
  rw [eu, el]
  unfold userGapY toY
  exact ⟨fun h => by rw [a h]; simp, fun h => by rw [b h]⟩

theorem user_primTol (hrep : Represents s.settings s.work.scaling U s.work.data) (hu : UserCriteria s) (h : FreshW s) (ea er : K) :
    primTol s ea er = (ofData U).primTol ea er (toX (effSc s) s.work.x) (toZ (effSc s) s.work.z) := by
  obtain ⟨ok, is⟩ := rep_eff hrep
  have e1 := norm_E hu s.work.z
  have e2 := norm_E hu s.work.Ax
  have e3 : (fun i => (effSc s).Einv i * s.work.Ax i) = (ofData U).A *ᵥ toX (effSc s) s.work.x := by
    funext i; rw [h.Ax, spMul_eq, toZ_A ok is]; rfl
  unfold primTol QP.primTol
  rw [e3] at e2
  dsimp only
  split_ifs at e1 e2 ⊢ <;> rw [e1, e2, cMax_eq, max_comm] <;> rfl

theorem user_dualTol (hrep : Represents s.settings s.work.scaling U s.work.data) (hu : UserCriteria s) (h : FreshW s) (ea er : K) :
    dualTol s ea er = (ofData U).dualTol ea er (toX (effSc s) s.work.x) (toY (effSc s) s.work.y) := by
  obtain ⟨ok, is⟩ := rep_eff hrep
  have c0 := (cinv_pos ok).le
  have e1 := norm_D hu s.work.data.q
  have e2 := norm_D hu s.work.Aty
  have e3 := norm_D hu s.work.Px
  have f1 : (effSc s).cinv * normInf (fun i => (effSc s).Dinv i * s.work.data.q i) = normInf (ofData U).q := by
    rw [normInf_const_mul c0]; congr 1; funext j; exact toX_q ok is j
  have f2 : (effSc s).cinv * normInf (fun i => (effSc s).Dinv i * s.work.Aty i) = normInf ((ofData U).Aᵀ *ᵥ toY (effSc s) s.work.y) := by
    rw [normInf_const_mul c0]; congr 1; funext j; rw [h.Aty, spMulT_eq]; exact toY_AT ok is _ j
  have f3 : (effSc s).cinv * normInf (fun i => (effSc s).Dinv i * s.work.Px i) = normInf ((ofData U).P *ᵥ toX (effSc s) s.work.x) := by
    rw [normInf_const_mul c0]; congr 1; funext j; rw [h.Px, symMul_eq]; exact toX_P ok is _ j
  have key : (if s.settings.unscaledTerm then
      cMax (cMax (vScaledNormInf s.work.scaling.Dinv s.work.data.q) (vScaledNormInf s.work.scaling.Dinv s.work.Aty))
        (vScaledNormInf s.work.scaling.Dinv s.work.Px) * s.work.scaling.cinv
    else cMax (cMax (vNormInf s.work.data.q) (vNormInf s.work.Aty)) (vNormInf s.work.Px)) =
    (effSc s).cinv * max (max (normInf (fun i => (effSc s).Dinv i * s.work.data.q i)) (normInf (fun i => (effSc s).Dinv i * s.work.Aty i)))
      (normInf (fun i => (effSc s).Dinv i * s.work.Px i)) := by
    rw [← e1, ← e2, ← e3]
    by_cases hs : s.settings.scaling = 0
    · have : ¬ s.settings.unscaledTerm := by rw [unscaledTerm_iff hu]; exact not_not.2 hs
      simp only [this, if_false, cMax_eq]; simp [effSc, hs, unitSc]
    · have : s.settings.unscaledTerm := (unscaledTerm_iff hu).2 hs
      simp only [this, if_true, cMax_eq]; simp [effSc, hs, mul_comm]
  unfold dualTol QP.dualTol
  dsimp only
  rw [key, mul_max_of_nonneg _ _ c0, mul_max_of_nonneg _ _ c0, f1, f2, f3]
  congr 2
  rw [max_comm (max _ _) _, ← max_assoc]

theorem user_gapTol (hrep : Represents s.settings s.work.scaling U s.work.data) (hu : UserCriteria s) (h : FreshW s) (ea er : K) :
    gapTol s ea er = (ofData U).gapTol ea er (toX (effSc s) s.work.x) (userGapY s) := by
  obtain ⟨ok, is⟩ := rep_eff hrep
  have c0 := (cinv_pos ok).le
  have key : (if s.settings.unscaledTerm then s.work.scaling.cinv * max (max |s.work.xtPx| |s.work.qtx|) |s.work.SC|
     else max (max |s.work.xtPx| |s.work.qtx|) |s.work.SC|) = (effSc s).cinv * max (max |s.work.xtPx| |s.work.qtx|) |s.work.SC| := by
    by_cases hs : s.settings.scaling = 0
    · have : ¬ s.settings.unscaledTerm := by rw [unscaledTerm_iff hu]; exact not_not.2 hs
      simp [this, effSc, hs, unitSc]
    · have : s.settings.unscaledTerm := (unscaledTerm_iff hu).2 hs
      simp [this, effSc, hs]
  have a : ∀ v : K, (effSc s).cinv * |v| = |v * (effSc s).cinv| := by
    intro v; rw [abs_mul, abs_of_nonneg c0, mul_comm]
  unfold gapTol QP.gapTol
  simp only [cAbs_eq, cMax_eq]
  rw [key, mul_max_of_nonneg _ _ c0, mul_max_of_nonneg _ _ c0, a, a, a, ← costInv_eff, user_xtPx hrep h, user_qtx hrep h, user_SC hrep h]

/-- The gap criterion on a fresh state. -/
theorem user_gap (hrep : Represents s.settings s.work.scaling U s.work.data) (hu : UserCriteria s) (h : Fresh s) :
    |(if s.settings.unscaledTerm then s.info.duality_gap else s.work.scaled_dual_gap)| =
      |(ofData U).gap (toX (effSc s) s.work.x) (userGapY s)| := by
  rw [← (user_obj hrep h.1 h.2.2).2.2]
  by_cases hs : s.settings.scaling = 0
  · have : ¬ s.settings.unscaledTerm := by rw [unscaledTerm_iff hu]; exact not_not.2 hs
    rw [if_neg this, h.1.sgap, h.2.2.gap]; simp [costInv, hs]
  · rw [if_pos ((unscaledTerm_iff hu).2 hs)]

end User

end Osqp
