import Verif.Lemmas.Num
import Verif.Model.Scaling
import Verif.Spec.History

set_option linter.unusedSectionVars false
namespace Osqp
open Matrix Spec
variable {K : Type*} [Field K] [LinearOrder K] [IsStrictOrderedRing K] {d : Dims}

theorem minScaling_pos : (0 : K) < Const.minScaling K := by unfold Const.minScaling; positivity
theorem maxScaling_pos : (0 : K) < Const.maxScaling K := by unfold Const.maxScaling; positivity

theorem limitScalingScalar_pos (v : K) : 0 < limitScalingScalar v := by
  unfold limitScalingScalar
  have h1 := minScaling_pos (K := K)
  have h2 := maxScaling_pos (K := K)
  dsimp only
  split_ifs with h3 h4 h5
  · exact h2
  · exact one_pos
  · exact h2
  · exact h1.trans_le (not_lt.mp h3)

theorem limitScalingVec_pos {n : ℕ} (v : Vec K n) (i : Fin n) : 0 < limitScalingVec v i := by
  have := limitScalingScalar_pos (v i)
  unfold limitScalingVec vSetIfGt vSetIfLt
  unfold limitScalingScalar at this
  exact this

theorem ruizFactors_pos {env : Env d K} (h : SqrtPos env) (D : Data d K) :
    (∀ j, 0 < (ruizFactors env D).1 j) ∧ (∀ i, 0 < (ruizFactors env D).2 i) := by
  constructor <;> intro j <;> unfold ruizFactors vRecip <;> dsimp only <;>
    exact one_div_pos.2 (h _ (limitScalingVec_pos _ _))

theorem costFactor_pos (P : Vec K d.P.nnz) (q : Vec K d.n) : 0 < costFactor P q := by
  unfold costFactor; exact one_div_pos.2 (limitScalingScalar_pos _)

/-- Invariant of the scaling loop. -/
structure ScaleInv (U : Data d K) (t : ScaleSt d K) : Prop where
  c_pos : 0 < t.c
  D_pos : ∀ j, 0 < t.D j
  E_pos : ∀ i, 0 < t.E i
  P : ∀ k, t.data.P k = t.c * (t.D (d.P.row k) * U.P k * t.D (d.P.col k))
  q : ∀ j, t.data.q j = t.c * (t.D j * U.q j)
  A : ∀ k, t.data.A k = t.E (d.A.row k) * U.A k * t.D (d.A.col k)
  l : t.data.l = U.l
  u : t.data.u = U.u

theorem scalePass_inv {env : Env d K} (hs : SqrtPos env) {U : Data d K} {t : ScaleSt d K}
    (h : ScaleInv U t) : ScaleInv U (scalePass env t) := by
  obtain ⟨hD, hE⟩ := ruizFactors_pos hs t.data
  have hc := costFactor_pos (d := d)
    (spRmult d.P (spLmult d.P t.data.P (ruizFactors env t.data).1) (ruizFactors env t.data).1)
    (vEwProd t.data.q (ruizFactors env t.data).1)
  constructor
  · exact mul_pos h.c_pos hc
  · intro j; exact mul_pos (h.D_pos j) (hD j)
  · intro i; exact mul_pos (h.E_pos i) (hE i)
  · intro k; simp only [scalePass, spScale, spRmult, spLmult, vEwProd, h.P k]; ring
  · intro k; simp only [scalePass, vScale, vEwProd, h.q k]; ring
  · intro k; simp only [scalePass, spRmult, spLmult, vEwProd, h.A k]; ring
  · exact h.l
  · exact h.u

theorem scaleLoop_inv {env : Env d K} (hs : SqrtPos env) {U : Data d K} (k : ℕ) (t : ScaleSt d K)
    (h : ScaleInv U t) : ScaleInv U (scaleLoop env k t) := by
  induction k generalizing t with
  | zero => exact h
  | succ k ih => exact ih _ (scalePass_inv hs h)

theorem scaleData_spec {env : Env d K} (hs : SqrtPos env) (passes : ℤ) (U : Data d K) :
    ScalingOK (scaleData env passes U).2 ∧ IsScaled (scaleData env passes U).2 U (scaleData env passes U).1 := by
  have h0 : ScaleInv U (⟨U, vSet 1, vSet 1, 1⟩ : ScaleSt d K) := by
    constructor <;> simp [vSet]
  have h := scaleLoop_inv hs passes.toNat _ h0
  refine ⟨⟨h.c_pos, h.D_pos, h.E_pos, rfl, fun _ => rfl, fun _ => rfl⟩, ⟨h.P, h.q, h.A, ?_, ?_⟩⟩
  · intro i; simp only [scaleData, vEwProd]; rw [h.l]; ring
  · intro i; simp only [scaleData, vEwProd]; rw [h.u]; ring

theorem unscaleData_eq {sc : Scaling d K} {U D : Data d K} (h : ScalingOK sc) (hs : IsScaled sc U D) :
    unscaleData sc D = U := by
  have hc := h.c_pos.ne'
  have hD := fun j => (h.D_pos j).ne'
  have hE := fun j => (h.E_pos j).ne'
  obtain ⟨UP, UA, Uq, Ul, Uu⟩ := U
  unfold unscaleData
  congr 1
  · funext k
    have := hs.P k
    simp only [spRmult, spLmult, spScale, this, h.cinv, h.Dinv]
    have h1 := hD (d.P.row k); have h2 := hD (d.P.col k); field_simp
  · funext k
    have := hs.A k
    simp only [spRmult, spLmult, this, h.Einv, h.Dinv]
    have h1 := hE (d.A.row k); have h2 := hD (d.A.col k); field_simp
  · funext k
    have := hs.q k
    simp only [vEwProd, vScale, this, h.cinv, h.Dinv]
    have h1 := hD k; field_simp
  · funext k
    have := hs.l k
    simp only [vEwProd, this, h.Einv]
    have h1 := hE k; field_simp
  · funext k
    have := hs.u k
    simp only [vEwProd, this, h.Einv]
    have h1 := hE k; field_simp

/-! ## Products and norms in user coordinates -/

section Coord
variable {sc : Scaling d K} {U D : Data d K}

theorem mulVec_scaled_A (hs : IsScaled sc U D) (x : Vec K d.n) (i : Fin d.m) :
    (dense d.A D.A *ᵥ x) i = sc.E i * (dense d.A U.A *ᵥ (fun j => sc.D j * x j)) i := by
  have : D.A = fun k => U.A k * sc.E (d.A.row k) * sc.D (d.A.col k) := by
    funext k; rw [hs.A k]; ring
  rw [this, dense_scale]
  simp only [mulVec, dotProduct, Finset.mul_sum]
  exact Finset.sum_congr rfl fun j _ => by ring

theorem mulVec_scaled_AT (hs : IsScaled sc U D) (y : Vec K d.m) (j : Fin d.n) :
    ((dense d.A D.A)ᵀ *ᵥ y) j = sc.D j * ((dense d.A U.A)ᵀ *ᵥ (fun i => sc.E i * y i)) j := by
  have : D.A = fun k => U.A k * sc.E (d.A.row k) * sc.D (d.A.col k) := by
    funext k; rw [hs.A k]; ring
  rw [this, dense_scale]
  simp only [mulVec, dotProduct, Finset.mul_sum]
  refine Finset.sum_congr rfl fun i _ => ?_
  change (sc.E i * dense d.A U.A i j * sc.D j) * y i = sc.D j * (dense d.A U.A i j * (sc.E i * y i))
  ring

theorem mulVec_scaled_P (hs : IsScaled sc U D) (x : Vec K d.n) (i : Fin d.n) :
    (denseSym d.P D.P *ᵥ x) i = sc.c * (sc.D i * (denseSym d.P U.P *ᵥ (fun j => sc.D j * x j)) i) := by
  have : D.P = fun k => U.P k * sc.D (d.P.row k) * sc.D (d.P.col k) * sc.c := by
    funext k; rw [hs.P k]; ring
  rw [this, denseSym_scale]
  simp only [mulVec, dotProduct, Finset.mul_sum]
  exact Finset.sum_congr rfl fun j _ => by ring

end Coord
end Osqp
