import Verif.Csc.DerivAdj
import Mathlib.LinearAlgebra.Matrix.NonsingularInverse
import Mathlib.LinearAlgebra.Matrix.ToLin

/-!
# The adjoint identity with an inexact solution of the linear system
-/

set_option linter.unusedSectionVars false
namespace Osqp.Csc
open Finset

variable {K : Type*} [Field K] [LinearOrder K]

/-- A nonsingular matrix has an inverse on both sides. -/
theorem Nonsing.inv {dim : ℕ} {A : ℕ → ℕ → K} (h : Nonsing dim A) : ∃ B : ℕ → ℕ → K,
    (∀ r < dim, ∀ c < dim, ∑ k ∈ range dim, A r k * B k c = if r = c then 1 else 0) ∧ ∀ r < dim, ∀ c < dim, ∑ k ∈ range dim, B r k * A k c = if r = c then 1 else 0 := by
  let M : Matrix (Fin dim) (Fin dim) K := Matrix.of fun i j => A i j
  have hinj : Function.Injective M.mulVec := by
    intro v w hvw
    have hz : M.mulVec (v - w) = 0 := by rw [Matrix.mulVec_sub, hvw, sub_self]
    let z : ℕ → K := fun k => if hk : k < dim then (v - w) ⟨k, hk⟩ else 0
    have hz' : ∀ r < dim, ∑ c ∈ range dim, A r c * z c = 0 := fun r hr => by
      have := congrFun hz ⟨r, hr⟩
      rw [Matrix.mulVec, dotProduct, Pi.zero_apply] at this
      rw [← this, ← Fin.sum_univ_eq_sum_range (fun c => A r c * z c)]
      refine sum_congr rfl fun c _ => ?_
      simp only [z, c.2, dif_pos, M, Matrix.of_apply, Fin.eta]
    funext i
    have := h z hz' i i.2
    simp only [z, i.2, dif_pos, Fin.eta, Pi.sub_apply] at this
    exact sub_eq_zero.1 this
  have hu : IsUnit M := Matrix.mulVec_injective_iff_isUnit.1 hinj
  have hd : IsUnit M.det := (Matrix.isUnit_iff_isUnit_det M).1 hu
  let B : ℕ → ℕ → K := fun r c => if hr : r < dim then if hc : c < dim then M⁻¹ ⟨r, hr⟩ ⟨c, hc⟩ else 0 else 0
  refine ⟨B, fun r hr c hc => ?_, fun r hr c hc => ?_⟩
  · have := congrFun (congrFun (Matrix.mul_nonsing_inv M hd) ⟨r, hr⟩) ⟨c, hc⟩
    rw [Matrix.mul_apply, Matrix.one_apply] at this
    rw [← Fin.sum_univ_eq_sum_range (fun k => A r k * B k c)]
    refine Eq.trans (sum_congr rfl fun k _ => ?_) (this.trans ?_)
    · simp only [B, k.2, hc, dif_pos, M, Matrix.of_apply, Fin.eta]
    · simp only [Fin.mk.injEq]
  · have := congrFun (congrFun (Matrix.nonsing_inv_mul M hd) ⟨r, hr⟩) ⟨c, hc⟩
    rw [Matrix.mul_apply, Matrix.one_apply] at this
    rw [← Fin.sum_univ_eq_sum_range (fun k => B r k * A k c)]
    refine Eq.trans (sum_congr rfl fun k _ => ?_) (this.trans ?_)
    · simp only [B, k.2, hr, dif_pos, M, Matrix.of_apply, Fin.eta]
    · simp only [Fin.mk.injEq]

variable [IsStrictOrderedRing K]

/-- The solution of a nonsingular system is bounded by a multiple of the right-hand side. -/
theorem Nonsing.bound {dim : ℕ} {A : ℕ → ℕ → K} (h : Nonsing dim A) : ∃ C : K, 0 ≤ C ∧ ∀ (W : ℕ → K) (η : K), (∀ k < dim, |∑ c ∈ range dim, A k c * W c| ≤ η) → ∀ k < dim, |W k| ≤ C * η := by
  obtain ⟨B, -, hB⟩ := h.inv
  refine ⟨∑ r ∈ range dim, ∑ c ∈ range dim, |B r c|, sum_nonneg fun r _ => sum_nonneg fun c _ => abs_nonneg _, fun W η hW k hk => ?_⟩
  have hη : 0 ≤ η := le_trans (abs_nonneg _) (hW k hk)
  have e : W k = ∑ j ∈ range dim, B k j * ∑ c ∈ range dim, A j c * W c := by
    simp only [mul_sum]
    rw [sum_comm]
    have : ∀ c ∈ range dim, ∑ j ∈ range dim, B k j * (A j c * W c) = (if k = c then 1 else 0) * W c := fun c hc => by
      rw [← hB k hk c (mem_range.1 hc), sum_mul]
      exact sum_congr rfl fun j _ => by ring
    rw [sum_congr rfl this]
    simp only [ite_mul, one_mul, zero_mul]
    rw [sum_ite_eq, if_pos (mem_range.2 hk)]
  have h1 : |∑ j ∈ range dim, B k j * ∑ c ∈ range dim, A j c * W c| ≤ ∑ j ∈ range dim, |B k j * ∑ c ∈ range dim, A j c * W c| := abs_sum_le_sum_abs _ _
  have h2 : ∑ j ∈ range dim, |B k j * ∑ c ∈ range dim, A j c * W c| ≤ ∑ j ∈ range dim, |B k j| * η := sum_le_sum fun j hj => by
    rw [abs_mul]; exact mul_le_mul_of_nonneg_left (hW j (mem_range.1 hj)) (abs_nonneg _)
  have h3 : ∑ j ∈ range dim, |B k j| * η ≤ (∑ r ∈ range dim, ∑ c ∈ range dim, |B r c|) * η := by
    rw [← sum_mul]
    exact mul_le_mul_of_nonneg_right (single_le_sum (f := fun r => ∑ c ∈ range dim, |B r c|) (fun r _ => sum_nonneg fun c _ => abs_nonneg _) (mem_range.2 hk)) hη
  rw [e]
  linarith

variable (p : Prob K)

/-- The loss gradient whose right-hand side differs by `e`. -/
def Prob.shiftX (p : Prob K) (DX e : ℕ → K) (i : ℕ) : K := DX i - e i
def Prob.shiftL (p : Prob K) (DL e : ℕ → K) (r : ℕ) : K :=
  if p.Lo r then DL r - e (p.n + idx p.Lo r) else if p.Eq r ∧ p.y r < 0 then DL r + e (p.n + p.nl + p.nu + idx p.Eq r) else DL r
def Prob.shiftU (p : Prob K) (DU e : ℕ → K) (r : ℕ) : K :=
  if p.Up r then DU r - e (p.n + p.nl + idx p.Up r) else if p.Eq r ∧ p.y r ≥ 0 then DU r - e (p.n + p.nl + p.nu + idx p.Eq r) else DU r

theorem shift_rhs (DX DL DU e : ℕ → K) {k : ℕ} (hk : k < p.N) : p.rhsF (p.shiftX DX e) (p.shiftL DL e) (p.shiftU DU e) k = p.rhsF DX DL DU k + e k := by
  have hNe : p.N = p.n + p.nl + p.nu + p.ne := rfl
  unfold Prob.rhsF
  by_cases h1 : k < p.n
  · rw [if_pos h1, if_pos h1]; unfold Prob.shiftX; ring
  rw [if_neg h1, if_neg h1]
  by_cases h2 : k < p.n + p.nl
  · obtain ⟨g1, g2, g3⟩ := nth_spec p.Lo (m := p.m) (k := k - p.n) (by have : p.nl = idx p.Lo p.m := rfl; omega)
    rw [if_pos h2, if_pos h2]; unfold Prob.shiftL Prob.lo
    rw [if_pos g2, g3, show p.n + (k - p.n) = k by omega]; ring
  rw [if_neg h2, if_neg h2]
  by_cases h3 : k < p.n + p.nl + p.nu
  · obtain ⟨g1, g2, g3⟩ := nth_spec p.Up (m := p.m) (k := k - (p.n + p.nl)) (by have : p.nu = idx p.Up p.m := rfl; omega)
    rw [if_pos h3, if_pos h3]; unfold Prob.shiftU Prob.up
    rw [if_pos g2, g3, show p.n + p.nl + (k - (p.n + p.nl)) = k by omega]; ring
  rw [if_neg h3, if_neg h3, if_pos hk, if_pos hk]
  obtain ⟨g1, g2, g3⟩ := nth_spec p.Eq (m := p.m) (k := k - (p.n + p.nl + p.nu)) (by have : p.ne = idx p.Eq p.m := rfl; omega)
  unfold Prob.dNu Prob.eq
  have hl := eq_not_lo p g2
  have hu := eq_not_up p g2
  by_cases h4 : p.y (nth p.Eq p.m (k - (p.n + p.nl + p.nu))) ≥ 0
  · rw [if_pos h4, if_pos h4]; unfold Prob.shiftU
    rw [if_neg hu, if_pos ⟨g2, h4⟩, g3, show p.n + p.nl + p.nu + (k - (p.n + p.nl + p.nu)) = k by omega]; ring
  · rw [if_neg h4, if_neg h4]; unfold Prob.shiftL
    rw [if_neg hl, if_pos ⟨g2, not_le.1 h4⟩, g3, show p.n + p.nl + p.nu + (k - (p.n + p.nl + p.nu)) = k by omega]; ring

theorem shift_loss (DX DL DU e : ℕ → K) {η : K} (h0 : 0 ≤ η) (he : ∀ k < p.N, |e k| ≤ η) (t : Tan K) :
    |p.lossDot DX DL DU t - p.lossDot (p.shiftX DX e) (p.shiftL DL e) (p.shiftU DU e) t| ≤ η * p.tanSize t := by
  have hNe : p.N = p.n + p.nl + p.nu + p.ne := rfl
  have hL : ∀ r < p.m, |DL r - p.shiftL DL e r| ≤ η := fun r hr => by
    unfold Prob.shiftL
    by_cases h1 : p.Lo r
    · rw [if_pos h1, sub_sub_cancel]; have := lo_lt hr h1; exact he _ (by omega)
    rw [if_neg h1]
    by_cases h2 : p.Eq r ∧ p.y r < 0
    · rw [if_pos h2, sub_add_cancel_left, abs_neg]; have := eq_lt hr h2.1; exact he _ (by omega)
    · rw [if_neg h2, sub_self, abs_zero]; exact h0
  have hU : ∀ r < p.m, |DU r - p.shiftU DU e r| ≤ η := fun r hr => by
    unfold Prob.shiftU
    by_cases h1 : p.Up r
    · rw [if_pos h1, sub_sub_cancel]; have := up_lt hr h1; exact he _ (by omega)
    rw [if_neg h1]
    by_cases h2 : p.Eq r ∧ p.y r ≥ 0
    · rw [if_pos h2, sub_sub_cancel]; have := eq_lt hr h2.1; exact he _ (by omega)
    · rw [if_neg h2, sub_self, abs_zero]; exact h0
  have e1 : p.lossDot DX DL DU t - p.lossDot (p.shiftX DX e) (p.shiftL DL e) (p.shiftU DU e) t =
      (∑ j ∈ range p.n, e j * t.x j) + ∑ r ∈ range p.m, ((DL r - p.shiftL DL e r) * t.yl r + (DU r - p.shiftU DU e r) * t.yu r) := by
    unfold Prob.lossDot
    have a1 : (∑ j ∈ range p.n, DX j * t.x j) - ∑ j ∈ range p.n, p.shiftX DX e j * t.x j = ∑ j ∈ range p.n, e j * t.x j := by
      rw [← sum_sub_distrib]; exact sum_congr rfl fun j _ => by unfold Prob.shiftX; ring
    have a2 : (∑ r ∈ range p.m, (DL r * t.yl r + DU r * t.yu r)) - ∑ r ∈ range p.m, (p.shiftL DL e r * t.yl r + p.shiftU DU e r * t.yu r) =
        ∑ r ∈ range p.m, ((DL r - p.shiftL DL e r) * t.yl r + (DU r - p.shiftU DU e r) * t.yu r) := by
      rw [← sum_sub_distrib]; exact sum_congr rfl fun j _ => by ring
    rw [← a1, ← a2]; ring
  have b1 : |∑ j ∈ range p.n, e j * t.x j| ≤ ∑ j ∈ range p.n, η * |t.x j| :=
    (abs_sum_le_sum_abs _ _).trans (sum_le_sum fun j hj => by
      rw [abs_mul]; exact mul_le_mul_of_nonneg_right (he j (by have := mem_range.1 hj; omega)) (abs_nonneg _))
  have b2 : |∑ r ∈ range p.m, ((DL r - p.shiftL DL e r) * t.yl r + (DU r - p.shiftU DU e r) * t.yu r)| ≤ ∑ r ∈ range p.m, η * (|t.yl r| + |t.yu r|) :=
    (abs_sum_le_sum_abs _ _).trans (sum_le_sum fun r hr => by
      have hr := mem_range.1 hr
      refine (abs_add_le _ _).trans ?_
      rw [abs_mul, abs_mul, mul_add]
      exact add_le_add (mul_le_mul_of_nonneg_right (hL r hr) (abs_nonneg _)) (mul_le_mul_of_nonneg_right (hU r hr) (abs_nonneg _)))
  rw [e1]
  refine (abs_add_le _ _).trans ?_
  unfold Prob.tanSize
  rw [mul_add, mul_sum, mul_sum]
  exact add_le_add b1 b2

/-- The identity up to the residual. -/
theorem adjoint_inexact (hsym : ∀ i < p.n, ∀ j < p.n, p.P i j = p.P j i) (hreg : p.Regular) : ∃ C : K, 0 ≤ C ∧ ∀ {DX DL DU Z : ℕ → K} {δ : K}, 0 ≤ δ →
    (∀ k < 2 * p.N, |residual (2 * p.N) p.adj (p.rhsF DX DL DU) Z k| ≤ δ) → ∀ {d : Dir K} {t : Tan K}, Linearised p d t →
    |p.lossDot DX DL DU t - ((∑ i ∈ range p.n, p.zx Z i * ((∑ j ∈ range p.n, d.P i j * p.x j) + d.q i + ∑ r ∈ range p.m, d.A r i * p.y r)) +
      ∑ r ∈ range p.m, p.rowDot Z d r)| ≤ C * δ * p.tanSize t := by
  have hns : Nonsing p.N (fun k c => p.M c k) := fun z hz => z1_zero p hsym hreg hz
  obtain ⟨C, hC, hb⟩ := hns.bound
  refine ⟨1 + C, by linarith, fun {DX DL DU Z δ} h0 hδ {d t} ht => ?_⟩
  have hz : ∀ k < p.N, |Z k| ≤ C * δ := hb Z δ fun k hk => by
    have := hδ (p.N + k) (by omega)
    unfold residual at this
    rw [adj_bot, rhsF_bot, sub_zero] at this
    exact this
  set e : ℕ → K := fun k => residual (2 * p.N) p.adj (p.rhsF DX DL DU) Z k - Z k with he
  have htop : ∀ k < p.N, ∑ c ∈ range p.N, p.M k c * Z (p.N + c) = p.rhsF (p.shiftX DX e) (p.shiftL DL e) (p.shiftU DU e) k := fun k hk => by
    rw [shift_rhs p DX DL DU e hk]
    simp only [he]
    unfold residual
    rw [adj_top p Z hk]; ring
  rw [← adjoint_top p hsym htop ht]
  refine shift_loss p DX DL DU e (mul_nonneg (by linarith) h0) (fun k hk => ?_) t
  have h1 := hδ k (by omega)
  have h2 := hz k hk
  have := abs_sub (residual (2 * p.N) p.adj (p.rhsF DX DL DU) Z k) (Z k)
  linarith

end Osqp.Csc
