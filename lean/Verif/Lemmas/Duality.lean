import Verif.Spec.Cert
import Verif.Lemmas.Num

/-!
# Linear algebra behind certificates and weak duality
-/

set_option linter.unusedSectionVars false
namespace Osqp
open Spec Matrix
variable {K : Type*} [Field K] [LinearOrder K] [IsStrictOrderedRing K] {n m : ℕ}

/-- Hölder's inequality for the 1- and infinity-norm. -/
theorem dot_le_norms (a b : Fin n → K) : |a ⬝ᵥ b| ≤ normInf a * norm1 b := by
  unfold dotProduct norm1
  rw [Finset.mul_sum]
  refine le_trans (Finset.abs_sum_le_sum_abs _ _) (Finset.sum_le_sum fun i _ => ?_)
  rw [abs_mul]
  exact mul_le_mul_of_nonneg_right (le_normInf a i) (abs_nonneg _)

theorem norm1_nonneg (b : Fin n → K) : 0 ≤ norm1 b := Finset.sum_nonneg fun i _ => abs_nonneg _

theorem dot_transpose (A : Matrix (Fin m) (Fin n) K) (x : Fin n → K) (y : Fin m → K) :
    (Aᵀ *ᵥ y) ⬝ᵥ x = y ⬝ᵥ (A *ᵥ x) := by
  rw [mulVec_transpose, ← dotProduct_mulVec]

/-- `yᵀ(Ax)` is at most the support function for `x` feasible and `y` not pushing against infinite bounds. -/
theorem dot_le_support (Q : QP n m K) {e : Fin m → K} {x : Fin n → K} {y : Fin m → K} (hx : Q.FeasibleInf e x)
    (hy : Q.DualFeasible e y) : y ⬝ᵥ (Q.A *ᵥ x) ≤ Q.support y := by
  unfold dotProduct QP.support
  refine Finset.sum_le_sum fun i _ => ?_
  obtain ⟨h1, h2⟩ := hx i
  obtain ⟨h3, h4⟩ := hy i
  rcases lt_trichotomy (y i) 0 with hlt | heq | hgt
  · rw [max_eq_right hlt.le, min_eq_left hlt.le, mul_zero, zero_add, mul_comm]
    have : Q.l i ≤ (Q.A *ᵥ x) i := h1 (fun h => absurd (h4 h) (not_le.2 hlt))
    exact mul_le_mul_of_nonpos_right this hlt.le
  · rw [heq]; simp
  · rw [max_eq_left hgt.le, min_eq_right hgt.le, mul_zero, add_zero, mul_comm]
    have : (Q.A *ᵥ x) i ≤ Q.u i := h2 (fun h => absurd (h3 h) (not_le.2 hgt))
    exact mul_le_mul_of_nonneg_right this hgt.le

theorem feasible_inf (Q : QP n m K) (e : Fin m → K) {x : Fin n → K} (h : Q.Feasible x) : Q.FeasibleInf e x :=
  fun i => ⟨fun _ => (h i).1, fun _ => (h i).2⟩

theorem dot_symm_mulVec {P : Matrix (Fin n) (Fin n) K} (hs : Pᵀ = P) (x y : Fin n → K) : x ⬝ᵥ (P *ᵥ y) = y ⬝ᵥ (P *ᵥ x) := by
  conv_rhs => rw [← hs]
  rw [dotProduct_comm y, dot_transpose]

/-- Weak duality with an approximate stationarity condition. -/
theorem weak_duality (Q : QP n m K) (hs : Q.Pᵀ = Q.P) (hp : PSD Q.P) {e : Fin m → K} {x x₀ : Fin n → K} {y : Fin m → K}
    (hx : Q.FeasibleInf e x) (hy : Q.DualFeasible e y) :
    Q.dualObj x₀ y ≤ Q.obj x + normInf (Q.stat x₀ y) * norm1 x := by
  have h1 := dot_le_support Q hx hy
  have h2 := dot_le_norms (Q.stat x₀ y) x
  have h3 : Q.stat x₀ y ⬝ᵥ x = x ⬝ᵥ (Q.P *ᵥ x₀) + Q.q ⬝ᵥ x + y ⬝ᵥ (Q.A *ᵥ x) := by
    have e1 : Q.stat x₀ y = Q.P *ᵥ x₀ + Q.q + Q.Aᵀ *ᵥ y := by funext j; simp [QP.stat]
    rw [e1, add_dotProduct, add_dotProduct, dot_transpose, dotProduct_comm (Q.P *ᵥ x₀)]
  have h4 := hp (x - x₀)
  have h5 : (x - x₀) ⬝ᵥ (Q.P *ᵥ (x - x₀)) = x ⬝ᵥ (Q.P *ᵥ x) - 2 * (x ⬝ᵥ (Q.P *ᵥ x₀)) + x₀ ⬝ᵥ (Q.P *ᵥ x₀) := by
    rw [mulVec_sub, sub_dotProduct, dotProduct_sub, dotProduct_sub, dot_symm_mulVec hs x₀ x]; ring
  unfold QP.dualObj QP.obj
  have h6 := (abs_le.1 h2).1
  have h7 := (abs_le.1 h2).2
  rw [h3] at h6 h7
  rw [h5] at h4
  linarith

theorem obj_ray (Q : QP n m K) (hs : Q.Pᵀ = Q.P) (x v : Fin n → K) (t : K) :
    Q.obj (fun j => x j + t * v j) = Q.obj x + t * (Q.q ⬝ᵥ v + x ⬝ᵥ (Q.P *ᵥ v)) + t ^ 2 / 2 * (v ⬝ᵥ (Q.P *ᵥ v)) := by
  have e : (fun j => x j + t * v j) = x + t • v := by funext j; simp
  unfold QP.obj
  rw [e, mulVec_add, mulVec_smul, add_dotProduct, dotProduct_add, dotProduct_add, dotProduct_add, smul_dotProduct,
    smul_dotProduct, dotProduct_smul, dotProduct_smul, dotProduct_smul, dot_symm_mulVec hs v x]
  simp only [smul_eq_mul]; ring

end Osqp
