import Verif.Spec.Ldl
import Mathlib.LinearAlgebra.Matrix.ToLin
import Mathlib.LinearAlgebra.Matrix.ToLinearEquiv
import Mathlib.LinearAlgebra.Matrix.Block
import Mathlib.LinearAlgebra.FiniteDimensional.Basic
import Mathlib.LinearAlgebra.Dimension.Constructions
import Mathlib.Tactic.LinearCombination
import Mathlib.Tactic.Ring
import Mathlib.Tactic.Linarith
import Mathlib.Tactic.Positivity

/-!
# Factorisations: existence and the signs of the pivots
-/

set_option linter.unusedSectionVars false
namespace Osqp.Ldl
open Spec Matrix
variable {K : Type*} [Field K] [LinearOrder K] [IsStrictOrderedRing K] {N n m : ℕ}

/-- Every principal submatrix is nonsingular. -/
def Nondeg {ι : Type*} [Fintype ι] (B : Matrix ι ι K) : Prop := ∀ x : ι → K, (∀ i, x i ≠ 0 → (B *ᵥ x) i = 0) → x = 0

theorem Nondeg.lead {B : Matrix (Fin (N + 1)) (Fin (N + 1)) K} (h : Nondeg B) : Nondeg (B.submatrix Fin.castSucc Fin.castSucc) := by
  intro x hx
  have hz := h (Fin.snoc (α := fun _ => K) x 0) fun i hi => by
    induction i using Fin.lastCases with
    | last => simp at hi
    | cast i =>
      have := hx i (by simpa using hi)
      simpa [mulVec, dotProduct, Fin.sum_univ_castSucc] using this
  funext i
  simpa using congrFun hz i.castSucc

theorem Nondeg.reindex {ι κ : Type*} [Fintype ι] [Fintype κ] {B : Matrix ι ι K} (h : Nondeg B) (e : κ ≃ ι) : Nondeg (B.submatrix e e) := by
  intro x hx
  have hz := h (x ∘ e.symm) fun i hi => by
    have := hx (e.symm i) hi
    rw [submatrix_mulVec_equiv] at this
    simpa using this
  funext i
  simpa using congrFun hz (e i)

theorem Nondeg.solve {B : Matrix (Fin N) (Fin N) K} (h : Nondeg B) (b : Fin N → K) : ∃ y, B *ᵥ y = b := by
  have hinj : Function.Injective B.mulVecLin := by
    rw [← LinearMap.ker_eq_bot, LinearMap.ker_eq_bot']
    intro v hv
    rw [mulVecLin_apply] at hv
    exact h v fun i _ => congrFun hv i
  obtain ⟨y, hy⟩ := LinearMap.injective_iff_surjective.1 hinj b
  exact ⟨y, hy⟩

/-- A triangular matrix with one more row. -/
def bord (L : Matrix (Fin N) (Fin N) K) (l : Fin N → K) : Matrix (Fin (N + 1)) (Fin (N + 1)) K := Matrix.of fun i j =>
  Fin.lastCases (motive := fun _ => K) (Fin.lastCases (motive := fun _ => K) 1 (fun j => l j) j)
    (fun i => Fin.lastCases (motive := fun _ => K) 0 (fun j => L i j) j) i

theorem bord_ll (L : Matrix (Fin N) (Fin N) K) (l : Fin N → K) : bord L l (Fin.last N) (Fin.last N) = 1 := by simp [bord]
theorem bord_lc (L : Matrix (Fin N) (Fin N) K) (l : Fin N → K) (j : Fin N) : bord L l (Fin.last N) j.castSucc = l j := by simp [bord]
theorem bord_cl (L : Matrix (Fin N) (Fin N) K) (l : Fin N → K) (i : Fin N) : bord L l i.castSucc (Fin.last N) = 0 := by simp [bord]
theorem bord_cc (L : Matrix (Fin N) (Fin N) K) (l : Fin N → K) (i j : Fin N) : bord L l i.castSucc j.castSucc = L i j := by simp [bord]

/-- A symmetric matrix whose principal submatrices are nonsingular has a factorisation. -/
theorem exists_ldl : ∀ {N : ℕ} {B : Matrix (Fin N) (Fin N) K}, (∀ i j, B i j = B j i) → Nondeg B → ∃ L D, Ldl B L D
  | 0, B, _, _ => ⟨1, fun i => i.elim0, fun i => i.elim0, fun i => i.elim0, fun i => i.elim0, by ext i; exact i.elim0⟩
  | N + 1, B, hs, hn => by
    obtain ⟨L, D, h⟩ := exists_ldl (B := B.submatrix Fin.castSucc Fin.castSucc) (fun i j => hs _ _) hn.lead
    obtain ⟨y, hy⟩ := hn.lead.solve fun i => B (Fin.last N) i.castSucc
    set l := Lᵀ *ᵥ y with hl
    set δ := B (Fin.last N) (Fin.last N) - ∑ i, l i ^ 2 * D i with hδ
    have e1 : ∀ i, ∑ k, L i k * D k * l k = B (Fin.last N) i.castSucc := by
      intro i
      have := congrFun hy i
      rw [h.prod, ← mulVec_mulVec, ← hl] at this
      rw [← this]
      simp [mulVec, dotProduct, mul_diagonal]
    have e2 : ∑ i, l i ^ 2 * D i = ∑ i, y i * B (Fin.last N) i.castSucc := by
      have : ∑ i, l i ^ 2 * D i = ∑ i, ∑ k, y k * (L k i * D i * l i) := by
        refine Finset.sum_congr rfl fun i _ => ?_
        have : l i = ∑ k, L k i * y k := rfl
        rw [sq]; nth_rewrite 1 [this]
        rw [Finset.sum_mul, Finset.sum_mul]
        exact Finset.sum_congr rfl fun k _ => by ring
      rw [this, Finset.sum_comm]
      refine Finset.sum_congr rfl fun k _ => ?_
      rw [← Finset.mul_sum, e1]
    have hd : δ ≠ 0 := by
      intro h0
      have hz := hn (Fin.snoc (α := fun _ => K) y (-1)) fun i _ => by
        induction i using Fin.lastCases with
        | last =>
          simp only [mulVec, dotProduct, Fin.sum_univ_castSucc, Fin.snoc_castSucc, Fin.snoc_last]
          have : ∑ i : Fin N, B (Fin.last N) i.castSucc * y i = ∑ i, y i * B (Fin.last N) i.castSucc := Finset.sum_congr rfl fun i _ => mul_comm _ _
          rw [this, ← e2]
          linear_combination -h0 + hδ
        | cast i =>
          simp only [mulVec, dotProduct, Fin.sum_univ_castSucc, Fin.snoc_castSucc, Fin.snoc_last]
          have := congrFun hy i
          simp only [mulVec, dotProduct, submatrix_apply] at this
          rw [this, hs]; ring
      have := congrFun hz (Fin.last N)
      simp at this
    refine ⟨bord L l, Fin.snoc (α := fun _ => K) D δ, ?_, ?_, ?_, ?_⟩
    · intro i
      induction i using Fin.lastCases with
      | last => exact bord_ll L l
      | cast i => rw [bord_cc]; exact h.unit i
    · intro i j hij
      induction i using Fin.lastCases with
      | last => exact absurd hij (not_lt.2 (Fin.le_last j))
      | cast i =>
        induction j using Fin.lastCases with
        | last => exact bord_cl L l i
        | cast j => rw [bord_cc]; exact h.lower i j (by simpa using hij)
    · intro i
      induction i using Fin.lastCases with
      | last => simpa using hd
      | cast i => simpa using h.pivots i
    · ext i j
      rw [mul_apply, Fin.sum_univ_castSucc]
      simp only [mul_diagonal, transpose_apply, Fin.snoc_castSucc, Fin.snoc_last]
      induction i using Fin.lastCases with
      | last =>
        induction j using Fin.lastCases with
        | last =>
          simp only [bord_ll, bord_lc]
          have : ∑ i, l i * D i * l i = ∑ i, l i ^ 2 * D i := Finset.sum_congr rfl fun i _ => by ring
          rw [this, hδ]; ring
        | cast j =>
          simp only [bord_ll, bord_lc, bord_cl, bord_cc]
          rw [← e1 j, mul_zero, add_zero]
          exact Finset.sum_congr rfl fun i _ => by ring
      | cast i =>
        induction j using Fin.lastCases with
        | last =>
          simp only [bord_ll, bord_lc, bord_cl, bord_cc]
          rw [hs, ← e1 i]; ring
        | cast j =>
          simp only [bord_cl, bord_cc]
          have := congrFun (congrFun h.prod i) j
          rw [mul_apply] at this
          simp only [submatrix_apply, mul_diagonal, transpose_apply] at this
          rw [this]; ring

/-- The quadratic form of a factored matrix is a sum of squares with the pivots as weights. -/
theorem form {B L : Matrix (Fin N) (Fin N) K} {D : Fin N → K} (h : Ldl B L D) (x : Fin N → K) : x ⬝ᵥ (B *ᵥ x) = ∑ i, D i * (Lᵀ *ᵥ x) i ^ 2 := by
  rw [h.prod, ← mulVec_mulVec, ← mulVec_mulVec, dotProduct_mulVec]
  simp only [dotProduct, mulVec_diagonal]
  refine Finset.sum_congr rfl fun i _ => ?_
  rw [← mulVec_transpose]; ring

/-- The triangular factor has a trivial kernel. -/
theorem ker {B L : Matrix (Fin N) (Fin N) K} {D : Fin N → K} (h : Ldl B L D) {x : Fin N → K} (hx : Lᵀ *ᵥ x = 0) : x = 0 := by
  have hdet : (Lᵀ).det ≠ 0 := by
    rw [det_transpose, det_of_lowerTriangular L fun i j hij => h.lower i j hij]
    simp [h.unit]
  by_contra h0
  exact hdet (exists_mulVec_eq_zero_iff.1 ⟨x, h0, hx⟩)

/-- Fewer equations than unknowns. -/
theorem exists_zero {V W : Type*} [AddCommGroup V] [Module K V] [FiniteDimensional K V] [AddCommGroup W] [Module K W] [FiniteDimensional K W]
    (f : V →ₗ[K] W) (h : Module.finrank K W < Module.finrank K V) : ∃ x, x ≠ 0 ∧ f x = 0 := by
  by_contra hc
  push Not at hc
  have : Function.Injective f := by
    rw [← LinearMap.ker_eq_bot, LinearMap.ker_eq_bot']
    intro x hx
    by_contra h0
    exact hc x h0 hx
  exact absurd (LinearMap.finrank_le_finrank_of_injective this) (not_le.2 h)


/-! ## The signs of the pivots -/

/-- The quadratic form of the KKT matrix. -/
theorem kkt_form (P : Matrix (Fin n) (Fin n) K) (A : Matrix (Fin m) (Fin n) K) (sigma : K) {rho : Fin m → K} (hr : ∀ i, 0 < rho i) (u : Fin n → K) (w : Fin m → K) :
    Sum.elim u w ⬝ᵥ (kktMatrix P A sigma rho *ᵥ Sum.elim u w) =
      (u ⬝ᵥ (P *ᵥ u) + sigma * (u ⬝ᵥ u) + ∑ i, rho i * (A *ᵥ u) i ^ 2) - ∑ i, 1 / rho i * (w i - rho i * (A *ᵥ u) i) ^ 2 := by
  have e : u ⬝ᵥ (Aᵀ *ᵥ w) = ∑ i, w i * (A *ᵥ u) i := by
    rw [dotProduct_mulVec, vecMul_transpose]
    exact Finset.sum_congr rfl fun i _ => mul_comm _ _
  unfold kktMatrix
  rw [fromBlocks_mulVec, sumElim_dotProduct_sumElim]
  simp only [Sum.elim_comp_inl, Sum.elim_comp_inr, add_mulVec, neg_mulVec, dotProduct_add, dotProduct_neg, e]
  have e2 : u ⬝ᵥ ((diagonal fun _ => sigma) *ᵥ u) = sigma * (u ⬝ᵥ u) := by
    simp only [dotProduct, mulVec_diagonal, Finset.mul_sum]
    exact Finset.sum_congr rfl fun i _ => by ring
  have e3 : w ⬝ᵥ ((diagonal fun i => 1 / rho i) *ᵥ w) = ∑ i, 1 / rho i * w i ^ 2 := by
    simp only [dotProduct, mulVec_diagonal]
    exact Finset.sum_congr rfl fun i _ => by ring
  have e4 : ∑ i, 1 / rho i * (w i - rho i * (A *ᵥ u) i) ^ 2 = ∑ i, 1 / rho i * w i ^ 2 - 2 * ∑ i, w i * (A *ᵥ u) i + ∑ i, rho i * (A *ᵥ u) i ^ 2 := by
    rw [Finset.mul_sum, ← Finset.sum_sub_distrib, ← Finset.sum_add_distrib]
    refine Finset.sum_congr rfl fun i _ => ?_
    have := (hr i).ne'
    field_simp; ring
  have e5 : w ⬝ᵥ (A *ᵥ u) = ∑ i, w i * (A *ᵥ u) i := rfl
  rw [e2, e3, e4, e5]; ring

theorem weighted_nonneg {rho : Fin m → K} (hr : ∀ i, 0 < rho i) (w : Fin m → K) : 0 ≤ ∑ i, 1 / rho i * w i ^ 2 :=
  Finset.sum_nonneg fun i _ => mul_nonneg (one_div_pos.2 (hr i)).le (sq_nonneg _)

theorem weighted_pos {rho : Fin m → K} (hr : ∀ i, 0 < rho i) {w : Fin m → K} (h : w ≠ 0) : 0 < ∑ i, 1 / rho i * w i ^ 2 := by
  obtain ⟨i, hi⟩ := Function.ne_iff.1 h
  exact Finset.sum_pos' (fun i _ => mul_nonneg (one_div_pos.2 (hr i)).le (sq_nonneg _))
    ⟨i, Finset.mem_univ _, mul_pos (one_div_pos.2 (hr i)) (by have : w i ≠ 0 := hi; positivity)⟩

/-- The components of `L'v` at the pivots in a set, as a linear map. -/
def comps (L : Matrix (Fin N) (Fin N) K) {ι : Type*} (e : Fin N ≃ ι) (p : Fin N → Prop) : (ι → K) →ₗ[K] ({i // p i} → K) where
  toFun v i := (Lᵀ *ᵥ (v ∘ e)) i
  map_add' v w := by funext i; show (Lᵀ *ᵥ ((v + w) ∘ e)) i = _; rw [Pi.add_comp, mulVec_add]; rfl
  map_smul' c v := by funext i; show (Lᵀ *ᵥ ((c • v) ∘ e)) i = _; rw [Pi.smul_comp, mulVec_smul]; rfl

theorem card_pos (D : Fin N → K) : Fintype.card {i // 0 < D i} = positives D := by
  rw [Fintype.card_subtype]; rfl

theorem card_neg {D : Fin N → K} (hD : ∀ i, D i ≠ 0) : Fintype.card {i // D i < 0} + positives D = N := by
  rw [Fintype.card_subtype, positives]
  have := Finset.card_filter_add_card_filter_not (s := (Finset.univ : Finset (Fin N))) fun i => D i < 0
  rw [Finset.card_univ, Fintype.card_fin] at this
  refine Eq.trans ?_ this
  congr 2
  ext i
  simp only [Finset.mem_filter, Finset.mem_univ, true_and, not_lt]
  exact ⟨fun h => h.le, fun h => lt_of_le_of_ne h (hD i).symm⟩

/-- Two factorisations of a matrix have the same number of positive pivots: half of it. -/
theorem positives_le_of {B L L' : Matrix (Fin N) (Fin N) K} {D D' : Fin N → K} (h : Spec.Ldl B L D) (h' : Spec.Ldl B L' D') : positives D ≤ positives D' := by
  by_contra hc
  have hN := card_neg h.pivots
  obtain ⟨x, hx, hz⟩ := exists_zero ((comps L (Equiv.refl _) fun i => D i < 0).prod (comps L' (Equiv.refl _) fun i => 0 < D' i)) (by
    rw [Module.finrank_prod, Module.finrank_fintype_fun_eq_card, Module.finrank_fintype_fun_eq_card, Module.finrank_fintype_fun_eq_card, Fintype.card_fin, card_pos]; omega)
  have h1 : ∀ i, D i < 0 → (Lᵀ *ᵥ x) i = 0 := fun i hi => congrFun (congrArg Prod.fst hz) ⟨i, hi⟩
  have h2 : ∀ i, 0 < D' i → (L'ᵀ *ᵥ x) i = 0 := fun i hi => congrFun (congrArg Prod.snd hz) ⟨i, hi⟩
  have hne : Lᵀ *ᵥ x ≠ 0 := fun h0 => hx (ker h h0)
  obtain ⟨i, hi⟩ := Function.ne_iff.1 hne
  have hi' : (Lᵀ *ᵥ x) i ≠ 0 := hi
  have g1 : 0 < x ⬝ᵥ (B *ᵥ x) := by
    rw [form h]
    refine Finset.sum_pos' (fun j _ => ?_) ⟨i, Finset.mem_univ _, ?_⟩
    · rcases lt_or_gt_of_ne (h.pivots j) with hj | hj
      · rw [h1 j hj]; simp
      · exact mul_nonneg hj.le (sq_nonneg _)
    · rcases lt_or_gt_of_ne (h.pivots i) with hj | hj
      · exact absurd (h1 i hj) hi'
      · positivity
  have g2 : x ⬝ᵥ (B *ᵥ x) ≤ 0 := by
    rw [form h']
    refine Finset.sum_nonpos fun j _ => ?_
    rcases lt_or_gt_of_ne (h'.pivots j) with hj | hj
    · exact mul_nonpos_of_nonpos_of_nonneg hj.le (sq_nonneg _)
    · rw [h2 j hj]; simp
  linarith

theorem positives_unique {B L L' : Matrix (Fin N) (Fin N) K} {D D' : Fin N → K} (h : Spec.Ldl B L D) (h' : Spec.Ldl B L' D') : positives D = positives D' :=
  le_antisymm (positives_le_of h h') (positives_le_of h' h)

section
variable {P : Matrix (Fin n) (Fin n) K} {A : Matrix (Fin m) (Fin n) K} {sigma : K} {rho : Fin m → K} {e : Fin (n + m) ≃ Fin n ⊕ Fin m}
  {L : Matrix (Fin (n + m)) (Fin (n + m)) K} {D : Fin (n + m) → K}

/-- The form in the order of the factorisation. -/
theorem perm_form (h : Ldl ((kktMatrix P A sigma rho).submatrix e e) L D) (v : Fin n ⊕ Fin m → K) :
    v ⬝ᵥ (kktMatrix P A sigma rho *ᵥ v) = ∑ i, D i * (Lᵀ *ᵥ (v ∘ e)) i ^ 2 := by
  rw [← form h (v ∘ e), submatrix_mulVec_equiv]
  have : (v ∘ e) ∘ e.symm = v := by funext i; simp
  rw [this]
  exact (Equiv.sum_comp e fun i => v i * (kktMatrix P A sigma rho *ᵥ v) i).symm

theorem nonneg_of_comps (h : Ldl ((kktMatrix P A sigma rho).submatrix e e) L D) {v : Fin n ⊕ Fin m → K} (hv : comps L e (fun i => D i < 0) v = 0) :
    0 ≤ v ⬝ᵥ (kktMatrix P A sigma rho *ᵥ v) := by
  rw [perm_form h]
  refine Finset.sum_nonneg fun i _ => ?_
  rcases lt_or_gt_of_ne (h.pivots i) with hi | hi
  · have : (Lᵀ *ᵥ (v ∘ e)) i = 0 := congrFun hv ⟨i, hi⟩
    rw [this]; simp
  · exact mul_nonneg hi.le (sq_nonneg _)

theorem pos_of_comps (h : Ldl ((kktMatrix P A sigma rho).submatrix e e) L D) {v : Fin n ⊕ Fin m → K} (h0 : v ≠ 0) (hv : comps L e (fun i => D i < 0) v = 0) :
    0 < v ⬝ᵥ (kktMatrix P A sigma rho *ᵥ v) := by
  have hz : Lᵀ *ᵥ (v ∘ e) ≠ 0 := fun hz => h0 (by
    have := ker h hz
    funext i
    simpa using congrFun this (e.symm i))
  rw [perm_form h]
  obtain ⟨i, hi⟩ := Function.ne_iff.1 hz
  have hi' : (Lᵀ *ᵥ (v ∘ e)) i ≠ 0 := hi
  refine Finset.sum_pos' (fun j _ => ?_) ⟨i, Finset.mem_univ _, ?_⟩
  · rcases lt_or_gt_of_ne (h.pivots j) with hj | hj
    · have : (Lᵀ *ᵥ (v ∘ e)) j = 0 := congrFun hv ⟨j, hj⟩
      rw [this]; simp
    · exact mul_nonneg hj.le (sq_nonneg _)
  · rcases lt_or_gt_of_ne (h.pivots i) with hj | hj
    · exact absurd (congrFun hv ⟨i, hj⟩) hi'
    · positivity

theorem nonpos_of_comps (h : Ldl ((kktMatrix P A sigma rho).submatrix e e) L D) {v : Fin n ⊕ Fin m → K} (hv : comps L e (fun i => 0 < D i) v = 0) :
    v ⬝ᵥ (kktMatrix P A sigma rho *ᵥ v) ≤ 0 := by
  rw [perm_form h]
  refine Finset.sum_nonpos fun i _ => ?_
  rcases lt_or_gt_of_ne (h.pivots i) with hi | hi
  · exact mul_nonpos_of_nonpos_of_nonneg hi.le (sq_nonneg _)
  · have : (Lᵀ *ᵥ (v ∘ e)) i = 0 := congrFun hv ⟨i, hi⟩
    rw [this]; simp

theorem elim_ne {u : Fin n → K} {w : Fin m → K} (h : u ≠ 0 ∨ w ≠ 0) : Sum.elim u w ≠ 0 := by
  intro hz
  rcases h with h | h
  · exact h (funext fun i => congrFun hz (Sum.inl i))
  · exact h (funext fun i => congrFun hz (Sum.inr i))

/-- There are never more than `n` positive pivots. -/
theorem positives_le (hr : ∀ i, 0 < rho i) (h : Ldl ((kktMatrix P A sigma rho).submatrix e e) L D) : positives D ≤ n := by
  by_contra hc
  have hN := card_neg h.pivots
  let g : (Fin m → K) →ₗ[K] (Fin n ⊕ Fin m → K) :=
    { toFun := fun w => Sum.elim 0 w
      map_add' := fun a b => by funext i; cases i <;> simp
      map_smul' := fun c a => by funext i; cases i <;> simp }
  obtain ⟨w, hw, hz⟩ := exists_zero ((comps L e fun i => D i < 0) ∘ₗ g) (by
    rw [Module.finrank_fintype_fun_eq_card, Module.finrank_fintype_fun_eq_card, Fintype.card_fin]; omega)
  have h1 := nonneg_of_comps h (v := g w) hz
  change 0 ≤ Sum.elim 0 w ⬝ᵥ (kktMatrix P A sigma rho *ᵥ Sum.elim 0 w) at h1
  rw [kkt_form P A sigma hr] at h1
  have h2 := weighted_pos hr hw
  simp at h1 h2
  linarith

/-- All `n` of them are positive exactly if the reduced matrix is positive definite. -/
theorem positives_eq_iff (hr : ∀ i, 0 < rho i) (h : Ldl ((kktMatrix P A sigma rho).submatrix e e) L D) : positives D = n ↔ ReducedPD P A sigma rho := by
  have hN := card_neg h.pivots
  constructor
  · intro hp u hu
    by_contra hc
    let g : (Fin 1 → K) × (Fin m → K) →ₗ[K] (Fin n ⊕ Fin m → K) :=
      { toFun := fun t => Sum.elim (t.1 0 • u) t.2
        map_add' := fun a b => by funext i; cases i <;> simp [add_mul]
        map_smul' := fun c a => by funext i; cases i <;> simp [mul_assoc] }
    obtain ⟨t, ht, hz⟩ := exists_zero ((comps L e fun i => D i < 0) ∘ₗ g) (by
      rw [Module.finrank_prod, Module.finrank_fintype_fun_eq_card, Module.finrank_fintype_fun_eq_card, Module.finrank_fintype_fun_eq_card, Fintype.card_fin, Fintype.card_fin]; omega)
    have hg : g t ≠ 0 := by
      refine elim_ne ?_
      by_contra hh
      push Not at hh
      obtain ⟨h1, h2⟩ := hh
      refine ht (Prod.ext ?_ h2)
      rcases smul_eq_zero.1 h1 with h1 | h1
      · funext i; rw [Fin.eq_zero i]; exact h1
      · exact absurd h1 hu
    have h1 := pos_of_comps h hg hz
    change 0 < Sum.elim (t.1 0 • u) t.2 ⬝ᵥ (kktMatrix P A sigma rho *ᵥ Sum.elim (t.1 0 • u) t.2) at h1
    rw [kkt_form P A sigma hr] at h1
    have h2 := weighted_nonneg hr fun i => t.2 i - rho i * (A *ᵥ (t.1 0 • u)) i
    have h3 : (t.1 0 • u) ⬝ᵥ (P *ᵥ (t.1 0 • u)) + sigma * ((t.1 0 • u) ⬝ᵥ (t.1 0 • u)) + ∑ i, rho i * (A *ᵥ (t.1 0 • u)) i ^ 2 =
        t.1 0 ^ 2 * (u ⬝ᵥ (P *ᵥ u) + sigma * (u ⬝ᵥ u) + ∑ i, rho i * (A *ᵥ u) i ^ 2) := by
      simp only [mulVec_smul, smul_dotProduct, dotProduct_smul, smul_eq_mul, Pi.smul_apply, mul_add, Finset.mul_sum]
      have : ∑ i, rho i * (t.1 0 * (A *ᵥ u) i) ^ 2 = ∑ i, t.1 0 ^ 2 * (rho i * (A *ᵥ u) i ^ 2) := Finset.sum_congr rfl fun i _ => by ring
      rw [this]; ring
    rw [h3] at h1
    have h4 := mul_nonneg (sq_nonneg (t.1 0)) (sub_nonneg.2 (not_lt.1 hc))
    linarith [h4]
  · intro hp
    refine le_antisymm (positives_le hr h) ?_
    by_contra hc
    let g : (Fin n → K) →ₗ[K] (Fin n ⊕ Fin m → K) :=
      { toFun := fun u => Sum.elim u fun i => rho i * (A *ᵥ u) i
        map_add' := fun a b => by funext i; cases i <;> simp [mulVec_add, mul_add]
        map_smul' := fun c a => by funext i; cases i <;> simp [mulVec_smul]; ring }
    obtain ⟨u, hu, hz⟩ := exists_zero ((comps L e fun i => 0 < D i) ∘ₗ g) (by
      rw [Module.finrank_fintype_fun_eq_card, Module.finrank_fintype_fun_eq_card, card_pos, Fintype.card_fin]; omega)
    have h1 := nonpos_of_comps h (v := g u) hz
    change Sum.elim u (fun i => rho i * (A *ᵥ u) i) ⬝ᵥ (kktMatrix P A sigma rho *ᵥ Sum.elim u fun i => rho i * (A *ᵥ u) i) ≤ 0 at h1
    rw [kkt_form P A sigma hr] at h1
    have h2 := hp u hu
    simp at h1
    linarith

/-- For `P + sigma*I` positive definite every principal submatrix is nonsingular. -/
theorem kkt_nondeg (hP : ∀ x : Fin n → K, x ≠ 0 → 0 < x ⬝ᵥ (P *ᵥ x) + sigma * (x ⬝ᵥ x)) (hr : ∀ i, 0 < rho i) : Nondeg (kktMatrix P A sigma rho) := by
  intro v hv
  obtain ⟨u, w, rfl⟩ : ∃ x w, v = Sum.elim x w := ⟨v ∘ Sum.inl, v ∘ Sum.inr, (Sum.elim_comp_inl_inr v).symm⟩
  have hv' : ∀ i, Sum.elim u w i * (kktMatrix P A sigma rho *ᵥ Sum.elim u w) i = 0 := fun i => by
    by_cases h : Sum.elim u w i = 0
    · rw [h, zero_mul]
    · rw [hv i h, mul_zero]
  unfold kktMatrix at hv'
  rw [fromBlocks_mulVec] at hv'
  have h1 : u ⬝ᵥ (P *ᵥ u) + sigma * (u ⬝ᵥ u) + u ⬝ᵥ (Aᵀ *ᵥ w) = 0 := by
    simp only [dotProduct, Finset.mul_sum, ← Finset.sum_add_distrib]
    refine Finset.sum_eq_zero fun j _ => ?_
    have := hv' (Sum.inl j)
    simp [add_mulVec, mulVec_diagonal] at this
    rcases this with h | h
    · rw [h]; ring
    · linear_combination u j * h
  have h2 : w ⬝ᵥ (A *ᵥ u) = ∑ i, 1 / rho i * w i ^ 2 := by
    refine Finset.sum_congr rfl fun i _ => ?_
    have := hv' (Sum.inr i)
    simp [neg_mulVec, mulVec_diagonal] at this
    rcases this with h | h
    · rw [h]; ring
    · rw [one_div]; linear_combination w i * h
  have h3 : u ⬝ᵥ (Aᵀ *ᵥ w) = w ⬝ᵥ (A *ᵥ u) := by rw [dotProduct_mulVec, vecMul_transpose, dotProduct_comm]
  rw [h3, h2] at h1
  have hu : u = 0 := by
    by_contra h0
    have := hP u h0
    have := weighted_nonneg hr w
    linarith
  have hw : w = 0 := by
    by_contra h0
    have := weighted_pos hr h0
    subst hu
    simp at h1 this
    linarith
  rw [hu, hw]; funext i; cases i <;> rfl

theorem kkt_symm (hP : ∀ i j, P i j = P j i) (i j : Fin n ⊕ Fin m) : kktMatrix P A sigma rho i j = kktMatrix P A sigma rho j i := by
  unfold kktMatrix
  cases i <;> cases j <;> simp [diagonal, hP, eq_comm]
  · split_ifs with h
    · subst h; rfl
    · rfl
end

end Osqp.Ldl
