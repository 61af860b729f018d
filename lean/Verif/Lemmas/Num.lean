import Verif.Spec.Basic
import Mathlib.Tactic.Linarith
import Mathlib.Tactic.Ring
import Mathlib.Tactic.FieldSimp
import Mathlib.Tactic.Positivity
import Mathlib.Tactic.NormNum

/-!
# The vector kernels compute their mathematical definitions
-/

set_option linter.unusedSectionVars false

namespace Osqp
open Matrix Spec
variable {K : Type*} [Field K] [LinearOrder K]

section
variable [IsStrictOrderedRing K] {n m : ℕ}

theorem cAbs_eq (x : K) : cAbs x = |x| := by
  unfold cAbs; split_ifs with h
  · exact (abs_of_neg h).symm
  · exact (abs_of_nonneg (not_lt.mp h)).symm

theorem cMax_eq (a b : K) : cMax a b = max a b := by
  unfold cMax; split_ifs with h
  · exact (max_eq_left h.le).symm
  · exact (max_eq_right (not_lt.mp h)).symm

theorem cMin_eq (a b : K) : cMin a b = min a b := by
  unfold cMin; split_ifs with h
  · exact (min_eq_left h.le).symm
  · exact (min_eq_right (not_lt.mp h)).symm

theorem normInf_nonneg (v : Fin n → K) : 0 ≤ normInf v := by
  unfold normInf; rw [Finset.le_fold_max]; exact Or.inl le_rfl

theorem le_normInf (v : Fin n → K) (i : Fin n) : |v i| ≤ normInf v := by
  unfold normInf; rw [Finset.le_fold_max]; exact Or.inr ⟨i, Finset.mem_univ i, le_rfl⟩

theorem normInf_le_iff (v : Fin n → K) (c : K) : normInf v ≤ c ↔ 0 ≤ c ∧ ∀ i, |v i| ≤ c := by
  unfold normInf; rw [Finset.fold_max_le]; simp

theorem normInf_lt_iff (v : Fin n → K) (c : K) : normInf v < c ↔ 0 < c ∧ ∀ i, |v i| < c := by
  unfold normInf; rw [Finset.fold_max_lt]; simp

theorem normInf_eq_of (v : Fin n → K) (c : K) (h0 : 0 ≤ c) (h1 : ∀ i, |v i| ≤ c)
    (h2 : c = 0 ∨ ∃ i, |v i| = c) : normInf v = c := by
  apply le_antisymm ((normInf_le_iff v c).2 ⟨h0, h1⟩)
  rcases h2 with h | ⟨i, h⟩
  · rw [h]; exact normInf_nonneg v
  · rw [← h]; exact le_normInf v i

/-- running maximum over a list -/
theorem foldl_max_le {ι : Type*} (f : ι → K) (l : List ι) (a c : K) :
    l.foldl (fun nv i => if f i > nv then f i else nv) a ≤ c ↔ a ≤ c ∧ ∀ i ∈ l, f i ≤ c := by
  induction l generalizing a with
  | nil => simp
  | cons x t ih =>
    simp only [List.foldl_cons, ih, List.mem_cons, forall_eq_or_imp]
    split_ifs with h
    · constructor
      · rintro ⟨h1, h2⟩; exact ⟨(h.le.trans h1), h1, h2⟩
      · rintro ⟨_, h1, h2⟩; exact ⟨h1, h2⟩
    · constructor
      · rintro ⟨h1, h2⟩; exact ⟨h1, (not_lt.mp h).trans h1, h2⟩
      · rintro ⟨h1, _, h2⟩; exact ⟨h1, h2⟩

theorem vNormInf_eq (v : Vec K n) : vNormInf v = normInf v := by
  apply eq_of_forall_ge_iff; intro c
  unfold vNormInf
  rw [foldl_max_le (fun i => cAbs (v i)), normInf_le_iff]
  simp [cAbs_eq]

theorem vScaledNormInf_eq (S v : Vec K n) : vScaledNormInf S v = normInf (fun i => S i * v i) := by
  apply eq_of_forall_ge_iff; intro c
  unfold vScaledNormInf
  rw [foldl_max_le (fun i => cAbs (S i * v i)), normInf_le_iff]
  simp [cAbs_eq]

omit [LinearOrder K] [IsStrictOrderedRing K] in
theorem foldl_add {ι : Type*} (f : ι → K) (l : List ι) (a : K) :
    l.foldl (fun acc i => acc + f i) a = a + (l.map f).sum := by
  induction l generalizing a with
  | nil => simp
  | cons x t ih => simp [ih, add_assoc]

omit [LinearOrder K] [IsStrictOrderedRing K] in
theorem foldl_add_finRange (f : Fin n → K) :
    (List.finRange n).foldl (fun acc i => acc + f i) 0 = ∑ i, f i := by
  rw [foldl_add, zero_add, ← List.ofFn_eq_map, List.sum_ofFn]

omit [LinearOrder K] [IsStrictOrderedRing K] in
theorem vDot_eq (a b : Vec K n) : vDot a b = a ⬝ᵥ b := by
  unfold vDot dotProduct; exact foldl_add_finRange (fun i => a i * b i)

theorem vDotPos_eq (a b : Vec K n) : vDotPos a b = ∑ i, a i * max (b i) 0 := by
  unfold vDotPos; rw [foldl_add_finRange (fun i => a i * cMax (b i) 0)]; simp [cMax_eq]

theorem vDotNeg_eq (a b : Vec K n) : vDotNeg a b = ∑ i, a i * min (b i) 0 := by
  unfold vDotNeg; rw [foldl_add_finRange (fun i => a i * cMin (b i) 0)]; simp [cMin_eq]

theorem vNorm1_eq (a : Vec K n) : vNorm1 a = norm1 a := by
  unfold vNorm1 norm1; rw [foldl_add_finRange (fun i => cAbs (a i))]; simp [cAbs_eq]

omit [IsStrictOrderedRing K] in
theorem vAllLeq_iff (l u : Vec K n) : vAllLeq l u = true ↔ ∀ i, l i ≤ u i := by
  unfold vAllLeq; simp [List.all_eq_true]

omit [Field K] [LinearOrder K] [IsStrictOrderedRing K] in
theorem vTypeChanged_iff (o w : Fin n → ℤ) : vTypeChanged o w = true ↔ ∃ i, w i ≠ o i := by
  unfold vTypeChanged
  have : ∀ (l : List (Fin n)) (b : Bool),
      l.foldl (fun ch i => ch || decide (w i ≠ o i)) b = true ↔ b = true ∨ ∃ i ∈ l, w i ≠ o i := by
    intro l; induction l with
    | nil => simp
    | cons x t ih =>
      intro b
      rw [List.foldl_cons, ih]
      simp only [Bool.or_eq_true, decide_eq_true_eq, List.mem_cons, exists_eq_or_imp, or_assoc]
  rw [this]; simp

omit [Field K] [LinearOrder K] [IsStrictOrderedRing K] in
theorem vTypeChanged_false (o w : Fin n → ℤ) : vTypeChanged o w = false ↔ w = o := by
  constructor
  · intro h
    by_contra hne
    have : ∃ i, w i ≠ o i := by by_contra hc; push Not at hc; exact hne (funext hc)
    rw [(vTypeChanged_iff o w).2 this] at h; cases h
  · rintro rfl
    cases h : vTypeChanged w w with
    | false => rfl
    | true => obtain ⟨i, hi⟩ := (vTypeChanged_iff w w).1 h; exact absurd rfl hi

omit [IsStrictOrderedRing K] in
theorem vInReccone_iff (y l u : Vec K n) (iv tol : K) :
    vInReccone y l u iv tol = true ↔
      ∀ i, (u i < iv → y i ≤ tol) ∧ (l i > -iv → -tol ≤ y i) := by
  unfold vInReccone
  simp only [List.all_eq_true, List.mem_finRange, true_implies]
  apply forall_congr'; intro i
  by_cases h1 : u i < iv <;> by_cases h2 : l i > -iv <;> simp [h1, h2]

theorem vBound_apply (z l u : Vec K n) (i : Fin n) : vBound z l u i = min (max (z i) (l i)) (u i) := by
  simp [vBound, cMax_eq, cMin_eq]

theorem vProjectPolar_apply (y l u : Vec K n) (iv : K) (i : Fin n) :
    vProjectPolar y l u iv i =
      if (u i > iv ∧ 0 < y i) ∨ (l i < -iv ∧ y i < 0) then 0 else y i := by
  unfold vProjectPolar
  simp only [cMin_eq, cMax_eq]
  rcases lt_trichotomy (y i) 0 with h | h | h
  · simp only [min_eq_left h.le, max_eq_right h.le, h, h.not_gt, and_false, and_true, false_or]
    split_ifs <;> rfl
  · simp [h]
  · simp only [min_eq_right h.le, max_eq_left h.le, h, h.not_gt, and_false, and_true, or_false]
    split_ifs <;> rfl

end

/-! ## Sparse operations -/
section
variable [IsStrictOrderedRing K] {n m : ℕ}

omit [LinearOrder K] [IsStrictOrderedRing K] in
theorem spMul_eq (p : Pat m n) (v : Vec K p.nnz) (x : Vec K n) : spMul p v x = dense p v *ᵥ x := by
  funext i
  simp only [spMul, dense, mulVec, dotProduct, Finset.sum_mul]
  rw [Finset.sum_comm]
  refine Finset.sum_congr rfl fun k _ => ?_
  by_cases h : p.row k = i
  · simp [h]
  · simp [h]

omit [LinearOrder K] [IsStrictOrderedRing K] in
theorem spMulT_eq (p : Pat m n) (v : Vec K p.nnz) (y : Vec K m) :
    spMulT p v y = (dense p v)ᵀ *ᵥ y := by
  funext j
  simp only [spMulT, dense, mulVec, dotProduct, Finset.sum_mul, transpose_apply]
  rw [Finset.sum_comm]
  refine Finset.sum_congr rfl fun k _ => ?_
  by_cases h : p.col k = j
  · simp [h]
  · simp [h]

omit [LinearOrder K] [IsStrictOrderedRing K] in
theorem symMul_eq (p : Pat n n) (v : Vec K p.nnz) (x : Vec K n) :
    symMul p v x = denseSym p v *ᵥ x := by
  funext i
  simp only [symMul, denseSym, mulVec, dotProduct, Finset.sum_mul]
  rw [Finset.sum_comm]
  refine Finset.sum_congr rfl fun k _ => ?_
  by_cases hrc : p.row k = p.col k
  · by_cases h : p.col k = i
    · simp [hrc, h, eq_comm]
    · have h' : ∀ j, ¬ (p.col k = j ∧ p.col k = i) := fun j hj => h hj.2
      simp [hrc, h, h']
  · by_cases h1 : p.row k = i
    · have h2 : ¬ p.col k = i := fun h2 => hrc (h1.trans h2.symm)
      simp [h1, h2]
    · by_cases h2 : p.col k = i
      · subst h2; simp [h1, hrc, Ne.symm hrc]
      · simp [h1, h2]

omit [LinearOrder K] [IsStrictOrderedRing K] in
theorem denseSym_symm (p : Pat n n) (v : Vec K p.nnz) (i j : Fin n) :
    denseSym p v i j = denseSym p v j i := by
  unfold denseSym; refine Finset.sum_congr rfl fun k _ => ?_
  congr 1; exact propext ⟨fun h => h.symm, fun h => h.symm⟩

omit [LinearOrder K] [IsStrictOrderedRing K] in
/-- dense form of a row/column scaled matrix -/
theorem dense_scale (p : Pat m n) (v : Vec K p.nnz) (a : Fin m → K) (b : Fin n → K) :
    dense p (fun k => v k * a (p.row k) * b (p.col k)) = fun i j => a i * dense p v i j * b j := by
  funext i j
  simp only [dense, Finset.mul_sum, Finset.sum_mul]
  refine Finset.sum_congr rfl fun k _ => ?_
  by_cases h : p.row k = i ∧ p.col k = j
  · rw [if_pos h, if_pos h, h.1, h.2]; ring
  · simp [h]

omit [LinearOrder K] [IsStrictOrderedRing K] in
theorem denseSym_scale (p : Pat n n) (v : Vec K p.nnz) (a : Fin n → K) (c : K) :
    denseSym p (fun k => v k * a (p.row k) * a (p.col k) * c) =
      fun i j => c * (a i * denseSym p v i j * a j) := by
  funext i j
  simp only [denseSym, Finset.mul_sum, Finset.sum_mul]
  refine Finset.sum_congr rfl fun k _ => ?_
  by_cases h : (p.row k = i ∧ p.col k = j) ∨ (p.row k = j ∧ p.col k = i)
  · rw [if_pos h, if_pos h]
    rcases h with h | h <;> rw [h.1, h.2] <;> ring
  · simp [h]

end
end Osqp
