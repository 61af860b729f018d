import Verif.Spec.Pcg
import Verif.Lemmas.Num
import Mathlib.LinearAlgebra.SesquilinearForm.Basic
import Mathlib.LinearAlgebra.Dimension.Finrank
import Mathlib.LinearAlgebra.FiniteDimensional.Basic
import Mathlib.LinearAlgebra.Dimension.Constructions
import Mathlib.LinearAlgebra.Matrix.SesquilinearForm
import Mathlib.Tactic.LinearCombination

set_option linter.unusedSectionVars false
set_option linter.unusedSimpArgs false

/-!
# Lemmas: conjugate gradients
-/

namespace Osqp.Cuda
open Matrix Osqp.Spec

variable {K : Type*} [Field K] [LinearOrder K] [IsStrictOrderedRing K] {m n : ℕ}

/-- Entrywise product with the preconditioner. -/
def wmul (w v : Fin n → K) : Fin n → K := fun j => w j * v j

theorem wmul_comm (w u v : Fin n → K) : u ⬝ᵥ wmul w v = v ⬝ᵥ wmul w u := by
  simp only [dotProduct, wmul]; exact Finset.sum_congr rfl fun j _ => by ring

theorem wmul_pos {w : Fin n → K} (hw : ∀ j, 0 < w j) {v : Fin n → K} (hv : v ≠ 0) : 0 < v ⬝ᵥ wmul w v := by
  obtain ⟨j, hj⟩ := Function.ne_iff.1 hv
  simp only [dotProduct, wmul]
  refine Finset.sum_pos' (fun i _ => ?_) ⟨j, Finset.mem_univ _, ?_⟩
  · have := mul_nonneg (hw i).le (mul_self_nonneg (v i)); linarith [mul_comm (v i) (w i * v i), mul_assoc (w i) (v i) (v i)]
  · have h2 := mul_pos (hw j) (mul_self_pos.2 (show v j ≠ 0 from hj))
    calc 0 < w j * (v j * v j) := h2
      _ = _ := by ring

theorem symm_dot {B : Matrix (Fin n) (Fin n) K} (hB : Bᵀ = B) (u v : Fin n → K) : u ⬝ᵥ (B *ᵥ v) = v ⬝ᵥ (B *ᵥ u) := by
  rw [dotProduct_mulVec, ← mulVec_transpose, hB, dotProduct_comm]

/-- Nonzero vectors that are pairwise orthogonal for positive weights are at most as many as the dimension. -/
theorem ortho_le {w : Fin n → K} (hw : ∀ j, 0 < w j) (H : List (Fin n → K)) (h0 : ∀ v ∈ H, v ≠ 0) (hp : H.Pairwise fun u v => u ⬝ᵥ wmul w v = 0) :
    H.length ≤ n := by
  have hsym : ∀ i j : Fin H.length, i ≠ j → H[i] ⬝ᵥ wmul w H[j] = 0 := by
    intro i j hij
    rcases lt_or_gt_of_ne hij with h | h
    · exact List.pairwise_iff_getElem.1 hp i j i.2 j.2 h
    · rw [wmul_comm]; exact List.pairwise_iff_getElem.1 hp j i j.2 i.2 h
  have li : LinearIndependent K fun i : Fin H.length => H[i] := by
    rw [Fintype.linearIndependent_iff]
    intro g hg i
    have h1 : (∑ j, g j • H[j]) ⬝ᵥ wmul w H[i] = g i * (H[i] ⬝ᵥ wmul w H[i]) := by
      rw [sum_dotProduct, Finset.sum_eq_single i]
      · rw [smul_dotProduct, smul_eq_mul]
      · intro j _ hj; rw [smul_dotProduct, hsym j i hj, smul_zero]
      · intro h; exact absurd (Finset.mem_univ i) h
    rw [hg, zero_dotProduct] at h1
    have := (wmul_pos hw (h0 _ (List.getElem_mem i.2))).ne'
    exact (mul_eq_zero.1 h1.symm).resolve_right this
  have := li.fintype_card_le_finrank
  simpa using this

/-- What holds between passes of the loop: `H` are the earlier residuals and directions, newest first. -/
structure Inv (B : Matrix (Fin n) (Fin n) K) (w : Fin n → K) (H : List ((Fin n → K) × (Fin n → K))) (r p : Fin n → K) : Prop where
  rp : ∀ q ∈ H, r ⬝ᵥ q.2 = 0
  conj : ∀ q ∈ H, p ⬝ᵥ (B *ᵥ q.2) = 0
  rr : ∀ q ∈ H, r ⬝ᵥ wmul w q.1 = 0
  descent : r ⬝ᵥ p = -(r ⬝ᵥ wmul w r)
  image : ∀ q ∈ H, ∀ v : Fin n → K, v ⬝ᵥ r = 0 → (∀ q' ∈ H, v ⬝ᵥ q'.1 = 0) → v ⬝ᵥ (B *ᵥ q.2) = 0
  span : ∀ v : Fin n → K, v ⬝ᵥ p = 0 → (∀ q ∈ H, v ⬝ᵥ q.2 = 0) → v ⬝ᵥ wmul w r = 0
  spanH : ∀ v : Fin n → K, (∀ q ∈ H, v ⬝ᵥ q.2 = 0) → ∀ q ∈ H, v ⬝ᵥ wmul w q.1 = 0
  pair : H.Pairwise fun a b => a.1 ⬝ᵥ wmul w b.1 = 0
  nz : ∀ q ∈ H, q.1 ≠ 0

theorem inv_start (B : Matrix (Fin n) (Fin n) K) (w r : Fin n → K) : Inv B w [] r (fun j => -1 * wmul w r j + 0) := by
  have he : (fun j => -1 * wmul w r j + 0) = -wmul w r := by funext j; simp
  rw [he]
  refine ⟨by simp, by simp, by simp, by rw [dotProduct_neg], by simp, fun v h _ => ?_, by simp, List.Pairwise.nil, by simp⟩
  rw [dotProduct_neg, neg_eq_zero] at h; exact h

theorem inv_step {B : Matrix (Fin n) (Fin n) K} (hB : Bᵀ = B) {w : Fin n → K} {H : List ((Fin n → K) × (Fin n → K))} {r p : Fin n → K} (h : Inv B w H r p)
    (hr : r ≠ 0) {a b : K} (hq : p ⬝ᵥ (B *ᵥ p) ≠ 0) (hn : r ⬝ᵥ wmul w r ≠ 0) (ha : a = (r ⬝ᵥ wmul w r) / (p ⬝ᵥ (B *ᵥ p)))
    {r' p' : Fin n → K} (hr' : r' = a • (B *ᵥ p) + r) (hb : b = (r' ⬝ᵥ wmul w r') / (r ⬝ᵥ wmul w r)) (hp' : p' = -wmul w r' + b • p) :
    Inv B w ((r, p) :: H) r' p' := by
  have ha0 : a ≠ 0 := by rw [ha]; exact div_ne_zero hn hq
  have haq : a * (p ⬝ᵥ (B *ᵥ p)) = r ⬝ᵥ wmul w r := by rw [ha]; field_simp
  have rp : ∀ q ∈ (r, p) :: H, r' ⬝ᵥ q.2 = 0 := by
    intro q hq'
    rcases List.mem_cons.1 hq' with rfl | hq'
    · show r' ⬝ᵥ p = 0
      rw [hr', add_dotProduct, smul_dotProduct, dotProduct_comm (B *ᵥ p), smul_eq_mul, haq, h.descent]; ring
    · rw [hr', add_dotProduct, smul_dotProduct, dotProduct_comm (B *ᵥ p), symm_dot hB, h.conj q hq', h.rp q hq']; simp
  have rr : ∀ q ∈ (r, p) :: H, r' ⬝ᵥ wmul w q.1 = 0 := by
    intro q hq'
    rcases List.mem_cons.1 hq' with rfl | hq'
    · exact h.span r' (rp _ (List.mem_cons_self ..)) fun q hq => rp q (List.mem_cons_of_mem _ hq)
    · exact h.spanH r' (fun q hq => rp q (List.mem_cons_of_mem _ hq)) q hq'
  have img : ∀ v : Fin n → K, v ⬝ᵥ (B *ᵥ p) = (v ⬝ᵥ r' - v ⬝ᵥ r) / a := by
    intro v; rw [hr', dotProduct_add, dotProduct_smul, smul_eq_mul]; field_simp; ring
  refine ⟨rp, ?_, rr, ?_, ?_, ?_, ?_, List.Pairwise.cons (fun q hq' => h.rr q hq') h.pair, ?_⟩
  · intro q hq'
    rcases List.mem_cons.1 hq' with rfl | hq'
    · show p' ⬝ᵥ (B *ᵥ p) = 0
      rw [hp', add_dotProduct, neg_dotProduct, smul_dotProduct, smul_eq_mul, img (wmul w r'), dotProduct_comm (wmul w r') r', dotProduct_comm (wmul w r') r,
        wmul_comm w r r', rr _ (List.mem_cons_self ..), hb, ← haq]
      field_simp; ring
    · have : wmul w r' ⬝ᵥ (B *ᵥ q.2) = 0 := by
        refine h.image q hq' _ ?_ fun q' h' => ?_
        · rw [dotProduct_comm, wmul_comm]; exact rr _ (List.mem_cons_self ..)
        · rw [dotProduct_comm, wmul_comm]; exact rr _ (List.mem_cons_of_mem _ h')
      rw [hp', add_dotProduct, neg_dotProduct, smul_dotProduct, this, h.conj q hq']; simp
  · rw [hp', dotProduct_add, dotProduct_neg, dotProduct_smul, rp _ (List.mem_cons_self ..)]; simp
  · intro q hq' v h1 h2
    rcases List.mem_cons.1 hq' with rfl | hq'
    · show v ⬝ᵥ (B *ᵥ p) = 0
      have := h2 _ (List.mem_cons_self ..)
      rw [img, h1, this]; simp
    · exact h.image q hq' v (h2 _ (List.mem_cons_self ..)) fun q' h' => h2 q' (List.mem_cons_of_mem _ h')
  · intro v h1 h2
    have h3 : v ⬝ᵥ p = 0 := h2 _ (List.mem_cons_self ..)
    have : wmul w r' = -p' + b • p := by rw [hp']; abel
    rw [this, dotProduct_add, dotProduct_neg, dotProduct_smul, h1, h3]; simp
  · intro v h2 q hq'
    have hH : ∀ q ∈ H, v ⬝ᵥ q.2 = 0 := fun q hq => h2 q (List.mem_cons_of_mem _ hq)
    rcases List.mem_cons.1 hq' with rfl | hq'
    · exact h.span v (h2 _ (List.mem_cons_self ..)) hH
    · exact h.spanH v hH q hq'
  · intro q hq'
    rcases List.mem_cons.1 hq' with rfl | hq'
    · exact hr
    · exact h.nz q hq'

/-! ### The loop -/

theorem mul_eq (M : Csr m n K) (x : Vec K n) : M.mul x = dense M.pat M.val *ᵥ x := spMul_eq _ _ _

theorem matVec_eq {s : Solver n m K} (hs : Consistent s) (x : Vec K n) : matVec s x = systemOf s *ᵥ x := by
  have key : ∀ z : Fin m → K, (fun i => cudaSteps s i * s.A.mul x i) = z → (fun j => s.At.mul z j + (s.P.mul x j + s.h_sigma * x j)) = systemOf s *ᵥ x := by
    rintro z rfl
    funext j
    have h1 : (fun i => cudaSteps s i * s.A.mul x i) = diagonal (cudaSteps s) *ᵥ (dense s.A.pat s.A.val *ᵥ x) := by
      funext i; rw [mulVec_diagonal, mul_eq]
    rw [h1, mul_eq, mul_eq, hs.transpose]
    unfold systemOf reduced
    rw [add_mulVec, add_mulVec, ← mulVec_mulVec, ← mulVec_mulVec]
    simp only [Pi.add_apply, mulVec_diagonal]
    ring
  unfold matVec
  by_cases hm : m = 0
  · subst hm
    simp only [if_true]
    rw [← key _ rfl]
    funext j
    have : s.At.mul (fun i => cudaSteps s i * s.A.mul x i) j = 0 := by
      rw [mul_eq]; simp [mulVec, dotProduct]
    rw [this, zero_add]
  · simp only [if_neg hm]
    cases hr : s.rho_vec with
    | none => exact key _ (by simp [cudaSteps, hr])
    | some rho => exact key _ (by funext i; simp [cudaSteps, hr, mul_comm])

theorem system_symm {s : Solver n m K} (hs : Consistent s) : (systemOf s)ᵀ = systemOf s := by
  unfold systemOf reduced
  rw [transpose_add, transpose_add, hs.symm, diagonal_transpose, transpose_mul, transpose_mul, transpose_transpose, diagonal_transpose, Matrix.mul_assoc]

theorem system_form (s : Solver n m K) (x : Fin n → K) : x ⬝ᵥ (systemOf s *ᵥ x) =
    x ⬝ᵥ (dense s.P.pat s.P.val *ᵥ x) + s.h_sigma * (x ⬝ᵥ x) + ∑ i, cudaSteps s i * (dense s.A.pat s.A.val *ᵥ x) i ^ 2 := by
  unfold systemOf reduced
  rw [add_mulVec, add_mulVec, dotProduct_add, dotProduct_add, ← mulVec_mulVec, ← mulVec_mulVec]
  congr 1
  · congr 1
    simp only [dotProduct, mulVec_diagonal, Finset.mul_sum]
    exact Finset.sum_congr rfl fun j _ => by ring
  · rw [dotProduct_mulVec, vecMul_transpose]
    simp only [dotProduct, mulVec_diagonal]
    exact Finset.sum_congr rfl fun j _ => by ring

theorem amax_eq (v : Vec K n) : amax v = normInf v := vNormInf_eq v

theorem dot_eq (u v : Vec K n) : dot u v = u ⬝ᵥ v := rfl

theorem norm_pos_ne {v : Fin n → K} {eps : K} (he : 0 ≤ eps) (h : normInf v > eps) : v ≠ 0 := by
  rintro rfl
  have : normInf (0 : Fin n → K) ≤ eps := (normInf_le_iff _ _).2 ⟨he, fun i => by simpa using he⟩
  exact absurd h (not_lt.2 this)

/-- The relation between the vectors of the work space. -/
structure Good (s : Solver n m K) (rhs : Vec K n) (w : Work n K) : Prop where
  r : w.r = systemOf s *ᵥ w.x - rhs
  y : w.y = wmul s.precond_inv w.r
  rTy : w.rTy = w.r ⬝ᵥ wmul s.precond_inv w.r
  norm : w.r_norm = normInf w.r

theorem good_start {s : Solver n m K} (hs : Consistent s) (rhs : Vec K n) : Good s rhs (start s rhs) := by
  refine ⟨?_, rfl, ?_, amax_eq _⟩
  · funext j; simp only [start, matVec_eq hs, Pi.sub_apply]; ring
  · exact dotProduct_comm (start s rhs).y (start s rhs).r

theorem step_parts {s : Solver n m K} (hs : Consistent s) {w w' : Work n K} (h : step s w = some w') :
    ∃ a b : K, w.p ⬝ᵥ (systemOf s *ᵥ w.p) ≠ 0 ∧ w.rTy ≠ 0 ∧ a = w.rTy / (w.p ⬝ᵥ (systemOf s *ᵥ w.p)) ∧ b = w'.rTy / w.rTy ∧
      w'.x = a • w.p + w.x ∧ w'.r = a • (systemOf s *ᵥ w.p) + w.r ∧ w'.y = wmul s.precond_inv w'.r ∧ w'.rTy = w'.r ⬝ᵥ wmul s.precond_inv w'.r ∧
      w'.r_norm = normInf w'.r ∧ w'.p = -wmul s.precond_inv w'.r + b • w.p := by
  unfold step at h
  simp only [divide, matVec_eq hs, dot_eq] at h
  by_cases h1 : w.p ⬝ᵥ (systemOf s *ᵥ w.p) = 0
  · rw [if_pos h1] at h; simp at h
  by_cases h2 : w.rTy = 0
  · rw [if_neg h1] at h; simp [h2] at h
  simp only [if_neg h1, if_neg h2, Option.bind_some, Option.some.injEq] at h
  subst h
  refine ⟨_, _, h1, h2, rfl, rfl, ?_, ?_, rfl, ?_, amax_eq _, ?_⟩
  · rfl
  · rfl
  · dsimp only; exact dotProduct_comm _ _
  · funext j; simp [wmul]

theorem step_some {s : Solver n m K} (hs : Consistent s) {w : Work n K} (h1 : w.p ⬝ᵥ (systemOf s *ᵥ w.p) ≠ 0) (h2 : w.rTy ≠ 0) : ∃ w', step s w = some w' := by
  unfold step
  simp only [divide, matVec_eq hs, dot_eq]
  simp only [if_neg h1, if_neg h2, Option.bind_some]
  exact ⟨_, rfl⟩

theorem good_step {s : Solver n m K} (hs : Consistent s) {rhs : Vec K n} {w w' : Work n K} (g : Good s rhs w) (h : step s w = some w') : Good s rhs w' := by
  obtain ⟨a, b, -, -, -, -, hx, hr, hy, hd, hn, -⟩ := step_parts hs h
  refine ⟨?_, hy, hd, hn⟩
  rw [hr, hx, g.r, mulVec_add, mulVec_smul, add_sub_assoc]

theorem loop_good {s : Solver n m K} (hs : Consistent s) {rhs : Vec K n} {eps : K} (fuel k : ℕ) {w w' : Work n K} {k' : ℕ} (g : Good s rhs w)
    (h : loop s eps fuel k w = some (w', k')) : Good s rhs w' ∧ k ≤ k' ∧ k' ≤ k + fuel ∧ (w'.r_norm ≤ eps ∨ k' = k + fuel) := by
  induction fuel generalizing k w with
  | zero => simp only [loop, Option.some.injEq, Prod.mk.injEq] at h; obtain ⟨rfl, rfl⟩ := h; exact ⟨g, le_rfl, le_rfl, Or.inr rfl⟩
  | succ f ih =>
    simp only [loop] at h
    by_cases hn : w.r_norm > eps
    · rw [if_pos hn, Option.bind_eq_some_iff] at h
      obtain ⟨v, hv, h⟩ := h
      obtain ⟨h1, h2, h3, h4⟩ := ih (k + 1) (good_step hs g hv) h
      exact ⟨h1, by omega, by omega, h4.imp_right fun h => by omega⟩
    · rw [if_neg hn, Option.some.injEq, Prod.mk.injEq] at h
      obtain ⟨rfl, rfl⟩ := h
      exact ⟨g, le_rfl, by omega, Or.inl (not_lt.1 hn)⟩

theorem energy_step {s : Solver n m K} (hs : Consistent s) {rhs : Vec K n} {w w' : Work n K} (g : Good s rhs w) (hp : w.r ⬝ᵥ w.p = -(w.r ⬝ᵥ wmul s.precond_inv w.r)) (h : step s w = some w') :
    energy (systemOf s) rhs w'.x = energy (systemOf s) rhs w.x - w.rTy ^ 2 / (2 * (w.p ⬝ᵥ (systemOf s *ᵥ w.p))) := by
  obtain ⟨a, b, h1, h2, ha, -, hx, -, -, -, -, -⟩ := step_parts hs h
  have hB := system_symm hs
  have e1 : w.p ⬝ᵥ (systemOf s *ᵥ w.x) = w.p ⬝ᵥ w.r + rhs ⬝ᵥ w.p := by
    rw [g.r, dotProduct_sub, dotProduct_comm rhs]; ring
  have e2 : w.p ⬝ᵥ w.r = -w.rTy := by rw [dotProduct_comm, hp, g.rTy]
  unfold energy
  rw [hx]
  simp only [mulVec_add, mulVec_smul, add_dotProduct, dotProduct_add, smul_dotProduct, dotProduct_smul, smul_eq_mul]
  rw [symm_dot hB w.x w.p, e1, e2]
  have : a * (w.p ⬝ᵥ (systemOf s *ᵥ w.p)) = w.rTy := by rw [ha]; field_simp
  have e3 : w.rTy ^ 2 / (2 * (w.p ⬝ᵥ (systemOf s *ᵥ w.p))) = a * w.rTy / 2 := by rw [ha]; field_simp
  rw [e3]
  linear_combination (a / 2) * this

/-- The loop on a positive definite system: no division by zero, the energy does not grow, and no more passes than unknowns. -/
theorem loop_pd {s : Solver n m K} (hs : Consistent s) (pd : ∀ x : Fin n → K, x ≠ 0 → 0 < x ⬝ᵥ (systemOf s *ᵥ x)) (hw : ∀ j, 0 < s.precond_inv j) {rhs : Vec K n} {eps : K} (he : 0 ≤ eps)
    (fuel k : ℕ) {w : Work n K} {H : List ((Fin n → K) × (Fin n → K))} (g : Good s rhs w) (inv : Inv (systemOf s) s.precond_inv H w.r w.p) (hH : H.length = k) :
    ∃ w' k', loop s eps fuel k w = some (w', k') ∧ energy (systemOf s) rhs w'.x ≤ energy (systemOf s) rhs w.x ∧
      (k < k' → energy (systemOf s) rhs w'.x < energy (systemOf s) rhs w.x) ∧ k' ≤ max k n ∧ (n ≤ k + fuel → w'.r_norm ≤ eps) := by
  have hc : ∀ H' : List ((Fin n → K) × (Fin n → K)), H'.Pairwise (fun a b => a.1 ⬝ᵥ wmul s.precond_inv b.1 = 0) → (∀ q ∈ H', q.1 ≠ 0) → H'.length ≤ n := by
    intro H' h1 h2
    have := ortho_le hw (H'.map Prod.fst) (by simpa using fun a b h => h2 (a, b) h) (List.pairwise_map.2 h1)
    simpa using this
  induction fuel generalizing k w H with
  | zero =>
    refine ⟨w, k, rfl, le_rfl, fun h => absurd h (lt_irrefl _), le_max_left _ _, fun h => ?_⟩
    by_contra hn
    have hr : w.r ≠ 0 := norm_pos_ne he (by rw [← g.norm]; exact not_le.1 hn)
    have := hc ((w.r, w.p) :: H) (List.Pairwise.cons (fun q hq => inv.rr q hq) inv.pair) (fun q hq => by
      rcases List.mem_cons.1 hq with rfl | hq
      · exact hr
      · exact inv.nz q hq)
    simp only [List.length_cons] at this
    omega
  | succ f ih =>
    simp only [loop]
    by_cases hn : w.r_norm > eps
    · rw [if_pos hn]
      have hr : w.r ≠ 0 := norm_pos_ne he (by rw [← g.norm]; exact hn)
      have hrr : 0 < w.r ⬝ᵥ wmul s.precond_inv w.r := wmul_pos hw hr
      have hp : w.p ≠ 0 := by
        intro h0
        have := inv.descent
        rw [h0, dotProduct_zero] at this
        linarith
      have hq := pd w.p hp
      obtain ⟨v, hv⟩ := step_some hs (w := w) hq.ne' (by rw [g.rTy]; exact hrr.ne')
      obtain ⟨a, b, -, -, ha, hb, -, hr', -, hd, -, hp'⟩ := step_parts hs hv
      have inv' : Inv (systemOf s) s.precond_inv ((w.r, w.p) :: H) v.r v.p :=
        inv_step (system_symm hs) inv hr hq.ne' hrr.ne' (a := a) (b := b) (by rw [ha, g.rTy]) hr' (by rw [hb, hd, g.rTy]) hp'
      have hE := energy_step hs g inv.descent hv
      have hlt : energy (systemOf s) rhs v.x < energy (systemOf s) rhs w.x := by
        rw [hE]
        have : 0 < w.rTy ^ 2 / (2 * (w.p ⬝ᵥ (systemOf s *ᵥ w.p))) := by
          rw [g.rTy]; exact div_pos (pow_pos hrr 2) (by linarith)
        linarith
      have hk : k + 1 ≤ n := by
        have := hc ((w.r, w.p) :: H) inv'.pair inv'.nz
        simpa [hH] using this
      obtain ⟨w', k', h1, h2, -, h4, h5⟩ := ih (k + 1) (good_step hs g hv) inv' (by simp [hH])
      exact ⟨w', k', by rw [hv]; exact h1, h2.trans hlt.le, fun _ => lt_of_le_of_lt h2 hlt, h4.trans (by omega), fun h => h5 (by omega)⟩
    · rw [if_neg hn]
      exact ⟨w, k, rfl, le_rfl, fun h => absurd h (lt_irrefl _), le_max_left _ _, fun _ => not_lt.1 hn⟩

/-! ### The preconditioner -/

/-- The diagonal that the preconditioner inverts, from the stored entries. -/
def diagOf (s : Solver n m K) : Vec K n := fun j =>
  (∑ k, if s.At.pat.row k = j then s.At.val k * cudaSteps s (s.At.pat.col k) * s.At.val k else 0) + (s.P.val (s.diagInd j) + s.h_sigma)

/-- The preconditioner belongs to the data in use. -/
def Fresh (s : Solver n m K) : Prop := match s.precond_type with
  | .no => s.precond_inv = fun _ => 1
  | .diagonal => s.P_diag = (fun j => s.P.val (s.diagInd j)) ∧ (s.rho_vec = none → s.AtA_diag = segmentedSum s.At fun k => s.At.val k * s.At.val k) ∧
      s.precond_inv = fun j => 1 / diagOf s j

theorem scaled_sum (s : Solver n m K) (h : s.rho_vec = none) (j : Fin n) :
    s.h_rho * segmentedSum s.At (fun k => s.At.val k * s.At.val k) j = ∑ k, if s.At.pat.row k = j then s.At.val k * cudaSteps s (s.At.pat.col k) * s.At.val k else 0 := by
  simp only [segmentedSum, Finset.mul_sum, cudaSteps, h]
  refine Finset.sum_congr rfl fun k _ => ?_
  split <;> ring

/-- Recomputing everything, or everything but for a change of the step size. -/
theorem fresh_full (s : Solver n m K) (Ru : Bool) : Fresh (updatePrecond s true true Ru) := by
  unfold updatePrecond
  cases hp : s.precond_type with
  | no => simp [Fresh, hp]
  | diagonal =>
    unfold Fresh
    simp only [updatePrecondDiagonal, Bool.not_true, Bool.false_and, Bool.false_eq_true, if_false, if_true, Bool.true_or, hp]
    refine ⟨rfl, fun h => by simp [h], ?_⟩
    funext j
    show 1 / _ = 1 / _
    congr 1
    simp only [diagOf]
    congr 1
    cases hr : s.rho_vec with
    | none => simpa [cudaSteps, hr] using scaled_sum s hr j
    | some rho => simp [segmentedSum, cudaSteps, hr]

/-- A change of the step size only. -/
theorem fresh_rho {s t : Solver n m K} (f : Fresh s) {rv : Option (Vec K m)} {c : K} (hn : s.rho_vec = none ↔ rv = none) (ht : t = { s with rho_vec := rv, h_rho := c }) :
    Fresh (updatePrecond t false false true) := by
  subst ht
  unfold updatePrecond
  unfold Fresh at f
  cases hp : s.precond_type with
  | no => simp [Fresh, hp]
  | diagonal =>
    simp only [hp] at f
    obtain ⟨f1, f2, -⟩ := f
    unfold Fresh
    simp only [updatePrecondDiagonal, Bool.not_true, Bool.and_false, Bool.false_eq_true, if_false, if_true, Bool.or_true, hp]
    refine ⟨f1, fun h => f2 (hn.2 h), ?_⟩
    funext j
    show 1 / _ = 1 / _
    congr 1
    simp only [diagOf, f1]
    congr 1
    cases hr : rv with
    | none =>
      simp only [f2 (hn.2 hr)]
      exact scaled_sum { s with rho_vec := none, h_rho := c } rfl j
    | some rho => simp [segmentedSum, cudaSteps]

theorem dense_once {a b : ℕ} (p : Pat a b) (v : Vec K p.nnz) (once : ∀ k l, p.row k = p.row l → p.col k = p.col l → k = l) (k : Fin p.nnz) :
    dense p v (p.row k) (p.col k) = v k := by
  unfold dense
  rw [Finset.sum_eq_single k]
  · simp
  · intro l _ hl
    rw [if_neg]
    rintro ⟨h1, h2⟩
    exact hl (once l k h1 h2)
  · intro h; exact absurd (Finset.mem_univ k) h

theorem diag_eq {s : Solver n m K} (hs : Consistent s) (hw : Wired s) (j : Fin n) : diagOf s j = systemOf s j j := by
  have h1 : dense s.P.pat s.P.val j j = s.P.val (s.diagInd j) := by
    have := dense_once s.P.pat s.P.val hw.once (s.diagInd j)
    rwa [hw.diagRow, hw.diagCol] at this
  unfold systemOf reduced diagOf
  have h2 : ((dense s.A.pat s.A.val)ᵀ * diagonal (cudaSteps s) * dense s.A.pat s.A.val) j j = ∑ i, dense s.At.pat s.At.val j i * cudaSteps s i * dense s.At.pat s.At.val j i := by
    rw [Matrix.mul_apply]
    refine Finset.sum_congr rfl fun i _ => ?_
    rw [Matrix.mul_diagonal, hs.transpose]; simp [transpose_apply]
  rw [Matrix.add_apply, Matrix.add_apply, h1, h2, diagonal_apply_eq, add_comm]
  congr 1
  have h3 : ∀ i, dense s.At.pat s.At.val j i * cudaSteps s i * dense s.At.pat s.At.val j i =
      ∑ k, if s.At.pat.row k = j ∧ s.At.pat.col k = i then s.At.val k * cudaSteps s (s.At.pat.col k) * s.At.val k else 0 := by
    intro i
    by_cases hk : ∃ k, s.At.pat.row k = j ∧ s.At.pat.col k = i
    · obtain ⟨k, rfl, rfl⟩ := hk
      rw [dense_once _ _ hw.onceAt, Finset.sum_eq_single k]
      · simp
      · intro l _ hl
        rw [if_neg]
        rintro ⟨h1, h2⟩
        exact hl (hw.onceAt l k h1 h2)
      · intro h; exact absurd (Finset.mem_univ k) h
    · have : dense s.At.pat s.At.val j i = 0 := by
        unfold dense
        exact Finset.sum_eq_zero fun k _ => if_neg fun h => hk ⟨k, h⟩
      rw [this, zero_mul, zero_mul, eq_comm]
      exact Finset.sum_eq_zero fun k _ => if_neg fun h => hk ⟨k, h⟩
  rw [Finset.sum_congr rfl fun i _ => h3 i, Finset.sum_comm]
  refine Finset.sum_congr rfl fun k _ => ?_
  by_cases h : s.At.pat.row k = j
  · simp [h]
  · simp [h]

/-! ### Histories -/

/-- What every state of a history satisfies. -/
structure StateOK (s : Solver n m K) : Prop where
  consistent : Consistent s
  wired : Wired s
  fresh : Fresh s
  sigma : 0 < s.h_sigma
  steps : ∀ i, 0 < cudaSteps s i
  sc : 0 < s.h_rho
  max_iter : 0 < s.max_iter
  fraction : 0 < s.tol_fraction ∧ s.tol_fraction < 1

/-- Changing the preconditioner leaves the data alone. -/
theorem precond_keeps (s : Solver n m K) (Pu Au Ru : Bool) (h1 : Consistent s) (h2 : Wired s) (h3 : 0 < s.h_sigma) (h4 : ∀ i, 0 < cudaSteps s i) (h5 : 0 < s.h_rho) (h6 : 0 < s.max_iter)
    (h7 : 0 < s.tol_fraction ∧ s.tol_fraction < 1) (f : Fresh (updatePrecond s Pu Au Ru)) : StateOK (updatePrecond s Pu Au Ru) := by
  revert f
  unfold updatePrecond
  cases s.precond_type with
  | no => exact fun f => ⟨⟨h1.symm, h1.transpose⟩, ⟨h2.diagRow, h2.diagCol, h2.once, h2.onceAt⟩, f, h3, h4, h5, h6, h7⟩
  | diagonal =>
    simp only [updatePrecondDiagonal]
    split
    · exact fun f => ⟨h1, h2, f, h3, h4, h5, h6, h7⟩
    · exact fun f => ⟨⟨h1.symm, h1.transpose⟩, ⟨h2.diagRow, h2.diagCol, h2.once, h2.onceAt⟩, f, h3, h4, h5, h6, h7⟩

/-- What can be said of the data from what is said of it after a change of the preconditioner. -/
theorem precond_back (s : Solver n m K) (Pu Au Ru : Bool) : (Consistent (updatePrecond s Pu Au Ru) → Consistent s) ∧ (Wired (updatePrecond s Pu Au Ru) → Wired s) := by
  unfold updatePrecond
  cases s.precond_type with
  | no => exact ⟨fun h => ⟨h.symm, h.transpose⟩, fun h => ⟨h.diagRow, h.diagCol, h.once, h.onceAt⟩⟩
  | diagonal =>
    simp only [updatePrecondDiagonal]
    split
    · exact ⟨id, id⟩
    · exact ⟨fun h => ⟨h.symm, h.transpose⟩, fun h => ⟨h.diagRow, h.diagCol, h.once, h.onceAt⟩⟩

theorem tol_keeps (sqrt : K → K) {s : Solver n m K} (h : StateOK s) (rhs : Vec K n) (prim dual : K) (it : ℤ) : StateOK (computeTolerance sqrt s rhs prim dual it).1 := by
  have key : ∀ (rf ep : K) (z : ℤ), StateOK { s with reduction_factor := rf, eps_prev := ep, zero_pcg_iters := z } := fun rf ep z =>
    ⟨⟨h.consistent.symm, h.consistent.transpose⟩, ⟨h.wired.diagRow, h.wired.diagCol, h.wired.once, h.wired.onceAt⟩, h.fresh, h.sigma, h.steps, h.sc, h.max_iter, h.fraction⟩
  unfold computeTolerance
  split
  · exact h
  · split
    · exact key _ _ _
    · exact key _ _ _

theorem solve_keeps {sqrt : K → K} {s s' : Solver n m K} {b1 : Vec K n} {b2 : Vec K m} {prim dual : K} {it : ℤ} {x : Vec K n} {z : Vec K m} (h : StateOK s)
    (call : solve sqrt s b1 b2 prim dual it = some (s', x, z)) : StateOK s' := by
  unfold solve at call
  simp only [Option.bind_eq_some_iff, Option.some.injEq] at call
  obtain ⟨⟨w, k⟩, -, hk⟩ := call
  have h' := tol_keeps sqrt h (computeRhs s b1 b2) prim dual it
  have key : ∀ (x : Vec K n) (z : ℤ), StateOK { (computeTolerance sqrt s (computeRhs s b1 b2) prim dual it).1 with x := x, zero_pcg_iters := z } := fun x z =>
    ⟨⟨h'.consistent.symm, h'.consistent.transpose⟩, ⟨h'.wired.diagRow, h'.wired.diagCol, h'.wired.once, h'.wired.onceAt⟩, h'.fresh, h'.sigma, h'.steps, h'.sc, h'.max_iter, h'.fraction⟩
  have := congrArg Prod.fst hk
  dsimp only at this
  rw [← this]
  exact key _ _

theorem hist_ok {sqrt : K → K} {s : Solver n m K} (h : CgHist sqrt s) : StateOK s := by
  induction h with
  | @init P diagInd A At rho_vec st polishing junk valid pos consistent wired =>
    have hc := (precond_back _ _ _ _).1 consistent
    have hw := (precond_back _ _ _ _).2 wired
    refine precond_keeps _ _ _ _ hc hw ?_ ?_ ?_ valid.max_iter valid.fraction (fresh_full _ _)
    · show 0 < (if polishing = true then st.delta else st.sigma)
      split
      · exact valid.delta
      · exact valid.sigma
    · intro i
      simp only [cudaSteps]
      cases hr : rho_vec with
      | none =>
        show 0 < (if polishing = true then 1 / st.delta else st.rho)
        split
        · exact one_div_pos.2 valid.delta
        · exact valid.rho
      | some rho => exact pos rho hr i
    · show 0 < (if polishing = true then 1 / st.delta else st.rho)
      split
      · exact one_div_pos.2 valid.delta
      · exact valid.rho
  | solve _ call ih => exact solve_keeps ih call
  | warmStart x _ ih =>
    exact ⟨⟨ih.consistent.symm, ih.consistent.transpose⟩, ⟨ih.wired.diagRow, ih.wired.diagCol, ih.wired.once, ih.wired.onceAt⟩, ih.fresh, ih.sigma, ih.steps, ih.sc, ih.max_iter, ih.fraction⟩
  | @settings s st _ valid ih =>
    unfold updateSettings
    dsimp only
    split
    · exact precond_keeps _ _ _ _ ⟨ih.consistent.symm, ih.consistent.transpose⟩ ⟨ih.wired.diagRow, ih.wired.diagCol, ih.wired.once, ih.wired.onceAt⟩ ih.sigma ih.steps ih.sc
        valid.max_iter valid.fraction (fresh_full _ _)
    · exact ⟨⟨ih.consistent.symm, ih.consistent.transpose⟩, ⟨ih.wired.diagRow, ih.wired.diagCol, ih.wired.once, ih.wired.onceAt⟩, ih.fresh, ih.sigma, ih.steps, ih.sc,
        valid.max_iter, valid.fraction⟩
  | matrices _ consistent ih =>
    have hc := (precond_back _ _ _ _).1 consistent
    exact precond_keeps _ _ _ _ hc ⟨ih.wired.diagRow, ih.wired.diagCol, ih.wired.once, ih.wired.onceAt⟩ ih.sigma ih.steps ih.sc ih.max_iter ih.fraction (fresh_full _ _)
  | @rho s rho rho_sc _ pos posv ih =>
    refine precond_keeps _ _ _ _ ⟨ih.consistent.symm, ih.consistent.transpose⟩ ⟨ih.wired.diagRow, ih.wired.diagCol, ih.wired.once, ih.wired.onceAt⟩ ih.sigma ?_ pos ih.max_iter ih.fraction
      (fresh_rho ih.fresh (by simp) rfl)
    intro i
    simp only [cudaSteps]
    cases hr : s.rho_vec with
    | none => exact pos
    | some v => exact posv i

end Osqp.Cuda
