import Verif.Csc.DerivGet
import Verif.Csc.DerivErr

/-!
# The returned derivatives as a linear functional of the data
-/

set_option linter.unusedSectionVars false
namespace Osqp.Csc
open Finset

variable {K : Type*} [Field K] [LinearOrder K] [IsStrictOrderedRing K] (p : Prob K)

/-- The derivatives made from the solution `Z` of the linear system. -/
def Prob.grad (p : Prob K) (VP VA : View K) (Z : ℕ → K) : Data K :=
  ⟨fun k => p.dPF Z (VP.i k) (VP.col k), p.zx Z, fun k => (p.dAF Z (VA.i k) (VA.col k)).getD 0, fun r => (p.dlF Z r).getD 0, fun r => -(p.ruF Z r).getD 0⟩

theorem dlF_some (Z : ℕ → K) (r : ℕ) : p.dlF Z r = some ((p.dlF Z r).getD 0) := by
  unfold Prob.dlF; split_ifs <;> rfl
theorem ruF_some (Z : ℕ → K) {r : ℕ} (h : p.Eq r → p.y r ≠ 0) : p.ruF Z r = some ((p.ruF Z r).getD 0) := by
  unfold Prob.ruF
  by_cases h1 : p.Eq r
  · rw [if_pos h1, if_neg (h h1)]; split_ifs <;> rfl
  · rw [if_neg h1]; split_ifs <;> rfl
theorem dAF_some (Z : ℕ → K) {r : ℕ} (c : ℕ) (h : p.Eq r → p.y r ≠ 0) :
    p.dAF Z r c = some (p.y r * p.zx Z c + ((p.ruF Z r).getD 0 - (p.dlF Z r).getD 0) * p.x c) := by
  unfold Prob.dAF
  rw [dlF_some p Z r, ruF_some p Z h]
  simp only [Option.bind_some, Option.getD_some]
  congr 3
  unfold Prob.yu Prob.yl
  rcases le_total (p.y r) 0 with h | h
  · rw [max_eq_right h, max_eq_left (by linarith)]; ring
  · rw [max_eq_left h, max_eq_right (by linarith)]; ring

theorem rowDot_eq (Z : ℕ → K) (d : Dir K) {r : ℕ} (h0 : p.Eq r → p.y r ≠ 0) (hlu : p.Eq r → d.l r = d.u r) :
    p.rowDot Z d r = (p.dlF Z r).getD 0 * d.l r + -(p.ruF Z r).getD 0 * d.u r + ((p.ruF Z r).getD 0 - (p.dlF Z r).getD 0) * ∑ j ∈ range p.n, d.A r j * p.x j := by
  unfold Prob.rowDot Prob.dlF Prob.ruF
  by_cases h3 : p.Eq r
  · rw [if_neg (eq_not_lo p h3), if_neg (eq_not_up p h3), if_pos h3, if_pos h3, if_pos h3, if_neg (h0 h3)]
    by_cases h4 : p.y r ≥ 0
    · rw [if_pos h4, if_pos h4, hlu h3]; simp only [Option.getD_some]; ring
    · rw [if_neg h4, if_neg h4, hlu h3]; simp only [Option.getD_some]; ring
  · rw [if_neg h3, if_neg h3, if_neg h3]
    by_cases h1 : p.Lo r
    · rw [if_pos h1, if_pos h1]
      by_cases h2 : p.Up r
      · rw [if_pos h2, if_pos h2]; simp only [Option.getD_some]; ring
      · rw [if_neg h2, if_neg h2]; simp only [Option.getD_some]; ring
    · rw [if_neg h1, if_neg h1]
      by_cases h2 : p.Up r
      · rw [if_pos h2, if_pos h2]; simp only [Option.getD_some]; ring
      · rw [if_neg h2, if_neg h2]; simp only [Option.getD_some]; ring

theorem pairing_eq {VP VA : View K} (hP : VP.Valid) (ht : VP.Triu) (hPm : VP.m = p.n) (hPn : VP.n = p.n) (hA : VA.Valid) (hAm : VA.m = p.m) (hAn : VA.n = p.n)
    (Z : ℕ → K) (s : Data K) (h0 : ∀ r < p.m, p.Eq r → p.y r ≠ 0) (hlu : ∀ r < p.m, p.Eq r → s.l r = s.u r) :
    (∑ i ∈ range p.n, p.zx Z i * ((∑ j ∈ range p.n, (s.dir VP VA).P i j * p.x j) + (s.dir VP VA).q i + ∑ r ∈ range p.m, (s.dir VP VA).A r i * p.y r)) +
      ∑ r ∈ range p.m, p.rowDot Z (s.dir VP VA) r = pairing p.n p.m VP VA (p.grad VP VA Z) s := by
  have e1 : ∑ i ∈ range p.n, p.zx Z i * ∑ j ∈ range p.n, (VP.withVals s.P).symEntry i j * p.x j = ∑ k ∈ range VP.nnz, (if VP.i k = VP.col k then 1 else 2) * ((p.grad VP VA Z).P k * s.P k) := by
    have := sum_bilin_sym (V := VP.withVals s.P) (hP.withVals s.P) (ht.withVals s.P) (hPm.trans hPn.symm) (fun i j => p.zx Z i * p.x j)
    rw [show (VP.withVals s.P).n = p.n from hPn] at this
    refine Eq.trans ?_ (this.trans ?_)
    · refine sum_congr rfl fun i _ => ?_
      rw [mul_sum]; exact sum_congr rfl fun j _ => by ring
    · show ∑ k ∈ range VP.nnz, s.P k * (if VP.i k = VP.col k then p.zx Z (VP.i k) * p.x (VP.col k) else p.zx Z (VP.i k) * p.x (VP.col k) + p.zx Z (VP.col k) * p.x (VP.i k)) = _
      refine sum_congr rfl fun k _ => ?_
      show _ = _ * (1 / 2 * (p.zx Z (VP.i k) * p.x (VP.col k) + p.zx Z (VP.col k) * p.x (VP.i k)) * s.P k)
      by_cases e : VP.i k = VP.col k
      · rw [if_pos e, if_pos e, e]; ring
      · rw [if_neg e, if_neg e]; ring
  have e2 : (∑ i ∈ range p.n, p.zx Z i * ∑ r ∈ range p.m, (VA.withVals s.A).entry r i * p.y r) +
      ∑ r ∈ range p.m, ((p.ruF Z r).getD 0 - (p.dlF Z r).getD 0) * ∑ j ∈ range p.n, (VA.withVals s.A).entry r j * p.x j = ∑ k ∈ range VA.nnz, (p.grad VP VA Z).A k * s.A k := by
    have := sum_bilin (V := VA.withVals s.A) (hA.withVals s.A) (fun r c => p.y r * p.zx Z c + ((p.ruF Z r).getD 0 - (p.dlF Z r).getD 0) * p.x c)
    rw [show (VA.withVals s.A).n = p.n from hAn, show (VA.withVals s.A).m = p.m from hAm] at this
    refine Eq.trans ?_ (this.symm.trans ?_)
    · rw [show (∑ r ∈ range p.m, ((p.ruF Z r).getD 0 - (p.dlF Z r).getD 0) * ∑ j ∈ range p.n, (VA.withVals s.A).entry r j * p.x j) =
          ∑ j ∈ range p.n, ∑ r ∈ range p.m, ((p.ruF Z r).getD 0 - (p.dlF Z r).getD 0) * ((VA.withVals s.A).entry r j * p.x j) by simp only [mul_sum]; rw [sum_comm],
        ← sum_add_distrib]
      refine sum_congr rfl fun c _ => ?_
      rw [mul_sum, ← sum_add_distrib]
      exact sum_congr rfl fun r _ => by ring
    · refine sum_congr rfl fun k hk => ?_
      have hr : VA.i k < p.m := by have := hA.rows k (mem_range.1 hk); omega
      show s.A k * (p.y (VA.i k) * p.zx Z (VA.col k) + ((p.ruF Z (VA.i k)).getD 0 - (p.dlF Z (VA.i k)).getD 0) * p.x (VA.col k)) = (p.dAF Z (VA.i k) (VA.col k)).getD 0 * s.A k
      rw [dAF_some p Z _ (h0 _ hr)]; simp only [Option.getD_some]; ring
  have e3 : ∑ r ∈ range p.m, p.rowDot Z (s.dir VP VA) r = (∑ r ∈ range p.m, ((p.grad VP VA Z).l r * s.l r + (p.grad VP VA Z).u r * s.u r)) +
      ∑ r ∈ range p.m, ((p.ruF Z r).getD 0 - (p.dlF Z r).getD 0) * ∑ j ∈ range p.n, (VA.withVals s.A).entry r j * p.x j := by
    rw [← sum_add_distrib]
    exact sum_congr rfl fun r hr => rowDot_eq p Z (s.dir VP VA) (h0 r (mem_range.1 hr)) (hlu r (mem_range.1 hr))
  rw [e3]
  unfold pairing
  rw [← e1, ← e2]
  have e4 : ∑ i ∈ range p.n, p.zx Z i * ((∑ j ∈ range p.n, (s.dir VP VA).P i j * p.x j) + (s.dir VP VA).q i + ∑ r ∈ range p.m, (s.dir VP VA).A r i * p.y r) =
      (∑ i ∈ range p.n, p.zx Z i * ∑ j ∈ range p.n, (VP.withVals s.P).symEntry i j * p.x j) + (∑ i ∈ range p.n, (p.grad VP VA Z).q i * s.q i) +
      ∑ i ∈ range p.n, p.zx Z i * ∑ r ∈ range p.m, (VA.withVals s.A).entry r i * p.y r := by
    rw [← sum_add_distrib, ← sum_add_distrib]
    refine sum_congr rfl fun i _ => ?_
    show p.zx Z i * ((∑ j ∈ range p.n, (VP.withVals s.P).symEntry i j * p.x j) + s.q i + ∑ r ∈ range p.m, (VA.withVals s.A).entry r i * p.y r) = _ + p.zx Z i * s.q i + _
    ring
  rw [e4]; ring

theorem StoredIs.sym {S : Stored K} (h : StoredIs S p) : ∀ i < p.n, ∀ j < p.n, p.P i j = p.P j i := by
  obtain ⟨VP, VA, L, U, -, h⟩ := h
  have hs : ∀ i j, VP.symEntry i j = VP.symEntry j i := fun i j => by
    unfold View.symEntry
    by_cases h1 : i ≤ j
    · by_cases h2 : j ≤ i
      · rw [show i = j by omega]
      · rw [if_pos h1, if_neg h2]
    · rw [if_neg h1, if_pos (by omega)]
  intro i hi j hj
  cases hsc : S.scal with
  | none => rw [hsc] at h; rw [h.1 i hi j hj, h.1 j hj i hi, hs]
  | some sc =>
    rw [hsc] at h
    obtain ⟨D, E, -, -, h, -⟩ := h
    rw [h i hi j hj, h j hj i hi, hs]; ring

/-- Every entry of a vector is at most its norm. -/
theorem abs_le_norm {sqrt : K → K} (hs : ∀ v, 0 ≤ v → 0 ≤ sqrt v ∧ v ≤ sqrt v * sqrt v) (dim : ℕ) (v : ℕ → K) {k : ℕ} (hk : k < dim) : |v k| ≤ sqrt (sqNorm dim v) := by
  have h0 : 0 ≤ sqNorm dim v := sum_nonneg fun _ _ => mul_self_nonneg _
  obtain ⟨h1, h2⟩ := hs _ h0
  have h3 : v k * v k ≤ sqNorm dim v := single_le_sum (f := fun r => v r * v r) (fun _ _ => mul_self_nonneg _) (mem_range.2 hk)
  refine abs_le_of_sq_le_sq ?_ h1
  rw [pow_two, pow_two]; linarith

end Osqp.Csc
