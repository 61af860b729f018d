import Verif.Cuda.PcgLemmas
import Verif.Props.Ldl
import Mathlib.Algebra.Order.BigOperators.Ring.Finset

/-!
# C72: conjugate gradients on the GPU

`systemOf s` (`Spec/Pcg.lean`) is `P + sigma*I + A'*diag(rho)*A` for the matrices in device memory, `energy B b` the quadratic function that the solution of
`B x = b` minimises, `CgHist` the states of a solver in use.
-/

namespace Osqp.Cuda
open Matrix Osqp.Spec

variable {K : Type*} [Field K] [LinearOrder K] [IsStrictOrderedRing K] {m n : ℕ} {sqrt : K → K} {s s' : Solver n m K}

/-- **C72** (stopping). When the conjugate-gradient routine ends without a division by zero, the residual it tests is the true one, and either it meets the tolerance or the
limit of iterations is used up. -/
theorem c72_stop (hs : Consistent s) {rhs : Vec K n} {eps : K} {lim : ℤ} {w : Work n K} {k : ℕ} (call : pcgAlg s rhs eps lim = some (w, k)) :
    w.r_norm = normInf (systemOf s *ᵥ w.x - rhs) ∧ k ≤ lim.toNat ∧ (normInf (systemOf s *ᵥ w.x - rhs) ≤ eps ∨ k = lim.toNat) := by
  obtain ⟨g, -, h1, h2⟩ := loop_good hs _ _ (good_start hs rhs) call
  have : w.r_norm = normInf (systemOf s *ᵥ w.x - rhs) := by rw [g.norm, g.r]
  rw [zero_add] at h1 h2
  exact ⟨this, h1, by rwa [← this]⟩

/-- **C72** (convergence). On a positive definite system with a positive preconditioner the routine divides by zero nowhere, ends after at most as many iterations as there are
unknowns, has then met the tolerance unless the limit was smaller, and returns a point that is no worse than the one it started from, and better if it moved at all. -/
theorem c72_converges (hs : Consistent s) (pd : ∀ x : Fin n → K, x ≠ 0 → 0 < x ⬝ᵥ (systemOf s *ᵥ x)) (hw : ∀ j, 0 < s.precond_inv j) (rhs : Vec K n) {eps : K} (he : 0 ≤ eps) (lim : ℤ) :
    ∃ w k, pcgAlg s rhs eps lim = some (w, k) ∧ k ≤ n ∧ ((n : ℤ) ≤ lim → normInf (systemOf s *ᵥ w.x - rhs) ≤ eps) ∧
      energy (systemOf s) rhs w.x ≤ energy (systemOf s) rhs s.x ∧ (0 < k → energy (systemOf s) rhs w.x < energy (systemOf s) rhs s.x) := by
  obtain ⟨w, k, h1, h2, h3, h4, h5⟩ := loop_pd hs pd hw he lim.toNat 0 (good_start hs rhs) (inv_start (systemOf s) s.precond_inv _) rfl
  refine ⟨w, k, h1, by simpa using h4, fun h => ?_, h2, h3⟩
  rw [← (c72_stop hs h1).1]
  exact h5 (by omega)

/-- **C72** (the preconditioner is never stale). After any history the diagonal preconditioner is the inverse of the diagonal of the system with the current matrices and step
sizes; without preconditioning it is the identity. -/
theorem c72_precond (hist : CgHist sqrt s) (j : Fin n) : s.precond_inv j = match s.precond_type with
    | .no => 1
    | .diagonal => 1 / systemOf s j j := by
  have h := hist_ok hist
  have f := h.fresh
  unfold Fresh at f
  cases hp : s.precond_type with
  | no => simp only [hp] at f; rw [f]
  | diagonal => simp only [hp] at f; rw [f.2.2, ← diag_eq h.consistent h.wired]

theorem system_pd (h : StateOK s) (convex : PSD (dense s.P.pat s.P.val)) (x : Fin n → K) (hx : x ≠ 0) : 0 < x ⬝ᵥ (systemOf s *ᵥ x) := by
  rw [system_form]
  have h1 := definite convex h.sigma x hx
  have h2 : 0 ≤ ∑ i, cudaSteps s i * (dense s.A.pat s.A.val *ᵥ x) i ^ 2 := Finset.sum_nonneg fun i _ => mul_nonneg (h.steps i).le (sq_nonneg _)
  linarith

theorem precond_pos (hist : CgHist sqrt s) (convex : PSD (dense s.P.pat s.P.val)) (j : Fin n) : 0 < s.precond_inv j := by
  rw [c72_precond hist j]
  cases s.precond_type with
  | no => exact one_pos
  | diagonal =>
    refine one_div_pos.2 ?_
    have := system_pd (hist_ok hist) convex (Pi.single j 1) (by simp)
    simpa using this

/-- **C72** (tolerance). The tolerance handed to the routine is never negative. Apart from the first ADMM iteration it is at least the hard minimum; and in polishing at most
the larger of the minimum and the fixed fraction of the right-hand side. In the iteration it is remembered, and from the second on at most the larger of the minimum and
the remembered one. -/
theorem c72_tolerance (hist : CgHist sqrt s) (rhs : Vec K n) (prim dual : K) (it : ℤ) :
    let t := computeTolerance sqrt s rhs prim dual it
    0 ≤ t.2 ∧ (s.polishing = true ∨ it ≠ 1 → 1 / 10 ^ 7 ≤ t.2) ∧ (s.polishing = true → t.2 ≤ max (1 / 10 ^ 7) (normInf rhs / 10 ^ 5)) ∧
      (s.polishing = false → t.1.eps_prev = t.2) ∧ (s.polishing = false → it ≠ 1 → t.2 ≤ max (1 / 10 ^ 7) s.eps_prev) ∧
      (s.polishing = false → it = 1 → t.2 = if normInf rhs < 1 / 10 ^ 7 then 1 else normInf rhs * s.tol_fraction) := by
  have h := hist_ok hist
  have e7 : (Cg.tolMin : K) = 1 / 10 ^ 7 := by unfold Cg.tolMin; norm_num
  have e5 : (Cg.polishTol : K) = 1 / 10 ^ 5 := by unfold Cg.polishTol; norm_num
  have p7 : (0 : K) < 1 / 10 ^ 7 := by positivity
  have hn := normInf_nonneg rhs
  simp only [computeTolerance, amax_eq, e7, e5, cMax_eq, cMin_eq]
  by_cases hp : s.polishing = true
  · simp only [hp, if_true]
    refine ⟨le_trans p7.le (le_max_right _ _), fun _ => le_max_right _ _, fun _ => ?_, by simp, by simp, by simp⟩
    rw [max_comm, mul_one_div]
  · have hp' : s.polishing = false := by simpa using hp
    by_cases hi : it = 1
    · simp only [hp', Bool.false_eq_true, if_false, hi, if_true]
      refine ⟨?_, by simp, by simp, by simp, by simp, by simp⟩
      split
      · exact zero_le_one
      · exact mul_nonneg hn h.fraction.1.le
    · simp only [hp', Bool.false_eq_true, if_false, hi]
      refine ⟨le_trans p7.le (le_max_right _ _), fun _ => le_max_right _ _, by simp, by simp, fun _ _ => ?_, by simp⟩
      rw [max_comm]
      exact max_le_max le_rfl (min_le_right _ _)

/-- The residual of the first block of the KKT system at `x`, the second block being solved for the multiplier `rho*(A x - b2)`. -/
def blockResidual (s : Solver n m K) (b1 : Vec K n) (b2 : Vec K m) (x : Vec K n) : Fin n → K :=
  dense s.P.pat s.P.val *ᵥ x + s.h_sigma • x + (dense s.A.pat s.A.val)ᵀ *ᵥ (fun i => cudaSteps s i * ((dense s.A.pat s.A.val *ᵥ x) i - b2 i)) - b1

theorem rhs_eq (hs : Consistent s) (b1 : Vec K n) (b2 : Vec K m) : computeRhs s b1 b2 = (dense s.A.pat s.A.val)ᵀ *ᵥ (fun i => cudaSteps s i * b2 i) + b1 := by
  have key : ∀ z : Fin m → K, z = (fun i => cudaSteps s i * b2 i) → (fun j => s.At.mul z j + b1 j) = (dense s.A.pat s.A.val)ᵀ *ᵥ (fun i => cudaSteps s i * b2 i) + b1 := by
    rintro z rfl; funext j; rw [mul_eq, hs.transpose]; rfl
  unfold computeRhs
  by_cases hm : m = 0
  · subst hm
    simp only [if_true]
    funext j
    simp [mulVec, dotProduct]
  · simp only [if_neg hm]
    cases hr : s.rho_vec with
    | none => exact key _ (by simp [cudaSteps, hr])
    | some rho => exact key _ (by funext i; simp [cudaSteps, hr, mul_comm])

theorem residual_eq (hs : Consistent s) (b1 : Vec K n) (b2 : Vec K m) (x : Vec K n) : systemOf s *ᵥ x - computeRhs s b1 b2 = blockResidual s b1 b2 x := by
  rw [rhs_eq hs]
  unfold systemOf reduced blockResidual
  have : (fun i => cudaSteps s i * ((dense s.A.pat s.A.val *ᵥ x) i - b2 i)) = diagonal (cudaSteps s) *ᵥ (dense s.A.pat s.A.val *ᵥ x) - fun i => cudaSteps s i * b2 i := by
    funext i; simp only [Pi.sub_apply, mulVec_diagonal]; ring
  have h2 : diagonal (fun _ : Fin n => s.h_sigma) *ᵥ x = s.h_sigma • x := by funext j; simp [mulVec_diagonal]
  rw [this, mulVec_sub, add_mulVec, add_mulVec, ← mulVec_mulVec, ← mulVec_mulVec, h2]
  abel

/-- The tolerance does not touch what the system is made of. -/
theorem tol_data (rhs : Vec K n) (prim dual : K) (it : ℤ) : let t := (computeTolerance sqrt s rhs prim dual it).1
    systemOf t = systemOf s ∧ t.x = s.x ∧ t.A = s.A ∧ t.h_rho = s.h_rho ∧ t.polishing = s.polishing ∧ t.max_iter = s.max_iter ∧ t.precond_inv = s.precond_inv := by
  unfold computeTolerance
  split
  · exact ⟨rfl, rfl, rfl, rfl, rfl, rfl, rfl⟩
  · split
    · exact ⟨rfl, rfl, rfl, rfl, rfl, rfl, rfl⟩
    · exact ⟨rfl, rfl, rfl, rfl, rfl, rfl, rfl⟩

/-- **C72** (a solve). After any history of a convex problem a solve succeeds and returns in place of `(b1, b2)` a point `x` with, in the iteration, exactly `A x`, and in polishing
exactly the multiplier `(A x - b2)*rho`; the point is remembered for the next solve. If the iteration limit is at least the number of unknowns, the first block of the KKT system
holds up to the tolerance in force. In any case the point is no worse than the remembered one. -/
theorem c72_solve (hist : CgHist sqrt s) (convex : PSD (dense s.P.pat s.P.val)) (b1 : Vec K n) (b2 : Vec K m) (prim dual : K) (it : ℤ) :
    ∃ s' x z, solve sqrt s b1 b2 prim dual it = some (s', x, z) ∧ s'.x = x ∧
      z = (if s.polishing then fun i => s.h_rho * ((dense s.A.pat s.A.val *ᵥ x) i - b2 i) else dense s.A.pat s.A.val *ᵥ x) ∧
      ((n : ℤ) ≤ s.max_iter → normInf (blockResidual s b1 b2 x) ≤ (computeTolerance sqrt s (computeRhs s b1 b2) prim dual it).2) ∧
      energy (systemOf s) (computeRhs s b1 b2) x ≤ energy (systemOf s) (computeRhs s b1 b2) s.x := by
  have h := hist_ok hist
  have ht := tol_keeps sqrt h (computeRhs s b1 b2) prim dual it
  obtain ⟨d1, d2, d3, d4, d5, d6, d7⟩ := tol_data (sqrt := sqrt) (s := s) (computeRhs s b1 b2) prim dual it
  have he := (c72_tolerance hist (computeRhs s b1 b2) prim dual it).1
  set T := computeTolerance sqrt s (computeRhs s b1 b2) prim dual it with hT
  obtain ⟨w, k, h1, -, h3, h4, -⟩ := c72_converges (s := T.1) ht.consistent (fun x hx => by rw [d1]; exact system_pd h convex x hx) (fun j => by rw [d7]; exact precond_pos hist convex j)
    (computeRhs s b1 b2) he T.1.max_iter
  rw [d1, d2] at h4
  rw [d1, d6] at h3
  have hsolve : solve sqrt s b1 b2 prim dual it = some ({ T.1 with x := w.x, zero_pcg_iters := if k = 0 then T.1.zero_pcg_iters + 1 else 0 }, w.x,
      if T.1.polishing then fun i => T.1.h_rho * (T.1.A.mul w.x i - b2 i) else T.1.A.mul w.x) := by
    unfold solve
    simp only [← hT, h1, Option.bind_some]
    rfl
  refine ⟨_, _, _, hsolve, rfl, ?_, fun hn => ?_, h4⟩
  · rw [d3, d4, d5, mul_eq]
  · rw [← residual_eq h.consistent]; exact h3 hn

/-- **C72** (what the tolerance is worth). If the first block holds up to `eps`, the distance to the exact solution is at most `eps*sqrt(n)/sigma`. -/
theorem c72_error (hist : CgHist sqrt s) (convex : PSD (dense s.P.pat s.P.val)) {b1 : Vec K n} {b2 : Vec K m} {x y : Vec K n} {eps : K}
    (approx : normInf (blockResidual s b1 b2 x) ≤ eps) (exact : blockResidual s b1 b2 y = 0) :
    s.h_sigma ^ 2 * ∑ j, (x j - y j) ^ 2 ≤ n * eps ^ 2 := by
  have h := hist_ok hist
  set r := blockResidual s b1 b2 x with hr
  set e := x - y with he
  have hK : systemOf s *ᵥ e = r := by
    have h1 := residual_eq h.consistent b1 b2 x
    have h2 := residual_eq h.consistent b1 b2 y
    rw [exact] at h2
    rw [he, mulVec_sub, hr, ← h1, sub_eq_zero.1 h2]
  have hs : s.h_sigma * (e ⬝ᵥ e) ≤ e ⬝ᵥ r := by
    rw [← hK, system_form]
    have h1 := convex e
    have h2 : 0 ≤ ∑ i, cudaSteps s i * (dense s.A.pat s.A.val *ᵥ e) i ^ 2 := Finset.sum_nonneg fun i _ => mul_nonneg (h.steps i).le (sq_nonneg _)
    linarith
  have cs : (e ⬝ᵥ r) ^ 2 ≤ (e ⬝ᵥ e) * (r ⬝ᵥ r) := by
    have := Finset.sum_mul_sq_le_sq_mul_sq Finset.univ e r
    simpa [dotProduct, pow_two] using this
  have e0 : 0 ≤ e ⬝ᵥ e := Finset.sum_nonneg fun i _ => mul_self_nonneg _
  have r0 : 0 ≤ r ⬝ᵥ r := Finset.sum_nonneg fun i _ => mul_self_nonneg _
  have rr : r ⬝ᵥ r ≤ n * eps ^ 2 := by
    have hb := ((normInf_le_iff r eps).1 approx).2
    calc r ⬝ᵥ r ≤ ∑ _j : Fin n, eps ^ 2 := Finset.sum_le_sum fun j _ => by
          have := sq_le_sq' (neg_le_of_abs_le (hb j)) (le_of_abs_le (hb j))
          calc r j * r j = r j ^ 2 := by ring
            _ ≤ _ := this
      _ = _ := by simp
  have main : s.h_sigma ^ 2 * (e ⬝ᵥ e) ≤ r ⬝ᵥ r := by
    rcases eq_or_lt_of_le e0 with h0 | h0
    · rw [← h0, mul_zero]; exact r0
    · have h1 : (s.h_sigma * (e ⬝ᵥ e)) ^ 2 ≤ (e ⬝ᵥ e) * (r ⬝ᵥ r) :=
        le_trans (pow_le_pow_left₀ (mul_nonneg h.sigma.le e0) hs 2) cs
      have h2 : (e ⬝ᵥ e) * (s.h_sigma ^ 2 * (e ⬝ᵥ e)) ≤ (e ⬝ᵥ e) * (r ⬝ᵥ r) := by linarith [h1]
      exact le_of_mul_le_mul_left h2 h0
  have : ∑ j, (x j - y j) ^ 2 = e ⬝ᵥ e := by
    simp only [dotProduct, he, Pi.sub_apply]; exact Finset.sum_congr rfl fun j _ => by ring
  rw [this]
  exact main.trans rr

/-! ### An instance -/

/-- `P = [2 1; 1 2]` in full, `A = [1 3]`, on the device. -/
def demo (pc : Precond) : Solver 2 1 ℚ :=
  init (P := ⟨⟨4, ![0, 0, 1, 1], ![0, 1, 0, 1]⟩, ![2, 1, 1, 2]⟩) ![0, 3] ⟨⟨2, ![0, 0], ![0, 1]⟩, ![1, 3]⟩ ⟨⟨2, ![0, 1], ![0, 0]⟩, ![1, 3]⟩ (some ![1 / 2])
    { cg_max_iter := 20, cg_precond := pc, cg_tol_reduction := 10, cg_tol_fraction := 3 / 20, sigma := 1 / 10 ^ 6, rho := 1 / 10, delta := 1 / 10 ^ 6 } false fun _ => 7

/-- The hypotheses of the theorems above hold of it. -/
theorem demo_ok (pc : Precond) (sqrt : ℚ → ℚ) : CgHist sqrt (demo pc) ∧ PSD (dense (demo pc).P.pat (demo pc).P.val) := by
  refine ⟨.init ⟨by norm_num, by norm_num, by norm_num, by norm_num, by norm_num, by norm_num⟩ (fun rho h i => ?_) ?_ ?_, ?_⟩
  · simp only [Option.some.injEq] at h
    subst h
    fin_cases i; norm_num
  · constructor
    · cases pc <;> (ext i j; fin_cases i <;> fin_cases j <;> decide +kernel)
    · cases pc <;> (ext i j; fin_cases i <;> fin_cases j <;> decide +kernel)
  · constructor <;> (cases pc <;> decide +kernel)
  · have : dense (demo pc).P.pat (demo pc).P.val = !![2, 1; 1, 2] := by
      cases pc <;> (ext i j; fin_cases i <;> fin_cases j <;> decide +kernel)
    rw [this]
    intro x
    simp [mulVec, dotProduct, Fin.sum_univ_two]
    nlinarith [sq_nonneg (x 0 + x 1), sq_nonneg (x 0), sq_nonneg (x 1)]

/-- A solve of it that iterates: two unknowns, two passes, then the first block holds exactly. -/
example : ((solve (fun _ => 1) (demo .diagonal) ![1, 2] ![3] 1 1 2).map fun r => (blockResidual (demo .diagonal) ![1, 2] ![3] r.2.1, decide (r.2.1 = ![0, 0]))) = some (![0, 0], false) := by
  decide +kernel

end Osqp.Cuda
