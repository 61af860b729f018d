import Verif.Props.Rho
import Mathlib.Tactic.LinearCombination
import Mathlib.LinearAlgebra.Matrix.ToLin
import Mathlib.LinearAlgebra.FiniteDimensional.Basic

/-!
# The linear system of the iteration (C40, C41)

`kktMatrix P A sigma rho` is the matrix `[P + sigma*I, A'; A, -diag(1/rho)]`, `heldMatrix` the one kept by the linear-system solver
(`Spec/Rho.lean`).
-/

set_option linter.unusedSectionVars false
namespace Osqp
open Spec Matrix

variable {K : Type*} [Field K] [LinearOrder K] [IsStrictOrderedRing K] {d : Dims} {n m : ℕ}
variable {cfg : Cfg} {env : Env d K} {D₀ U : Data d K} {st₀ : Settings K} {s : Solver d K}

/-! ## C41 -/

theorem kkt_mulVec (P : Matrix (Fin n) (Fin n) K) (A : Matrix (Fin m) (Fin n) K) (sigma : K) (rho : Fin m → K) (x : Fin n → K) (w : Fin m → K) :
    kktMatrix P A sigma rho *ᵥ Sum.elim x w = Sum.elim (fun j => (P *ᵥ x) j + sigma * x j + (Aᵀ *ᵥ w) j) (fun i => (A *ᵥ x) i - 1 / rho i * w i) := by
  unfold kktMatrix
  rw [fromBlocks_mulVec]
  congr 1
  · funext j
    simp [add_mulVec, mulVec_diagonal]
  · funext i
    simp [neg_mulVec, mulVec_diagonal]
    ring

/-- **C41.** For positive semidefinite `P`, `sigma > 0` and positive step sizes the linear system of the iteration has exactly one
solution for every right-hand side. -/
theorem c41_unique {P : Matrix (Fin n) (Fin n) K} (A : Matrix (Fin m) (Fin n) K) {sigma : K} {rho : Fin m → K} (hP : PSD P) (hs : 0 < sigma)
    (hr : ∀ i, 0 < rho i) (b : Fin n ⊕ Fin m → K) : ∃! v, kktMatrix P A sigma rho *ᵥ v = b := by
  have hinj : Function.Injective (kktMatrix P A sigma rho).mulVecLin := by
    rw [← LinearMap.ker_eq_bot, LinearMap.ker_eq_bot']
    intro v hv
    rw [mulVecLin_apply] at hv
    obtain ⟨x, w, rfl⟩ : ∃ x w, v = Sum.elim x w := ⟨v ∘ Sum.inl, v ∘ Sum.inr, (Sum.elim_comp_inl_inr v).symm⟩
    rw [kkt_mulVec] at hv
    have h1 : ∀ j, (P *ᵥ x) j + sigma * x j + (Aᵀ *ᵥ w) j = 0 := fun j => congrFun hv (Sum.inl j)
    have h2 : ∀ i, (A *ᵥ x) i = 1 / rho i * w i := fun i => sub_eq_zero.1 (congrFun hv (Sum.inr i))
    have e1 : x ⬝ᵥ (P *ᵥ x) + sigma * (x ⬝ᵥ x) + x ⬝ᵥ (Aᵀ *ᵥ w) = 0 := by
      simp only [dotProduct, Finset.mul_sum, ← Finset.sum_add_distrib]
      refine Finset.sum_eq_zero fun j _ => ?_
      linear_combination x j * h1 j
    have e2 : x ⬝ᵥ (Aᵀ *ᵥ w) = ∑ i, 1 / rho i * (w i * w i) := by
      rw [dotProduct_mulVec, vecMul_transpose]
      simp only [dotProduct]
      refine Finset.sum_congr rfl fun i _ => ?_
      rw [h2 i]; ring
    have g1 := hP x
    have g2 : 0 ≤ x ⬝ᵥ x := Finset.sum_nonneg fun j _ => mul_self_nonneg (x j)
    have g3 : ∀ i ∈ Finset.univ, 0 ≤ 1 / rho i * (w i * w i) := fun i _ => mul_nonneg (one_div_pos.2 (hr i)).le (mul_self_nonneg _)
    have g4 := Finset.sum_nonneg g3
    have g5 : 0 ≤ sigma * (x ⬝ᵥ x) := mul_nonneg hs.le g2
    rw [e2] at e1
    have f1 : sigma * (x ⬝ᵥ x) = 0 := by linarith
    have f2 : ∑ i, 1 / rho i * (w i * w i) = 0 := by linarith
    have f3 : x ⬝ᵥ x = 0 := (mul_eq_zero.1 f1).resolve_left hs.ne'
    have hx : x = 0 := by
      funext j
      exact mul_self_eq_zero.1 ((Finset.sum_eq_zero_iff_of_nonneg fun j _ => mul_self_nonneg (x j)).1 f3 j (Finset.mem_univ j))
    have hw : w = 0 := by
      funext i
      have := (Finset.sum_eq_zero_iff_of_nonneg g3).1 f2 i (Finset.mem_univ i)
      exact mul_self_eq_zero.1 ((mul_eq_zero.1 this).resolve_left (one_div_pos.2 (hr i)).ne')
    rw [hx, hw]
    funext i; cases i <;> rfl
  have hsur := LinearMap.injective_iff_surjective.1 hinj
  obtain ⟨v, hv⟩ := hsur b
  exact ⟨v, hv, fun v' hv' => hinj (by rw [hv]; exact hv')⟩

/-- The step sizes in use are positive. -/
theorem steps_pos (h : Sync s) (i : Fin d.m) : 0 < steps s i := by
  have h0 := lt_of_lt_of_le rhoMin_pos h.rho_lo
  unfold steps
  by_cases hv : s.settings.rho_is_vec = 0
  · rw [if_neg (by simp [hv])]; exact h0
  · rw [if_pos hv, (h.vec hv).1]; exact rhoVecOf_pos h0 i

/-- Scaling keeps `P` positive semidefinite. -/
theorem psd_scaled {P : Matrix (Fin n) (Fin n) K} (hP : PSD P) {c : K} (hc : 0 ≤ c) (D : Fin n → K) : PSD (fun i j => c * (D i * P i j * D j)) := by
  intro x
  have := mul_nonneg hc (hP fun j => D j * x j)
  have e : x ⬝ᵥ ((fun i j => c * (D i * P i j * D j)) *ᵥ x) = c * ((fun j => D j * x j) ⬝ᵥ (P *ᵥ fun j => D j * x j)) := by
    simp only [dotProduct, mulVec, Finset.mul_sum]
    exact Finset.sum_congr rfl fun i _ => Finset.sum_congr rfl fun j _ => by ring
  rw [e]; exact this

theorem costScale_pos (h : Inv cfg st₀ U s) : 0 < costScale s := by
  rw [costScale_eff]; exact (rep_eff h.rep).1.c_pos

theorem colScale_eff (s : Solver d K) : colScale s = (effSc s).D := by
  funext j; unfold colScale effSc; split_ifs <;> rfl

theorem param2_steps (h : Sync s) (i : Fin d.m) : s.work.linsys.param2 i = 1 / steps s i := by
  unfold LinSys.param2 steps
  by_cases hv : s.settings.rho_is_vec = 0
  · obtain ⟨a, b⟩ := h.sca hv
    rw [a]; simp [hv, b]
  · rw [(h.vec hv).2.2]; simp [hv, vRecip]

/-- **C41**, at the interface: for a convex problem the system held by the linear-system solver is uniquely solvable for every right-hand
side, after every history of calls and in every iteration of every solve. -/
theorem c41_api (hsq : SqrtPos env) (hist : Hist cfg env D₀ st₀ U s) (convex : PSD (ofData U).P) :
    (∀ b, ∃! v, heldMatrix s.work.linsys *ᵥ v = b) ∧
    ∀ {it : ℤ} {L : LoopSt d K}, Runs cfg env (solveEntry cfg s) it L → ∀ b, ∃! v, heldMatrix L.s.work.linsys *ᵥ v = b := by
  have h := hist_inv hsq hist
  have hσ : 0 < st₀.sigma := h.valid0.sigma
  have hP := psd_scaled convex (costScale_pos h).le (colScale s)
  refine ⟨fun b => ?_, fun {it L} run b => ?_⟩
  · rw [c22_linsys_current hsq hist]
    exact c41_unique _ hP hσ (steps_pos h.sync) b
  · rw [c22_in_solve hsq hist run]
    exact c41_unique _ hP hσ (steps_pos (head_of_runs h run).within.sync) b

/-! ## C40 -/

theorem rhs_z (s : Solver d K) (i : Fin d.m) : (computeRhs s).2 i = s.work.z_prev i - invSteps s i * s.work.y i := by
  unfold computeRhs invSteps
  by_cases hv : s.settings.rho_is_vec = 0
  · have c : ¬ s.settings.rho_is_vec ≠ 0 := by simp [hv]
    simp only [if_neg c]
    unfold vAddScaled; ring
  · have c : s.settings.rho_is_vec ≠ 0 := hv
    simp only [if_pos c]
    unfold vAddScaled vEwProd; ring

/-- **C40**, at the interface.  In every iteration of every solve, if the factorisation solves the held system exactly, the pair
`(x~, z~)` computed from the iterates `x`, `z`, `y` satisfies `z~ = A x~` and
`(P + sigma*I) x~ + A' diag(rho) (A x~ - z + invrho*y) = sigma*x - q` for the problem in the solver's units. -/
theorem c40_in_solve (hsq : SqrtPos env) (hist : Hist cfg env D₀ st₀ U s) {it : ℤ} {L : LoopSt d K} (run : Runs cfg env (solveEntry cfg s) it L)
    (exact_solve : ∀ bx bz, heldMatrix L.s.work.linsys *ᵥ Sum.elim (env.kktSolve L.s.work.linsys bx bz).1 (env.kktSolve L.s.work.linsys bx bz).2 = Sum.elim bx bz)
    {xt : Vec K d.n} {zt : Vec K d.m} (step : updateXZTilde env (swapIterates L.s) = (xt, zt)) :
    let P : Matrix (Fin d.n) (Fin d.n) K := fun i j => costScale s * (colScale s i * (ofData U).P i j * colScale s j)
    let A : Matrix (Fin d.m) (Fin d.n) K := fun i j => rowScale s i * (ofData U).A i j * colScale s j
    zt = A *ᵥ xt ∧
    ∀ j, (P *ᵥ xt) j + st₀.sigma * xt j + (Aᵀ *ᵥ fun i => steps L.s i * ((A *ᵥ xt) i - L.s.work.z i + invSteps L.s i * L.s.work.y i)) j =
      st₀.sigma * L.s.work.x j - costScale s * colScale s j * (ofData U).q j := by
  intro P A
  have h := hist_inv hsq hist
  have hw := (head_of_runs h run).within
  have hf := fromCall hw
  have hm := c22_in_solve hsq hist run
  have hσ : L.s.settings.sigma = st₀.sigma := by obtain ⟨r, i, e⟩ := hf.settings; rw [e]; exact h.fixed.sigma
  have hq : L.s.work.data.q = fun j => costScale s * colScale s j * (ofData U).q j := by 
    funext j; rw [hf.data, (rep_eff h.rep).2.q j, costScale_eff, colScale_eff, mul_assoc]; rfl
  set b := computeRhs (swapIterates L.s) with hb
  have hbx : b.1 = fun j => st₀.sigma * L.s.work.x j - costScale s * colScale s j * (ofData U).q j := by
    rw [hb]; funext j
    simp only [computeRhs, swapIterates, vAddScaled, hσ, hq]; ring
  have hbz : b.2 = fun i => L.s.work.z i - invSteps L.s i * L.s.work.y i := by
    rw [hb]; funext i
    exact rhs_z (swapIterates L.s) i
  have ex := exact_solve b.1 b.2
  rw [hm] at ex
  replace ex := (kkt_mulVec _ _ _ _ _ _).symm.trans ex
  set sol := env.kktSolve L.s.work.linsys b.1 b.2 with hsol
  have h1 : ∀ j, (P *ᵥ sol.1) j + st₀.sigma * sol.1 j + (Aᵀ *ᵥ sol.2) j = b.1 j := fun j => congrFun ex (Sum.inl j)
  have h2 : ∀ i, (A *ᵥ sol.1) i - 1 / steps L.s i * sol.2 i = b.2 i := fun i => congrFun ex (Sum.inr i)
  have hp2 : ∀ i, L.s.work.linsys.param2 i = 1 / steps L.s i := param2_steps hw.sync
  have e : updateXZTilde env (swapIterates L.s) = (sol.1, fun i => b.2 i + 1 / steps L.s i * sol.2 i) := by
    unfold updateXZTilde linsysSolve
    refine Prod.ext rfl (funext fun i => ?_)
    show b.2 i + L.s.work.linsys.param2 i * sol.2 i = _
    rw [hp2]
  rw [e] at step
  obtain ⟨rfl, rfl⟩ := Prod.mk.inj step
  have hz : (fun i => b.2 i + 1 / steps L.s i * sol.2 i) = A *ᵥ sol.1 := by
    funext i; rw [← h2 i]; ring
  refine ⟨hz, fun j => ?_⟩
  have e3 : (fun i => steps L.s i * ((A *ᵥ sol.1) i - L.s.work.z i + invSteps L.s i * L.s.work.y i)) = sol.2 := by
    funext i
    have h0 := (steps_pos hw.sync i).ne'
    have : (A *ᵥ sol.1) i - L.s.work.z i + invSteps L.s i * L.s.work.y i = 1 / steps L.s i * sol.2 i := by
      have := h2 i; rw [hbz] at this; linear_combination this
    rw [this, ← mul_assoc, mul_one_div_cancel h0, one_mul]
  rw [e3, h1 j, hbx]

/-- The inverse step sizes of the iteration are the inverses of the step sizes (in scalar mode this needs the initial `rho` to lie
within the documented limits: see C18). -/
theorem c40_inverse (hsq : SqrtPos env) (hist : Hist cfg env D₀ st₀ U s) (ok : RhoStartOK st₀) {it : ℤ} {L : LoopSt d K}
    (run : Runs cfg env (solveEntry cfg s) it L) (i : Fin d.m) : invSteps L.s i = 1 / steps L.s i := by
  have h := hist_inv hsq hist
  have hw := (head_of_runs h run).within
  unfold invSteps steps
  by_cases hv : L.s.settings.rho_is_vec = 0
  · rw [if_neg (by simp [hv]), if_neg (by simp [hv])]
    exact hw.rinv (rhoInv_entry h ok) hv
  · rw [if_pos hv, if_pos hv, (hw.sync.vec hv).2.1]; rfl

/-! ## The hypotheses are met -/

theorem held_mulVec (ls : LinSys d K) (x : Fin d.n → K) (w : Fin d.m → K) :
    heldMatrix ls *ᵥ Sum.elim x w = Sum.elim (fun j => (denseSym d.P ls.P *ᵥ x) j + ls.sigma * x j + ((dense d.A ls.A)ᵀ *ᵥ w) j) (fun i => (dense d.A ls.A *ᵥ x) i - ls.param2 i * w i) := by
  unfold heldMatrix
  rw [fromBlocks_mulVec]
  congr 1
  · funext j
    simp [add_mulVec, mulVec_diagonal]
  · funext i
    simp only [neg_mulVec, Sum.elim_comp_inl, Sum.elim_comp_inr, Pi.add_apply, Pi.neg_apply, mulVec_diagonal, LinSys.param2]
    cases ls.rho_inv_vec <;> simp only [] <;> ring

theorem cramer {F : Type*} [Field F] {p a r u v d : F} (hd : d ≠ 0) (e : d = -(p * r) - a * a) :
    p * ((u * -r - a * v) / d) + a * ((p * v - a * u) / d) = u ∧ a * ((u * -r - a * v) / d) - r * ((p * v - a * u) / d) = v := by
  constructor <;> field_simp <;> rw [e] <;> ring

/-- The example environments solve the system exactly whenever it is not singular. -/
theorem Demo.exact (clk : ℕ → ℚ) (intr : ℕ → Bool) (ex : Bool) (ls : LinSys Demo.dims ℚ)
    (hdet : (ls.P Demo.i0 + ls.sigma) * ls.param2 Demo.i0 + ls.A Demo.i0 * ls.A Demo.i0 ≠ 0) (bx bz : Fin 1 → ℚ) :
    heldMatrix ls *ᵥ Sum.elim ((Demo.env clk intr ex).kktSolve ls bx bz).1 ((Demo.env clk intr ex).kktSolve ls bx bz).2 = Sum.elim bx bz := by
  rw [held_mulVec]
  have e1 : ∀ x : Fin 1 → ℚ, denseSym Demo.pat1 ls.P *ᵥ x = fun _ => ls.P Demo.i0 * x Demo.i0 := fun x => by
    funext j; rw [Subsingleton.elim (α := Fin 1) j Demo.i0]; simp [mulVec, dotProduct, denseSym]
  have e2 : ∀ x : Fin 1 → ℚ, dense Demo.pat1 ls.A *ᵥ x = fun _ => ls.A Demo.i0 * x Demo.i0 := fun x => by
    funext j; rw [Subsingleton.elim (α := Fin 1) j Demo.i0]; simp [mulVec, dotProduct, dense]
  have e3 : ∀ x : Fin 1 → ℚ, (dense Demo.pat1 ls.A)ᵀ *ᵥ x = fun _ => ls.A Demo.i0 * x Demo.i0 := fun x => by
    funext j; rw [Subsingleton.elim (α := Fin 1) j Demo.i0]; simp [mulVec, dotProduct, dense]
  have hd : -((ls.P Demo.i0 + ls.sigma) * ls.param2 Demo.i0) - ls.A Demo.i0 * ls.A Demo.i0 ≠ 0 := fun h => hdet (by linarith)
  set x := ((Demo.env clk intr ex).kktSolve ls bx bz).1 with hx
  set w := ((Demo.env clk intr ex).kktSolve ls bx bz).2 with hw
  have ex : ∀ i : Fin 1, x i = (bx Demo.i0 * -ls.param2 Demo.i0 - ls.A Demo.i0 * bz Demo.i0) / (-((ls.P Demo.i0 + ls.sigma) * ls.param2 Demo.i0) - ls.A Demo.i0 * ls.A Demo.i0) := fun _ => rfl
  have ew : ∀ i : Fin 1, w i = ((ls.P Demo.i0 + ls.sigma) * bz Demo.i0 - ls.A Demo.i0 * bx Demo.i0) / (-((ls.P Demo.i0 + ls.sigma) * ls.param2 Demo.i0) - ls.A Demo.i0 * ls.A Demo.i0) := fun _ => rfl
  congr 1
  · funext j
    have hj : j = Demo.i0 := Subsingleton.elim (α := Fin 1) _ _
    have : ls.P Demo.i0 * x Demo.i0 + ls.sigma * x Demo.i0 + ls.A Demo.i0 * w Demo.i0 = bx Demo.i0 := by
      rw [ex, ew, ← add_mul]; exact (cramer hd rfl).1
    rw [hj, ← this]
    exact congrArg₂ (· + ls.sigma * x Demo.i0 + ·) (congrFun (e1 x) Demo.i0) (congrFun (e3 w) Demo.i0)
  · funext j
    have hj : j = Demo.i0 := Subsingleton.elim (α := Fin 1) _ _
    have : ls.A Demo.i0 * x Demo.i0 - ls.param2 Demo.i0 * w Demo.i0 = bz Demo.i0 := by
      rw [ex, ew]; exact (cramer hd rfl).2
    rw [hj, ← this]
    exact congrArg (· - ls.param2 Demo.i0 * w Demo.i0) (congrFun (e2 x) Demo.i0)

/-- The first iteration of an actual solve. -/
example : ∃ xt zt, updateXZTilde Demo.sSolved.env (swapIterates (solveEntry Demo.cfg (Demo.sSolved.start Demo.okSolved)).s) = (xt, zt) ∧
    zt = (fun i j => rowScale (Demo.sSolved.start Demo.okSolved) i * (ofData Demo.sSolved.data).A i j * colScale (Demo.sSolved.start Demo.okSolved) j) *ᵥ xt :=
  ⟨_, _, rfl, (c40_in_solve Demo.sSolved.sqrtPos (Demo.sSolved.hist Demo.okSolved) .start
    (Demo.exact _ _ _ _ (by decide +kernel)) rfl).1⟩

example : ∀ b, ∃! v, heldMatrix (Demo.sSolved.start Demo.okSolved).work.linsys *ᵥ v = b :=
  (c41_api Demo.sSolved.sqrtPos (Demo.sSolved.hist Demo.okSolved) (fun x => by
    have : (ofData Demo.sSolved.data).P = fun _ _ => 1 := by
      funext i j
      have h : denseSym Demo.pat1 (Demo.sSolved.data).P Demo.i0 Demo.i0 = 1 := by decide +kernel
      have hi : i = Demo.i0 := Subsingleton.elim (α := Fin 1) _ _
      have hj : j = Demo.i0 := Subsingleton.elim (α := Fin 1) _ _
      rw [hi, hj]; exact h
    rw [this]
    have e : x ⬝ᵥ ((fun _ _ => 1 : Matrix (Fin 1) (Fin 1) ℚ) *ᵥ x) = x 0 * x 0 := by simp [Matrix.mulVec, dotProduct]
    exact le_of_le_of_eq (mul_self_nonneg _) e.symm)).1

end Osqp
