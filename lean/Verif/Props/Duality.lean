import Verif.Lemmas.Gap
import Verif.Props.Infeasible
import Verif.Props.Solved

/-!
# C09: duality gap and weak duality
-/

namespace Osqp
open Spec Matrix
variable {K : Type*} [Field K] [LinearOrder K] [IsStrictOrderedRing K] {d : Dims} {cfg : Cfg} {env : Env d K}
  {D₀ U : Data d K} {st₀ : Settings K} {s s' : Solver d K} {sol : Solution d K}

/-- **C09.** After every `osqp_solve` that returns 0 with a solution-carrying status, whatever ended it and
whatever the settings, the reported gap is the difference of the reported objectives. -/
theorem c09_gap (hsq : SqrtPos env) (hist : Hist cfg env D₀ st₀ U s) (call : osqpSolve cfg env s = (s', 0))
    (carries : hasSolution s'.info = true) : s'.info.duality_gap = s'.info.obj_val - s'.info.dual_obj_val :=
  gapId_solve (hist_inv hsq hist) call carries

/-- **C09**, for every single update of the information record inside a solve. -/
theorem c09_gap_update (cfg : Cfg) (env : Env d K) (iter : ℤ) (s : Solver d K) :
    (updateInfo cfg env iter s).info.duality_gap =
      (updateInfo cfg env iter s).info.obj_val - (updateInfo cfg env iter s).info.dual_obj_val := by
  obtain ⟨_, _, _, c3, c4, c5, _, _⟩ := updateInfo_eqs cfg env iter s
  obtain ⟨_, _, b3, b4, b5⟩ := computeReport_val s s.work.x s.work.z s.work.y
  rw [c3, c4, c5, b3, b4, b5]; ring

/-- **C09**, weak duality: for `P` positive semidefinite and a stationary pair `x₀`, `y` (with `y` not pushing
against infinite bounds) the dual objective is a lower bound for the objective on the feasible set. -/
theorem c09_weak_duality {n m : ℕ} {Q : QP n m K} (hs : Q.Pᵀ = Q.P) (hp : PSD Q.P) {e : Fin m → K}
    {x₀ : Fin n → K} {y : Fin m → K} (hy : Q.DualFeasible e y) (h0 : Q.stat x₀ y = 0) {x : Fin n → K} (hx : Q.Feasible x) :
    Q.dualObj x₀ y ≤ Q.obj x := by
  have := weak_duality Q hs hp (x₀ := x₀) (feasible_inf Q e hx) hy
  have hz : normInf (0 : Fin n → K) = 0 := normInf_eq_of _ _ le_rfl (fun i => by simp) (Or.inl rfl)
  rw [h0, hz] at this
  linarith

/-- Removing components that push against infinite bounds leaves a multiplier that does not. -/
theorem cleaned_feasible {n m : ℕ} {Q : QP n m K} {e : Fin m → K} {c : K} {y y' : Fin m → K} (h : Q.Cleaned e c y y') :
    Q.DualFeasible e y' := by
  intro i
  obtain ⟨h1, h2⟩ := h i
  by_cases hc : (10 ^ 26 < e i * Q.u i ∧ 0 < y i) ∨ (e i * Q.l i < -10 ^ 26 ∧ y i < 0) ∨ |c * (y i / e i)| < 1 / 10 ^ 15
  · rw [h1 hc]; exact ⟨fun _ => le_rfl, fun _ => le_rfl⟩
  · rw [h2 hc]
    push Not at hc
    exact ⟨fun h => not_lt.1 fun h' => absurd h' (not_lt.2 (hc.1 h)), fun h => hc.2.1 h⟩

/-- **C09**, at the interface: after a successful solve of a convex problem the reported dual objective is a lower
bound for the objective at every feasible `x`, up to `‖x‖₁` times the reported dual residual plus the part of
`Aᵀy` that was cleaned away (components against infinite bounds or in the dead zone). -/
theorem c09_api (hsq : SqrtPos env) (hist : Hist cfg env D₀ st₀ U s)
    (call : osqpSolve cfg env s = (s', 0)) (hsol : s'.solution = some sol)
    (carries : hasSolution s'.info = true) (hu : UserCriteria s)
    (hl : s'.info.status_val = St.solvedInacc ∨ s'.info.status_val = St.timeLimit → ¬ LateStop cfg env s)
    (convex : PSD (ofData U).P) :
    ∃ y', (ofData U).Cleaned (rowScale s) (costScale s) sol.y y' ∧ ∀ x, (ofData U).Feasible x →
      s'.info.dual_obj_val ≤ (ofData U).obj x +
        (s'.info.dual_res + normInf ((ofData U).Aᵀ *ᵥ (sol.y - y'))) * norm1 x := by
  obtain ⟨z, y', _, hc, hr⟩ := c02_report hsq hist call hsol carries hu hl
  refine ⟨y', hc, fun x hx => ?_⟩
  rw [hr.dual_obj, hr.dual_res]
  have h1 := weak_duality _ (ofData_symm U) convex (x₀ := sol.x) (feasible_inf _ (rowScale s) hx) (cleaned_feasible hc)
  refine le_trans h1 (add_le_add_right (mul_le_mul_of_nonneg_right ?_ (norm1_nonneg x)) _)
  rw [normInf_le_iff]
  refine ⟨add_nonneg (normInf_nonneg _) (normInf_nonneg _), fun j => ?_⟩
  have e1 : (ofData U).stat sol.x y' j = (ofData U).stat sol.x sol.y j - ((ofData U).Aᵀ *ᵥ (sol.y - y')) j := by
    simp only [QP.stat, mulVec_sub, Pi.sub_apply]; ring
  rw [e1]
  refine le_trans (abs_sub _ _) (add_le_add ?_ (le_normInf _ j))
  exact le_normInf (fun j => (ofData U).stat sol.x sol.y j) j

/-- Weak duality applies to an actual pair: `min x²/2 − x, 0 ≤ x ≤ 1/2` at its solution. -/
example : ∃ (Q : QP 1 1 ℚ) (x₀ y : Fin 1 → ℚ), Q.Pᵀ = Q.P ∧ PSD Q.P ∧ Q.DualFeasible (fun _ => 1) y ∧ Q.stat x₀ y = 0 ∧
    Q.Feasible x₀ ∧ Q.dualObj x₀ y = Q.obj x₀ ∧ y ≠ 0 :=
  ⟨⟨fun _ _ => 1, fun _ => -1, fun _ _ => 1, fun _ => 0, fun _ => 1 / 2⟩, fun _ => 1 / 2, fun _ => 1 / 2,
    by decide +kernel, fun x => by simp [Matrix.mulVec, dotProduct]; nlinarith [sq_nonneg (x 0)],
    by unfold QP.DualFeasible; decide +kernel, by decide +kernel, by unfold QP.Feasible; decide +kernel, by decide +kernel, by decide +kernel⟩

/-- A run to which C09 applies, ending at the iteration limit with a non-zero gap; its `P` is positive
semidefinite. -/
example : ∃ (s s' : Solver Demo.dims ℚ),
    Hist Demo.cfg Demo.sLimit.env Demo.sLimit.data Demo.sLimit.st Demo.sLimit.data s ∧
    osqpSolve Demo.cfg Demo.sLimit.env s = (s', 0) ∧ hasSolution s'.info = true ∧ s'.info.duality_gap ≠ 0 ∧
    PSD (ofData Demo.sLimit.data).P := by
  refine ⟨Demo.sLimit.start Demo.okLimit, Demo.sLimit.done Demo.okLimit, Demo.sLimit.hist Demo.okLimit,
    Demo.sLimit.solve_eq Demo.okLimit (by decide +kernel), by decide +kernel, by decide +kernel, fun x => ?_⟩
  have : (ofData Demo.sLimit.data).P = fun _ _ => 1 := by
    funext i j
    have h : denseSym Demo.pat1 (Demo.sLimit.data).P Demo.i0 Demo.i0 = 1 := by decide +kernel
    have hi : i = Demo.i0 := Subsingleton.elim (α := Fin 1) _ _
    have hj : j = Demo.i0 := Subsingleton.elim (α := Fin 1) _ _
    rw [hi, hj]; exact h
  rw [this]
  have e : x ⬝ᵥ ((fun _ _ => 1 : Matrix (Fin 1) (Fin 1) ℚ) *ᵥ x) = x 0 * x 0 := by simp [Matrix.mulVec, dotProduct]
  exact le_of_le_of_eq (mul_self_nonneg _) e.symm

end Osqp
