import Verif.Props.Ldl

/-!
# C71: what the test for non-convexity misses

`Demo.data p a q l u` is the problem `min p/2 x² + q x` subject to `l ≤ a x ≤ u`.
-/

set_option linter.unusedSectionVars false
namespace Osqp
open Spec Matrix

/-- The default settings, without scaling, with a scalar step size `rho`. -/
def plain (rho : ℚ) : Settings ℚ := { Demo.settings with scaling := 0, rho_is_vec := 0, rho := rho }

/-- The matrix of the linear system of such a problem. -/
theorem held_one {ls : LinSys Demo.dims ℚ} {p a sg r : ℚ} (h1 : ls.P = fun _ => p) (h2 : ls.A = fun _ => a) (h3 : ls.sigma = sg) (h4 : ls.rho_inv_vec = none) (h5 : ls.rho_inv = r)
    (v : Fin 1 ⊕ Fin 1 → ℚ) : (heldMatrix ls *ᵥ v) (.inl 0) = (p + sg) * v (.inl 0) + a * v (.inr 0) ∧ (heldMatrix ls *ᵥ v) (.inr 0) = a * v (.inl 0) - r * v (.inr 0) := by
  constructor
  · simp [heldMatrix, mulVec, dotProduct, denseSym, dense, h1, h2, h3]
  · simp [heldMatrix, mulVec, dotProduct, denseSym, dense, h1, h2, h4, h5]; ring

theorem held_one_symm (ls : LinSys Demo.dims ℚ) (i j : Fin 1 ⊕ Fin 1) : heldMatrix ls i j = heldMatrix ls j i := by
  rcases i with i | i <;> rcases j with j | j <;> rw [Fin.eq_zero i, Fin.eq_zero j]
  all_goals rfl

/-- If all entries and the determinant are nonzero, the matrix can be factored in both orders. -/
theorem nondeg_one {ls : LinSys Demo.dims ℚ} {p a sg r : ℚ} (h1 : ls.P = fun _ => p) (h2 : ls.A = fun _ => a) (h3 : ls.sigma = sg) (h4 : ls.rho_inv_vec = none) (h5 : ls.rho_inv = r)
    (c1 : p + sg ≠ 0) (c2 : r ≠ 0) (c3 : (p + sg) * r + a * a ≠ 0) : Ldl.Nondeg (heldMatrix ls) := by
  intro v hv
  obtain ⟨e1, e2⟩ := held_one h1 h2 h3 h4 h5 v
  have g1 := hv (.inl 0)
  have g2 := hv (.inr 0)
  rw [e1] at g1
  rw [e2] at g2
  have : v (.inl 0) = 0 ∧ v (.inr 0) = 0 := by
    by_cases x0 : v (.inl 0) = 0
    · refine ⟨x0, ?_⟩
      by_contra y0
      have := g2 y0
      rw [x0] at this
      have : r * v (.inr 0) = 0 := by linarith
      exact (mul_ne_zero c2 y0) this
    · exfalso
      by_cases y0 : v (.inr 0) = 0
      · have := g1 x0
        rw [y0] at this
        have : (p + sg) * v (.inl 0) = 0 := by linarith
        exact (mul_ne_zero c1 x0) this
      · have k1 := g1 x0
        have k2 := g2 y0
        have : ((p + sg) * r + a * a) * v (.inl 0) = 0 := by linear_combination r * k1 + a * k2
        exact (mul_ne_zero c3 x0) this
  funext i
  rcases i with i | i <;> rw [Fin.eq_zero i]
  · exact this.1
  · exact this.2

theorem factored {env : Env Demo.dims ℚ} (hc : CountsIn env) {ls : LinSys Demo.dims ℚ} (h : Ldl.Nondeg (heldMatrix ls)) : 0 ≤ env.factor ls := by
  obtain ⟨e, he⟩ := hc ls
  obtain ⟨L, D, hl⟩ := Ldl.exists_ldl (B := (heldMatrix ls).submatrix e e) (fun i j => held_one_symm ls _ _) (h.reindex e)
  rw [he.count L D hl]
  positivity

theorem form_one (p a q l u : ℚ) (s : Solver Demo.dims ℚ) (h0 : s.settings.scaling = 0) (x : Fin 1 → ℚ) :
    AcceptedForm (Demo.data p a q l u) s x = (p + s.settings.sigma + steps s 0 * a ^ 2) * x 0 ^ 2 := by
  simp [AcceptedForm, costScale, colScale, rowScale, h0, ofData, denseSym, dense, mulVec, dotProduct, Demo.data]
  ring

theorem not_psd_one : ¬ PSD (ofData (Demo.data (-1) 4 0 (-1) 1)).P := by
  intro h
  have := h fun _ => 1
  simp [ofData, denseSym, mulVec, dotProduct, Demo.data] at this
  linarith

/-- **C71** (counterexample: a non-convex problem is accepted). `min -x²/2` subject to `-1 ≤ 4x ≤ 1` with the default step size, whatever order the factorisation uses. -/
theorem c71_counterexample {env : Env Demo.dims ℚ} (hsq : SqrtPos env) (hc : CountsIn env) :
    ∃ s, osqpSetup Demo.cfg env (Demo.data (-1) 4 0 (-1) 1) (plain (1 / 10)) = .ok s ∧ ¬ PSD (ofData (Demo.data (-1) 4 0 (-1) 1)).P := by
  obtain ⟨s, h1, h2⟩ := setup_split (cfg := Demo.cfg) (env := env) (D₀ := Demo.data (-1) 4 0 (-1) 1) (st₀ := plain (1 / 10)) (by decide +kernel) (by decide +kernel)
  have hm := made h1
  have h := hist_inv (env := { env with factor := fun _ => Demo.dims.n }) hsq (.setup h1)
  have hset : s.settings.scaling = 0 ∧ s.settings.sigma = 1 / 10 ^ 6 ∧ s.settings.rho_is_vec = 0 ∧ s.settings.rho = 1 / 10 := by
    rw [hm.settings]; refine ⟨rfl, rfl, rfl, ?_⟩; show clampRho (1 / 10 : ℚ) = 1 / 10; decide +kernel
  have hd : s.work.data = Demo.data (-1) 4 0 (-1) 1 := hm.data rfl
  obtain ⟨k4, k5⟩ := h.sync.sca hset.2.2.1
  rw [hset.2.2.2] at k5
  have k1 : s.work.linsys.P = fun _ => -1 := by rw [h.sync.P, hd]; rfl
  have k2 : s.work.linsys.A = fun _ => 4 := by rw [h.sync.A, hd]; rfl
  have k3 : s.work.linsys.sigma = 1 / 10 ^ 6 := by rw [h.sync.sigma, hset.2.1]
  have hnd := nondeg_one k1 k2 k3 k4 k5 (by norm_num) (by norm_num) (by norm_num)
  refine ⟨s, ?_, not_psd_one⟩
  obtain ⟨e, he⟩ := count_held hc h.sync h.rep
  obtain ⟨_, _, h3⟩ := counts_accept (steps_pos h.sync) he
  have : env.factor s.work.linsys = Demo.dims.n := h3 (factored hc hnd) fun y hy => by
    have hcol : ∀ j, colScale s j = 1 := fun j => by simp [colScale, hset.1]
    have hy0 : y 0 ≠ 0 := fun h0 => hy (by funext j; rw [Fin.eq_zero j]; exact h0)
    have := form_scaled s (Demo.data (-1) 4 0 (-1) 1) (fun j => by rw [hcol]; exact one_pos) y
    simp only [hcol, div_one] at this
    simp only [hcol]
    rw [← this, form_one _ _ _ _ _ s hset.1]
    have e : steps s 0 = 1 / 10 := by unfold steps; simp [hset.2.2.1, hset.2.2.2]
    rw [e, hset.2.1]
    have : 0 < y 0 ^ 2 := by positivity
    norm_num
    linarith
  rw [h2, if_neg (by omega)]

/-- The facts about the linear system that the next theorem uses. -/
theorem one_state {env : Env Demo.dims ℚ} (hsq : SqrtPos env) {rho : ℚ} {s : Solver Demo.dims ℚ} (hist : Hist Demo.cfg env (Demo.data (-1) 4 0 (-1) 1) (plain rho) (Demo.data (-1) 4 0 (-1) 1) s) {r : ℚ}
    (hr : s.settings.rho = r) : s.settings.scaling = 0 ∧ s.settings.sigma = 1 / 10 ^ 6 ∧ steps s 0 = r ∧
      s.work.linsys.P = (fun _ => -1) ∧ s.work.linsys.A = (fun _ => 4) ∧ s.work.linsys.sigma = 1 / 10 ^ 6 ∧ s.work.linsys.rho_inv_vec = none ∧ s.work.linsys.rho_inv = 1 / r := by
  have h := hist_inv hsq hist
  have h1 : s.settings.scaling = 0 := h.fixed.scaling
  have h2 : s.settings.sigma = 1 / 10 ^ 6 := h.fixed.sigma
  have h3 : s.settings.rho_is_vec = 0 := h.fixed.rho_is_vec
  have hd : s.work.data = Demo.data (-1) 4 0 (-1) 1 := h.rep.2 h1
  obtain ⟨k4, k5⟩ := h.sync.sca h3
  rw [hr] at k5
  exact ⟨h1, h2, by unfold steps; simp [h3, hr], by rw [h.sync.P, hd]; rfl, by rw [h.sync.A, hd]; rfl, by rw [h.sync.sigma, h2], k4, k5⟩

/-- **C71** (counterexample: the test is lost when the step size changes). The same problem with `rho = 1/10` is accepted; `osqp_update_rho` to `1/100` then returns 0, although the
system is no longer of the kind set-up insists on, and set-up with `rho = 1/100` refuses the problem as non-convex. -/
theorem c71_counterexample_rho {env : Env Demo.dims ℚ} (hsq : SqrtPos env) (hc : CountsIn env) :
    ∃ s s', osqpSetup Demo.cfg env (Demo.data (-1) 4 0 (-1) 1) (plain (1 / 10)) = .ok s ∧ osqpUpdateRho Demo.cfg env s (1 / 100) = (s', 0) ∧
      (∀ x, x ≠ 0 → AcceptedForm (Demo.data (-1) 4 0 (-1) 1) s' x < 0) ∧
      osqpSetup Demo.cfg env (Demo.data (-1) 4 0 (-1) 1) (plain (1 / 100)) = .failed Err.nonCvx := by
  obtain ⟨s, h1, -⟩ := c71_counterexample hsq hc
  have hx0 : ∀ x : Fin 1 → ℚ, x ≠ 0 → 0 < x 0 ^ 2 := fun x hx => by
    have : x 0 ≠ 0 := fun h0 => hx (by funext j; rw [Fin.eq_zero j]; exact h0)
    positivity
  refine ⟨s, _, h1, Prod.ext rfl ?_, fun x hx => ?_, ?_⟩
  · by_contra h0
    have hf := rho_failed (cfg := Demo.cfg) (env := env) (t := s) (rho := 1 / 100) (by norm_num) h0
    have hH : Hist Demo.cfg env (Demo.data (-1) 4 0 (-1) 1) (plain (1 / 10)) (Demo.data (-1) 4 0 (-1) 1) (osqpUpdateRho Demo.cfg env s (1 / 100)).1 :=
      .step (op := .updateRho (1 / 100)) (code := (osqpUpdateRho Demo.cfg env s (1 / 100)).2) (.setup h1) (by simp only [apiStep])
    have hr : (osqpUpdateRho Demo.cfg env s (1 / 100)).1.settings.rho = 1 / 100 := by
      rw [osqpUpdateRho_settings]; dsimp only; norm_num [clampRho, cMin, cMax, Const.rhoMin, Const.rhoMax]
    obtain ⟨-, -, -, k1, k2, k3, k4, k5⟩ := one_state hsq hH hr
    exact absurd (factored hc (nondeg_one k1 k2 k3 k4 k5 (by norm_num) (by norm_num) (by norm_num))) (not_le.2 hf)
  · have hH : Hist Demo.cfg env (Demo.data (-1) 4 0 (-1) 1) (plain (1 / 10)) (Demo.data (-1) 4 0 (-1) 1) (osqpUpdateRho Demo.cfg env s (1 / 100)).1 :=
      .step (op := .updateRho (1 / 100)) (code := (osqpUpdateRho Demo.cfg env s (1 / 100)).2) (.setup h1) (by simp only [apiStep])
    have hr : (osqpUpdateRho Demo.cfg env s (1 / 100)).1.settings.rho = 1 / 100 := by
      rw [osqpUpdateRho_settings]; dsimp only; norm_num [clampRho, cMin, cMax, Const.rhoMin, Const.rhoMax]
    obtain ⟨g1, g2, g3, -⟩ := one_state hsq hH hr
    rw [form_one _ _ _ _ _ _ g1, g2, g3]
    have := hx0 x hx
    norm_num
    linarith
  · obtain ⟨t, h2, h3⟩ := setup_split (cfg := Demo.cfg) (env := env) (D₀ := Demo.data (-1) 4 0 (-1) 1) (st₀ := plain (1 / 100)) (by decide +kernel) (by decide +kernel)
    rw [h3]
    by_contra hn
    have hlt : ¬ env.factor t.work.linsys < Demo.dims.n := fun hl => hn (if_pos hl)
    have h := hist_inv (env := { env with factor := fun _ => Demo.dims.n }) hsq (.setup h2)
    have hr : t.settings.rho = 1 / 100 := by
      rw [(made h2).settings]; show clampRho (1 / 100 : ℚ) = 1 / 100; decide +kernel
    obtain ⟨g1, g2, g3, -⟩ := one_state (env := { env with factor := fun _ => Demo.dims.n }) hsq (.setup h2) hr
    have := form_of_count hc h.sync h.rep hlt (x := fun _ => 1) (fun h0 => one_ne_zero (congrFun h0 0))
    rw [form_one _ _ _ _ _ _ g1, g2, g3] at this
    norm_num at this

variable {K : Type*} [Field K] [LinearOrder K] [IsStrictOrderedRing K] {d : Dims} {cfg : Cfg} {env : Env d K} {D₀ : Data d K} {st₀ : Settings K} {s : Solver d K}

/-- **C71**, as far as it holds. In directions along which the constraints do not change (all directions, if there are no constraints), the objective of an accepted problem has
positive curvature up to `sigma`: the full statement, that only convex problems are accepted, fails by `c71_counterexample`. -/
theorem c71_kernel_partial (hsq : SqrtPos env) (hc : CountsIn env) (call : osqpSetup cfg env D₀ st₀ = .ok s) {x : Fin d.n → K} (hx : x ≠ 0) (free : ∀ i, ((ofData D₀).A *ᵥ x) i = 0) :
    -st₀.sigma * ∑ j, (x j / colScale s j) ^ 2 < costScale s * (x ⬝ᵥ ((ofData D₀).P *ᵥ x)) := by
  have := c70_accepted hsq hc call hx
  unfold AcceptedForm at this
  simp only [free] at this
  rw [(hist_inv hsq (.setup call)).fixed.sigma] at this
  simp at this
  linarith

/-- Such a direction: in `min x²/2` with the constraint `-1 ≤ 0*x ≤ 1` every direction is free. -/
example : ∃ s : Solver Demo.dims ℚ, SqrtPos (counting (Demo.env (fun _ => 0) fun _ => false)) ∧ CountsIn (counting (Demo.env (fun _ => 0) fun _ => false)) ∧
    osqpSetup Demo.cfg (counting (Demo.env (fun _ => 0) fun _ => false)) (Demo.data 1 0 0 (-1) 1) Demo.settings = .ok s ∧
    ∀ i, ((ofData (Demo.data 1 0 0 (-1) 1)).A *ᵥ fun _ => 1) i = 0 := by
  have h1 : SqrtPos (counting (Demo.env (fun _ => 0) fun _ => false)) := Demo.sqrtPos (fun _ => 0) (fun _ => false) false
  have h2 := counting_ok (Demo.env (fun _ => (0 : ℚ)) fun _ => false)
  obtain ⟨s, hs⟩ := c70_convex_accepted (cfg := Demo.cfg) (st₀ := Demo.settings) h1 h2.1 (D₀ := Demo.data 1 0 0 (-1) 1) (by decide +kernel) (by decide +kernel)
    (psd_one (show (0 : ℚ) ≤ 1 by norm_num) 0 0 (-1) 1)
  refine ⟨s, h1, h2.1, hs, fun i => ?_⟩
  rw [Fin.eq_zero i]
  simp [ofData, dense, mulVec, dotProduct, Demo.data]

end Osqp
