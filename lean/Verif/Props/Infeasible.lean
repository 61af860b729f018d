import Verif.Lemmas.Result
import Verif.Lemmas.Duality
import Verif.Demo.Runs

/-!
# C05, C06, C07, C08, C15: infeasibility certificates and the inaccurate statuses
-/

namespace Osqp
open Spec Matrix
variable {K : Type*} [Field K] [LinearOrder K] [IsStrictOrderedRing K] {d : Dims} {cfg : Cfg} {env : Env d K}
  {D₀ U : Data d K} {st₀ : Settings K} {s s' : Solver d K} {sol : Solution d K}

/-- **C05.** If `osqp_solve` returns 0 and reports "primal infeasible" (a status it did not have before the
call), the returned certificate has norm 1 and meets the documented conditions on the user's data. -/
theorem c05_primal_certificate (hsq : SqrtPos env) (hist : Hist cfg env D₀ st₀ U s)
    (call : osqpSolve cfg env s = (s', 0)) (hsol : s'.solution = some sol)
    (before : s.info.status_val ≠ St.primInf) (after : s'.info.status_val = St.primInf) (hu : UserCriteria s) :
    (ofData U).PrimalCert (rowScale s) s.settings.eps_prim_inf sol.prim_inf_cert := by
  have := result_primInf (b := false) (hist_inv hsq hist) call hsol hu after (by rw [after]; exact before)
  simpa [ctK] using this

example : ∃ (s s' : Solver Demo.dims ℚ) (sol : Solution Demo.dims ℚ),
    SqrtPos Demo.sPrim.env ∧ Hist Demo.cfg Demo.sPrim.env Demo.sPrim.data Demo.sPrim.st Demo.sPrim.data s ∧
    osqpSolve Demo.cfg Demo.sPrim.env s = (s', 0) ∧ s'.solution = some sol ∧ s.info.status_val ≠ St.primInf ∧
    s'.info.status_val = St.primInf ∧ UserCriteria s := by
  have hs : (Demo.sPrim.done Demo.okPrim).solution.isSome = true := by decide +kernel
  exact ⟨Demo.sPrim.start Demo.okPrim, Demo.sPrim.done Demo.okPrim, (Demo.sPrim.done Demo.okPrim).solution.get hs, Demo.sPrim.sqrtPos, Demo.sPrim.hist Demo.okPrim,
    Demo.sPrim.solve_eq Demo.okPrim (by decide +kernel), (Option.some_get hs).symm, by decide +kernel, by decide +kernel,
    Or.inr (by decide +kernel)⟩

/-- **C06.** Every feasible point (infinite bounds ignored) has a 1-norm of at least
`−support(v) / ‖Aᵀv‖∞` if `v` is a certificate. -/
theorem c06_certificate_bound {n m : ℕ} {Q : QP n m K} {e : Fin m → K} {eps : K} {v : Fin m → K}
    (hv : Q.PrimalCert e eps v) {x : Fin n → K} (hx : Q.FeasibleInf e x) :
    0 < -Q.support v ∧ -Q.support v ≤ norm1 x * normInf (Q.Aᵀ *ᵥ v) := by
  refine ⟨by linarith [hv.neg], ?_⟩
  have h1 := dot_le_support Q hx (y := v) fun i => ⟨hv.upper i, hv.lower i⟩
  have h2 := (abs_le.1 (dot_le_norms (Q.Aᵀ *ᵥ v) x)).1
  rw [dot_transpose] at h2
  rw [mul_comm]; linarith

/-- **C06.** If moreover `Aᵀv = 0` there is no feasible point. -/
theorem c06_certificate_exact {n m : ℕ} {Q : QP n m K} {e : Fin m → K} {eps : K} {v : Fin m → K}
    (hv : Q.PrimalCert e eps v) (h0 : Q.Aᵀ *ᵥ v = 0) : (¬ ∃ x, Q.FeasibleInf e x) ∧ ¬ ∃ x, Q.Feasible x := by
  have : ∀ x, ¬ Q.FeasibleInf e x := by
    intro x hx
    obtain ⟨a, b⟩ := c06_certificate_bound hv hx
    rw [h0] at b
    have : normInf (0 : Fin n → K) = 0 :=
      normInf_eq_of _ _ le_rfl (fun i => by simp) (Or.inl rfl)
    rw [this, mul_zero] at b
    exact absurd b (not_le.2 a)
  exact ⟨fun ⟨x, hx⟩ => this x hx, fun ⟨x, hx⟩ => this x (feasible_inf Q e hx)⟩

/-- **C06**, at the interface: after "primal infeasible" every feasible point of the user's problem has a 1-norm
larger than `−support(v) / eps_prim_inf`, `v` the returned certificate. -/
theorem c06_api (hsq : SqrtPos env) (hist : Hist cfg env D₀ st₀ U s)
    (call : osqpSolve cfg env s = (s', 0)) (hsol : s'.solution = some sol)
    (before : s.info.status_val ≠ St.primInf) (after : s'.info.status_val = St.primInf) (hu : UserCriteria s)
    {x : Fin d.n → K} (hx : (ofData U).Feasible x) :
    0 < -(ofData U).support sol.prim_inf_cert ∧
      -(ofData U).support sol.prim_inf_cert < norm1 x * s.settings.eps_prim_inf := by
  have hc := c05_primal_certificate hsq hist call hsol before after hu
  obtain ⟨a, b⟩ := c06_certificate_bound hc (feasible_inf _ (rowScale s) hx)
  refine ⟨a, lt_of_le_of_lt b (mul_lt_mul_of_pos_left hc.small ?_)⟩
  rcases (norm1_nonneg x).lt_or_eq with h | h
  · exact h
  · rw [← h, zero_mul] at b; exact absurd b (not_le.2 a)

/-- The certificate conditions with `Aᵀv = 0` can hold: constraints `0·x ≥ 1`. -/
example : ∃ (Q : QP 1 1 ℚ) (v : Fin 1 → ℚ), Q.PrimalCert (fun _ => 1) (1 / 10) v ∧ Q.Aᵀ *ᵥ v = 0 :=
  ⟨⟨0, fun _ => 0, 0, fun _ => 1, fun _ => 2⟩, fun _ => -1, ⟨by decide +kernel, by decide +kernel, by decide +kernel,
    by decide +kernel, by decide +kernel⟩, by decide +kernel⟩

/-- The hypotheses of the bound can hold together: `x/20 ≥ 1` with feasible point 20 (there are real
certificates of feasible problems whose feasible points are all large). -/
example : ∃ (Q : QP 1 1 ℚ) (v : Fin 1 → ℚ) (x : Fin 1 → ℚ), Q.PrimalCert (fun _ => 1) (1 / 10) v ∧ Q.FeasibleInf (fun _ => 1) x :=
  ⟨⟨0, fun _ => 0, fun _ _ => 1 / 20, fun _ => 1, fun _ => 2⟩, fun _ => -1, fun _ => 20, ⟨by decide +kernel, by decide +kernel, by decide +kernel,
    by decide +kernel, by decide +kernel⟩, by unfold QP.FeasibleInf; decide +kernel⟩

/-- **C07.** If `osqp_solve` returns 0 and reports "dual infeasible" (a status it did not have before the
call), the returned certificate has norm 1 and meets the documented conditions on the user's data. -/
theorem c07_dual_certificate (hsq : SqrtPos env) (hist : Hist cfg env D₀ st₀ U s)
    (call : osqpSolve cfg env s = (s', 0)) (hsol : s'.solution = some sol)
    (before : s.info.status_val ≠ St.dualInf) (after : s'.info.status_val = St.dualInf) (hu : UserCriteria s) :
    (ofData U).DualCert (rowScale s) s.settings.eps_dual_inf sol.dual_inf_cert := by
  have := result_dualInf (b := false) (hist_inv hsq hist) call hsol hu after (by rw [after]; exact before)
  simpa [ctK] using this

example : ∃ (s s' : Solver Demo.dims ℚ) (sol : Solution Demo.dims ℚ),
    SqrtPos Demo.sDual.env ∧ Hist Demo.cfg Demo.sDual.env Demo.sDual.data Demo.sDual.st Demo.sDual.data s ∧
    osqpSolve Demo.cfg Demo.sDual.env s = (s', 0) ∧ s'.solution = some sol ∧ s.info.status_val ≠ St.dualInf ∧
    s'.info.status_val = St.dualInf ∧ UserCriteria s := by
  have hs : (Demo.sDual.done Demo.okDual).solution.isSome = true := by decide +kernel
  exact ⟨Demo.sDual.start Demo.okDual, Demo.sDual.done Demo.okDual, (Demo.sDual.done Demo.okDual).solution.get hs, Demo.sDual.sqrtPos, Demo.sDual.hist Demo.okDual,
    Demo.sDual.solve_eq Demo.okDual (by decide +kernel), (Option.some_get hs).symm, by decide +kernel, by decide +kernel,
    Or.inr (by decide +kernel)⟩

theorem mulVec_ray {n m : ℕ} (A : Matrix (Fin m) (Fin n) K) (x v : Fin n → K) (t : K) (i : Fin m) :
    (A *ᵥ (fun j => x j + t * v j)) i = (A *ᵥ x) i + t * (A *ᵥ v) i := by
  have : (fun j => x j + t * v j) = x + t • v := by funext j; simp
  rw [this, mulVec_add, mulVec_smul]; simp

/-- **C08.** Along an exact direction of unboundedness a feasible point stays feasible and the objective falls
linearly, below any given value. -/
theorem c08_unbounded {n m : ℕ} {Q : QP n m K} (hs : Q.Pᵀ = Q.P) {e : Fin m → K} {v : Fin n → K}
    (hv : Q.Ray e v) {x : Fin n → K} (hx : Q.FeasibleInf e x) :
    (∀ t, 0 ≤ t → Q.FeasibleInf e (fun j => x j + t * v j)) ∧
    (∀ t, Q.obj (fun j => x j + t * v j) = Q.obj x + t * (Q.q ⬝ᵥ v)) ∧
    ∀ M, ∃ t, 0 ≤ t ∧ Q.obj (fun j => x j + t * v j) < M := by
  have h2 : ∀ t, Q.obj (fun j => x j + t * v j) = Q.obj x + t * (Q.q ⬝ᵥ v) := by
    intro t; rw [obj_ray Q hs, hv.flat]; simp
  refine ⟨fun t ht i => ⟨fun hl => ?_, fun hu => ?_⟩, h2, fun M => ?_⟩
  · rw [mulVec_ray]
    have := mul_nonneg ht (hv.lower i hl)
    linarith [(hx i).1 hl]
  · rw [mulVec_ray]
    have := mul_nonneg ht (neg_nonneg.2 (hv.upper i hu))
    have e2 : t * -(Q.A *ᵥ v) i = -(t * (Q.A *ᵥ v) i) := by ring
    linarith [(hx i).2 hu]
  · have hq : 0 < -(Q.q ⬝ᵥ v) := by linarith [hv.neg]
    refine ⟨(|Q.obj x - M| + 1) / -(Q.q ⬝ᵥ v), div_nonneg (by positivity) hq.le, ?_⟩
    rw [h2]
    have : (|Q.obj x - M| + 1) / -(Q.q ⬝ᵥ v) * (Q.q ⬝ᵥ v) = -(|Q.obj x - M| + 1) := by
      rw [div_mul_eq_mul_div, div_neg, mul_div_assoc, div_self hv.neg.ne, mul_one]
    rw [this]
    linarith [le_abs_self (Q.obj x - M)]

/-- **C08.** No `x` and no multiplier (not pushing against infinite bounds) satisfies stationarity. -/
theorem c08_no_stationary {n m : ℕ} {Q : QP n m K} (hs : Q.Pᵀ = Q.P) {e : Fin m → K} {v : Fin n → K}
    (hv : Q.Ray e v) {x : Fin n → K} {y : Fin m → K} (hy : Q.DualFeasible e y) : Q.stat x y ≠ 0 := by
  intro h
  have h1 : Q.stat x y ⬝ᵥ v = 0 := by rw [h]; simp
  have h3 : Q.stat x y ⬝ᵥ v = x ⬝ᵥ (Q.P *ᵥ v) + Q.q ⬝ᵥ v + y ⬝ᵥ (Q.A *ᵥ v) := by
    have e1 : Q.stat x y = Q.P *ᵥ x + Q.q + Q.Aᵀ *ᵥ y := by funext j; simp [QP.stat]
    rw [e1, add_dotProduct, add_dotProduct, dot_transpose, dotProduct_comm (Q.P *ᵥ x), dot_symm_mulVec hs v x]
  rw [hv.flat] at h3
  have h4 : y ⬝ᵥ (Q.A *ᵥ v) ≤ 0 := by
    unfold dotProduct
    refine Finset.sum_nonpos fun i _ => ?_
    rcases lt_trichotomy (y i) 0 with hlt | heq | hgt
    · exact mul_nonpos_of_nonpos_of_nonneg hlt.le (hv.lower i fun h => absurd ((hy i).2 h) (not_le.2 hlt))
    · rw [heq]; simp
    · exact mul_nonpos_of_nonneg_of_nonpos hgt.le (hv.upper i fun h => absurd ((hy i).1 h) (not_le.2 hgt))
  have := hv.neg
  simp only [dotProduct_zero, zero_add] at h3
  linarith

/-- **C08**, for the approximate certificate the solver returns: moving by `t ≥ 0` along it violates each finite
constraint by at most `t·eps`, and the objective is at most `obj x + t(qᵀv + eps‖x‖₁) + t²·eps·‖v‖₁/2`. -/
theorem c08_approximate {n m : ℕ} {Q : QP n m K} (hs : Q.Pᵀ = Q.P) {e : Fin m → K} {eps : K} {v : Fin n → K}
    (hv : Q.DualCert e eps v) {x : Fin n → K} (hx : Q.Feasible x) {t : K} (ht : 0 ≤ t) :
    (∀ i, (e i * Q.u i < 10 ^ 26 → (Q.A *ᵥ (fun j => x j + t * v j)) i ≤ Q.u i + t * eps) ∧
          (-10 ^ 26 < e i * Q.l i → Q.l i - t * eps ≤ (Q.A *ᵥ (fun j => x j + t * v j)) i)) ∧
    Q.obj (fun j => x j + t * v j) ≤ Q.obj x + t * (Q.q ⬝ᵥ v + eps * norm1 x) + t ^ 2 / 2 * (eps * norm1 v) := by
  refine ⟨fun i => ⟨fun hi => ?_, fun hi => ?_⟩, ?_⟩
  · rw [mulVec_ray]; have := mul_le_mul_of_nonneg_left (hv.upper i hi) ht; linarith [(hx i).2]
  · rw [mulVec_ray]
    have := mul_le_mul_of_nonneg_left (hv.lower i hi) ht
    have e2 : t * -eps = -(t * eps) := by ring
    linarith [(hx i).1]
  · rw [obj_ray Q hs]
    have k : ∀ w : Fin n → K, w ⬝ᵥ (Q.P *ᵥ v) ≤ eps * norm1 w := by
      intro w
      rw [dotProduct_comm]
      refine le_trans (le_abs_self _) (le_trans (dot_le_norms _ _) (mul_le_mul_of_nonneg_right hv.small.le (norm1_nonneg w)))
    have k1 := mul_le_mul_of_nonneg_left (k x) ht
    have k2 := mul_le_mul_of_nonneg_left (k v) (show (0 : K) ≤ t ^ 2 / 2 by positivity)
    have e3 : t * (Q.q ⬝ᵥ v + x ⬝ᵥ (Q.P *ᵥ v)) = t * (Q.q ⬝ᵥ v) + t * (x ⬝ᵥ (Q.P *ᵥ v)) := by ring
    have e4 : t * (Q.q ⬝ᵥ v + eps * norm1 x) = t * (Q.q ⬝ᵥ v) + t * (eps * norm1 x) := by ring
    rw [e3, e4]; linarith

/-- The user's `P` is symmetric by construction (one triangle is stored), so C08 applies to every user problem. -/
theorem ofData_symm (U : Data d K) : (ofData U).Pᵀ = (ofData U).P := by
  ext i j; simp [ofData, denseSym, or_comm, Matrix.transpose_apply]

/-- An exact direction of unboundedness with a feasible point: minimise `x` subject to `x ≤ 1`. -/
example : ∃ (Q : QP 1 1 ℚ) (e : Fin 1 → ℚ) (v x : Fin 1 → ℚ), Q.Pᵀ = Q.P ∧ Q.Ray e v ∧ Q.FeasibleInf e x ∧ Q.DualFeasible e (fun _ => 1) :=
  ⟨⟨0, fun _ => 1, fun _ _ => 1, fun _ => -10 ^ 30, fun _ => 1⟩, fun _ => 1, fun _ => -1, fun _ => 0,
    by decide +kernel, ⟨by decide +kernel, by decide +kernel, by decide +kernel, by decide +kernel⟩,
    by unfold QP.FeasibleInf; decide +kernel, by unfold QP.DualFeasible; decide +kernel⟩

/-- **C15.** "solved inaccurate" is set only after the iteration limit or the time limit, and then the point meets
the tolerances times 10 (excluded: a stop by the clock right after a scheduled check, as in C02). -/
theorem c15_solved_inaccurate (hsq : SqrtPos env) (hist : Hist cfg env D₀ st₀ U s)
    (call : osqpSolve cfg env s = (s', 0)) (hsol : s'.solution = some sol)
    (before : s.info.status_val ≠ St.solvedInacc) (after : s'.info.status_val = St.solvedInacc)
    (hu : UserCriteria s) (hl : ¬ LateStop cfg env s) :
    ∃ z, (ofData U).InBox z ∧
      (ofData U).Converged (s.settings.eps_abs * 10) (s.settings.eps_rel * 10) sol.x z sol.y ∧
      (s.settings.check_dualgap ≠ 0 → ∃ y', (ofData U).Cleaned (rowScale s) (costScale s) sol.y y' ∧
        |(ofData U).gap sol.x y'| < (ofData U).gapTol (s.settings.eps_abs * 10) (s.settings.eps_rel * 10) sol.x y') := by
  have := result_solved (b := true) (hist_inv hsq hist) call hsol hu after (by rw [after]; exact before) (by simp) (fun _ => hl)
  simpa [ctK] using this

/-- **C15**, primal infeasible inaccurate. -/
theorem c15_primal_inaccurate (hsq : SqrtPos env) (hist : Hist cfg env D₀ st₀ U s)
    (call : osqpSolve cfg env s = (s', 0)) (hsol : s'.solution = some sol)
    (before : s.info.status_val ≠ St.primInfInacc) (after : s'.info.status_val = St.primInfInacc) (hu : UserCriteria s) :
    (ofData U).PrimalCert (rowScale s) (s.settings.eps_prim_inf * 10) sol.prim_inf_cert := by
  have := result_primInf (b := true) (hist_inv hsq hist) call hsol hu after (by rw [after]; exact before)
  simpa [ctK] using this

/-- **C15**, dual infeasible inaccurate. -/
theorem c15_dual_inaccurate (hsq : SqrtPos env) (hist : Hist cfg env D₀ st₀ U s)
    (call : osqpSolve cfg env s = (s', 0)) (hsol : s'.solution = some sol)
    (before : s.info.status_val ≠ St.dualInfInacc) (after : s'.info.status_val = St.dualInfInacc) (hu : UserCriteria s) :
    (ofData U).DualCert (rowScale s) (s.settings.eps_dual_inf * 10) sol.dual_inf_cert := by
  have := result_dualInf (b := true) (hist_inv hsq hist) call hsol hu after (by rw [after]; exact before)
  simpa [ctK] using this

/-- **C15.** An inaccurate status appears in a call only if all `max_iter` iterations were completed or the clock
ran out. -/
theorem c15_only_after_limit (hsq : SqrtPos env) (hist : Hist cfg env D₀ st₀ U s)
    (call : osqpSolve cfg env s = (s', 0)) (changed : s.info.status_val ≠ s'.info.status_val)
    (after : s'.info.status_val = St.solvedInacc ∨ s'.info.status_val = St.primInfInacc ∨ s'.info.status_val = St.dualInfInacc) :
    AllDone cfg env s ∨ ∃ it, ClockStop cfg env s it := by
  have h := hist_inv hsq hist
  obtain ⟨it, t, hf, hn, hseen⟩ := solve_seen h call
  rw [hseen.status] at changed after
  rcases final_status hf rfl (by rw [entry_status]; exact changed) (by rcases after with a | a | a <;> rw [a] <;> decide)
    (by rcases after with a | a | a <;> rw [a] <;> decide) with
    ⟨s1, _, _, _, hc, hv, _⟩ | ⟨s1, _, _, _, hc, hv, hlim, _⟩
  · exfalso
    rcases checkTermination_status hc with a | a | a | a <;> rw [a] at hv <;>
      rcases after with b | b | b <;> rw [b] at hv <;> exact absurd hv (by decide)
  · rcases limitHit_user h hn hlim with a | a
    · exact Or.inl a
    · exact Or.inr ⟨it, a⟩

/-- A run that ends "solved inaccurate". -/
example : ∃ (s s' : Solver Demo.dims ℚ) (sol : Solution Demo.dims ℚ),
    SqrtPos Demo.sInacc.env ∧ Hist Demo.cfg Demo.sInacc.env Demo.sInacc.data Demo.sInacc.st Demo.sInacc.data s ∧
    osqpSolve Demo.cfg Demo.sInacc.env s = (s', 0) ∧ s'.solution = some sol ∧ s.info.status_val ≠ St.solvedInacc ∧
    s'.info.status_val = St.solvedInacc ∧ UserCriteria s ∧ ¬ LateStop Demo.cfg Demo.sInacc.env s := by
  have hs : (Demo.sInacc.done Demo.okInacc).solution.isSome = true := by decide +kernel
  refine ⟨Demo.sInacc.start Demo.okInacc, Demo.sInacc.done Demo.okInacc, (Demo.sInacc.done Demo.okInacc).solution.get hs, Demo.sInacc.sqrtPos, Demo.sInacc.hist Demo.okInacc,
    Demo.sInacc.solve_eq Demo.okInacc (by decide +kernel), (Option.some_get hs).symm, by decide +kernel, by decide +kernel,
    Or.inr (by decide +kernel), ?_⟩
  rintro ⟨it, h1, _, _, h2, _⟩
  have : (Demo.sInacc.start Demo.okInacc).settings.max_iter = 1 := by decide +kernel
  omega

end Osqp
