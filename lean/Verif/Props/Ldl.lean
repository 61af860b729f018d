import Verif.Lemmas.Ldl
import Verif.Props.LinSys
import Verif.Props.Limits
import Verif.Props.Start
import Verif.Props.Data
import Verif.Vm.ApiSetup

/-!
# C70: when the factorisation fails

`Ldl B L D`, `positives D`, `CountsPivots`, `CountsIn`, `ReducedPD` (`Spec/Ldl.lean`): an `L*D*L'` factorisation, its positive pivots, what the factorisation
routine returns, `P + sigma*I + A'*diag(rho)*A` positive definite. `kktMatrix P A sigma rho` is `[P + sigma*I, A'; A, -diag(1/rho)]`; an equivalence `e`
puts its rows and columns in an order.
-/

set_option linter.unusedSectionVars false
namespace Osqp
open Spec Matrix

variable {K : Type*} [Field K] [LinearOrder K] [IsStrictOrderedRing K] {d : Dims} {n m : ℕ}
variable {cfg : Cfg} {env : Env d K} {D₀ U : Data d K} {st₀ : Settings K} {s s' : Solver d K}

/-! ## The matrix -/

theorem definite {P : Matrix (Fin n) (Fin n) K} {sigma : K} (hP : PSD P) (hs : 0 < sigma) (x : Fin n → K) (hx : x ≠ 0) : 0 < x ⬝ᵥ (P *ᵥ x) + sigma * (x ⬝ᵥ x) := by
  have h1 := hP x
  obtain ⟨j, hj⟩ := Function.ne_iff.1 hx
  have hj' : x j ≠ 0 := hj
  have h2 : 0 < x ⬝ᵥ x := Finset.sum_pos' (fun i _ => mul_self_nonneg _) ⟨j, Finset.mem_univ _, mul_self_pos.2 hj'⟩
  have := mul_pos hs h2
  linarith

/-- **C70** (existence). For symmetric positive semidefinite `P`, `sigma > 0` and positive step sizes the matrix of the linear system can be factored with its
rows and columns in every order, without a zero pivot, and exactly `n` pivots are positive. -/
theorem c70_factor {P : Matrix (Fin n) (Fin n) K} (A : Matrix (Fin m) (Fin n) K) {sigma : K} {rho : Fin m → K} (symm : ∀ i j, P i j = P j i) (hP : PSD P) (hs : 0 < sigma)
    (hr : ∀ i, 0 < rho i) (e : Fin (n + m) ≃ Fin n ⊕ Fin m) :
    ∃ L D, Spec.Ldl ((kktMatrix P A sigma rho).submatrix e e) L D ∧ positives D = n := by
  obtain ⟨L, D, h⟩ := Ldl.exists_ldl (B := (kktMatrix P A sigma rho).submatrix e e) (fun i j => Ldl.kkt_symm symm _ _)
    ((Ldl.kkt_nondeg (definite hP hs) hr).reindex e)
  refine ⟨L, D, h, (Ldl.positives_eq_iff hr h).2 fun x hx => ?_⟩
  have := definite hP hs x hx
  have := Finset.sum_nonneg fun i (_ : i ∈ Finset.univ) => mul_nonneg (hr i).le (sq_nonneg ((A *ᵥ x) i))
  linarith

/-- **C70** (the signs). Whatever `P` is: a factorisation of the matrix, in whatever order, has at most `n` positive pivots, and it has `n` of them exactly if
`P + sigma*I + A'*diag(rho)*A` is positive definite. -/
theorem c70_signs {P : Matrix (Fin n) (Fin n) K} {A : Matrix (Fin m) (Fin n) K} {sigma : K} {rho : Fin m → K} (hr : ∀ i, 0 < rho i) {e : Fin (n + m) ≃ Fin n ⊕ Fin m}
    {L : Matrix (Fin (n + m)) (Fin (n + m)) K} {D : Fin (n + m) → K} (h : Spec.Ldl ((kktMatrix P A sigma rho).submatrix e e) L D) :
    positives D ≤ n ∧ (positives D = n ↔ ReducedPD P A sigma rho) :=
  ⟨Ldl.positives_le hr h, Ldl.positives_eq_iff hr h⟩

/-- **C70** (the count is well defined). All factorisations of a matrix have the same number of positive pivots; so for every matrix there is exactly one count of positive
pivots, or there is no factorisation. -/
theorem c70_well_defined {N : ℕ} (B : Matrix (Fin N) (Fin N) K) :
    (∀ L D L' D', Spec.Ldl B L D → Spec.Ldl B L' D' → positives D = positives D') ∧ ∃ c, CountsPivots B c := by
  refine ⟨fun L D L' D' h h' => Ldl.positives_unique h h', ?_⟩
  by_cases hl : ∃ L D, Spec.Ldl B L D
  · obtain ⟨L, D, h⟩ := hl
    exact ⟨positives D, fun L' D' h' => by rw [Ldl.positives_unique h h'], fun hn => absurd ⟨L, D, h⟩ hn⟩
  · exact ⟨-1, fun L D h => absurd ⟨L, D, h⟩ hl, fun _ => by decide⟩

/-- What the routine returns. -/
theorem counts_convex {P : Matrix (Fin n) (Fin n) K} {A : Matrix (Fin m) (Fin n) K} {sigma : K} {rho : Fin m → K} (symm : ∀ i j, P i j = P j i) (hP : PSD P) (hs : 0 < sigma)
    (hr : ∀ i, 0 < rho i) {e : Fin (n + m) ≃ Fin n ⊕ Fin m} {c : ℤ} (h : CountsPivots ((kktMatrix P A sigma rho).submatrix e e) c) : c = n := by
  obtain ⟨L, D, h1, h2⟩ := c70_factor A symm hP hs hr e
  rw [h.count L D h1, h2]

theorem counts_accept {P : Matrix (Fin n) (Fin n) K} {A : Matrix (Fin m) (Fin n) K} {sigma : K} {rho : Fin m → K}
    (hr : ∀ i, 0 < rho i) {e : Fin (n + m) ≃ Fin n ⊕ Fin m} {c : ℤ} (h : CountsPivots ((kktMatrix P A sigma rho).submatrix e e) c) :
    c ≤ n ∧ (c = n → ReducedPD P A sigma rho) ∧ (0 ≤ c → ReducedPD P A sigma rho → c = n) := by
  by_cases hl : ∃ L D, Spec.Ldl ((kktMatrix P A sigma rho).submatrix e e) L D
  · obtain ⟨L, D, hl⟩ := hl
    obtain ⟨h1, h2⟩ := c70_signs hr hl
    rw [h.count L D hl]
    exact ⟨by exact_mod_cast h1, fun hc => h2.1 (by exact_mod_cast hc), fun _ hc => by exact_mod_cast h2.2 hc⟩
  · have := h.none hl
    exact ⟨by omega, fun hc => by omega, fun hc => by omega⟩

/-! ## The calls -/

/-- `P + sigma*I + A'*diag(rho)*A`, for the problem as the solver holds it, in the user's variables: the cost of `x` is multiplied by the cost scaling, the length of
`x` is measured in scaled variables and row `i` of `A` counts with its scaling and step size. -/
def AcceptedForm (U : Data d K) (s : Solver d K) (x : Fin d.n → K) : K :=
  costScale s * (x ⬝ᵥ ((ofData U).P *ᵥ x)) + s.settings.sigma * ∑ j, (x j / colScale s j) ^ 2 + ∑ i, steps s i * (rowScale s i * ((ofData U).A *ᵥ x) i) ^ 2

theorem colScale_pos (h : Represents s.settings s.work.scaling U s.work.data) (j : Fin d.n) : 0 < colScale s j := by
  rw [colScale_eff]; exact (rep_eff h).1.D_pos j

theorem held_symm (s : Solver d K) (U : Data d K) (i j : Fin d.n) :
    (fun i j => costScale s * (colScale s i * (ofData U).P i j * colScale s j)) i j = (fun i j => costScale s * (colScale s i * (ofData U).P i j * colScale s j)) j i := by
  dsimp only
  have : (ofData U).P i j = (ofData U).P j i := denseSym_symm _ _ _ _
  rw [this]; ring

theorem count_held (hc : CountsIn env) (h : Sync s) (rep : Represents s.settings s.work.scaling U s.work.data) :
    ∃ e : Fin (d.n + d.m) ≃ Fin d.n ⊕ Fin d.m, CountsPivots ((kktMatrix (fun i j => costScale s * (colScale s i * (ofData U).P i j * colScale s j))
      (fun i j => rowScale s i * (ofData U).A i j * colScale s j) s.settings.sigma (steps s)).submatrix e e) (env.factor s.work.linsys) := by
  obtain ⟨e, he⟩ := hc s.work.linsys
  rw [held_current h rep rfl] at he
  exact ⟨e, he⟩

theorem count_of_convex (hc : CountsIn env) (h : Sync s) (rep : Represents s.settings s.work.scaling U s.work.data) (hs : 0 < s.settings.sigma) (convex : PSD (ofData U).P) :
    env.factor s.work.linsys = d.n := by
  obtain ⟨e, he⟩ := count_held hc h rep
  exact counts_convex (held_symm s U) (psd_scaled convex (by rw [costScale_eff]; exact (rep_eff rep).1.c_pos.le) _) hs (steps_pos h) he

theorem form_scaled (s : Solver d K) (U : Data d K) (hcol : ∀ j, 0 < colScale s j) (x : Fin d.n → K) :
    AcceptedForm U s x = (fun j => x j / colScale s j) ⬝ᵥ ((fun i j => costScale s * (colScale s i * (ofData U).P i j * colScale s j)) *ᵥ fun j => x j / colScale s j) +
      s.settings.sigma * ((fun j => x j / colScale s j) ⬝ᵥ fun j => x j / colScale s j) +
      ∑ i, steps s i * ((fun i j => rowScale s i * (ofData U).A i j * colScale s j) *ᵥ fun j => x j / colScale s j) i ^ 2 := by
  have hx : ∀ j, colScale s j * (x j / colScale s j) = x j := fun j => mul_div_cancel₀ _ (hcol j).ne'
  unfold AcceptedForm
  congr 1
  · congr 1
    · simp only [dotProduct, mulVec, Finset.mul_sum]
      refine Finset.sum_congr rfl fun i _ => Finset.sum_congr rfl fun j _ => ?_
      linear_combination -costScale s * (ofData U).P i j * (x j * hx i + colScale s i * (x i / colScale s i) * hx j)
    · simp only [dotProduct, sq]
  · refine Finset.sum_congr rfl fun i _ => ?_
    congr 2
    simp only [mulVec, dotProduct, Finset.mul_sum]
    refine Finset.sum_congr rfl fun j _ => ?_
    linear_combination -rowScale s i * (ofData U).A i j * hx j

theorem form_of_count (hc : CountsIn env) (h : Sync s) (rep : Represents s.settings s.work.scaling U s.work.data) (hn : ¬ env.factor s.work.linsys < d.n)
    {x : Fin d.n → K} (hx : x ≠ 0) : 0 < AcceptedForm U s x := by
  obtain ⟨e, he⟩ := count_held hc h rep
  obtain ⟨h1, h2, -⟩ := counts_accept (steps_pos h) he
  rw [form_scaled s U (colScale_pos rep)]
  refine h2 (by omega) _ fun h0 => hx ?_
  funext j
  have := congrFun h0 j
  exact (div_eq_zero_iff.1 this).resolve_right (colScale_pos rep j).ne'

theorem scaleLoop_env (f : LinSys d K → ℤ) (k : ℕ) (t : ScaleSt d K) : scaleLoop { env with factor := f } k t = scaleLoop env k t := by
  induction k generalizing t with
  | zero => rfl
  | succ k ih => exact ih _

theorem scaled0_env (f : LinSys d K → ℤ) : Vm.scaled0 { env with factor := f } D₀ st₀ = Vm.scaled0 env D₀ st₀ := by
  unfold Vm.scaled0 scaleData
  rw [scaleLoop_env]

/-- The state set-up arrives at does not depend on the factorisation; that only decides between success and failure. -/
theorem setup_split (good : validateDataBad D₀ = false) (valid : validateSettings cfg st₀ true = false) :
    ∃ s, osqpSetup cfg { env with factor := fun _ => d.n } D₀ st₀ = .ok s ∧
      osqpSetup cfg env D₀ st₀ = if env.factor s.work.linsys < d.n then .failed Err.nonCvx else .ok s := by
  rw [Vm.osqpSetup_eq, Vm.osqpSetup_eq, good, valid, scaled0_env]
  simp only [Bool.false_eq_true, if_false, lt_irrefl]
  exact ⟨_, rfl, by
    have : ∀ (e : Env d K) (t : Solver d K) (l : LinSys d K), (Vm.lastInfo (Vm.timed cfg e (Vm.unsolvedInfo (coldStart (t.lsy l))))).work.linsys = l := by
      intro e t l; unfold Vm.lastInfo Vm.timed; split_ifs <;> rfl
    rw [this]; rfl⟩

/-- **C70** (set-up accepts every convex problem). With valid data and settings, if `P` is positive semidefinite, `osqp_setup` succeeds. -/
theorem c70_convex_accepted (hsq : SqrtPos env) (hc : CountsIn env) (good : validateDataBad D₀ = false) (valid : validateSettings cfg st₀ true = false)
    (convex : PSD (ofData D₀).P) : ∃ s, osqpSetup cfg env D₀ st₀ = .ok s := by
  obtain ⟨s, h1, h2⟩ := setup_split (env := env) good valid
  have h := hist_inv (env := { env with factor := fun _ => d.n }) hsq (.setup h1)
  have hs : 0 < s.settings.sigma := by rw [h.fixed.sigma]; exact h.valid0.sigma
  refine ⟨s, ?_⟩
  rw [h2, count_of_convex hc h.sync h.rep hs convex, if_neg (lt_irrefl _)]

/-- **C70** (a report of non-convexity is right). If `osqp_setup` gets as far as the factorisation and fails, the error is `OSQP_NONCVX_ERROR` and the objective has negative
curvature in some direction. -/
theorem c70_report_right (hsq : SqrtPos env) (hc : CountsIn env) {code : ℤ} (call : osqpSetup cfg env D₀ st₀ = .failed code) :
    code = Err.nonCvx ∧ ∃ x, x ⬝ᵥ ((ofData D₀).P *ᵥ x) < 0 := by
  have good : validateDataBad D₀ = false := by
    by_contra hv
    have hv' : validateDataBad D₀ = true := by simpa using hv
    unfold osqpSetup at call; simp [hv'] at call
  have valid : validateSettings cfg st₀ true = false := by
    by_contra hv
    have hv' : validateSettings cfg st₀ true = true := by simpa using hv
    unfold osqpSetup at call; simp [hv', good] at call
  constructor
  · obtain ⟨s, _, h2⟩ := setup_split (env := env) good valid
    rw [h2] at call
    split_ifs at call
    exact (SetupOut.failed.inj call).symm
  · by_contra hx
    push Not at hx
    obtain ⟨s, e⟩ := c70_convex_accepted hsq hc good valid fun x => hx x
    rw [e] at call; exact absurd call (by simp)

/-- **C70** (what acceptance means). If `osqp_setup` succeeds, `P + sigma*I + A'*diag(rho)*A` is positive definite, in the scaled problem: the objective may have negative curvature,
but only in directions in which the constraints (weighted by the step sizes) and `sigma` make up for it. -/
theorem c70_accepted (hsq : SqrtPos env) (hc : CountsIn env) (call : osqpSetup cfg env D₀ st₀ = .ok s) {x : Fin d.n → K} (hx : x ≠ 0) : 0 < AcceptedForm D₀ s x := by
  have h := hist_inv hsq (.setup call)
  exact form_of_count hc h.sync h.rep (made call).factor hx

/-- **C70** (acceptance, exactly). With valid data and settings set-up succeeds exactly if that matrix is positive definite, provided the matrix can be factored at all. -/
theorem c70_accepted_iff (hsq : SqrtPos env) (hc : CountsIn env) (good : validateDataBad D₀ = false) (valid : validateSettings cfg st₀ true = false)
    (factors : ∀ ls, 0 ≤ env.factor ls) :
    ∃ s, osqpSetup cfg { env with factor := fun _ => d.n } D₀ st₀ = .ok s ∧
      (osqpSetup cfg env D₀ st₀ = .ok s ↔ ∀ x ≠ 0, 0 < AcceptedForm D₀ s x) := by
  obtain ⟨s, h1, h2⟩ := setup_split (env := env) good valid
  have h := hist_inv (env := { env with factor := fun _ => d.n }) hsq (.setup h1)
  refine ⟨s, h1, ?_⟩
  rw [h2]
  obtain ⟨e, he⟩ := count_held hc h.sync h.rep
  obtain ⟨_, _, h3⟩ := counts_accept (steps_pos h.sync) he
  constructor
  · intro hs x hx
    refine form_of_count hc h.sync h.rep (fun hlt => ?_) hx
    rw [if_pos hlt] at hs; exact absurd hs (by simp)
  · intro hf
    have : env.factor s.work.linsys = d.n := h3 (factors _) fun y hy => by
      have := hf (fun j => colScale s j * y j) fun h0 => hy (by
        funext j; exact (mul_eq_zero.1 (congrFun h0 j)).resolve_left (colScale_pos h.rep j).ne')
      rw [form_scaled s D₀ (colScale_pos h.rep)] at this
      have e : (fun j => colScale s j * y j / colScale s j) = y := by
        funext j; exact mul_div_cancel_left₀ _ (colScale_pos h.rep j).ne'
      rwa [e] at this
    rw [if_neg (by omega)]

/-- **C70** (matrix updates). After a matrix update with valid arguments: if the new `P` is positive semidefinite the call returns 0; if it returns 0, the form is positive
definite for the new problem. -/
theorem c70_update_mat (hsq : SqrtPos env) (hc : CountsIn env) (hist : Hist cfg env D₀ st₀ U s) {p a : MatUpd K} {code : ℤ} (hp : MatArgsOK d.P.nnz p) (ha : MatArgsOK d.A.nnz a)
    (call : osqpUpdateDataMat cfg env s p a = some (s', code)) :
    (PSD (ofData { U with P := matNew U.P p, A := matNew U.A a }).P → code = 0) ∧
    (code = 0 → ∀ x ≠ 0, 0 < AcceptedForm { U with P := matNew U.P p, A := matNew U.A a } s' x) := by
  have hH : Hist cfg env D₀ st₀ (userStep U (.updateDataMat p a)) s' :=
    .step (op := .updateDataMat p a) (code := code) hist (by simpa only [apiStep] using call)
  have h' := hist_inv hsq hH
  rw [userStep, if_pos ⟨hp, ha⟩] at h'
  rcases osqpUpdateDataMat_some (hist_inv hsq hist) call with ⟨hn, _⟩ | ⟨_, hn, _⟩ | ⟨_, _, r, ls, hr, hl, e1⟩
  · exact absurd hp hn
  · exact absurd ha hn
  have hls : s'.work.linsys = ls := by rw [e1]; dsimp only; split_ifs <;> simp
  have hcode : code = if env.factor ls = d.n then 0 else 1 := by
    have key : ∀ {l D pi pn ai an}, linsysUpdateMat env l D pi pn ai an = some (ls, code) → code = if env.factor ls = d.n then 0 else 1 := by
      intro l D pi pn ai an e
      unfold linsysUpdateMat at e
      split at e
      · dsimp only at e
        rw [Option.some.injEq, Prod.mk.injEq] at e
        rw [← e.2, ← e.1]
      · exact absurd e (by simp)
    split_ifs at hl <;> exact key hl
  have hs : 0 < s'.settings.sigma := by rw [h'.fixed.sigma]; exact h'.valid0.sigma
  constructor
  · intro convex
    rw [hcode, ← hls, count_of_convex hc h'.sync h'.rep hs convex, if_pos rfl]
  · intro h0 x hx
    refine form_of_count hc h'.sync h'.rep ?_ hx
    rw [hls]
    rw [hcode] at h0
    by_cases hf : env.factor ls = d.n
    · omega
    · rw [if_neg hf] at h0; exact absurd h0 (by decide)

theorem rho_failed {t : Solver d K} {rho : K} (hr : 0 < rho) (h : (osqpUpdateRho cfg env t rho).2 ≠ 0) : env.factor (osqpUpdateRho cfg env t rho).1.work.linsys < 0 := by
  unfold osqpUpdateRho at h ⊢
  rw [if_neg (not_le.2 hr)] at h ⊢
  dsimp only at h ⊢
  generalize (if (cfg.profiling && !t.work.rho_update_from_solve) = true then clearUpdateTime t else t) = t1 at h ⊢
  generalize setRho t1 rho = t2 at h ⊢
  by_contra hc
  refine h (if_neg ?_)
  intro hn
  refine hc ?_
  split_ifs <;> exact hn

/-- **C70** (step sizes). For a convex problem a call of `osqp_update_rho` with a positive value returns 0, after every history of calls. -/
theorem c70_update_rho (hsq : SqrtPos env) (hc : CountsIn env) (hist : Hist cfg env D₀ st₀ U s) (convex : PSD (ofData U).P) {rho : K} (hr : 0 < rho) {code : ℤ}
    (call : osqpUpdateRho cfg env s rho = (s', code)) : code = 0 := by
  have hH : Hist cfg env D₀ st₀ U s' := .step (op := .updateRho rho) (code := code) hist (by simp only [apiStep, Option.some.injEq]; exact call)
  have h' := hist_inv hsq hH
  have hs : 0 < s'.settings.sigma := by rw [h'.fixed.sigma]; exact h'.valid0.sigma
  have key := count_of_convex hc h'.sync h'.rep hs convex
  by_contra h0
  have := rho_failed (cfg := cfg) (env := env) (t := s) hr (by rw [call]; exact h0)
  rw [call] at this
  dsimp only at this
  omega

/-- **C70** (vector updates). For a convex problem a vector update fails exactly if some new pair of bounds is out of order. -/
theorem c70_update_vec (hsq : SqrtPos env) (hc : CountsIn env) (hist : Hist cfg env D₀ st₀ U s) (convex : PSD (ofData U).P)
    {q : Option (Vec K d.n)} {l u : Option (Vec K d.m)} {code : ℤ} (call : osqpUpdateDataVec cfg env s q l u = (s', code)) :
    code ≠ 0 ↔ ∃ i, (u.getD U.u) i < (l.getD U.l) i := by
  have h := hist_inv hsq hist
  obtain ⟨h1, h2⟩ := vec_parts h call
  have e : (∃ i, (u.getD U.u) i < (l.getD U.l) i) ↔ ¬ ∀ i, (l.getD U.l) i ≤ (u.getD U.u) i := by simp
  rw [e]
  refine ⟨fun hcode hacc => hcode ?_, fun hcc => by rw [(h2 hcc).1]; decide⟩
  have hH : Hist cfg env D₀ st₀ (userStep U (.updateDataVec q l u)) s' := .step (op := .updateDataVec q l u) (code := code) hist (by simp only [apiStep, call])
  have h' := hist_inv hsq hH
  have hP : (ofData (userStep U (.updateDataVec q l u))).P = (ofData U).P := by rw [userStep]; split_ifs <;> rfl
  have hs : 0 < s'.settings.sigma := by rw [h'.fixed.sigma]; exact h'.valid0.sigma
  have key := count_of_convex hc h'.sync h'.rep hs (by rw [hP]; exact convex)
  rw [osqpUpdateDataVec_eq q l u (rep_bounds h.rep h.bounds)] at call
  dsimp only at call
  rw [if_pos ((vec_accept_iff h l u).2 hacc), Prod.mk.injEq] at call
  obtain ⟨e, ec⟩ := call
  generalize (if cfg.profiling then clearUpdateTime s else s) = s1 at *
  have hl : s'.work.linsys = (vecRho env (vecBounds s1 l u) l u).1.work.linsys := by
    rw [← e]; unfold vecQ; cases q <;> split_ifs <;> rfl
  rw [← ec]
  rw [hl] at key
  have hv : (vecRho env (vecBounds s1 l u) l u).2 = 0 ∨
      (vecRho env (vecBounds s1 l u) l u).2 = if env.factor (vecRho env (vecBounds s1 l u) l u).1.work.linsys < 0 then 1 else 0 := by
    unfold vecRho
    by_cases c1 : ((l.isSome || u.isSome) && decide ((vecBounds s1 l u).settings.rho_is_vec ≠ 0)) = true
    · rw [if_pos c1]
      unfold updateRhoVec
      dsimp only
      by_cases c2 : (setRhoVec (vecBounds s1 l u)).2 = true
      · rw [if_pos c2]; exact .inr rfl
      · rw [if_neg c2]; exact .inl rfl
    · rw [if_neg c1]; exact .inl rfl
  rcases hv with hv | hv
  · exact hv
  · rw [hv, key, if_neg (by omega)]

/-! ## Solving -/

/-- The factorisation routine, when polishing, counts the pivots of `[P + sigma*I, Aᵣ'; Aᵣ, -sigma*I]`, where `Aᵣ` has the selected rows of `A`, with rows and columns
in some order. -/
def PolCountsIn (env : Env d K) : Prop :=
  ∀ (D : Data d K) (flags : Fin d.m → ℤ) (sigma : K), ∃ (k : ℕ) (r : Fin k ≃ {i // flags i ≠ 0}) (e : Fin (d.n + k) ≃ Fin d.n ⊕ Fin k),
    CountsPivots ((kktMatrix (ofData D).P (fun a j => (ofData D).A (r a) j) sigma fun _ => 1 / sigma).submatrix e e) (env.polFactor D flags sigma)

theorem held_data_psd (rep : Represents s.settings s.work.scaling U s.work.data) (convex : PSD (ofData U).P) : PSD (ofData s.work.data).P := by
  obtain ⟨ok, is⟩ := rep_eff rep
  have e : (ofData s.work.data).P = fun i j => (effSc s).c * ((effSc s).D i * (ofData U).P i j * (effSc s).D j) := by
    show denseSym d.P s.work.data.P = _
    rw [show s.work.data.P = fun k => U.P k * (effSc s).D (d.P.row k) * (effSc s).D (d.P.col k) * (effSc s).c by
      funext k; rw [is.P k]; ring, denseSym_scale]; rfl
  rw [e]
  exact psd_scaled convex ok.c_pos.le _

theorem estimate_pos (t : Solver d K) : 0 < computeRhoEstimate env t := by
  unfold computeRhoEstimate clampRho
  dsimp only
  have h1 : 0 < Const.rhoMin K := rhoMin_pos
  have h2 : 0 < Const.rhoMax K := by unfold Const.rhoMax; positivity
  split_ifs
  · exact h1
  · exact h2
  · rw [cMin_eq, cMax_eq]; exact lt_min (lt_max_of_lt_right h1) h2

theorem adapt_failed {ca : Bool} {t : Solver d K} (h : (adaptPhase cfg env ca t).2 = true) : env.factor (adaptPhase cfg env ca t).1.work.linsys < 0 := by
  unfold adaptPhase at h ⊢
  dsimp only at h ⊢
  generalize (if (ca && decide (t.settings.adaptive_rho = 3)) = true then _ else ca) = b at h ⊢
  cases b with
  | false => simp at h
  | true =>
    simp only [if_true] at h ⊢
    by_cases hz : (adaptRho cfg env { t with work := { t.work with rho_updated := false } }).2 = 0
    · rw [if_neg (not_not.2 hz)] at h; split_ifs at h
    · rw [if_pos hz]
      unfold adaptRho at hz ⊢
      dsimp only at hz ⊢
      split_ifs at hz ⊢
      · exact rho_failed (estimate_pos _) hz
      · exact absurd rfl hz

/-- **C70** (solving). For a convex problem `osqp_solve` fails only if it is interrupted: neither the adaptation of the step size nor polishing can fail. -/
theorem c70_solve (hsq : SqrtPos env) (hc : CountsIn env) (hpol : PolCountsIn env) (hist : Hist cfg env D₀ st₀ U s) (convex : PSD (ofData U).P) {code : ℤ}
    (call : osqpSolve cfg env s = (s', code)) (failed : code ≠ 0) : cfg.interrupt = true ∧ s'.info.status_val = St.sigint := by
  have h := hist_inv hsq hist
  have hσ : 0 < s.settings.sigma := by rw [h.fixed.sigma]; exact h.valid0.sigma
  have hrun := solve_run (env := env) h
  rw [call] at hrun
  cases hrun with
  | exited s1 exit code1 eq =>
    cases exit with
    | interrupted it L0 head lo hi hit eq1 within iterated =>
      refine ⟨?_, ?_⟩
      · by_contra hn; unfold intrCheck at hit; simp [hn] at hit
      · have eq : s' = endListener cfg s1 := eq
        rw [eq]; simp only [endListener_info]; rw [eq1]; rfl
    | adaptFailed it L0 head lo hi within iterated status fail eq1 =>
      exfalso
      have hf := fromCall within
      have h0 := adapt_failed fail
      rw [← eq1] at h0
      have hs : 0 < s1.settings.sigma := by obtain ⟨r, i, e⟩ := hf.settings; rw [e]; exact hσ
      have := count_of_convex hc within.sync (hf.rep h.rep) hs convex
      omega
  | ran it L' p lend chk peq eq =>
    exfalso
    have hw := (final_of_checked chk).within
    have hf := fromCall hw
    have hs : 0 < (postTail cfg env p).settings.sigma := by obtain ⟨r, i, e⟩ := hf.settings; rw [e]; exact hσ
    have h2 : (postPolish cfg env (postTail cfg env p)).2 = 0 := by
      unfold postPolish polish
      dsimp only
      split_ifs with c1 c2 c3 c4
      all_goals first | rfl | skip
      exfalso
      obtain ⟨k, r, e, he⟩ := hpol (postTail cfg env p).work.data (activeFlags (postTail cfg env p).work.data.l (postTail cfg env p).work.data.u (postTail cfg env p).work.z (postTail cfg env p).work.y)
        (postTail cfg env p).settings.sigma
      have hP : PSD (ofData (postTail cfg env p).work.data).P := by
        have := held_data_psd (hf.rep h.rep) convex
        exact this
      have := counts_convex (fun i j => denseSym_symm _ _ _ _) hP hs (fun _ => one_div_pos.2 hs) he
      omega
    rw [finish_eq] at eq
    rw [h2] at eq
    simp only [gt_iff_lt, lt_irrefl, if_false, Prod.mk.injEq] at eq
    exact failed eq.2

/-! ## A routine that counts -/

open Classical in
/-- A routine that counts the positive pivots, if there is a factorisation. -/
noncomputable def pivotCount {N : ℕ} (B : Matrix (Fin N) (Fin N) K) : ℤ := (c70_well_defined B).2.choose

/-- The environment `env` with a factorisation routine that counts pivots. -/
noncomputable def counting (env : Env d K) : Env d K where
  sqrt := env.sqrt
  clk := env.clk
  intr := env.intr
  factor ls := pivotCount ((heldMatrix ls).submatrix finSumFinEquiv.symm finSumFinEquiv.symm)
  kktSolve := env.kktSolve
  polFactor D flags sigma := pivotCount ((kktMatrix (ofData D).P (fun a j => (ofData D).A ((Fintype.equivFin {i // flags i ≠ 0}).symm a) j) sigma fun _ => 1 / sigma).submatrix
    finSumFinEquiv.symm finSumFinEquiv.symm)
  polSolve := env.polSolve

/-- The assumptions on the routine can be met, for all dimensions, in every ordered field. -/
theorem counting_ok (env : Env d K) : CountsIn (counting env) ∧ PolCountsIn (counting env) :=
  ⟨fun ls => ⟨_, (c70_well_defined ((heldMatrix ls).submatrix finSumFinEquiv.symm finSumFinEquiv.symm)).2.choose_spec⟩,
    fun D flags sigma => ⟨_, (Fintype.equivFin {i // flags i ≠ 0}).symm, _, (c70_well_defined ((kktMatrix (ofData D).P (fun a j => (ofData D).A ((Fintype.equivFin {i // flags i ≠ 0}).symm a) j)
      sigma fun _ => 1 / sigma).submatrix finSumFinEquiv.symm finSumFinEquiv.symm)).2.choose_spec⟩⟩

theorem psd_one {p : ℚ} (hp : 0 ≤ p) (a q l u : ℚ) : PSD (ofData (Demo.data p a q l u)).P := by
  intro x
  have e : (ofData (Demo.data p a q l u)).P 0 0 = p := by
    simp [ofData, denseSym, Demo.data]
  have : x ⬝ᵥ ((ofData (Demo.data p a q l u)).P *ᵥ x) = p * x 0 ^ 2 := by
    simp only [dotProduct, mulVec, Fin.sum_univ_one, Fin.isValue]
    rw [show (ofData (Demo.data p a q l u)).P (0 : Fin 1) (0 : Fin 1) = p from e]; ring
  rw [this]
  positivity

/-- One variable, one constraint, default settings: `min x²/2 + x` subject to `-1 ≤ 2x ≤ 1`. All assumptions of C70 are met, so the problem is accepted, and step-size updates
never fail. -/
example : ∃ s s' : Solver Demo.dims ℚ, SqrtPos (counting (Demo.env (fun _ => 0) fun _ => false)) ∧ CountsIn (counting (Demo.env (fun _ => 0) fun _ => false)) ∧
    PolCountsIn (counting (Demo.env (fun _ => 0) fun _ => false)) ∧ PSD (ofData (Demo.data 1 2 1 (-1) 1)).P ∧
    osqpSetup Demo.cfg (counting (Demo.env (fun _ => 0) fun _ => false)) (Demo.data 1 2 1 (-1) 1) Demo.settings = .ok s ∧
    Hist Demo.cfg (counting (Demo.env (fun _ => 0) fun _ => false)) (Demo.data 1 2 1 (-1) 1) Demo.settings (Demo.data 1 2 1 (-1) 1) s ∧
    osqpUpdateRho Demo.cfg (counting (Demo.env (fun _ => 0) fun _ => false)) s 3 = (s', 0) := by
  have h1 : SqrtPos (counting (Demo.env (fun _ => 0) fun _ => false)) := Demo.sqrtPos (fun _ => 0) (fun _ => false) false
  have h2 := counting_ok (Demo.env (fun _ => (0 : ℚ)) fun _ => false)
  have h3 := psd_one (show (0 : ℚ) ≤ 1 by norm_num) 2 1 (-1) 1
  obtain ⟨s, hs⟩ := c70_convex_accepted (cfg := Demo.cfg) (st₀ := Demo.settings) h1 h2.1 (D₀ := Demo.data 1 2 1 (-1) 1) (by decide +kernel) (by decide +kernel) h3
  refine ⟨s, _, h1, h2.1, h2.2, h3, hs, .setup hs, Prod.ext rfl ?_⟩
  exact c70_update_rho h1 h2.1 (.setup hs) h3 (rho := 3) (by norm_num) rfl

end Osqp
