import Verif.Mkl.Ref

/-!
# C76: the conjugate-gradient solver of the MKL back end

A solve answers the current system within its tolerance, after any history of updates, whenever MKL's routine stops by the test of the interface.
When it stops for another reason, the caller's vector keeps the right-hand side.  Two accepted settings make the interface read memory it must not.
-/

namespace Osqp.Mkl
open Matrix Spec
universe u
variable {K : Type u} [Field K] [LinearOrder K] [IsStrictOrderedRing K] {n m : ℕ} {P : Pat n n} {A : Pat m n} {sqrt : K → K} {d : Dcg n K}

/-- **C76** (what a solve returns).  After any history, a solve that stops by its own test returns `x` and `A x` (when polishing `x` and
`rho * (A x - b2)`), where `x` solves the current reduced system up to the tolerance of this solve. -/
theorem c76_solution_partial (hd : Honest d) {g : Given P A K} {s s' : Solver P A K} {b1 : Vec K n} {b2 : Vec K m} {a : Args K} {r : Vec K n × Vec K m}
    (hist : MklHist sqrt d g s) (call : Solves sqrt d s b1 b2 a 2 r s') :
    ∃ eps, g.Tolerance sqrt b1 b2 a s'.tol.reduction_factor eps ∧ 0 < eps ∧ (∀ j, |g.defect b1 b2 r.1 j| < eps) ∧
      r.2 = if g.polish then fun i => g.rho i * ((dense A g.Ax *ᵥ r.1) i - b2 i) else dense A g.Ax *ᵥ r.1 := by
  have k := hist_kept hist
  obtain ⟨htol, loop, hst⟩ := call
  rename_i eps tol' mem sh
  have hr := (loop_ends hd loop (.start _)).1 _ _ rfl
  rw [normInf_lt_iff] at hr
  have e1 : (answer s b2 (computeRhs s b1 b2) 2 sh.x).1 = sh.x := by simp [answer]
  refine ⟨eps, tolerance_eq k hst, hr.1, fun j => ?_, ?_⟩
  · rw [e1, defect_eq k, Pi.neg_apply, abs_neg]; exact hr.2 j
  · rw [e1]
    unfold answer
    rw [if_pos (Or.inr rfl), k.polish]
    cases g.polish with
    | true =>
      simp only [if_true]
      funext i
      rw [spMul_eq, k.Ax, k.rho, mul_comm]
    | false =>
      simp only [Bool.false_eq_true, if_false]
      rw [spMul_eq, k.Ax]

/-- **C76** (polishing).  An object created for polishing whose step sizes are still `1/sigma` returns `(x, w)` that satisfies the second row of
`[P + sigma*I, A'; A, -sigma*I] (x, w) = (b1, b2)` exactly and the first one up to the tolerance. -/
theorem c76_polish_partial (hd : Honest d) {g : Given P A K} {s s' : Solver P A K} {b1 : Vec K n} {b2 : Vec K m} {a : Args K} {r : Vec K n × Vec K m}
    (hist : MklHist sqrt d g s) (pol : g.polish = true) (steps : g.rho = fun _ => 1 / g.st.sigma) (pos : 0 < g.st.sigma)
    (call : Solves sqrt d s b1 b2 a 2 r s') :
    (∀ j, |(denseSym P g.Px *ᵥ r.1) j + g.st.sigma * r.1 j + ((dense A g.Ax)ᵀ *ᵥ r.2) j - b1 j| < max (g.rhsNorm b1 b2 * (1 / 10 ^ 5)) (1 / 10 ^ 7)) ∧
      ∀ i, (dense A g.Ax *ᵥ r.1) i - g.st.sigma * r.2 i = b2 i := by
  obtain ⟨eps, h1, -, h2, h3⟩ := c76_solution_partial hd hist call
  unfold Given.Tolerance at h1
  rw [if_pos pol] at h1
  rw [if_pos pol] at h3
  refine ⟨fun j => ?_, fun i => ?_⟩
  · have := h2 j
    rw [h1] at this
    unfold Given.defect at this
    rw [← h3] at this
    simpa using this
  · rw [h3]
    simp only [steps]
    rw [← mul_assoc, mul_one_div_cancel pos.ne', one_mul, sub_sub_cancel]

/-- **C76** (the two codes of success).  If MKL's routine ends with code 0, the answer has the same form, for the iterate that the solver object keeps:
nothing is known about its accuracy. -/
theorem c76_form {g : Given P A K} {s s' : Solver P A K} {b1 : Vec K n} {b2 : Vec K m} {a : Args K} {r : Vec K n × Vec K m} {code : ℤ}
    (hist : MklHist sqrt d g s) (call : Solves sqrt d s b1 b2 a code r s') (ok : code = 0 ∨ code = 2) :
    r.1 = s'.sh.x ∧ r.2 = if g.polish then fun i => g.rho i * ((dense A g.Ax *ᵥ r.1) i - b2 i) else dense A g.Ax *ᵥ r.1 := by
  have k := hist_kept hist
  obtain ⟨htol, loop, hst⟩ := call
  rename_i eps tol' mem sh
  have e1 : (answer s b2 (computeRhs s b1 b2) code sh.x).1 = sh.x := by simp [answer, ok]
  refine ⟨e1, ?_⟩
  rw [e1]
  unfold answer
  rw [if_pos ok, k.polish]
  cases g.polish with
  | true =>
    simp only [if_true]
    funext i
    rw [spMul_eq, k.Ax, k.rho, mul_comm]
  | false =>
    simp only [Bool.false_eq_true, if_false]
    rw [spMul_eq, k.Ax]

/-- **C76, false for every other code**: the vector that the caller goes on with is the right-hand side of the reduced system and the unchanged second
part, whatever iterate has been computed. -/
theorem c76_failed {g : Given P A K} {s s' : Solver P A K} {b1 : Vec K n} {b2 : Vec K m} {a : Args K} {r : Vec K n × Vec K m} {code : ℤ}
    (hist : MklHist sqrt d g s) (call : Solves sqrt d s b1 b2 a code r s') (h0 : code ≠ 0) (h2 : code ≠ 2) :
    r.1 = (dense A g.Ax)ᵀ *ᵥ (fun i => g.rho i * b2 i) + b1 ∧ r.2 = b2 := by
  have k := hist_kept hist
  obtain ⟨htol, loop, hst⟩ := call
  unfold answer
  rw [if_neg (by tauto), computeRhs_eq, k.Ax, k.rho]
  exact ⟨rfl, rfl⟩

/-- **C76** (no unwritten memory).  With a known preconditioner, no solve reads memory that was never written, if the object has been made for
polishing, or this is a first iteration, or a solve has gone before. -/
theorem c76_defined_partial (hd : Honest d) {g : Given P A K} {s : Solver P A K} (b1 : Vec K n) (b2 : Vec K m) {a : Args K}
    (hist : MklHist sqrt d g s) (known : g.st.cg_precond = 0 ∨ g.st.cg_precond = 1) (usual : g.polish = true ∨ a.admm_iter = 1 ∨ g.solved = true) :
    ¬ SolveUndefined sqrt d s b1 b2 a := by
  have k := hist_kept hist
  rintro (h | ⟨eps, -, loop⟩)
  · have : s.tol.polish = true ∨ a.admm_iter = 1 ∨ s.tol.eps_prev.isSome := by
      by_cases hp : g.polish = true
      · exact Or.inl (k.polish.trans hp)
      · rcases usual with h | h | h
        · exact absurd h hp
        · exact Or.inr (Or.inl h)
        · exact Or.inr (Or.inr (k.prev h (Bool.eq_false_iff.2 hp)))
    obtain ⟨r, hr⟩ := tol_defined sqrt (c := ⟨a.admm_iter, vNormInf (computeRhs s b1 b2), a.prim, a.dual, true, true⟩) this
    unfold tolerance at h
    rw [hr] at h
    simp at h
  · obtain ⟨h1, h2⟩ := (loop_ends hd loop (.start _)).2 rfl
    simp only [decide_eq_true_eq] at h2
    rw [k.type] at h2
    rw [k.inv (known.resolve_left h2)] at h1
    simp at h1

/-- **C76** (the preconditioner is never stale).  After any history, if the diagonal preconditioner is selected, it is the inverse of the diagonal of
the current reduced matrix. -/
theorem c76_precond {g : Given P A K} {s : Solver P A K} (hist : MklHist sqrt d g s) (hP : Once P) (hA : Once A) (diag : g.st.cg_precond = 1) :
    s.precond_inv = some fun j => 1 / g.matrix j j := by
  have k := hist_kept hist
  rw [k.inv diag, diagonalInv_eq k hP hA]

/-- **C76, false for one step size for all constraints**: with `rho_is_vec = 0`, which the settings allow, there is no vector of step sizes; creating the
solver object and changing the step size read through the null pointer. -/
theorem c76_scalar_counterexample (Px : Vec K P.nnz) (Ax : Vec K A.nnz) (st : Settings K) (junk : Shared n K) (s : Solver P A K) :
    init Px Ax none st false junk = none ∧ updateRho s none = none := ⟨rfl, rfl⟩

/-! ## Examples -/

/-- `P = diag(1, 3)`, `A = [1 0]`. -/
def exP : Pat 2 2 := ⟨2, id, id⟩
def exA : Pat 1 2 := ⟨1, id, fun _ => 0⟩
def exPx : Vec ℚ exP.nnz := ![1, 3]
def exAx : Vec ℚ exA.nnz := ![1]
def exSt (precond limit : ℤ) : Settings ℚ := ⟨1, precond, limit, 10, 1 / 10⟩
def exJunk : Shared 2 ℚ := ⟨![7, 7], ![7, 7], ![7, 7], ![7, 7], ![7, 7]⟩
/-- A right-hand side and the first iteration. -/
def exB1 : Vec ℚ 2 := ![1, 1]
def exB2 : Vec ℚ 1 := ![0]
def exArgs : Args ℚ := ⟨1, 0, 0⟩

/-- The object, created with step size 1. -/
def exSolver (polish : Bool) (precond limit : ℤ) : Solver exP exA ℚ :=
  (init exPx exAx (some ![1]) (exSt precond limit) polish exJunk).get (by cases polish <;> rfl)

theorem ex_hist (precond limit : ℤ) : MklHist id (refDcg 2 ℚ) ⟨exPx, exAx, ![1], exSt precond limit, false, false⟩ (exSolver false precond limit) :=
  .create (junk := exJunk) (by simp [exSolver])

theorem ex_polish (precond limit : ℤ) : MklHist id (refDcg 2 ℚ) ⟨exPx, exAx, fun _ => 1 / 1, exSt precond limit, true, false⟩ (exSolver true precond limit) :=
  .polish (Px := exPx) (Ax := exAx) (st := exSt precond limit) (rho := some ![1]) (junk := exJunk) (by simp [exSolver])

/-- The loop of the example. -/
def exRun (polish : Bool) (precond limit : ℤ) : Option (Turn (refDcg 2 ℚ)) :=
  let s := exSolver polish precond limit
  let rhs := computeRhs s exB1 exB2
  (tolerance id s rhs exArgs).bind fun eps => runLoop (refDcg 2 ℚ) s rhs eps 20 ((refDcg 2 ℚ).start s.max_iter (s.precond_type ≠ 0)) s.sh

/-- The code and the iterate at the end. -/
def exEnd (t : Option (Turn (refDcg 2 ℚ))) : Option (ℤ × ℚ × ℚ) :=
  match t with
  | some (.leave code _ sh) => some (code, sh.x 0, sh.x 1)
  | _ => none

theorem ex_solves {polish : Bool} {precond limit code : ℤ} {x y : ℚ} (h : exEnd (exRun polish precond limit) = some (code, x, y)) :
    ∃ s', Solves id (refDcg 2 ℚ) (exSolver polish precond limit) exB1 exB2 exArgs code
      (answer (exSolver polish precond limit) exB2 (computeRhs (exSolver polish precond limit) exB1 exB2) code ![x, y]) s' ∧ s'.sh.x = ![x, y] := by
  unfold exEnd at h
  split at h
  · rename_i c mem sh e
    simp only [Option.some.injEq, Prod.mk.injEq] at h
    obtain ⟨rfl, hx, hy⟩ := h
    unfold exRun at e
    simp only [Option.bind_eq_some_iff] at e
    obtain ⟨eps, he, hl⟩ := e
    have hsh : sh.x = ![x, y] := by
      funext i
      fin_cases i
      · exact hx
      · exact hy
    rw [← hsh]
    obtain ⟨r, hr⟩ := tol_defined id (s := (exSolver polish precond limit).tol)
      (c := ⟨exArgs.admm_iter, vNormInf (computeRhs (exSolver polish precond limit) exB1 exB2), exArgs.prim, exArgs.dual, c = 0 ∨ c = 2, (refDcg 2 ℚ).iters mem = 0⟩) (Or.inr (Or.inl rfl))
    obtain ⟨tol', e2⟩ := r
    have : e2 = eps := by
      unfold tolerance at he
      simp only [Option.map_eq_some_iff] at he
      obtain ⟨⟨t2, e3⟩, hc, rfl⟩ := he
      have g := fun (f1 i1 : Bool) (t1 : Cg.State ℚ) (e1 : ℚ)
        (h : Cg.solve id (exSolver polish precond limit).tol ⟨1, vNormInf (computeRhs (exSolver polish precond limit) exB1 exB2), 0, 0, f1, i1⟩ = some (t1, e1)) =>
        show e1 = if (exSolver polish precond limit).tol.polish then cMax (vNormInf (computeRhs (exSolver polish precond limit) exB1 exB2) * Cg.polishTol) Cg.tolMin
          else if vNormInf (computeRhs (exSolver polish precond limit) exB1 exB2) < Cg.tolMin then 1 else
            vNormInf (computeRhs (exSolver polish precond limit) exB1 exB2) * (exSolver polish precond limit).tol.tol_fraction by
          unfold Cg.solve Cg.computeTolerance at h
          by_cases hp : (exSolver polish precond limit).tol.polish = true
          · simp only [hp, if_true, Option.bind_some, Option.some.injEq, Prod.mk.injEq] at h ⊢
            exact h.2.symm
          · by_cases hq : vNormInf (computeRhs (exSolver polish precond limit) exB1 exB2) < Cg.tolMin
            · simp only [hp, hq, if_true, if_false, Bool.false_eq_true, Option.bind_some, Option.some.injEq, Prod.mk.injEq] at h ⊢
              exact h.2.symm
            · simp only [hp, hq, if_true, if_false, Bool.false_eq_true, Option.bind_some, Option.some.injEq, Prod.mk.injEq] at h ⊢
              exact h.2.symm
      exact (g _ _ _ _ hr).trans (g _ _ _ _ hc).symm
    subst this
    exact ⟨_, .mk he (runLoop_loop hl) hr, rfl⟩
  · simp at h

/-- With a limit of 20 iterations and the diagonal preconditioner the solve ends by its test, at `x = (1/3, 1/4)`. -/
theorem ex_ends : exEnd (exRun false 1 20) = some (2, 1 / 3, 1 / 4) ∧ exEnd (exRun true 0 20) = some (2, 1 / 3, 1 / 4) := by decide +kernel

/-- What was given to the example. -/
def exGiven (precond limit : ℤ) : Given exP exA ℚ := ⟨exPx, exAx, ![1], exSt precond limit, false, false⟩

example : ∃ s' r, Solves id (refDcg 2 ℚ) (exSolver false 1 20) exB1 exB2 exArgs 2 r s' ∧ (∀ j, |(exGiven 1 20).defect exB1 exB2 r.1 j| < 1 / 10) ∧
    r.2 = dense exA exAx *ᵥ r.1 := by
  obtain ⟨s', h, -⟩ := ex_solves ex_ends.1
  obtain ⟨eps, h1, -, h2, h3⟩ := c76_solution_partial refDcg_honest (ex_hist 1 20) h
  have hr : (exGiven 1 20).rhsNorm exB1 exB2 = 1 := by unfold Given.rhsNorm; rw [← vNormInf_eq]; decide +kernel
  unfold Given.Tolerance at h1
  rw [if_neg (by simp), if_pos (show exArgs.admm_iter = 1 from rfl)] at h1
  change eps = if (exGiven 1 20).rhsNorm exB1 exB2 < 1 / 10 ^ 7 then 1 else (exGiven 1 20).rhsNorm exB1 exB2 * (1 / 10) at h1
  rw [hr, if_neg (by norm_num), one_mul] at h1
  exact ⟨s', _, h, fun j => h1 ▸ h2 j, h3⟩

example : ∃ s' r, Solves id (refDcg 2 ℚ) (exSolver true 0 20) exB1 exB2 exArgs 2 r s' ∧ ∀ i, (dense exA exAx *ᵥ r.1) i - 1 * r.2 i = exB2 i := by
  obtain ⟨s', h, -⟩ := ex_solves ex_ends.2
  exact ⟨s', _, h, (c76_polish_partial refDcg_honest (ex_polish 0 20) rfl rfl (by norm_num [exSt]) h).2⟩

example : ¬ SolveUndefined id (refDcg 2 ℚ) (exSolver false 1 20) exB1 exB2 exArgs :=
  c76_defined_partial refDcg_honest exB1 exB2 (ex_hist 1 20) (Or.inr rfl) (Or.inr (Or.inl rfl))

/-- What was given last in the next example. -/
def exNow : Given exP exA ℚ := ⟨(![2, 5] : Fin 2 → ℚ), exAx, ![4], exSt 1 20, false, true⟩

/-- New step sizes, after a solve and a change of `P`: the preconditioner follows. -/
example : ∃ s, MklHist id (refDcg 2 ℚ) exNow s ∧ s.precond_inv = some fun j => 1 / exNow.matrix j j := by
  obtain ⟨s', h, -⟩ := ex_solves ex_ends.1
  have hh := MklHist.rho (rho := ![4]) (MklHist.matrices (![2, 5] : Fin 2 → ℚ) exAx (MklHist.solve (ex_hist 1 20) h)) rfl
  exact ⟨_, hh, c76_precond hh (by unfold Once exP; decide) (by unfold Once exA; decide) rfl⟩

/-- **C76, false at the iteration limit**: with at most one iteration the routine of this example ends with code -1.  It has found an iterate with a defect of
1/7, but the caller goes on with the right-hand side, whose defect is 3. -/
theorem c76_limit_counterexample :
    ∃ (s s' : Solver exP exA ℚ) (g : Given exP exA ℚ) (r : Vec ℚ 2 × Vec ℚ 1), MklHist id (refDcg 2 ℚ) g s ∧ Honest (refDcg 2 ℚ) ∧
      Solves id (refDcg 2 ℚ) s exB1 exB2 exArgs (-1) r s' ∧ normInf (g.defect exB1 exB2 s'.sh.x) = 1 / 7 ∧ normInf (g.defect exB1 exB2 r.1) = 3 := by
  have he : exEnd (exRun false 0 1) = some (-1, 2 / 7, 2 / 7) := by decide +kernel
  obtain ⟨s', h, hx⟩ := ex_solves he
  refine ⟨_, s', _, _, ex_hist 0 1, refDcg_honest, h, ?_, ?_⟩
  · rw [hx, ← vNormInf_eq]; decide +kernel
  · rw [← vNormInf_eq]; decide +kernel

/-- **C76, false for an unknown preconditioner**: the settings are not checked for it, MKL's routine is told to use a preconditioner, and the first solve
reads one that was never computed. -/
theorem c76_precond_counterexample : Honest (refDcg 2 ℚ) ∧ MklHist id (refDcg 2 ℚ) ⟨exPx, exAx, ![1], exSt 2 20, false, false⟩ (exSolver false 2 20) ∧
    SolveUndefined id (refDcg 2 ℚ) (exSolver false 2 20) exB1 exB2 exArgs := by
  refine ⟨refDcg_honest, ex_hist 2 20, Or.inr ?_⟩
  have he : (match exRun false 2 20 with | some .undefined => true | _ => false) = true := by decide +kernel
  split at he
  · rename_i e
    unfold exRun at e
    simp only [Option.bind_eq_some_iff] at e
    obtain ⟨eps, h1, h2⟩ := e
    exact ⟨eps, h1, runLoop_loop h2⟩
  · simp at he

/-- After the limit has been met the returned pair has the form of `c76_failed`. -/
example : ∃ (s' : Solver exP exA ℚ) (r : Vec ℚ 2 × Vec ℚ 1), Solves id (refDcg 2 ℚ) (exSolver false 0 1) exB1 exB2 exArgs (-1) r s' ∧ r.2 = exB2 := by
  obtain ⟨s', h, -⟩ := ex_solves (show exEnd (exRun false 0 1) = some (-1, 2 / 7, 2 / 7) by decide +kernel)
  exact ⟨s', _, h, (c76_failed (ex_hist 0 1) h (by decide) (by decide)).2⟩

end Osqp.Mkl
