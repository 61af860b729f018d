import Verif.Lemmas.Store
import Verif.Demo.Runs

/-!
# C10, C11, C44: solution fields, status value and text, repeated reading
-/

namespace Osqp
open Spec Matrix
variable {K : Type*} [Field K] [LinearOrder K] [IsStrictOrderedRing K] {d : Dims} {cfg : Cfg} {env : Env d K}
  {D₀ U : Data d K} {st₀ : Settings K} {s s' : Solver d K} {sol : Solution d K}

/-- What has to be in the solution after storing, by status: `s` is the solver afterwards, `prev` the previous
contents of the destination. -/
structure FieldsOK (s : Solver d K) (prev sol : Solution d K) : Prop where
  solution : hasSolution s.info = true → sol.x = userX s ∧ sol.y = userY s ∧
    Placeholder sol.prim_inf_cert ∧ Placeholder sol.dual_inf_cert
  primal : s.info.status_val = St.primInf ∨ s.info.status_val = St.primInfInacc →
    Placeholder sol.x ∧ Placeholder sol.y ∧ Placeholder sol.dual_inf_cert ∧ sol.prim_inf_cert = s.work.delta_y
  dual : s.info.status_val = St.dualInf ∨ s.info.status_val = St.dualInfInacc →
    Placeholder sol.x ∧ Placeholder sol.y ∧ Placeholder sol.prim_inf_cert ∧ sol.dual_inf_cert = s.work.delta_x
  nonconvex : s.info.status_val = St.nonCvx → Placeholder sol.x ∧ Placeholder sol.y ∧
    sol.prim_inf_cert = prev.prim_inf_cert ∧ sol.dual_inf_cert = prev.dual_inf_cert
  reset : ¬ hasSolution s.info = true → (∀ j, s.work.x j = 0) ∧ (∀ i, s.work.y i = 0) ∧ ∀ i, s.work.z i = 0

theorem fields_store (p : Solver d K) (prev : Solution d K) : FieldsOK (storeSolution p prev).1 prev (storeSolution p prev).2 := by
  have hn : Placeholder (vSet (Const.nan K) : Vec K d.n) := fun i => rfl
  have hm : Placeholder (vSet (Const.nan K) : Vec K d.m) := fun i => rfl
  rcases status_split p.info with h | h | h | h
  · obtain ⟨a, b, c, e⟩ := store_x (dst := prev) h
    rw [hasSolution_iff] at h
    constructor <;> rw [e]
    · intro _; rw [a, b, c]; exact ⟨rfl, rfl, hm, hn⟩
    · tauto
    · tauto
    · tauto
    · intro h'; exact absurd ((hasSolution_iff _).2 h) h'
  · obtain ⟨a, b, e, x, y, z⟩ := store_p (dst := prev) h
    have h1 : ¬ hasSolution p.info = true := by rw [hasSolution_iff]; tauto
    have h2 : ¬ (p.info.status_val = St.dualInf ∨ p.info.status_val = St.dualInfInacc) := by
      rcases h with h | h <;> rw [h] <;> decide
    have h3 : p.info.status_val ≠ St.nonCvx := by rcases h with h | h <;> rw [h] <;> decide
    constructor <;> rw [e]
    · exact fun h => absurd h h1
    · intro _; rw [a, b]; exact ⟨hn, hm, hn, rfl⟩
    · exact fun h => absurd h h2
    · exact fun h => absurd h h3
    · intro _; rw [x, y, z]; exact ⟨fun _ => rfl, fun _ => rfl, fun _ => rfl⟩
  · obtain ⟨a, b, e, x, y, z⟩ := store_d (dst := prev) h
    have h1 : ¬ hasSolution p.info = true := by rw [hasSolution_iff]; tauto
    have h2 : ¬ (p.info.status_val = St.primInf ∨ p.info.status_val = St.primInfInacc) := by
      rcases h with h | h <;> rw [h] <;> decide
    have h3 : p.info.status_val ≠ St.nonCvx := by rcases h with h | h <;> rw [h] <;> decide
    constructor <;> rw [e]
    · exact fun h => absurd h h1
    · exact fun h => absurd h h2
    · intro _; rw [a, b]; exact ⟨hn, hm, hm, rfl⟩
    · exact fun h => absurd h h3
    · intro _; rw [x, y, z]; exact ⟨fun _ => rfl, fun _ => rfl, fun _ => rfl⟩
  · obtain ⟨a, e, x, y, z⟩ := store_n (dst := prev) h
    have h1 : ¬ hasSolution p.info = true := by rw [hasSolution_iff]; tauto
    constructor <;> rw [e]
    · exact fun h => absurd h h1
    · rw [h]; exact fun h => absurd h (by decide)
    · rw [h]; exact fun h => absurd h (by decide)
    · intro _; rw [a]; exact ⟨hn, hm, rfl, rfl⟩
    · intro _; rw [x, y, z]; exact ⟨fun _ => rfl, fun _ => rfl, fun _ => rfl⟩

/-- **C10**, after `osqp_solve`: exactly the right fields of the solver's own solution are filled. -/
theorem c10_solve_fields (hsq : SqrtPos env) (hist : Hist cfg env D₀ st₀ U s)
    (call : osqpSolve cfg env s = (s', 0)) (hsol : s'.solution = some sol) :
    ∃ prev, s.solution = some prev ∧ FieldsOK s' prev sol := by
  obtain ⟨p, sol0, h0, h1, h2, h3, h4⟩ := solve_stored (hist_inv hsq hist) call hsol
  refine ⟨sol0, h0, ?_⟩
  have h := fields_store p sol0
  rw [← h1] at h
  constructor
  · intro hs; rw [h3] at hs; 
    have ex : userX s' = userX (storeSolution p sol0).1 := by unfold userX; rw [h2, h4]
    have ey : userY s' = userY (storeSolution p sol0).1 := by unfold userY; rw [h2, h4]
    rw [ex, ey]; exact h.solution hs
  · intro hs; rw [h3] at hs; rw [h2]; exact h.primal hs
  · intro hs; rw [h3] at hs; rw [h2]; exact h.dual hs
  · intro hs; rw [h3] at hs; exact h.nonconvex hs
  · intro hs; rw [h3] at hs; rw [h2]; exact h.reset hs

/-- **C10**, after `osqp_get_solution` into any destination, in any state. -/
theorem c10_get_fields {dst : Solution d K} {code : ℤ} (call : osqpGetSolution s dst = (s', sol, code)) :
    code = 0 ∧ s'.info = s.info ∧ FieldsOK s' dst sol := by
  unfold osqpGetSolution at call
  simp only [Prod.mk.injEq] at call
  obtain ⟨a, b, c⟩ := call
  subst a b
  refine ⟨c.symm, by simp, fields_store s dst⟩

/-- C10 is not empty: a primal infeasible run fills the certificate with a non-zero vector, a solved one the
point. -/
example : ∃ (s s' : Solver Demo.dims ℚ) (sol : Solution Demo.dims ℚ),
    Hist Demo.cfg Demo.sPrim.env Demo.sPrim.data Demo.sPrim.st Demo.sPrim.data s ∧
    osqpSolve Demo.cfg Demo.sPrim.env s = (s', 0) ∧ s'.solution = some sol ∧ s'.info.status_val = St.primInf := by
  have hs : (Demo.sPrim.done Demo.okPrim).solution.isSome = true := by decide +kernel
  exact ⟨Demo.sPrim.start Demo.okPrim, Demo.sPrim.done Demo.okPrim, (Demo.sPrim.done Demo.okPrim).solution.get hs, Demo.sPrim.hist Demo.okPrim,
    Demo.sPrim.solve_eq Demo.okPrim (by decide +kernel), (Option.some_get hs).symm, by decide +kernel⟩

/-- **C11.** After any sequence of API calls with any outcomes the status value and the status text are an entry
of the documented table, and the text with its terminator fits into the 32-byte buffer. -/
theorem c11_status (hsq : SqrtPos env) (hist : Hist cfg env D₀ st₀ U s) :
    (s.info.status_val, s.info.status) ∈ documented ∧ s.info.status.utf8ByteSize + 1 ≤ 32 := by
  obtain ⟨h1, h2⟩ := (hist_inv hsq hist).status
  have : (s.info.status_val, s.info.status) ∈ documented := by
    generalize s.info.status_val = v at *
    generalize s.info.status = t at *
    unfold statusMessage at h1
    split at h1 <;> first | (cases h1; done) | (injection h1 with h1; subst h1; first | exact absurd rfl h2 | decide)
  refine ⟨this, ?_⟩
  generalize s.info.status_val = v at *
  generalize s.info.status = t at *
  clear h1 h2
  simp only [documented, List.mem_cons, Prod.mk.injEq, List.not_mem_nil, or_false] at this
  rcases this with h | h | h | h | h | h | h | h | h | h | h <;> rw [h.2] <;> decide

/-- States with different statuses occur. -/
example : (Demo.sSolved.done Demo.okSolved).info.status = "solved" ∧ (Demo.sDual.done Demo.okDual).info.status = "dual infeasible" ∧
    (Demo.sLimit.done Demo.okLimit).info.status = "maximum iterations reached" := by decide +kernel

/-- **C44.** Reading the solution twice in a row gives the same vectors, in every state, into the same destination;
and into any other destination unless the status is "non convex" (where the certificates are not written). -/
theorem c44_get_twice {s₁ s₂ : Solver d K} {dst sol₁ sol₂ : Solution d K} {c₁ c₂ : ℤ}
    (first : osqpGetSolution s dst = (s₁, sol₁, c₁)) (second : osqpGetSolution s₁ sol₁ = (s₂, sol₂, c₂)) :
    sol₂ = sol₁ ∧ (s.info.status_val ≠ St.nonCvx → ∀ dst', (osqpGetSolution s₁ dst').2.1 = sol₁) := by
  unfold osqpGetSolution at *
  simp only [Prod.mk.injEq] at first second
  obtain ⟨a, b, _⟩ := first
  subst a b
  obtain ⟨_, b, _⟩ := second
  subst b
  exact store_twice

/-- **C44**, after a solve: `osqp_get_solution` returns what `osqp_solve` stored in `solver->solution`. -/
theorem c44_after_solve (hsq : SqrtPos env) (hist : Hist cfg env D₀ st₀ U s)
    (call : osqpSolve cfg env s = (s', 0)) (hsol : s'.solution = some sol) (hn : s'.info.status_val ≠ St.nonCvx)
    (dst : Solution d K) : (osqpGetSolution s' dst).2.1 = sol := by
  obtain ⟨p, sol0, h0, h1, h2, h3, h4⟩ := solve_stored (hist_inv hsq hist) call hsol
  have hp : p.info.status_val ≠ St.nonCvx := by rw [h3] at hn; simpa using hn
  have := (store_twice (s := p) (dst := sol0)).2 hp dst
  rw [← h1] at this
  rw [← this]
  have hst : ∀ a b : Solver d K, a.work = b.work → a.info = b.info → a.settings = b.settings →
      (storeSolution a dst).2 = (storeSolution b dst).2 := by
    intro a b e1 e2 e3
    unfold storeSolution coldStart; dsimp only; rw [e1, e2, e3]; split_ifs <;> rfl
  exact hst _ _ h2 h3 h4

end Osqp
