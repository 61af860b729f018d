import Verif.Props.Data

/-!
# Counterexamples: problem data

* A rejected bounds update damages the infeasibility certificate (`delta_y` is used as scratch space).
* With several passes of scaling `OSQP_INFTY` is not recognised as infinite.
* Index lists of matrix updates are not checked.
-/

namespace Osqp
open Spec Matrix
namespace Demo

/-- After the primal infeasible demo run. -/
def primDone : Solver dims ℚ := sPrim.done okPrim
/-- ... and after a rejected update of the upper bound. -/
def primRejected : Solver dims ℚ := (osqpUpdateDataVec cfg sPrim.env primDone none none (some fun _ => 1 / 2)).1
/-- Destination of `osqp_get_solution`. -/
def blank : Solution dims ℚ := ⟨fun _ => 0, fun _ => 0, fun _ => 0, fun _ => 0⟩

/-- A free row with a large coefficient, three passes of scaling. -/
def sFree : Scenario := { p := 1, a := 10 ^ 12, q := 0, l := -10 ^ 30, u := 10 ^ 30, st := { quick with scaling := 3 } }
theorem okFree : sFree.Ok := by decide +kernel

end Demo

/-- **C25 fails after "primal infeasible"**: the rejected call changes the certificate that `osqp_get_solution`
returns. -/
theorem c25_counterexample : ∃ (env : Env Demo.dims ℚ) (U : Data Demo.dims ℚ) (st : Settings ℚ) (s s' : Solver Demo.dims ℚ)
    (u : Vec ℚ 1) (dst : Solution Demo.dims ℚ), SqrtPos env ∧ Hist Demo.cfg env U st U s ∧
    osqpUpdateDataVec Demo.cfg env s none none (some u) = (s', Err.dataValidation) ∧ (∃ i, u i < U.l i) ∧
    (osqpGetSolution s dst).2.1.prim_inf_cert Demo.i0 = -1 ∧ (osqpGetSolution s' dst).2.1.prim_inf_cert Demo.i0 = 1 :=
  ⟨Demo.sPrim.env, Demo.sPrim.data, Demo.sPrim.st, Demo.primDone, Demo.primRejected, fun _ => 1 / 2, Demo.blank, Demo.sPrim.sqrtPos,
    Demo.sPrim.hist_done Demo.okPrim, Prod.ext rfl (by decide +kernel), by decide +kernel, by decide +kernel, by decide +kernel⟩

/-- **C52 fails with several scaling passes**: a constraint with both bounds `OSQP_INFTY` is not recognised as free;
it gets the step size of an ordinary inequality. -/
theorem c52_counterexample : ∃ (env : Env Demo.dims ℚ) (U : Data Demo.dims ℚ) (st : Settings ℚ) (s : Solver Demo.dims ℚ),
    SqrtPos env ∧ Hist Demo.cfg env U st U s ∧ s.settings.rho_is_vec ≠ 0 ∧ U.l Demo.i0 = -10 ^ 30 ∧ U.u Demo.i0 = 10 ^ 30 ∧
    s.work.rho_vec Demo.i0 = s.settings.rho ∧ s.work.rho_vec Demo.i0 ≠ 1 / 10 ^ 6 :=
  ⟨Demo.sFree.env, Demo.sFree.data, Demo.sFree.st, Demo.sFree.start Demo.okFree, Demo.sFree.sqrtPos, Demo.sFree.hist Demo.okFree,
    by decide +kernel, by decide +kernel, by decide +kernel, by decide +kernel, by decide +kernel⟩

/-- **C53 fails for unchecked index lists**: an index beyond the stored entries, or an index list with count 0 (which
stands for "all entries"), passes the checks and is undefined behaviour. -/
theorem c53_counterexample : ∃ (env : Env Demo.dims ℚ) (U : Data Demo.dims ℚ) (st : Settings ℚ) (s : Solver Demo.dims ℚ)
    (p a b : MatUpd ℚ), SqrtPos env ∧ Hist Demo.cfg env U st U s ∧ MatArgsOK Demo.dims.P.nnz p ∧ MatArgsOK Demo.dims.A.nnz a ∧
    MatArgsOK Demo.dims.A.nnz b ∧ b.cnt = 0 ∧ osqpUpdateDataMat Demo.cfg env s p a = none ∧ osqpUpdateDataMat Demo.cfg env s p b = none := by
  have h : ∀ a : MatUpd ℚ, (osqpUpdateDataMat Demo.cfg Demo.sSolved.env (Demo.sSolved.done Demo.okSolved) ⟨none, none, 0⟩ a).isNone = true →
      osqpUpdateDataMat Demo.cfg Demo.sSolved.env (Demo.sSolved.done Demo.okSolved) ⟨none, none, 0⟩ a = none := fun a h => Option.isNone_iff_eq_none.1 h
  exact ⟨Demo.sSolved.env, Demo.sSolved.data, Demo.sSolved.st, Demo.sSolved.done Demo.okSolved, ⟨none, none, 0⟩, ⟨some [1], some [5], 1⟩,
    ⟨some [], some [], 0⟩, Demo.sSolved.sqrtPos, Demo.sSolved.hist_done Demo.okSolved, by decide +kernel, by decide +kernel, by decide +kernel,
    rfl, h _ (by decide +kernel), h _ (by decide +kernel)⟩

end Osqp
