import Verif.Props.Rho

/-!
# Counterexamples: step sizes

* In scalar mode an initial `rho` outside the limits leaves an inverse step that does not match the step.
* A matrix update of a scaled problem changes the row scaling but not the constraint types.
* In time mode the interval chosen is 1, not a multiple of `check_termination`.
-/

namespace Osqp
open Spec Matrix
namespace Demo

/-- Scalar step size, initial value above the limit. -/
def sBig : Scenario :=
  { p := 1, a := 1, q := 0, l := -10, u := 10, x := 0, y := 1 / 10,
    st := { quick with rho := 10 ^ 7, rho_is_vec := 0, scaling := 0, eps_abs := 1 } }
theorem okBig : sBig.Ok := by decide +kernel
theorem big_sol : (sBig.done okBig).solution.isSome = true := by decide +kernel

/-- Bounds that are 1/5000 apart. -/
def sNarrow : Scenario := { sSolved with u := 2 / 10 ^ 4 }
theorem okNarrow : sNarrow.Ok := by decide +kernel
/-- New value of the constraint coefficient. -/
def newA : MatUpd ℚ := { x := some [10 ^ 6], idx := none, cnt := 1 }
def noP : MatUpd ℚ := { x := none, idx := none, cnt := 0 }
def narrowOut : Option (Solver dims ℚ × ℤ) := osqpUpdateDataMat cfg sNarrow.env (sNarrow.start okNarrow) noP newA
theorem narrow_ok : narrowOut.isSome = true := by decide +kernel
def narrowDone : Solver dims ℚ := (narrowOut.get narrow_ok).1

/-- Time mode with a check every 25 iterations. -/
def sClock : Scenario :=
  { sSolved with x := 100, y := 100, clk := fun k => k, st := { quick with adaptive_rho := 2, check_termination := 25, max_iter := 1 } }
theorem okClock : sClock.Ok := by decide +kernel

end Demo

/-- **C18 (positive, matching inverse) fails** without the hypothesis of `c18_inverse_partial`: `osqp_setup` stores
the inverse of the requested `rho` but clamps `rho` itself. -/
theorem c18_counterexample : ∃ (env : Env Demo.dims ℚ) (U : Data Demo.dims ℚ) (st : Settings ℚ) (s : Solver Demo.dims ℚ),
    SqrtPos env ∧ Hist Demo.cfg env U st U s ∧ ¬ ∀ i, invSteps s i = 1 / steps s i :=
  ⟨Demo.sBig.env, Demo.sBig.data, Demo.sBig.st, Demo.sBig.start Demo.okBig, Demo.sBig.sqrtPos, Demo.sBig.hist Demo.okBig,
    by decide +kernel⟩

/-- **C04 fails** for the same reason: a solve reports "solved" with a positive multiplier although the constraint
is nowhere near its upper bound. -/
theorem c04_counterexample : ∃ (env : Env Demo.dims ℚ) (U : Data Demo.dims ℚ) (st : Settings ℚ) (s s' : Solver Demo.dims ℚ)
    (sol : Solution Demo.dims ℚ), SqrtPos env ∧ Hist Demo.cfg env U st U s ∧ osqpSolve Demo.cfg env s = (s', 0) ∧
    s'.solution = some sol ∧ UserCriteria s ∧ s'.info.status_val = St.solved ∧
    ¬ ∃ z, (ofData U).InBox z ∧ (ofData U).NormalCone z sol.y ∧ s'.info.prim_res = (ofData U).primRes sol.x z := by
  refine ⟨Demo.sBig.env, Demo.sBig.data, Demo.sBig.st, Demo.sBig.start Demo.okBig, Demo.sBig.done Demo.okBig,
    (Demo.sBig.done Demo.okBig).solution.get Demo.big_sol, Demo.sBig.sqrtPos, Demo.sBig.hist Demo.okBig,
    Demo.sBig.solve_eq Demo.okBig (by decide +kernel), (Option.some_get Demo.big_sol).symm, Or.inl (by decide +kernel),
    by decide +kernel, ?_⟩
  rintro ⟨z, _, hc, hp⟩
  have hz : z = fun _ => 10 := by
    funext i
    have h0 : 0 < ((Demo.sBig.done Demo.okBig).solution.get Demo.big_sol).y i := by
      rw [Subsingleton.elim (α := Fin 1) i Demo.i0]; decide +kernel
    exact (hc i).1 h0
  rw [hz] at hp
  exact absurd hp (by decide +kernel)

/-- **C19 fails** without the restriction of `c19_steps_partial`: after a matrix update of a scaled problem the step
sizes are those of the old row scaling. -/
theorem c19_counterexample : ∃ (env : Env Demo.dims ℚ) (D₀ U : Data Demo.dims ℚ) (st : Settings ℚ) (s : Solver Demo.dims ℚ),
    SqrtPos env ∧ Hist Demo.cfg env D₀ st U s ∧ s.settings.rho_is_vec ≠ 0 ∧ ¬ StepsMatch U s := by
  refine ⟨Demo.sNarrow.env, Demo.sNarrow.data, userStep Demo.sNarrow.data (.updateDataMat Demo.noP Demo.newA), Demo.sNarrow.st,
    Demo.narrowDone, Demo.sNarrow.sqrtPos,
    Hist.step (op := .updateDataMat Demo.noP Demo.newA) (Demo.sNarrow.hist Demo.okNarrow)
      (code := (Demo.narrowOut.get Demo.narrow_ok).2) (Option.some_get Demo.narrow_ok).symm, by decide +kernel, ?_⟩
  unfold StepsMatch; decide +kernel

/-- **C21 fails in time mode**: with a check every 25 iterations the interval chosen automatically is 1 — neither a
multiple of `check_termination` nor at least `check_termination`. -/
theorem c21_counterexample : ∃ (env : Env Demo.dims ℚ) (U : Data Demo.dims ℚ) (st : Settings ℚ) (s : Solver Demo.dims ℚ),
    SqrtPos env ∧ Hist Demo.cfg env U st U s ∧ st.adaptive_rho = 2 ∧ st.adaptive_rho_interval = 0 ∧
    s.settings.adaptive_rho_interval ≠ 0 ∧ ¬ s.settings.check_termination ≤ s.settings.adaptive_rho_interval ∧
    ¬ s.settings.check_termination ∣ s.settings.adaptive_rho_interval :=
  ⟨Demo.sClock.env, Demo.sClock.data, Demo.sClock.st, Demo.sClock.done Demo.okClock, Demo.sClock.sqrtPos, Demo.sClock.hist_done Demo.okClock,
    by decide +kernel, by decide +kernel, by decide +kernel, by decide +kernel, by decide +kernel⟩

end Osqp
