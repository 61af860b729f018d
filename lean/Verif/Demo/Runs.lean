import Verif.Demo.Basic
import Verif.Spec.Run

/-!
# Concrete runs

One-variable problems, set up, warm started and solved.  Each scenario is evaluated by the kernel.
-/

namespace Osqp.Demo
open Spec

/-- A problem `min p/2 x² + q x, l ≤ a x ≤ u`, settings, warm-start point, clock and interrupt schedule,
kind of polishing solve. -/
structure Scenario where
  p : ℚ
  a : ℚ
  q : ℚ
  l : ℚ
  u : ℚ
  st : Settings ℚ
  x : ℚ := 0
  y : ℚ := 0
  clk : ℕ → ℚ := fun _ => 0
  intr : ℕ → Bool := fun _ => false
  ex : Bool := false

namespace Scenario

def env (S : Scenario) : Env dims ℚ := Demo.env S.clk S.intr S.ex
def data (S : Scenario) : Data dims ℚ := Demo.data S.p S.a S.q S.l S.u

/-- State after set-up. -/
def made (S : Scenario) : Option (Solver dims ℚ) := got (osqpSetup cfg S.env S.data S.st)

/-- State after set-up and warm start. -/
def warm (s : Solver dims ℚ) (S : Scenario) : Solver dims ℚ := (osqpWarmStart s (some fun _ => S.x) (some fun _ => S.y)).1

/-- The scenario's set-up succeeds. -/
abbrev Ok (S : Scenario) : Prop := S.made.isSome = true

/-- State in which the solve of the scenario starts. -/
def start (S : Scenario) (h : S.Ok) : Solver dims ℚ := warm (S.made.get h) S

/-- State after the solve. -/
def done (S : Scenario) (h : S.Ok) : Solver dims ℚ := (osqpSolve cfg S.env (S.start h)).1

/-- Return code of the solve. -/
def code (S : Scenario) (h : S.Ok) : ℤ := (osqpSolve cfg S.env (S.start h)).2

theorem sqrtPos (S : Scenario) : SqrtPos S.env := Demo.sqrtPos _ _ _

theorem hist (S : Scenario) (h : S.Ok) : Hist cfg S.env S.data S.st S.data (S.start h) :=
  Hist.step (op := .warmStart (some fun _ => S.x) (some fun _ => S.y)) (Hist.setup (got_ok h)) rfl

theorem solve_eq (S : Scenario) (h : S.Ok) {c : ℤ} (hc : S.code h = c) :
    osqpSolve cfg S.env (S.start h) = (S.done h, c) := Prod.ext rfl hc

theorem hist_done (S : Scenario) (h : S.Ok) : Hist cfg S.env S.data S.st S.data (S.done h) :=
  Hist.step (op := .solve) (S.hist h) rfl

end Scenario

/-- Settings for the demo runs: one pass of scaling, a check in every iteration, at most two iterations. -/
def quick : Settings ℚ := { settings with check_termination := 1, scaling := 1, max_iter := 2 }

/-- `min x²/2 - x, 0 ≤ x ≤ 1/2`, started at the optimum: solved in the first iteration. -/
def sSolved : Scenario := { p := 1, a := 1, q := -1, l := 0, u := 1 / 2, st := quick, x := 1 / 2, y := 1 / 2 }

/-- The same with an active polishing step. -/
def sPolish : Scenario := { sSolved with st := { quick with polishing := 1, eps_abs := 1 / 10 }, x := 51 / 100, y := 1 / 2 }

/-- The same with exact solves in polishing. -/
def sExact : Scenario := { sPolish with ex := true }

/-- `0·x` between 1 and 2: primal infeasible. -/
def sPrim : Scenario := { p := 1, a := 0, q := 1, l := 1, u := 2, st := quick }

/-- `min -x` without bounds: dual infeasible. -/
def sDual : Scenario := { p := 0, a := 0, q := -1, l := -10 ^ 30, u := 10 ^ 30, st := quick }

/-- Far from the optimum: iteration limit. -/
def sLimit : Scenario := { sSolved with x := 100, y := 100, st := { quick with max_iter := 1 } }

/-- Not quite converged at the iteration limit: solved inaccurate. -/
def sInacc : Scenario := { sSolved with x := 51 / 100, y := 1 / 2, st := { quick with max_iter := 1, check_dualgap := 0 } }

/-- The clock passes the time limit in the first iteration. -/
def sTime : Scenario := { sLimit with clk := fun k => k, st := { quick with time_limit := 1 / 2 } }

/-- The user interrupts in the first iteration. -/
def sIntr : Scenario := { sSolved with intr := fun _ => true }

theorem okSolved : sSolved.Ok := by decide +kernel
theorem okPolish : sPolish.Ok := by decide +kernel
theorem okExact : sExact.Ok := by decide +kernel
theorem okPrim : sPrim.Ok := by decide +kernel
theorem okDual : sDual.Ok := by decide +kernel
theorem okLimit : sLimit.Ok := by decide +kernel
theorem okInacc : sInacc.Ok := by decide +kernel
theorem okTime : sTime.Ok := by decide +kernel
theorem okIntr : sIntr.Ok := by decide +kernel

end Osqp.Demo
