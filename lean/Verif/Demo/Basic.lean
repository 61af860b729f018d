import Verif.Spec.History
import Verif.Spec.Termination
import Mathlib.Tactic.Positivity

/-!
# A concrete solver

One variable, one constraint, rational arithmetic, exact solution of the 2×2 KKT system.  Used beside the
theorems to show that their hypotheses are met by actual runs.
-/

namespace Osqp.Demo
open Spec

/-- 1×1 pattern with one stored entry. -/
abbrev pat1 : Pat 1 1 := { nnz := 1, row := fun _ => 0, col := fun _ => 0 }

abbrev dims : Dims := { n := 1, m := 1, P := pat1, A := pat1 }

/-- Positive rational approximation of the square root. -/
def rsqrt (x : ℚ) : ℚ := if 0 < x then ((Nat.sqrt (x * 10 ^ 12).num.toNat : ℕ) + 1) / 10 ^ 6 else 0

abbrev i0 : Fin 1 := 0

/-- Environment: clock, interrupts, exact solution of the 2×2 systems by Cramer's rule (in polishing: of the regularised
system, or of the system without regularisation if `ex`). -/
def env (clk : ℕ → ℚ) (intr : ℕ → Bool) (ex : Bool := false) : Env dims ℚ where
  sqrt := rsqrt
  clk := clk
  intr := intr
  factor ls := if 0 < ls.P i0 + ls.sigma then 1 else 0
  kktSolve ls bx bz :=
    let a := ls.P i0 + ls.sigma
    let b := ls.A i0
    let r := ls.param2 i0
    let det := -(a * r) - b * b
    (fun _ => (bx i0 * -r - b * bz i0) / det, fun _ => (a * bz i0 - b * bx i0) / det)
  polFactor D _ sg := if 0 < D.P i0 + sg then 1 else 0
  polSolve D _ sg bx bz :=
    let sg := if ex then 0 else sg
    let a := D.P i0 + sg
    let b := D.A i0
    let det := -(a * sg) - b * b
    (fun _ => (bx i0 * -sg - b * bz 0) / det, fun _ => (a * bz 0 - b * bx i0) / det)

/-- Default settings of OSQP, with rational values. -/
def settings : Settings ℚ :=
  { device := 0, linsys_solver := 1, allocate_solution := 1, verbose := 1, profiler_level := 0, warm_starting := 1,
    scaling := 10, polishing := 0, rho := 1 / 10, rho_is_vec := 1, sigma := 1 / 10 ^ 6, alpha := 8 / 5,
    cg_max_iter := 20, cg_tol_reduction := 10, cg_tol_fraction := 15 / 100, cg_precond := 1,
    adaptive_rho := 1, adaptive_rho_interval := 0, adaptive_rho_fraction := 4 / 10, adaptive_rho_tolerance := 5,
    max_iter := 4000, eps_abs := 1 / 10 ^ 3, eps_rel := 1 / 10 ^ 3, eps_prim_inf := 1 / 10 ^ 4, eps_dual_inf := 1 / 10 ^ 4,
    scaled_termination := 0, check_termination := 25, check_dualgap := 1, time_limit := 10 ^ 10,
    delta := 1 / 10 ^ 6, polish_refine_iter := 3 }

def cfg : Cfg := { profiling := true, printing := true, interrupt := true }

/-- Minimise `p/2 x² + q x` subject to `l ≤ a x ≤ u`. -/
def data (p a q l u : ℚ) : Data dims ℚ := ⟨fun _ => p, fun _ => a, fun _ => q, fun _ => l, fun _ => u⟩

/-- The solver produced by a setup, if it succeeded. -/
def got {d : Dims} {K : Type*} : SetupOut d K → Option (Solver d K)
  | .ok s => some s
  | _ => none

theorem got_ok {d : Dims} {K : Type*} {o : SetupOut d K} (h : (got o).isSome = true) : o = .ok ((got o).get h) := by
  cases o <;> simp [got] at h ⊢

theorem sqrtPos (clk : ℕ → ℚ) (intr : ℕ → Bool) (ex : Bool) : SqrtPos (env clk intr ex) := by
  intro x hx
  change 0 < rsqrt x
  unfold rsqrt
  rw [if_pos hx]
  have : (0 : ℚ) ≤ (Nat.sqrt (x * 10 ^ 12).num.toNat : ℕ) := Nat.cast_nonneg _
  positivity

end Osqp.Demo
