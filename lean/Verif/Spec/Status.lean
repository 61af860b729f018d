import Verif.Spec.Basic

/-!
# Specification: status table, placeholder value, user coordinates of the iterate
-/

namespace Osqp.Spec
variable {K : Type*} [Field K] [LinearOrder K] {d : Dims}

/-- The documented statuses with their texts (docs/interfaces/status_values.rst; for code 10 the code's text
"interrupted" replaces the documentation's "interrupted by user"). -/
def documented : List (ℤ × String) :=
  [(1, "solved"), (2, "solved inaccurate"), (3, "primal infeasible"), (4, "primal infeasible inaccurate"),
   (5, "dual infeasible"), (6, "dual infeasible inaccurate"), (7, "maximum iterations reached"),
   (8, "run time limit reached"), (9, "problem non convex"), (10, "interrupted"), (11, "unsolved")]

/-- Every component is the value of `OSQP_NAN` (`(OSQPFloat)0x7fc00000UL`, which is an ordinary number). -/
def Placeholder {n : ℕ} (v : Fin n → K) : Prop := ∀ i, v i = 2143289344

/-- The iterate `x` in the user's coordinates. -/
def userX (s : Solver d K) : Fin d.n → K := fun j => if s.settings.scaling ≠ 0 then s.work.scaling.D j * s.work.x j else s.work.x j

/-- The multiplier `y` in the user's coordinates. -/
def userY (s : Solver d K) : Fin d.m → K := fun i =>
  if s.settings.scaling ≠ 0 then s.work.scaling.cinv * (s.work.scaling.E i * s.work.y i) else s.work.y i

/-- The constraint value `z` in the user's coordinates. -/
def userZ (s : Solver d K) : Fin d.m → K := fun i => if s.settings.scaling ≠ 0 then s.work.scaling.Einv i * s.work.z i else s.work.z i

/-- `w` is `v` scaled to infinity norm 1. -/
def Normalised {n : ℕ} (v w : Fin n → K) : Prop := normInf w = 1 ∧ ∃ t : K, 0 < t ∧ ∀ i, w i = t * v i

end Osqp.Spec
