import Verif.Gen.Spec
import Verif.Demo.Basic
import Mathlib.Algebra.Order.Round
import Mathlib.Data.Rat.Floor

/-!
# A solver to generate code from

One variable, one constraint, rational numbers; and a printer for rational numbers.
-/

namespace Osqp.Gen.Demo

/-- `%.20f` on rational numbers. -/
def prQ (x : ℚ) : Lit := some (round (x * 10 ^ 20))

/-- `minimise x^2 + x` with `1 ≤ 3 x ≤ 2`, after setup: the vector of step sizes and scaling are in use. -/
def src : Src ℚ where
  settings := { Osqp.Demo.settings with rho_is_vec := 1, scaling := 10 }
  rho_estimate := 1 / 10
  n := 1
  m := 1
  P := ⟨⟨1, 1, [0, 1], [0], [2], 1, -1⟩, 1⟩
  A := ⟨⟨1, 1, [0, 1], [0], [3], 1, -1⟩, 0⟩
  q := [1]
  l := [1]
  u := [2]
  lin := ⟨1, 1, ⟨2, 2, [0, 1, 1], [1], [3 / 2], 1, -1⟩, [1 / 2, -2 / 29], [0, 1], some [10], 1 / 1000000, 10, 1, 1⟩
  upd := some ⟨⟨2, 2, [0, 1, 3], [0, 0, 1], [2, 3, -10], 3, -1⟩, [0], [1], [2], [2, -29 / 2], [1, -1], [1, 0]⟩
  rho_vec := some [1 / 10]
  rho_inv_vec := some [10]
  constr_type := some [0]
  x := [1 / 3]
  y := [-5 / 9]
  z := [1]
  scaling := some ⟨1 / 2, [2 / 3], [1 / 3], 2, [3 / 2], [3]⟩
  rho_inv := 10
  rho_updated := 0
  last_rel_kkt := 1 / 1000

/-- The same right after setup, when `last_rel_kkt` is `OSQP_INFTY` (osqp_api.c:569). -/
def new : Src ℚ := { src with last_rel_kkt := 10 ^ 30 }

/-- No constraints, scalar step size, no scaling. -/
def free : Src ℚ :=
  { src with
    settings := { Osqp.Demo.settings with rho_is_vec := 0, scaling := 0 }, m := 0, A := ⟨⟨0, 1, [0, 0], [], [], 0, -1⟩, 0⟩,
    l := [], u := [], lin := ⟨1, 1, ⟨1, 1, [0, 0], [], [], 0, -1⟩, [1 / 2], [0], none, 1 / 1000000, 10, 1, 0⟩
    upd := some ⟨⟨1, 1, [0, 1], [0], [2], 1, -1⟩, [0], [], [], [2], [-1], [0]⟩, rho_vec := none, rho_inv_vec := none, constr_type := none
    y := [], z := [], scaling := none }

/-- A valid `sigma` with too many decimals. -/
def tiny : Src ℚ := { src with settings := { src.settings with sigma := 1 / 10 ^ 21 } }

/-- Generation options: vectors only, and vectors and matrices. -/
def vectors : CodegenDefines := ⟨1, 0, 0, 0, 0, 0⟩
def matrices : CodegenDefines := ⟨2, 0, 0, 0, 0, 0⟩
def profiling : CodegenDefines := ⟨1, 0, 0, 1, 0, 0⟩
def printing : CodegenDefines := ⟨1, 0, 1, 0, 0, 0⟩

end Osqp.Gen.Demo
