import Mathlib.Algebra.Order.Field.Basic
import Mathlib.Algebra.BigOperators.Fin
import Mathlib.Data.List.FinRange

/-!
# Scalar and vector kernels

Models `include/private/glob_opts.h` (`c_absval`, `c_max`, `c_min`), the numeric constants of
`include/public/osqp_api_constants.h` and the vector routines of `algebra/builtin/vector.c`.

`OSQPFloat` is an arbitrary linearly ordered field `K` (simplification: exact arithmetic, no rounding,
no NaN/Inf).  `OSQPVectorf` of length `n` is `Fin n → K`.
-/

namespace Osqp

/-- `OSQPVectorf` (algebra/builtin/algebra_impl.h): a vector of fixed length. -/
abbrev Vec (K : Type*) (n : ℕ) := Fin n → K

section Num
variable {K : Type*} [Field K] [LinearOrder K]

/-- include/private/glob_opts.h:36 `#define c_absval(x) (((x) < 0) ? -(x) : (x))`. -/
def cAbs (x : K) : K := if x < 0 then -x else x

/-- include/private/glob_opts.h:40 `#define c_max(a, b) (((a) > (b)) ? (a) : (b))`. -/
def cMax (a b : K) : K := if a > b then a else b

/-- include/private/glob_opts.h:44 `#define c_min(a, b) (((a) < (b)) ? (a) : (b))`. -/
def cMin (a b : K) : K := if a < b then a else b

namespace Const
variable (K)
/-- osqp_api_constants.h `OSQP_RHO_MIN` (1e-06). -/
def rhoMin : K := 1 / 10 ^ 6
/-- osqp_api_constants.h `OSQP_RHO_MAX` (1e06). -/
def rhoMax : K := 10 ^ 6
/-- osqp_api_constants.h `OSQP_RHO_TOL` (1e-04). -/
def rhoTol : K := 1 / 10 ^ 4
/-- osqp_api_constants.h `OSQP_RHO_EQ_OVER_RHO_INEQ` (1e03). -/
def rhoEqOverIneq : K := 10 ^ 3
/-- osqp_api_constants.h `OSQP_MIN_SCALING` (1e-04). -/
def minScaling : K := 1 / 10 ^ 4
/-- osqp_api_constants.h `OSQP_MAX_SCALING` (1e+04). -/
def maxScaling : K := 10 ^ 4
/-- osqp_api_constants.h `OSQP_INFTY` (1e30). -/
def infty : K := 10 ^ 30
/-- `OSQP_INFTY * OSQP_MIN_SCALING`, the threshold used everywhere for "infinite" scaled bounds. -/
def infval : K := infty K * minScaling K
/-- osqp_api_constants.h `OSQP_DIVISION_TOL` (1.0 / OSQP_INFTY). -/
def divisionTol : K := 1 / infty K
/-- osqp_api_constants.h `OSQP_ZERO_DEADZONE` (1e-15). -/
def zeroDeadzone : K := 1 / 10 ^ 15
/-- osqp_api_constants.h `OSQP_NAN` is `((OSQPFloat)0x7fc00000UL)`: the *number* 2143289344. -/
def nan : K := 2143289344
/-- `1e-10` in src/polish.c:466-474. -/
def polishTiny : K := 1 / 10 ^ 10
end Const

end Num

/-! ## Vector routines -/
section VecOps
variable {K : Type*} [Field K] [LinearOrder K] {n : ℕ}

/-- vector.c:315-325 `OSQPVectorf_set_scalar`. -/
def vSet (c : K) : Vec K n := fun _ => c

/-- vector.c:327-342 `OSQPVectorf_set_scalar_conditional`. -/
def vSetCond (test : Fin n → ℤ) (neg zero pos : K) : Vec K n :=
  fun i => if test i = 0 then zero else if test i > 0 then pos else neg

/-- vector.c:345-356 `OSQPVectorf_round_to_zero`. -/
def vRoundToZero (a : Vec K n) (tol : K) : Vec K n := fun i => if cAbs (a i) < tol then 0 else a i

/-- vector.c:359-368 `OSQPVectorf_mult_scalar`. -/
def vScale (a : Vec K n) (c : K) : Vec K n := fun i => a i * c

/-- vector.c:370-390 `OSQPVectorf_plus`. -/
def vPlus (a b : Vec K n) : Vec K n := fun i => a i + b i

/-- vector.c:392-412 `OSQPVectorf_minus`. -/
def vMinus (a b : Vec K n) : Vec K n := fun i => a i - b i

/-- vector.c:414-437 `OSQPVectorf_add_scaled` (both branches agree in exact arithmetic). -/
def vAddScaled (sca : K) (a : Vec K n) (scb : K) (b : Vec K n) : Vec K n :=
  fun i => sca * a i + scb * b i

/-- vector.c:439-465 `OSQPVectorf_add_scaled3`. -/
def vAddScaled3 (sca : K) (a : Vec K n) (scb : K) (b : Vec K n) (scc : K) (c : Vec K n) : Vec K n :=
  fun i => sca * a i + scb * b i + scc * c i

/-- vector.c:468-482 `OSQPVectorf_norm_inf`: running maximum of absolute values from 0. -/
def vNormInf (v : Vec K n) : K :=
  (List.finRange n).foldl (fun nv i => if cAbs (v i) > nv then cAbs (v i) else nv) 0

/-- vector.c:497-513 `OSQPVectorf_scaled_norm_inf`. -/
def vScaledNormInf (S v : Vec K n) : K :=
  (List.finRange n).foldl (fun nv i => if cAbs (S i * v i) > nv then cAbs (S i * v i) else nv) 0

/-- vector.c:575-589 `OSQPVectorf_dot_prod`. -/
def vDot (a b : Vec K n) : K := (List.finRange n).foldl (fun acc i => acc + a i * b i) 0

/-- vector.c:591-617 `OSQPVectorf_dot_prod_signed`, `sign == 1`. -/
def vDotPos (a b : Vec K n) : K := (List.finRange n).foldl (fun acc i => acc + a i * cMax (b i) 0) 0

/-- vector.c:591-617 `OSQPVectorf_dot_prod_signed`, `sign == -1`. -/
def vDotNeg (a b : Vec K n) : K := (List.finRange n).foldl (fun acc i => acc + a i * cMin (b i) 0) 0

/-- vector.c:619-641 `OSQPVectorf_ew_prod`. -/
def vEwProd (a b : Vec K n) : Vec K n := fun i => a i * b i

/-- vector.c:643-656 `OSQPVectorf_all_leq`: returns 0 at the first `l > u`. -/
def vAllLeq (l u : Vec K n) : Bool := (List.finRange n).all (fun i => !decide (l i > u i))

/-- vector.c:658-674 `OSQPVectorf_ew_bound_vec`: `c_min(c_max(z, l), u)`. -/
def vBound (z l u : Vec K n) : Vec K n := fun i => cMin (cMax (z i) (l i)) (u i)

/-- vector.c:676-702 `OSQPVectorf_project_polar_reccone`. -/
def vProjectPolar (y l u : Vec K n) (infval : K) : Vec K n := fun i =>
  if u i > infval then
    if l i < -infval then 0 else cMin (y i) 0
  else if l i < -infval then cMax (y i) 0
  else y i

/-- vector.c:704-727 `OSQPVectorf_in_reccone`. -/
def vInReccone (y l u : Vec K n) (infval tol : K) : Bool :=
  (List.finRange n).all (fun i =>
    !(decide (u i < infval) && decide (y i > tol) || decide (l i > -infval) && decide (y i < -tol)))

/-- vector.c:786-801 `OSQPVectorf_norm_1`. -/
def vNorm1 (a : Vec K n) : K := (List.finRange n).foldl (fun acc i => acc + cAbs (a i)) 0

/-- vector.c:803-815 `OSQPVectorf_ew_reciprocal` (division by zero is not distinguished here; the
invariants show it is only applied to positive vectors). -/
def vRecip (a : Vec K n) : Vec K n := fun i => 1 / a i

/-- vector.c:855-868 `OSQPVectorf_ew_max_vec`. -/
def vMaxVec (a b : Vec K n) : Vec K n := fun i => cMax (a i) (b i)

/-- vector.c:885-921 `OSQPVectorf_ew_bounds_type`, new constraint types. -/
def vBoundsType (l u : Vec K n) (tol infval : K) : Fin n → ℤ := fun i =>
  if l i < -infval ∧ u i > infval then -1
  else if u i - l i < tol then 1
  else 0

/-- vector.c:885-921 `OSQPVectorf_ew_bounds_type`, the returned `has_changed` flag. -/
def vTypeChanged (old new : Fin n → ℤ) : Bool :=
  (List.finRange n).foldl (fun ch i => ch || decide (new i ≠ old i)) false

/-- vector.c:923-936 `OSQPVectorf_set_scalar_if_lt`. -/
def vSetIfLt (z : Vec K n) (test new : K) : Vec K n := fun i => if z i < test then new else z i

/-- vector.c:938-951 `OSQPVectorf_set_scalar_if_gt`. -/
def vSetIfGt (z : Vec K n) (test new : K) : Vec K n := fun i => if z i > test then new else z i

end VecOps
end Osqp
