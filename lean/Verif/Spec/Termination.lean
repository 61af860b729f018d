import Verif.Spec.Basic

/-!
# Specification of the documented stopping criteria and certificates
-/

namespace Osqp.Spec.QP
open Matrix
variable {K : Type*} [Field K] [LinearOrder K] {n m : ℕ} (Q : QP n m K)

/-- Primal residual `‖Ax − z‖∞`. -/
def primRes (x : Fin n → K) (z : Fin m → K) : K := normInf (fun i => (Q.A *ᵥ x) i - z i)

/-- Dual residual `‖Px + q + Aᵀy‖∞`. -/
def dualRes (x : Fin n → K) (y : Fin m → K) : K := normInf (Q.stat x y)

/-- Duality gap `xᵀPx + qᵀx + S(y)`, `S` the support function of the box. -/
def gap (x : Fin n → K) (y : Fin m → K) : K := x ⬝ᵥ (Q.P *ᵥ x) + Q.q ⬝ᵥ x + Q.support y

/-- Dual objective `−½ xᵀPx − S(y)`. -/
def dualObj (x : Fin n → K) (y : Fin m → K) : K := -(1 / 2) * (x ⬝ᵥ (Q.P *ᵥ x)) - Q.support y

/-- Documented tolerances. -/
def primTol (ea er : K) (x : Fin n → K) (z : Fin m → K) : K := ea + er * max (normInf (Q.A *ᵥ x)) (normInf z)
def dualTol (ea er : K) (x : Fin n → K) (y : Fin m → K) : K :=
  ea + er * max (max (normInf (Q.P *ᵥ x)) (normInf Q.q)) (normInf (Q.Aᵀ *ᵥ y))
def gapTol (ea er : K) (x : Fin n → K) (y : Fin m → K) : K :=
  ea + er * max (max |x ⬝ᵥ (Q.P *ᵥ x)| |Q.q ⬝ᵥ x|) |Q.support y|

/-- The point `x`, `z`, `y` meets the residual criteria with tolerances `ea`, `er` (without constraints there
is no primal criterion). -/
structure Converged (ea er : K) (x : Fin n → K) (z y : Fin m → K) : Prop where
  prim : m ≠ 0 → Q.primRes x z < Q.primTol ea er x z
  dual : Q.dualRes x y < Q.dualTol ea er x y

/-- `y'` is `y` with the components removed that push towards an infinite bound or are negligible. `e` are
the row scaling factors and `c` the cost scaling factor in use (1 without scaling): a bound counts as
infinite if it exceeds `1e26` after scaling, a multiplier as negligible if it is below `1e-15` after scaling. -/
def Cleaned (e : Fin m → K) (c : K) (y y' : Fin m → K) : Prop := ∀ i,
  ((10 ^ 26 < e i * Q.u i ∧ 0 < y i) ∨ (e i * Q.l i < -10 ^ 26 ∧ y i < 0) ∨ |c * (y i / e i)| < 1 / 10 ^ 15 → y' i = 0) ∧
  (¬ ((10 ^ 26 < e i * Q.u i ∧ 0 < y i) ∨ (e i * Q.l i < -10 ^ 26 ∧ y i < 0) ∨ |c * (y i / e i)| < 1 / 10 ^ 15) → y' i = y i)

/-- Certificate of primal infeasibility with tolerance `eps`; `e` as above. -/
structure PrimalCert (e : Fin m → K) (eps : K) (v : Fin m → K) : Prop where
  norm : normInf v = 1
  small : normInf (Q.Aᵀ *ᵥ v) < eps
  neg : Q.support v < 0
  upper : ∀ i, 10 ^ 26 < e i * Q.u i → v i ≤ 0
  lower : ∀ i, e i * Q.l i < -10 ^ 26 → 0 ≤ v i

/-- Certificate of dual infeasibility with tolerance `eps`. -/
structure DualCert (e : Fin m → K) (eps : K) (v : Fin n → K) : Prop where
  norm : normInf v = 1
  small : normInf (Q.P *ᵥ v) < eps
  neg : Q.q ⬝ᵥ v < 0
  upper : ∀ i, e i * Q.u i < 10 ^ 26 → (Q.A *ᵥ v) i ≤ eps
  lower : ∀ i, -10 ^ 26 < e i * Q.l i → -eps ≤ (Q.A *ᵥ v) i

end Osqp.Spec.QP

namespace Osqp.Spec
variable {K : Type*} [Field K] [LinearOrder K] {d : Dims}

/-- Row scaling factors in use: 1 without scaling. -/
def rowScale (s : Solver d K) : Fin d.m → K := fun i => if s.settings.scaling ≠ 0 then s.work.scaling.E i else 1

/-- Cost scaling factor in use: 1 without scaling. -/
def costScale (s : Solver d K) : K := if s.settings.scaling ≠ 0 then s.work.scaling.c else 1

/-- The criteria are evaluated on the user's (unscaled) problem: no scaling, or `scaled_termination` off. -/
def UserCriteria (s : Solver d K) : Prop := s.settings.scaling = 0 ∨ s.settings.scaled_termination = 0

end Osqp.Spec

namespace Osqp.Spec
variable {K : Type*} [Field K] [LinearOrder K] {n m : ℕ}

/-- The reported values are those of the point `x`, `z`, `y` (with `y'` used in the support function). -/
structure ReportOf (Q : QP n m K) (i : Info K) (x : Fin n → K) (z y y' : Fin m → K) : Prop where
  obj : i.obj_val = Q.obj x
  dual_obj : i.dual_obj_val = Q.dualObj x y'
  gap : i.duality_gap = Q.gap x y'
  prim_res : i.prim_res = Q.primRes x z
  dual_res : i.dual_res = Q.dualRes x y

end Osqp.Spec
