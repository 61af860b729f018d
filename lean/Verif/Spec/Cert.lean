import Verif.Spec.Termination

/-!
# Specification: feasibility with infinite bounds, dual feasibility
-/

namespace Osqp.Spec.QP
open Matrix
variable {K : Type*} [Field K] [LinearOrder K] {n m : ℕ} (Q : QP n m K)

/-- Feasibility when bounds of scaled size beyond `1e26` count as infinite (`e` row scaling factors, 1 without
scaling): such bounds are ignored.  Weaker than `Feasible`. -/
def FeasibleInf (e : Fin m → K) (x : Fin n → K) : Prop :=
  ∀ i, (¬ e i * Q.l i < -10 ^ 26 → Q.l i ≤ (Q.A *ᵥ x) i) ∧ (¬ 10 ^ 26 < e i * Q.u i → (Q.A *ᵥ x) i ≤ Q.u i)

/-- An exact direction of unboundedness: `Pv = 0`, `qᵀv < 0` and `Av` in the recession cone of the constraints. -/
structure Ray (e : Fin m → K) (v : Fin n → K) : Prop where
  flat : Q.P *ᵥ v = 0
  neg : Q.q ⬝ᵥ v < 0
  upper : ∀ i, ¬ 10 ^ 26 < e i * Q.u i → (Q.A *ᵥ v) i ≤ 0
  lower : ∀ i, ¬ e i * Q.l i < -10 ^ 26 → 0 ≤ (Q.A *ᵥ v) i

/-- Multipliers only push against finite bounds. -/
def DualFeasible (e : Fin m → K) (y : Fin m → K) : Prop :=
  ∀ i, (10 ^ 26 < e i * Q.u i → y i ≤ 0) ∧ (e i * Q.l i < -10 ^ 26 → 0 ≤ y i)

end Osqp.Spec.QP
