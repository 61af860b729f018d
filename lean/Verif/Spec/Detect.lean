import Verif.Spec.Termination
import Verif.Spec.Rho

/-!
# Problems that are infeasible beyond the tolerances
-/

namespace Osqp.Spec
open Matrix
variable {K : Type*} [Field K] [LinearOrder K] {n m : ℕ}

/-- No point meets the primal tolerance. -/
def QP.PrimalOut (Q : QP n m K) (ea er : K) : Prop := ∀ x z, Q.InBox z → Q.primTol ea er x z ≤ Q.primRes x z

/-- No point meets the dual tolerance. -/
def QP.DualOut (Q : QP n m K) (ea er : K) : Prop := ∀ x y, Q.dualTol ea er x y ≤ Q.dualRes x y

/-- `x` and `z` have the least distance that `Ax` and a point of the box can have, in the norm with weights `w`. -/
def QP.Nearest (Q : QP n m K) (w : Fin m → K) (x : Fin n → K) (z : Fin m → K) : Prop :=
  Q.InBox z ∧ ∀ x' z', Q.InBox z' → ∑ i, w i * ((Q.A *ᵥ x) i - z i) ^ 2 ≤ ∑ i, w i * ((Q.A *ᵥ x') i - z' i) ^ 2

/-- Bounds that the solver treats as infinite (beyond `10^26`, after scaling with `e`) play no part in the infeasibility: there are none, or
a nearest pair does not touch them. -/
def QP.FiniteConflict (Q : QP n m K) (w e : Fin m → K) : Prop :=
  (∀ i, -10 ^ 26 ≤ e i * Q.l i ∧ e i * Q.u i ≤ 10 ^ 26) ∨
  ∃ x z, Q.Nearest w x z ∧ ∀ i, (10 ^ 26 < e i * Q.u i → z i < Q.u i) ∧ (e i * Q.l i < -10 ^ 26 → Q.l i < z i)

end Osqp.Spec
