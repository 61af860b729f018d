import Verif.Spec.Basic

/-!
# Specification of the internal scaling
-/

namespace Osqp.Spec
variable {K : Type*} [Field K] [LinearOrder K] {d : Dims}

/-- The stored factors are positive and the stored inverses are exact. -/
structure ScalingOK (sc : Scaling d K) : Prop where
  c_pos : 0 < sc.c
  D_pos : ∀ j, 0 < sc.D j
  E_pos : ∀ i, 0 < sc.E i
  cinv : sc.cinv = 1 / sc.c
  Dinv : ∀ j, sc.Dinv j = 1 / sc.D j
  Einv : ∀ i, sc.Einv i = 1 / sc.E i

/-- `D` is the user's data `U` after the change of variables: `P ↦ c D P D`, `q ↦ c D q`, `A ↦ E A D`,
`l ↦ E l`, `u ↦ E u`, entry by entry. -/
structure IsScaled (sc : Scaling d K) (U D : Data d K) : Prop where
  P : ∀ k, D.P k = sc.c * (sc.D (d.P.row k) * U.P k * sc.D (d.P.col k))
  q : ∀ j, D.q j = sc.c * (sc.D j * U.q j)
  A : ∀ k, D.A k = sc.E (d.A.row k) * U.A k * sc.D (d.A.col k)
  l : ∀ i, D.l i = sc.E i * U.l i
  u : ∀ i, D.u i = sc.E i * U.u i

/-- The data `D` the solver works on represent the user's problem `U`: a change of variables when scaling
is enabled, the very same data otherwise. -/
def Represents (st : Settings K) (sc : Scaling d K) (U D : Data d K) : Prop :=
  (st.scaling ≠ 0 → ScalingOK sc ∧ IsScaled sc U D) ∧ (st.scaling = 0 → D = U)

end Osqp.Spec
