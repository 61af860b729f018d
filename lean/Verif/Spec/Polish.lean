import Verif.Spec.Status
import Mathlib.Data.Fintype.Card

/-!
# Specification vocabulary for polishing
-/

namespace Osqp.Spec
open Matrix
variable {K : Type*} [Field K] [LinearOrder K] {d : Dims}

/-- The same solver with the `polishing` setting off. -/
def unpolished (s : Solver d K) : Solver d K := { s with settings := { s.settings with polishing := 0 } }

/-- Constraint `i` is taken to hold at its lower bound (also for equality constraints). -/
def AtLower (D : Data d K) (z y : Fin d.m → K) (i : Fin d.m) : Prop := z i - D.l i < -(y i) ∨ D.l i = D.u i

/-- Constraint `i` is taken to hold at its upper bound. -/
def AtUpper (D : Data d K) (z y : Fin d.m → K) (i : Fin d.m) : Prop := ¬ AtLower D z y i ∧ D.u i - z i < y i

open Classical in
/-- The selected constraints: -1 at the lower bound, 1 at the upper bound, 0 not selected. -/
noncomputable def selected (D : Data d K) (z y : Fin d.m → K) (i : Fin d.m) : ℤ :=
  if AtLower D z y i then -1 else if AtUpper D z y i then 1 else 0

/-- `x`, `w` solve the equality-constrained problem in which the constraints at a bound are fixed there and the others are
dropped. -/
structure ReducedSolution (Q : QP d.n d.m K) (low upp : Fin d.m → Prop) (x : Fin d.n → K) (w : Fin d.m → K) : Prop where
  stat : ∀ j, Q.stat x w j = 0
  at_low : ∀ i, low i → (Q.A *ᵥ x) i = Q.l i
  at_upp : ∀ i, upp i → (Q.A *ᵥ x) i = Q.u i
  off : ∀ i, ¬ low i → ¬ upp i → w i = 0

/-- Position of constraint `i` among the selected ones. -/
def rank (flags : Fin d.m → ℤ) (i : Fin d.m) : ℕ := (Finset.univ.filter fun k => k < i ∧ flags k ≠ 0).card

/-- `v` solves the reduced KKT system with right-hand side `b`, regularised by `delta`:
`(P + delta) x + Aᵣᵀ y = b₁`, `Aᵣ x - delta y = b₂`, where `Aᵣ` has the selected rows of `A` in order. -/
def SolvesReduced (D : Data d K) (flags : Fin d.m → ℤ) (delta : K) (v b : (Fin d.n → K) × (ℕ → K)) : Prop :=
  (∀ j, ((ofData D).P *ᵥ v.1) j + delta * v.1 j + ∑ i, (if flags i ≠ 0 then (ofData D).A i j * v.2 (rank flags i) else 0) = b.1 j) ∧
  ∀ i, flags i ≠ 0 → ((ofData D).A *ᵥ v.1) i - delta * v.2 (rank flags i) = b.2 (rank flags i)

end Osqp.Spec
