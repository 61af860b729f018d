import Mathlib.Data.Matrix.Mul
import Mathlib.LinearAlgebra.Matrix.Notation
import Mathlib.Algebra.Order.Group.Abs
import Mathlib.Algebra.Order.Field.Basic
import Mathlib.Data.Finset.Fold
import Verif.Model.Types

/-!
# Specification vocabulary

Independent of the algorithms: dense matrices, Mathlib's `⬝ᵥ` and `*ᵥ`, the mathematical quadratic program

  minimise  1/2 xᵀPx + qᵀx   subject to  l ≤ Ax ≤ u

and the usual notions attached to it.  The only things shared with the model are the data containers
(`Pat`, `Dims`, `Data`, `Solution`).
-/

namespace Osqp.Spec
open Matrix

variable {K : Type*} [Field K] [LinearOrder K] {n m : ℕ}

/-- Infinity norm: the largest `|v i|`, and 0 for the empty vector. -/
def normInf (v : Fin n → K) : K := Finset.univ.fold max 0 (fun i => |v i|)

/-- 1-norm. -/
def norm1 (v : Fin n → K) : K := ∑ i, |v i|

/-- Dense matrix of a list of stored entries (duplicates add up). -/
def dense (p : Pat m n) (v : Fin p.nnz → K) : Matrix (Fin m) (Fin n) K :=
  fun i j => ∑ k, if p.row k = i ∧ p.col k = j then v k else 0

/-- Dense symmetric matrix of which one triangle is stored. -/
def denseSym (p : Pat n n) (v : Fin p.nnz → K) : Matrix (Fin n) (Fin n) K :=
  fun i j => ∑ k, if (p.row k = i ∧ p.col k = j) ∨ (p.row k = j ∧ p.col k = i) then v k else 0

/-- A quadratic program. -/
structure QP (n m : ℕ) (K : Type*) where
  P : Matrix (Fin n) (Fin n) K
  q : Fin n → K
  A : Matrix (Fin m) (Fin n) K
  l : Fin m → K
  u : Fin m → K

/-- The quadratic program the user passes in as sparse data. -/
def ofData {d : Dims} (D : Data d K) : QP d.n d.m K :=
  { P := denseSym d.P D.P, q := D.q, A := dense d.A D.A, l := D.l, u := D.u }

namespace QP
variable (Q : QP n m K)

/-- Objective value. -/
def obj (x : Fin n → K) : K := 1 / 2 * (x ⬝ᵥ (Q.P *ᵥ x)) + Q.q ⬝ᵥ x

/-- Feasibility. -/
def Feasible (x : Fin n → K) : Prop := ∀ i, Q.l i ≤ (Q.A *ᵥ x) i ∧ (Q.A *ᵥ x) i ≤ Q.u i

/-- Support function of the box `[l,u]`: `uᵀ max(y,0) + lᵀ min(y,0)`. -/
def support (y : Fin m → K) : K := ∑ i, (Q.u i * max (y i) 0 + Q.l i * min (y i) 0)

/-- Gradient of the Lagrangian, `Px + q + Aᵀy`. -/
def stat (x : Fin n → K) (y : Fin m → K) : Fin n → K := fun j => (Q.P *ᵥ x) j + Q.q j + (Q.Aᵀ *ᵥ y) j

/-- `z` lies in the box. -/
def InBox (z : Fin m → K) : Prop := ∀ i, Q.l i ≤ z i ∧ z i ≤ Q.u i

/-- `y` is in the normal cone of the box at `z`: complementary slackness. -/
def NormalCone (z y : Fin m → K) : Prop := ∀ i, (0 < y i → z i = Q.u i) ∧ (y i < 0 → z i = Q.l i)

/-- Karush-Kuhn-Tucker point. -/
def KKT (x : Fin n → K) (y : Fin m → K) : Prop :=
  Q.Feasible x ∧ Q.NormalCone (Q.A *ᵥ x) y ∧ ∀ j, Q.stat x y j = 0

/-- Global minimiser. -/
def Minimiser (x : Fin n → K) : Prop := Q.Feasible x ∧ ∀ x', Q.Feasible x' → Q.obj x ≤ Q.obj x'

end QP

/-- Positive semidefinite (quadratic form). -/
def PSD (P : Matrix (Fin n) (Fin n) K) : Prop := ∀ x : Fin n → K, 0 ≤ x ⬝ᵥ (P *ᵥ x)

end Osqp.Spec
