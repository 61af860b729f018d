import Verif.Csc.Mem
import Verif.Spec.Basic
import Mathlib.Algebra.BigOperators.Intervals

/-!
# Specification of compressed-column matrices

`Csc` is the C struct.  `View` is its mathematical reading: sizes, column starts, row indices and values as functions
on natural numbers.  `Rep M V` says that the struct `M` is well formed and reads as `V`.  `entry` is the matrix denoted.
-/

namespace Osqp.Csc
open Finset

/-- include/public/osqp_api_types.h `OSQPCscMatrix` (the `owned` flag is not modelled). -/
structure Csc (K : Type*) where
  m : ℤ
  n : ℤ
  p : Buf ℤ
  i : Buf ℤ
  x : Buf K
  nzmax : ℤ
  nz : ℤ

/-- What a compressed-column matrix says. -/
structure View (K : Type*) where
  m : ℕ
  n : ℕ
  p : ℕ → ℕ
  i : ℕ → ℕ
  x : ℕ → K

variable {K : Type*}

/-- Number of stored entries. -/
def View.nnz (V : View K) : ℕ := V.p V.n

/-- Column starts begin at 0 and do not decrease; row indices are rows of the matrix. -/
structure View.Valid (V : View K) : Prop where
  zero : V.p 0 = 0
  mono : ∀ j < V.n, V.p j ≤ V.p (j + 1)
  rows : ∀ k < V.nnz, V.i k < V.m

/-- No position of the matrix is stored twice. -/
def View.NoDup (V : View K) : Prop :=
  ∀ j < V.n, ∀ k k', V.p j ≤ k → k < V.p (j + 1) → V.p j ≤ k' → k' < V.p (j + 1) → V.i k = V.i k' → k = k'

/-- Only positions on or above the diagonal are stored. -/
def View.Triu (V : View K) : Prop := ∀ j < V.n, ∀ k, V.p j ≤ k → k < V.p (j + 1) → V.i k ≤ j

/-- The column of stored entry `k`: the number of columns that end at or before it. -/
def View.col (V : View K) (k : ℕ) : ℕ := ((range V.n).filter fun j => V.p (j + 1) ≤ k).card

/-- The struct `M` is a well-formed compressed-column matrix that reads as `V`. -/
structure Rep (M : Csc K) (V : View K) : Prop where
  m : M.m = V.m
  n : M.n = V.n
  valid : V.Valid
  p : Holds M.p (V.n + 1) fun j => (V.p j : ℤ)
  i : Holds M.i V.nnz fun k => (V.i k : ℤ)
  x : Holds M.x V.nnz V.x

/-- The entry in row `r`, column `c` of the matrix denoted by `V` (values stored at the same position add up). -/
def View.entry [AddCommMonoid K] (V : View K) (r c : ℕ) : K := ∑ k ∈ Ico (V.p c) (V.p (c + 1)), if V.i k = r then V.x k else 0

/-- The entry of the symmetric matrix whose upper triangle is stored in `V`. -/
def View.symEntry [AddCommMonoid K] (V : View K) (r c : ℕ) : K := if r ≤ c then V.entry r c else V.entry c r

end Osqp.Csc
