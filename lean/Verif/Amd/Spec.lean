import Verif.Csc.Mem
import Mathlib.Logic.Equiv.Defs

/-!
# Specification of the ordering

What the caller of the ordering is told: which patterns are well formed, which are sorted, and what a permutation is.
-/

namespace Osqp.Amd
open Csc

/-- The pattern of an `n` by `n` matrix in compressed column form: column `j` has its row indices in positions `ap j`, …, `ap (j+1) - 1`. -/
structure WellFormed (n : ℕ) (ap ai : ℕ → ℤ) : Prop where
  zero : ap 0 = 0
  mono : ∀ j < n, ap j ≤ ap (j + 1)
  rows : ∀ p : ℕ, (p : ℤ) < ap n → 0 ≤ ai p ∧ ai p < n

/-- The row indices of each column increase. -/
def SortedCols (n : ℕ) (ap ai : ℕ → ℤ) : Prop := ∀ j < n, ∀ p : ℕ, ap j ≤ p → (p : ℤ) + 1 < ap (j + 1) → ai p < ai (p + 1)

/-- The first `n` cells of the array are a permutation of `0, …, n-1`. -/
def IsPermutation (n : ℕ) (P : Buf ℤ) : Prop := ∃ p : Equiv.Perm (Fin n), ∀ k : Fin n, P.rd (k : ℕ) = some ((p k : ℕ) : ℤ)

end Osqp.Amd
