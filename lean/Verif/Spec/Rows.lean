import Verif.Spec.Mats
import Verif.Cuda.Rows

/-!
# Specification: compressed rows in device memory
-/

namespace Osqp.Spec
variable {K : Type*} [Field K] {n m : ℕ}

/-- The arrays hold `B` in compressed rows: dimensions, entries sorted by row, and a pointer for the start of every row and the end of the last. -/
structure HoldsRows {N : ℕ} (M : Cuda.CsrMat N K) (B : Matrix (Fin m) (Fin n) K) : Prop where
  rows : M.rows = m
  cols : M.cols = n
  stores : Stores M.row M.col M.val B
  sorted : Monotone M.row
  pointers : ∀ i ≤ m, M.ptr[i]? = some (Finset.univ.filter fun e => M.row e < i).card

/-- The columns of the user's matrix follow one another. -/
def ByColumn (p : Pat m n) : Prop := Monotone p.col

/-- `red` reduces a list of values with `op`, bracketed in some way. -/
def Reduces (op : K → K → K) (red : List K → K) : Prop :=
  (∀ v, red [v] = v) ∧ ∀ l : List K, 2 ≤ l.length → ∃ l₁ l₂, l = l₁ ++ l₂ ∧ l₁ ≠ [] ∧ l₂ ≠ [] ∧ red l = op (red l₁) (red l₂)

/-- `z` is the largest absolute value of the elements of `r` (zero if there are none). -/
def IsNormOf [LinearOrder K] {n : ℕ} (r : Fin n → K) (z : K) : Prop := (∀ j, |r j| ≤ z) ∧ (z = 0 ∨ ∃ j, |r j| = z)

/-- No entry is stored twice. -/
def Distinct {N : ℕ} (row col : Fin N → ℕ) : Prop := ∀ e f, row e = row f → col e = col f → e = f

/-- `g` lists the rows with a flag that is not zero, in their order. -/
structure Lists {k : ℕ} (g : Fin k → Fin m) (flags : Fin m → ℤ) : Prop where
  mono : StrictMono g
  all : ∀ i, flags i ≠ 0 ↔ ∃ j, g j = i

end Osqp.Spec
