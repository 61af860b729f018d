import Verif.Vm.Model

/-!
# Specification: vectors in shared memory
-/

namespace Osqp.Vm
open Csc
variable {K : Type*}


/-- Vector `v` has length `n`, lies within its array, and holds the numbers `f`. -/
structure Has (σ : Store K) (v : Ref) (n : ℕ) (f : Fin n → K) : Prop where
  len : v.len = n
  room : v.off + n ≤ (σ v.blk).size
  val : ∀ i : Fin n, (σ v.blk).cell (v.off + i) = some (f i)

/-- Vector `v` has length `n` and lies within its array; its contents may be uninitialised. -/
structure Room (σ : Store K) (v : Ref) (n : ℕ) : Prop where
  len : v.len = n
  room : v.off + n ≤ (σ v.blk).size

/-- The two vectors share no element. -/
def Apart (a b : Ref) : Prop := a.blk ≠ b.blk ∨ a.off + a.len ≤ b.off ∨ b.off + b.len ≤ a.off

/-- The elements of the two vectors are the same memory. -/
def Same (a b : Ref) : Prop := a.blk = b.blk ∧ a.off = b.off

/-- A result and an operand that may be used together: the same elements, or none in common; and if they are the
same structure they are the same elements. -/
def Fits (x a : Ref) : Prop := (Apart x a ∨ Same x a) ∧ (x.addr = a.addr → Same x a)

/-- The two memories agree everywhere outside vector `x`, and have the same arrays. -/
def OnlyAt (x : Ref) (σ σ' : Store K) : Prop :=
  (∀ b, (σ' b).size = (σ b).size) ∧
  ∀ b k, ¬ (b = x.blk ∧ x.off ≤ k ∧ k < x.off + x.len) → (σ' b).cell k = (σ b).cell k

/-- The call `r`, made in memory `σ`, succeeds; vector `x` of length `n` then holds `g`, and nothing else has changed. -/
def Gives (σ : Store K) (r : Option (Store K)) (x : Ref) (n : ℕ) (g : Fin n → K) : Prop :=
  ∃ σ', r = some σ' ∧ Has σ' x n g ∧ OnlyAt x σ σ'

end Osqp.Vm
