import Verif.Cuda.Gpu

/-!
# Specification: what a kernel does whatever the schedule
-/

namespace Osqp.Gpu

variable {M ι : Type} [DecidableEq ι]

/-- Every thread gets a turn again and again. -/
def Fair (s : ℕ → ι) : Prop := ∀ t k, ∃ j, k ≤ j ∧ s j = t

/-- All threads have come to the end. -/
def Finished (ts : ι → Prog M Unit) : Prop := ∀ t, ts t = .ret ()

/-- However threads `ts` take turns, starting in memory `m`: at no point is there an access out of bounds or to an element never
written; if all have come to the end, the memory satisfies `R`; and they do come to the end if each gets a turn again and again. -/
structure Always (ts : ι → Prog M Unit) (m : M) (R : M → Prop) : Prop where
  safe : ∀ s, ∃ c, run ts s m = some c
  result : ∀ s c, run ts s m = some c → Finished c.1 → R c.2
  ends : ∀ s : ℕ → ι, Fair s → ∃ k c, run ts ((List.range k).map s) m = some c ∧ Finished c.1

/-- The kernel with threads `ts`, whatever the schedule, leaves the memory that the call `r` of the routine of the built-in back end
leaves, which succeeds. -/
def Agrees {K : Type} (r : Option (Vm.Store K)) (ts : ι → Prog (Dev K) Unit) (σ : Vm.Store K) (ζ : Vm.Store ℤ) : Prop :=
  ∃ σ', r = some σ' ∧ Always ts ⟨σ, ζ⟩ (· = ⟨σ', ζ⟩)

end Osqp.Gpu
