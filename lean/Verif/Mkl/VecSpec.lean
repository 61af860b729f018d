import Verif.Mkl.Vec
import Verif.Vm.Spec
import Mathlib.Algebra.Order.BigOperators.Group.Finset

/-!
# Specification: the vector routines of MKL
-/

namespace Osqp.MklVec
open Vm
variable {K : Type*} [Field K] [LinearOrder K]

/-- What MKL's documentation says of the routines in `Lib`.  Those of its vector mathematics may work in place: a result is the same elements as an operand, or shares none with it.  Those of
BLAS (`dcopy`, `daxpy`) need a result apart from the operand.  Of `idamax` it is only used that it gives the index of a largest element. -/
structure Documented (lib : Lib K) (sqrt : K → K) : Prop where
  copy : ∀ {σ x a n} {fa : Fin n → K}, Room σ x n → Has σ a n fa → Apart x a → Gives σ (lib.copy n (ptr a) (ptr x) σ) x n fa
  fill : ∀ {σ x n} (sc : K), Room σ x n → Gives σ (lib.fill n sc (ptr x) σ) x n fun _ => sc
  scal : ∀ {σ x n} {f : Fin n → K} (sc : K), Has σ x n f → Gives σ (lib.scal n sc (ptr x) σ) x n fun i => sc * f i
  axpy : ∀ {σ x a n} {f fa : Fin n → K} (sc : K), Has σ x n f → Has σ a n fa → Apart x a → Gives σ (lib.axpy n sc (ptr a) (ptr x) σ) x n fun i => sc * fa i + f i
  add : ∀ {σ x a b n} {fa fb : Fin n → K}, Room σ x n → Has σ a n fa → (Apart x a ∨ Same x a) → Has σ b n fb → (Apart x b ∨ Same x b) →
    Gives σ (lib.add n (ptr a) (ptr b) (ptr x) σ) x n fun i => fa i + fb i
  sub : ∀ {σ x a b n} {fa fb : Fin n → K}, Room σ x n → Has σ a n fa → (Apart x a ∨ Same x a) → Has σ b n fb → (Apart x b ∨ Same x b) →
    Gives σ (lib.sub n (ptr a) (ptr b) (ptr x) σ) x n fun i => fa i - fb i
  mul : ∀ {σ x a b n} {fa fb : Fin n → K}, Room σ x n → Has σ a n fa → (Apart x a ∨ Same x a) → Has σ b n fb → (Apart x b ∨ Same x b) →
    Gives σ (lib.mul n (ptr a) (ptr b) (ptr x) σ) x n fun i => fa i * fb i
  fmax : ∀ {σ x a b n} {fa fb : Fin n → K}, Room σ x n → Has σ a n fa → (Apart x a ∨ Same x a) → Has σ b n fb → (Apart x b ∨ Same x b) →
    Gives σ (lib.fmax n (ptr a) (ptr b) (ptr x) σ) x n fun i => max (fa i) (fb i)
  fmin : ∀ {σ x a b n} {fa fb : Fin n → K}, Room σ x n → Has σ a n fa → (Apart x a ∨ Same x a) → Has σ b n fb → (Apart x b ∨ Same x b) →
    Gives σ (lib.fmin n (ptr a) (ptr b) (ptr x) σ) x n fun i => min (fa i) (fb i)
  fmaxI : ∀ {σ x a n} {fa : Fin n → K} (v : K), Room σ x n → Has σ a n fa → (Apart x a ∨ Same x a) → Gives σ (lib.fmaxI n (ptr a) v (ptr x) σ) x n fun i => max (fa i) v
  fminI : ∀ {σ x a n} {fa : Fin n → K} (v : K), Room σ x n → Has σ a n fa → (Apart x a ∨ Same x a) → Gives σ (lib.fminI n (ptr a) v (ptr x) σ) x n fun i => min (fa i) v
  inv : ∀ {σ x a n} {fa : Fin n → K}, Room σ x n → Has σ a n fa → (Apart x a ∨ Same x a) → (∀ i, fa i ≠ 0) → Gives σ (lib.inv n (ptr a) (ptr x) σ) x n fun i => 1 / fa i
  sqrt : ∀ {σ x a n} {fa : Fin n → K}, Room σ x n → Has σ a n fa → (Apart x a ∨ Same x a) → (∀ i, 0 ≤ fa i) → Gives σ (lib.sqrt n (ptr a) (ptr x) σ) x n fun i => sqrt (fa i)
  dot : ∀ {σ a b n} {fa fb : Fin n → K}, Has σ a n fa → Has σ b n fb → lib.dot n (ptr a) (ptr b) σ = some (∑ i, fa i * fb i)
  asum : ∀ {σ a n} {fa : Fin n → K}, Has σ a n fa → 0 < n → lib.asum n (ptr a) σ = some (∑ i, |fa i|)
  iamax : ∀ {σ a n} {fa : Fin n → K}, Has σ a n fa → 0 < n → ∃ i : Fin n, lib.iamax n (ptr a) σ = some (i : ℕ) ∧ ∀ j, |fa j| ≤ |fa i|

end Osqp.MklVec
