import Verif.Spec.Rho
import Verif.Spec.History
import Mathlib.LinearAlgebra.Matrix.NonsingularInverse

/-!
# Specification: factorisations and pivots

What QDLDL promises (it is fetched, not part of the repository): it computes `B = L*D*L'` with `L` unit lower triangular and `D` diagonal and
returns the number of positive entries of `D`, or a negative number if an entry of `D` is zero, that is if there is no such factorisation.
-/

namespace Osqp.Spec
open Matrix
variable {K : Type*} [Field K] [LinearOrder K] {N n m : ℕ} {d : Dims}

/-- `B = L*D*L'` with `L` unit lower triangular and `D` diagonal without zeros. -/
structure Ldl (B L : Matrix (Fin N) (Fin N) K) (D : Fin N → K) : Prop where
  unit : ∀ i, L i i = 1
  lower : ∀ i j, i < j → L i j = 0
  pivots : ∀ i, D i ≠ 0
  prod : B = L * diagonal D * Lᵀ

/-- The number of positive pivots. -/
def positives (D : Fin N → K) : ℕ := (Finset.univ.filter fun i => 0 < D i).card

/-- `c` is what a factorisation routine returns for the symmetric matrix `B`: the number of positive pivots, or a negative number if there is no
factorisation. -/
structure CountsPivots (B : Matrix (Fin N) (Fin N) K) (c : ℤ) : Prop where
  count : ∀ L D, Ldl B L D → c = positives D
  none : (¬ ∃ L D, Ldl B L D) → c < 0

/-- The factorisation routine in use counts the pivots of the matrix it is given, with rows and columns in some order. -/
def CountsIn (env : Env d K) : Prop :=
  ∀ ls : LinSys d K, ∃ e : Fin (d.n + d.m) ≃ Fin d.n ⊕ Fin d.m, CountsPivots ((heldMatrix ls).submatrix e e) (env.factor ls)

/-- `P + sigma*I + A'*diag(rho)*A` is positive definite. -/
def ReducedPD (P : Matrix (Fin n) (Fin n) K) (A : Matrix (Fin m) (Fin n) K) (sigma : K) (rho : Fin m → K) : Prop :=
  ∀ x : Fin n → K, x ≠ 0 → 0 < x ⬝ᵥ (P *ᵥ x) + sigma * (x ⬝ᵥ x) + ∑ i, rho i * (A *ᵥ x) i ^ 2

end Osqp.Spec
