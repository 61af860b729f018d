import Verif.Csc.Spec

/-!
# Specification of the KKT matrix

`kktFull P A sigma R` is the symmetric matrix `[P + sigma*I, A'; A, -diag(R)]`, where `P` is given by its upper triangle;
`redEntry P A sigma rho` is the matrix `P + sigma*I + A'*diag(rho)*A`.
-/

namespace Osqp.Csc

/-- Entry `(r, c)` of `[P + sigma*I, A'; A, -diag(R)]`, with `n = P.n` the size of the first block. -/
def kktFull {K : Type*} [Ring K] (P A : View K) (sigma : K) (R : ℕ → K) (r c : ℕ) : K :=
  if r < P.n then
    if c < P.n then P.symEntry r c + (if r = c then sigma else 0)
    else A.entry (c - P.n) r
  else
    if c < P.n then A.entry (r - P.n) c
    else if r = c then -R (r - P.n) else 0

/-- Entry `(r, c)` of `P + sigma*I + A'*diag(rho)*A`. -/
def redEntry {K : Type*} [Ring K] (P A : View K) (sigma : K) (rho : ℕ → K) (r c : ℕ) : K :=
  P.symEntry r c + (if r = c then sigma else 0) + ∑ k ∈ Finset.range A.m, A.entry k r * rho k * A.entry k c

/-- The vector `(f, g)` whose first `n` elements are those of `f`. -/
def cat {K : Type*} (n : ℕ) (f g : ℕ → K) (k : ℕ) : K := if k < n then f k else g (k - n)

end Osqp.Csc
