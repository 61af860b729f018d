import Verif.Csc.KktSpec
import Verif.Mkl.Pardiso

/-!
# What is asked of the direct solver of the MKL back end, and of MKL's PARDISO

No code of the back end is used here, only the types of the model.
-/

namespace Osqp.Pardiso
open Osqp.Csc Finset

variable {K : Type*} [Field K]

/-- The arrays are what PARDISO's manual asks of a symmetric matrix (`mtype = -2`, one-based indices), and they denote `M`: row `r` has the
entries `ia r - 1, ..., ia (r+1) - 2`; they lie on or after the diagonal; the diagonal position is among them. -/
structure Denotes (inp : Input K) (N : ℕ) (M : ℕ → ℕ → K) : Prop where
  n : inp.n = N
  arrays : ∃ (ia ja : ℕ → ℕ) (a : ℕ → K), Holds inp.ia (N + 1) (fun r => (ia r : ℤ)) ∧ Holds inp.ja (ia N - 1) (fun k => (ja k : ℤ)) ∧ Holds inp.a (ia N - 1) a ∧
    ia 0 = 1 ∧ (∀ r < N, ia r ≤ ia (r + 1)) ∧
    (∀ r < N, ∀ k, ia r ≤ k + 1 → k + 1 < ia (r + 1) → r + 1 ≤ ja k ∧ ja k ≤ N) ∧
    (∀ r < N, ∃ k, ia r ≤ k + 1 ∧ k + 1 < ia (r + 1) ∧ ja k = r + 1) ∧
    (∀ r < N, ∀ c < N, r ≤ c → M r c = ∑ k ∈ Ico (ia r - 1) (ia (r + 1) - 1), if ja k = c + 1 then a k else 0)
  symm : ∀ r < N, ∀ c < N, M r c = M c r

/-- `PARDISO` computes exactly: if the factorisation of a matrix and a solve report no error, the solution is that of the system.  Without
`iparm[5]` the array `b` is not changed.  The arrays keep their sizes. -/
structure Exact (lib : Lib K) : Prop where
  inPlace : ∀ inp N M, Denotes inp N M → (lib.numeric inp).1 = 0 → ∀ (b x : Buf K) (B : ℕ → K), Holds b N B → N ≤ x.size → (lib.solve inp true b x).1 = 0 →
    ∃ X, Holds (lib.solve inp true b x).2.1 N X ∧ ∀ r < N, ∑ c ∈ range N, M r c * X c = B r
  apart : ∀ inp N M, Denotes inp N M → (lib.numeric inp).1 = 0 → ∀ (b x : Buf K) (B : ℕ → K), Holds b N B → N ≤ x.size → (lib.solve inp false b x).1 = 0 →
    ∃ X, Holds (lib.solve inp false b x).2.2 N X ∧ ∀ r < N, ∑ c ∈ range N, M r c * X c = B r
  kept : ∀ inp b x, (lib.solve inp false b x).2.1 = b
  size : ∀ inp inB b x, (lib.solve inp inB b x).2.2.size = x.size

/-- The data that a solver object should hold: the matrices and the inverse step sizes. -/
structure Data (K : Type*) where
  P : View K
  A : View K
  R : ℕ → K

end Osqp.Pardiso
