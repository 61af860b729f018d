import Verif.Spec.Basic
import Verif.Cuda.Mats

/-!
# Specification: matrices in device memory
-/

namespace Osqp.Spec
variable {K : Type*} [Field K] {n m : ℕ}

/-- Three arrays of length `N` hold the matrix `B`: indices are in range, every value has been written, and the entries add up to `B`. -/
structure Stores {N : ℕ} (row col : Fin N → ℕ) (val : Fin N → Option K) (B : Matrix (Fin m) (Fin n) K) : Prop where
  row_lt : ∀ e, row e < m
  col_lt : ∀ e, col e < n
  sums : ∃ x : Fin N → K, (∀ e, val e = some (x e)) ∧ ∀ i j, B i j = ∑ e, if row e = i.val ∧ col e = j.val then x e else 0

/-- The sort is by rows. -/
def SortsByRow (sort : Cuda.Sorter) : Prop := ∀ N (row col : Fin N → ℕ), Monotone (row ∘ sort N row col)

/-- `v'` is `v` with the entries at the (distinct) positions `idx` replaced. -/
structure Overwritten {nnz k : ℕ} (v : Fin nnz → K) (idx : Fin k → ℕ) (new : Fin k → K) (v' : Fin nnz → K) : Prop where
  inj : Function.Injective idx
  lt : ∀ e, idx e < nnz
  at_idx : ∀ e, v' ⟨idx e, lt e⟩ = new e
  rest : ∀ k : Fin nnz, (∀ e, idx e ≠ k.val) → v' k = v k

/-- The constraint matrix on the device after any sequence of updates and scalings; `v` are the values in the order of the user's arrays. -/
inductive HistA (sort : Cuda.Sorter) (p : Pat m n) : Cuda.GenMat p.nnz K → (Fin p.nnz → K) → Prop
  | init (x : Fin p.nnz → K) : HistA sort p (Cuda.initA sort p x) x
  | whole {M M' : Cuda.GenMat p.nnz K} {v Ax : Fin p.nnz → K} (before : HistA sort p M v) (call : Cuda.updateWholeA M Ax = some M') : HistA sort p M' Ax
  | part {M M' : Cuda.GenMat p.nnz K} {v v' : Fin p.nnz → K} {k : ℕ} {Ax : Fin k → K} {idx : Fin k → ℕ} {ord : Equiv.Perm (Fin k)} (before : HistA sort p M v)
      (new : Overwritten v idx Ax v') (call : Cuda.updateSomeA M Ax idx ord = some M') : HistA sort p M' v'
  | scalar {M : Cuda.GenMat p.nnz K} {v : Fin p.nnz → K} (sc : K) (before : HistA sort p M v) : HistA sort p (Cuda.multScA M sc) fun k => sc * v k
  | left {M : Cuda.GenMat p.nnz K} {v : Fin p.nnz → K} (d : Vec K m) (before : HistA sort p M v) : HistA sort p (Cuda.lmultA M d) fun k => d (p.row k) * v k
  | right {M : Cuda.GenMat p.nnz K} {v : Fin p.nnz → K} (d : Vec K n) (before : HistA sort p M v) : HistA sort p (Cuda.rmultA M d) fun k => v k * d (p.col k)

/-- The cost matrix on the device after a sequence of updates and scalings: `v` are the unscaled values in the order of the user's arrays, `c` and `D` the scaling in force. Entries are
replaced one by one only in an unscaled matrix, as `osqp_update_data_mat` does, and (a restriction, see `c74_stale_counterexample`) only while no whole update has taken place (`clean`);
whole updates (a restriction, see `c74_diagonal_counterexample`) only if every diagonal entry is among the given ones. -/
inductive HistP (sort : Cuda.Sorter) (p : Pat n n) : Cuda.SymMat n p.nnz (Cuda.fullNnz p) K → (Fin p.nnz → K) → (clean : Bool) → (c : K) → (D : Fin n → K) → Prop
  | init {M : Cuda.SymMat n p.nnz (Cuda.fullNnz p) K} {x : Fin p.nnz → K} {ord : Equiv.Perm (Fin (Cuda.fullNnz p))} (call : Cuda.initP sort p x ord = some M) :
      HistP sort p M x true 1 (fun _ => 1)
  | whole {M M' : Cuda.SymMat n p.nnz (Cuda.fullNnz p) K} {v Px : Fin p.nnz → K} {b : Bool} {c : K} {D : Fin n → K} (before : HistP sort p M v b c D)
      (complete : ∀ j, ∃ k, p.row k = j ∧ p.col k = j) (call : Cuda.updateWholeP M Px = some M') : HistP sort p M' Px false 1 (fun _ => 1)
  | part {M M' : Cuda.SymMat n p.nnz (Cuda.fullNnz p) K} {v v' : Fin p.nnz → K} {k : ℕ} {Px : Fin k → K} {idx : Fin k → ℕ} {ord : Equiv.Perm (Fin k)}
      (before : HistP sort p M v true 1 (fun _ => 1)) (new : Overwritten v idx Px v') (call : Cuda.updateSomeP M Px idx ord = some M') : HistP sort p M' v' true 1 (fun _ => 1)
  | scalar {M : Cuda.SymMat n p.nnz (Cuda.fullNnz p) K} {v : Fin p.nnz → K} {b : Bool} {c : K} {D : Fin n → K} (sc : K) (before : HistP sort p M v b c D) :
      HistP sort p (Cuda.multScP M sc) v b (sc * c) D
  | both {M : Cuda.SymMat n p.nnz (Cuda.fullNnz p) K} {v : Fin p.nnz → K} {b : Bool} {c : K} {D : Fin n → K} (d : Vec K n) (before : HistP sort p M v b c D) :
      HistP sort p (Cuda.rmultP (Cuda.lmultP M d) d) v b c (fun j => d j * D j)

end Osqp.Spec
