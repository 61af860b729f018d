import Verif.Cuda.Pcg
import Mathlib.Data.Fintype.Card

/-!
# Model: the matrices of the CUDA back end (algebra/cuda/src/cuda_csr.cu, algebra/cuda/matrix.cu)

`P` is given by its upper triangle and kept in full; `A` is kept together with its transpose. A cell of device memory is `none` until something is written to it (`cuda_malloc`
does not clear memory). An index outside of an array makes the result `none`. The indices of `p : Pat m n` are those of the CSC matrix handed over by the user: `p.row k` is its array
`i`, `p.col k` the column whose pointers enclose `k`.

`Sorter` stands for `cusparseXcoosortByRow` on an array of given size: the positions in their new order.
-/

namespace Osqp.Cuda

variable {K : Type*} {m n : ℕ}

abbrev Sorter := (N : ℕ) → (row col : Fin N → ℕ) → Equiv.Perm (Fin N)

/-- cuda_lin_alg.cu:993-1000 `cuda_vec_gather`, `thrust::gather`. -/
def gather {N k : ℕ} (src : Fin N → Option K) (ind : Fin k → ℕ) : Option (Fin k → Option K) :=
  if h : ∀ e, ind e < N then some fun e => src ⟨ind e, h e⟩ else none

/-- One write of cuda_lin_alg.cu:417-429 `scatter_kernel`. -/
def scatterOne {N : ℕ} (out : Fin N → Option K) (j : ℕ) (v : K) : Option (Fin N → Option K) :=
  if h : j < N then some (Function.update out ⟨j, h⟩ (some v)) else none

/-- cuda_lin_alg.cu:417-429 and 451-458 `scatter`; the threads write in the order `ord`. -/
def scatter {N k : ℕ} (out : Fin N → Option K) (inp : Fin k → K) (ind : Fin k → ℕ) (ord : Equiv.Perm (Fin k)) : Option (Fin N → Option K) :=
  (List.finRange k).foldl (fun o e => o.bind fun out => scatterOne out (ind (ord e)) (inp (ord e))) (some out)

/-- An array of `k` values followed by one cell. -/
def withCell {k : ℕ} (x : Fin k → K) (c : Option K) : Fin (k + 1) → Option K := fun e => if h : e.val < k then some (x ⟨e, h⟩) else c

/-! ### The cost matrix -/

/-- What `fill_full_matrix_kernel` leaves in `has_non_zero_diag_element`, cuda_csr.cu:73-74. -/
def hasDiag (p : Pat n n) (j : Fin n) : Bool := decide (∃ k, p.row k = j ∧ p.col k = j)

/-- What `fill_full_matrix_kernel` counts in `nnz_on_diag`, cuda_csr.cu:73-77. -/
def nnzDiag (p : Pat n n) : ℕ := (Finset.univ.filter fun k => p.row k = p.col k).card

/-- cuda_csr.cu:54-110 `fill_full_matrix_kernel` and `add_diagonal_kernel`, row indices: the given entries, the mirrored entries, the diagonal; entries to be removed have `n` added. The
compressed columns of the user are read as compressed rows (`csr_init`, cuda_csr.cu:594), so the row of an entry is its `p.col`. -/
def fullRow (p : Pat n n) (k : Fin (2 * p.nnz + n)) : ℕ :=
  if h : k.val < p.nnz then (p.col ⟨k, h⟩).val
  else if h2 : k.val < 2 * p.nnz then
    let e : Fin p.nnz := ⟨k - p.nnz, by omega⟩
    if p.col e = p.row e then (p.row e).val + n else (p.row e).val
  else
    let j : Fin n := ⟨k - 2 * p.nnz, by omega⟩
    if hasDiag p j then j.val + n else j.val

/-- The same, column indices. -/
def fullCol (p : Pat n n) (k : Fin (2 * p.nnz + n)) : ℕ :=
  if h : k.val < p.nnz then (p.row ⟨k, h⟩).val
  else if h2 : k.val < 2 * p.nnz then
    let e : Fin p.nnz := ⟨k - p.nnz, by omega⟩
    if p.col e = p.row e then (p.col e).val + n else (p.col e).val
  else
    let j : Fin n := ⟨k - 2 * p.nnz, by omega⟩
    if hasDiag p j then j.val + n else j.val

/-- `Full_nnz`, cuda_csr.cu:525. -/
def fullNnz (p : Pat n n) : ℕ := 2 * (p.nnz - nnzDiag p) + n

/-- cuda_csr.cu:130-145 `reduce_permutation_kernel` on one entry. -/
def reducePerm (nnz x : ℕ) : ℕ := if x < 2 * nnz then x % nnz else nnz

/-- `OSQPMatrix_` of a symmetric matrix (algebra_types.h:51-59) with `nnz` given entries and `N` stored ones. -/
structure SymMat (n nnz N : ℕ) (K : Type*) where
  row : Fin N → ℕ
  col : Fin N → ℕ
  val : Fin N → Option K
  /-- `d_P_triu_val`. -/
  triu_val : Fin (nnz + 1) → Option K
  /-- `d_P_triu_to_full_ind`. -/
  to_full : Fin N → ℕ
  /-- `d_P_diag_ind`. -/
  diag : Fin n → Option ℕ

theorem fullNnz_le (p : Pat n n) : fullNnz p ≤ 2 * p.nnz + n := by unfold fullNnz; omega

/-- cuda_csr.cu:147-163 `get_diagonal_indices_kernel`: the entries are looked at in the order `ord`, the last write stays. -/
def diagIndices {N : ℕ} (row col : Fin N → ℕ) (ord : Equiv.Perm (Fin N)) (j : Fin n) : Option ℕ :=
  (List.finRange N).foldl (fun acc e => if row (ord e) = col (ord e) ∧ row (ord e) = j then some (ord e).val else acc) none

/-- cuda_csr.cu:489-549 `csr_triu_to_full` and 584-607 `cuda_mat_init_P`.  The array `val` of the triangle is allocated by `csr_alloc` with a zero behind its last entry (line 342), as
is `d_P_triu_val` (line 601).  Sizes of the grids are left out: the kernels stride over their ranges. -/
def initP (sort : Sorter) (p : Pat n n) (x : Fin p.nnz → K) [Zero K] (ord : Equiv.Perm (Fin (fullNnz p))) : Option (SymMat n p.nnz (fullNnz p) K) :=
  let d_P := sort (2 * p.nnz + n) (fullRow p) (fullCol p)
  let at' (e : Fin (fullNnz p)) : Fin (2 * p.nnz + n) := d_P ⟨e, lt_of_lt_of_le e.2 (fullNnz_le p)⟩
  let to_full (e : Fin (fullNnz p)) := reducePerm p.nnz (at' e)
  (gather (withCell x (some 0)) to_full).map fun val =>
  { row := fun e => fullRow p (at' e), col := fun e => fullCol p (at' e), val := val, triu_val := withCell x (some 0), to_full := to_full,
    diag := diagIndices (fun e => fullRow p (at' e)) (fun e => fullCol p (at' e)) ord }

/-- cuda_csr.cu:639-651 `cuda_mat_update_P`, whole matrix. The cell behind the new values is not written. -/
def updateWholeP {nnz N : ℕ} (M : SymMat n nnz N K) (Px : Fin nnz → K) : Option (SymMat n nnz N K) :=
  (gather (withCell Px none) M.to_full).map fun val => { M with val := val }

/-- cuda_csr.cu:652-672 `cuda_mat_update_P`, some entries. -/
def updateSomeP {nnz N k : ℕ} (M : SymMat n nnz N K) (Px : Fin k → K) (idx : Fin k → ℕ) (ord : Equiv.Perm (Fin k)) : Option (SymMat n nnz N K) :=
  (scatter M.triu_val Px idx ord).bind fun tv =>
  (gather tv M.to_full).map fun val => { M with triu_val := tv, val := val }

/-- cuda_lin_alg.cu:1001-1005 `cuda_mat_mult_sc`. -/
def multScP [Mul K] {nnz N : ℕ} (M : SymMat n nnz N K) (sc : K) : SymMat n nnz N K := { M with val := fun e => (M.val e).map (sc * ·) }

/-- One entry of cuda_lin_alg.cu:360-386 `mat_lmult_diag_kernel`, `mat_rmult_diag_kernel`. -/
def timesDiag [Mul K] (d : Vec K n) (i : ℕ) (v : Option K) : Option K := if h : i < n then v.map (· * d ⟨i, h⟩) else none

/-- cuda_lin_alg.cu:1013-1020 `cuda_mat_lmult_diag`. -/
def lmultP [Mul K] {nnz N : ℕ} (M : SymMat n nnz N K) (d : Vec K n) : SymMat n nnz N K := { M with val := fun e => timesDiag d (M.row e) (M.val e) }

/-- cuda_lin_alg.cu:1028-1035 `cuda_mat_rmult_diag`. -/
def rmultP [Mul K] {nnz N : ℕ} (M : SymMat n nnz N K) (d : Vec K n) : SymMat n nnz N K := { M with val := fun e => timesDiag d (M.col e) (M.val e) }

/-! ### The constraint matrix -/

/-- `OSQPMatrix_` of a matrix with its transpose (algebra_types.h:51-59). -/
structure GenMat (nnz : ℕ) (K : Type*) where
  row : Fin nnz → ℕ
  col : Fin nnz → ℕ
  val : Fin nnz → Option K
  rowT : Fin nnz → ℕ
  colT : Fin nnz → ℕ
  valT : Fin nnz → Option K
  /-- `d_A_to_At_ind`. -/
  perm : Fin nnz → ℕ

/-- cuda_csr.cu:559-577 `csr_transpose` and 609-628 `cuda_mat_init_A`: the transpose is the matrix of the user with columns read as rows; the matrix itself is that one with the index arrays
exchanged and sorted. -/
def initA (sort : Sorter) (p : Pat m n) (x : Fin p.nnz → K) : GenMat p.nnz K :=
  let s := sort p.nnz (fun k => (p.row k).val) (fun k => (p.col k).val)
  { row := fun e => p.row (s e), col := fun e => p.col (s e), val := fun e => some (x (s e)),
    rowT := fun k => p.col k, colT := fun k => p.row k, valT := fun k => some (x k), perm := fun e => (s e).val }

/-- cuda_csr.cu:686-692 `cuda_mat_update_A`, whole matrix. -/
def updateWholeA {nnz : ℕ} (M : GenMat nnz K) (Ax : Fin nnz → K) : Option (GenMat nnz K) :=
  let valT : Fin nnz → Option K := fun k => some (Ax k)
  (gather valT M.perm).map fun val => { M with valT := valT, val := val }

/-- cuda_csr.cu:693-713 `cuda_mat_update_A`, some entries. -/
def updateSomeA {nnz k : ℕ} (M : GenMat nnz K) (Ax : Fin k → K) (idx : Fin k → ℕ) (ord : Equiv.Perm (Fin k)) : Option (GenMat nnz K) :=
  (scatter M.valT Ax idx ord).bind fun valT => (gather valT M.perm).map fun val => { M with valT := valT, val := val }

/-- cuda_lin_alg.cu:1001-1011 `cuda_mat_mult_sc`. -/
def multScA [Mul K] {nnz : ℕ} (M : GenMat nnz K) (sc : K) : GenMat nnz K :=
  { M with val := fun e => (M.val e).map (sc * ·), valT := fun e => (M.valT e).map (sc * ·) }

/-- cuda_lin_alg.cu:1013-1026 `cuda_mat_lmult_diag`. -/
def lmultA [Mul K] {nnz : ℕ} (M : GenMat nnz K) (d : Vec K m) : GenMat nnz K :=
  { M with val := fun e => timesDiag d (M.row e) (M.val e), valT := fun e => timesDiag d (M.colT e) (M.valT e) }

/-- cuda_lin_alg.cu:1028-1041 `cuda_mat_rmult_diag`. -/
def rmultA [Mul K] {nnz : ℕ} (M : GenMat nnz K) (d : Vec K n) : GenMat nnz K :=
  { M with val := fun e => timesDiag d (M.col e) (M.val e), valT := fun e => timesDiag d (M.rowT e) (M.valT e) }

end Osqp.Cuda
