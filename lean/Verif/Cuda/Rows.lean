import Verif.Cuda.Mats

/-!
# Model: compressed rows, products, norms and row selection of the CUDA back end (algebra/cuda/src/cuda_csr.cu, cuda_lin_alg.cu, algebra/cuda/matrix.cu)

As in `Cuda/Mats.lean`, a cell of device memory is `none` until something is written to it, and an index outside of an array makes the result `none`. The library functions
`cusparseXcoo2csr`, `cusparseXcsr2coo`, `cusparseSpMV`, `thrust::inclusive_scan` and `thrust::reduce_by_key` are modelled by what their documentation promises; the first three
read `row_ptr[i]` and `row_ptr[i + 1]` for the rows `i` they need.
-/

namespace Osqp.Cuda

variable {K : Type*} {m n : ℕ}

/-- The type `csr` (csr_type.h:24-38) with `N` entries; `row` is the array `row_ind`. -/
structure CsrMat (N : ℕ) (K : Type*) where
  rows : ℕ
  cols : ℕ
  /-- `row_ptr`, with its real size. -/
  ptr : List ℕ
  row : Fin N → ℕ
  col : Fin N → ℕ
  val : Fin N → Option K

/-- An array all of whose cells have been written. -/
def allSome {α : Type*} {N : ℕ} (f : Fin N → Option α) : Option (Fin N → α) := if h : ∀ e, (f e).isSome then some fun e => (f e).get (h e) else none

/-- cuda_csr.cu:387-392 `compress_row_ind`: `rows + 1` pointers, each the number of entries in the rows before it. -/
def compress {N : ℕ} (row : Fin N → ℕ) (rows : ℕ) : List ℕ := (List.range (rows + 1)).map fun i => (Finset.univ.filter fun e => row e < i).card

/-- Entry `e` lies between two pointers. -/
def between (ptr : List ℕ) (e i : ℕ) : Bool :=
  match ptr[i]?, ptr[i + 1]? with
  | some a, some b => decide (a ≤ e ∧ e < b)
  | _, _ => false

/-- cuda_csr.cu:394-400 `csr_expand_row_ind`: the row of every entry. -/
def expand (ptr : List ℕ) (rows N : ℕ) : Option (Fin N → ℕ) := allSome fun e => (List.range rows).find? (between ptr e)

/-- The array `p` of the user's matrix. -/
def colPtr (p : Pat m n) : List ℕ := compress (fun k => (p.col k).val) n

/-- cuda_csr.cu:559-577 `csr_transpose` (and 402-451 `coo_sort`, `coo_tranpose`, `permute_vector`) followed by `csr_expand_row_ind`: for a matrix without entries only the dimensions are
exchanged. -/
def csrTranspose (sort : Sorter) {N : ℕ} (rows cols : ℕ) (ptr : List ℕ) (col : Fin N → ℕ) (val : Fin N → Option K) : Option (CsrMat N K) :=
  if N = 0 then (expand ptr cols N).map fun r => { rows := cols, cols := rows, ptr := ptr, row := r, col := col, val := val }
  else (expand ptr rows N).map fun r =>
    let s := sort N col r
    { rows := cols, cols := rows, ptr := compress (fun e => col (s e)) cols, row := fun e => col (s e), col := fun e => r (s e), val := fun e => val (s e) }

/-- cuda_csr.cu:609-628 `cuda_mat_init_A` (and 356-381 `csr_init`): the matrix and its transpose. -/
def matInitA (sort : Sorter) (p : Pat m n) (x : Fin p.nnz → K) : Option (CsrMat p.nnz K × CsrMat p.nnz K) :=
  (expand (colPtr p) n p.nnz).bind fun r =>
  (csrTranspose sort n m (colPtr p) (fun k => (p.row k).val) fun k => some (x k)).map fun A =>
  (A, { rows := n, cols := m, ptr := colPtr p, row := r, col := fun k => (p.row k).val, val := fun k => some (x k) })

/-! ### Products -/

/-- One entry times its element of `x`. -/
def term [Mul K] {N cols : ℕ} (col : Fin N → ℕ) (val : Fin N → Option K) (x : Vec K cols) (k : ℕ) : Option K :=
  if h : k < N then (val ⟨k, h⟩).bind fun v => if hc : col ⟨k, h⟩ < cols then some (v * x ⟨col ⟨k, h⟩, hc⟩) else none else none

/-- The sum over the entries of row `i`. -/
def rowSum [Add K] [Mul K] [Zero K] {N cols : ℕ} (ptr : List ℕ) (col : Fin N → ℕ) (val : Fin N → Option K) (x : Vec K cols) (i : ℕ) : Option K :=
  ptr[i]?.bind fun lo => ptr[i + 1]?.bind fun hi =>
  (List.range' lo (hi - lo)).foldl (fun acc k => acc.bind fun s => (term col val x k).map (s + ·)) (some 0)

/-- cuda_lin_alg.cu:1053-1063 `cuda_mat_Axpy`, `cusparseSpMV`: `y = alpha * A * x + beta * y`, where `y` is not read if `beta` is zero. -/
def spmv [Add K] [Mul K] [Zero K] [DecidableEq K] {N cols rows : ℕ} (ptr : List ℕ) (col : Fin N → ℕ) (val : Fin N → Option K) (x : Vec K cols) (y : Fin rows → Option K) (alpha beta : K)
    (i : Fin rows) : Option K :=
  (rowSum ptr col val x i).bind fun s => if beta = 0 then some (alpha * s) else (y i).map fun yi => alpha * s + beta * yi

/-- matrix.cu:97-113 `OSQPMatrix_Axpy`, with the transpose 115-131 `OSQPMatrix_Atxpy`. -/
def matrixAxpy [Add K] [Mul K] [Zero K] [DecidableEq K] {N cols rows : ℕ} (ptr : List ℕ) (col : Fin N → ℕ) (val : Fin N → Option K) (x : Vec K cols) (y : Fin rows → Option K) (alpha beta : K) :
    Fin rows → Option K :=
  if N = 0 ∨ alpha = 0 then fun i => (y i).map (beta * ·)
  else if 0 < cols ∧ 0 < rows then spmv ptr col val x y alpha beta
  else y

/-! ### Norms of the rows -/

/-- Consecutive values with the same key. -/
def groups : List (ℕ × K) → List (ℕ × List K)
  | [] => []
  | (k, v) :: l =>
    match groups l with
    | [] => [(k, [v])]
    | (k', g) :: r => if k = k' then (k, v :: g) :: r else (k, [v]) :: (k', g) :: r

/-- cuda_lin_alg.cu:500-506 `abs_maximum`. -/
def absMaximum [Lattice K] [AddGroup K] (a b : K) : K := max |a| |b|

/-- cuda_lin_alg.cu:1065-1085 `cuda_mat_row_norm_inf` and 465-497 `Segmented_reduce`: `red` is how `thrust::reduce_by_key` reduces the values of a group; the writes of `scatter` come in
the order `ord`. The buffer has room for `rows` groups. -/
def rowNormInf [Lattice K] [AddGroup K] {N rows : ℕ} (red : List K → K) (ord : ∀ k, Equiv.Perm (Fin k)) (row : Fin N → ℕ) (val : Fin N → Option K) (res : Fin rows → Option K) :
    Option (Fin rows → Option K) :=
  if N = 0 then some res
  else (allSome val).bind fun v =>
    let g := groups (List.ofFn fun e => (row e, v e))
    if g.length ≤ rows then
      (scatter (fun _ => some 0) (fun e : Fin g.length => red (g.get e).2) (fun e => (g.get e).1) (ord _)).map fun out i => (out i).map (|·|)
    else none

/-- scaling.c:30-48 `compute_inf_norm_cols_KKT`, the part for the variables: `D` is the norm of the columns of `P` (which is stored in full), `D_temp_A` that of `A`, then the larger of the two. -/
def kktColNorms [LinearOrder K] [AddGroup K] {NP NA : ℕ} (red : List K → K) (ord : ∀ k, Equiv.Perm (Fin k)) (rowP : Fin NP → ℕ) (valP : Fin NP → Option K) (rowAt : Fin NA → ℕ)
    (valAt : Fin NA → Option K) (D D_temp_A : Fin n → Option K) : Option (Fin n → Option K) :=
  (rowNormInf red ord rowP valP D).bind fun D => (rowNormInf red ord rowAt valAt D_temp_A).map fun DA j => (D j).bind fun a => (DA j).map fun b => max a b

/-! ### Selection of rows -/

/-- `thrust::inclusive_scan`. -/
def scan {N : ℕ} (f : Fin N → ℕ) (e : Fin N) : ℕ := ∑ e' ∈ Finset.univ.filter (· ≤ e), f e'

/-- The last element of a scan, cuda_csr.cu:790 and 811. -/
def total {N : ℕ} (f : Fin N → ℕ) (h : N ≠ 0) : ℕ := scan f ⟨N - 1, by omega⟩

/-- cuda_csr.cu:181-214 `compact`, `compact_rows`: thread `e` writes if its predicate is not zero; the threads come in the order `ord`, the array `data_out` has `k` cells. -/
def compactTo {α : Type*} {N : ℕ} (k : ℕ) (data : Fin N → Option α) (pred addr : Fin N → ℕ) (ord : Equiv.Perm (Fin N)) : Option (Fin k → Option α) :=
  (List.finRange N).foldl (fun o t => o.bind fun out =>
    if pred (ord t) ≠ 0 then (if h : addr (ord t) - 1 < k then some (Function.update out ⟨addr (ord t) - 1, h⟩ (data (ord t))) else none) else some out) (some fun _ => none)

/-- Element `row` of an array of `m` cells. -/
def cell (a : Fin m → ℕ) (r : ℕ) : Option ℕ := if h : r < m then some (a ⟨r, h⟩) else none

/-- cuda_csr.cu:763-844 `cuda_submat_byrows`, the arrays of the rows `i` with `flags i ≠ 0` and those of their transpose. `none` if `m = 0` (which is treated apart, lines 792-800) or `A` has
no entries: then `nnz_new` is read without having been written. -/
def submatByRows (sort : Sorter) {N : ℕ} (row col : Fin N → ℕ) (val : Fin N → Option K) (flags : Fin m → ℤ) (cols : ℕ) (ord : Equiv.Perm (Fin N)) :
    Option ((k : ℕ) × CsrMat k K × CsrMat k K) :=
  if hm : m ≠ 0 then if hN : N ≠ 0 then
    let row_predicate : Fin m → ℕ := fun i => (flags i).natAbs
    let new_row_number := scan row_predicate
    let new_m := total row_predicate hm
    (allSome fun e => cell row_predicate (row e)).bind fun predicate =>
    let compact_address := scan predicate
    let nnz_new := total predicate hN
    (compactTo nnz_new (fun e => (cell new_row_number (row e)).map (· - 1)) predicate compact_address ord).bind fun r =>
    (compactTo nnz_new (fun e => some (col e)) predicate compact_address ord).bind fun c =>
    (compactTo nnz_new val predicate compact_address ord).bind fun v =>
    (allSome r).bind fun r => (allSome c).bind fun c =>
    (csrTranspose sort new_m cols (compress r new_m) c v).map fun At =>
    ⟨nnz_new, { rows := new_m, cols := cols, ptr := compress r new_m, row := r, col := c, val := v }, At⟩
  else none else none

end Osqp.Cuda
