import Verif.Model.Num

/-!
# Sparse matrices at the solver layer

At this layer a sparse matrix is a *pattern* (row and column of each stored entry, in storage order),
fixed at setup, plus the array of stored values.  The raw CSC routines operating on `p`, `i`, `x` arrays
are modelled separately in `Verif/Csc`, where they are proved to compute the functions below.
-/

namespace Osqp

/-- The sparsity pattern of an `OSQPCscMatrix` (include/public/osqp_api_types.h:31-46): entry `k` of the
value array sits in row `row k`, column `col k`.  Duplicate entries are allowed (they add up). -/
structure Pat (m n : ℕ) where
  /-- number of stored entries, `p[n]` -/
  nnz : ℕ
  /-- row index array `i` -/
  row : Fin nnz → Fin m
  /-- column of each entry (encoded by `p` in the C struct) -/
  col : Fin nnz → Fin n

/-- Problem dimensions and sparsity: fixed by `osqp_setup` for the life of the solver
(`OSQPData`, include/private/types.h:73-81). `P` stores the upper triangle only. -/
structure Dims where
  n : ℕ
  m : ℕ
  P : Pat n n
  A : Pat m n

section
variable {K : Type*} [Field K] [LinearOrder K] {m n : ℕ}

/-- csc_math.c:169-212 `csc_Axpy` with alpha=1, beta=0: `A x`. -/
def spMul (p : Pat m n) (v : Vec K p.nnz) (x : Vec K n) : Vec K m :=
  fun i => ∑ k, if p.row k = i then v k * x (p.col k) else 0

/-- csc_math.c:216-255 `csc_Atxpy` with alpha=1, beta=0: `Aᵀ y`. -/
def spMulT (p : Pat m n) (v : Vec K p.nnz) (y : Vec K m) : Vec K n :=
  fun j => ∑ k, if p.col k = j then v k * y (p.row k) else 0

/-- csc_math.c:114-166 `csc_Axpy_sym_triu` with alpha=1, beta=0: product with the symmetric matrix whose
upper triangle is stored. -/
def symMul (p : Pat n n) (v : Vec K p.nnz) (x : Vec K n) : Vec K n :=
  fun i => ∑ k, ((if p.row k = i then v k * x (p.col k) else 0) +
    (if p.row k ≠ p.col k ∧ p.col k = i then v k * x (p.row k) else 0))

/-- csc_math.c:50-57 `csc_scale`. -/
def spScale {q : ℕ} (v : Vec K q) (c : K) : Vec K q := fun k => v k * c

/-- csc_math.c:60-75 `csc_lmult_diag`. -/
def spLmult (p : Pat m n) (v : Vec K p.nnz) (d : Vec K m) : Vec K p.nnz := fun k => v k * d (p.row k)

/-- csc_math.c:78-92 `csc_rmult_diag`. -/
def spRmult (p : Pat m n) (v : Vec K p.nnz) (d : Vec K n) : Vec K p.nnz := fun k => v k * d (p.col k)

/-- csc_math.c:292-309 `csc_col_norm_inf`. -/
def spColNorm (p : Pat m n) (v : Vec K p.nnz) : Vec K n := fun j =>
  (List.finRange p.nnz).foldl (fun e k => if p.col k = j then cMax (cAbs (v k)) e else e) 0

/-- csc_math.c:312-332 `csc_row_norm_inf`. -/
def spRowNorm (p : Pat m n) (v : Vec K p.nnz) : Vec K m := fun i =>
  (List.finRange p.nnz).foldl (fun e k => if p.row k = i then cMax (cAbs (v k)) e else e) 0

/-- The index used for element `i` of an update: `idx[i]`, or `i` itself when no index array is given.
`none` is a read past the end of the caller's array (undefined behaviour). -/
def idxAt (idx : Option (List ℤ)) (i : ℕ) : Option ℤ :=
  match idx with
  | some ix => ix[i]?
  | none => some (i : ℤ)

/-- One write `M->x[k] = v`; `none` is a write outside the array (undefined behaviour). -/
def writeAt {q : ℕ} (v : Vec K q) (k : ℤ) (x : K) : Option (Vec K q) :=
  if h : 0 ≤ k ∧ k.toNat < q then some (Function.update v ⟨k.toNat, h.2⟩ x) else none

/-- csc_math.c:27-45 `csc_update_values`.  `new` and `idx` are the caller's arrays (their allocated
contents); `cnt` is `M_new_n`.  `none` is undefined behaviour: a read past the end of a caller array or a
write outside `M->x`. -/
def updateValues {q : ℕ} (v : Vec K q) (new : List K) (idx : Option (List ℤ)) (cnt : ℕ) :
    Option (Vec K q) :=
  (List.range cnt).foldlM (fun v i =>
    match idxAt idx i, new[i]? with
    | some k, some x => writeAt v k x
    | _, _ => none) v

/-- The same walk over the index list, copying entries from the data matrix into the linear-system
solver's matrix: kkt.c:349-401 `update_KKT_P` / `update_KKT_A` (seen through the `PtoKKT`/`AtoKKT` maps,
which `Verif/Csc` proves to address exactly the right entries). -/
def copyValues {q : ℕ} (dst src : Vec K q) (idx : Option (List ℤ)) (cnt : ℕ) : Option (Vec K q) :=
  (List.range cnt).foldlM (fun v i =>
    match idxAt idx i with
    | some k => if h : 0 ≤ k ∧ k.toNat < q then writeAt v k (src ⟨k.toNat, h.2⟩) else none
    | none => none) dst

end
end Osqp
