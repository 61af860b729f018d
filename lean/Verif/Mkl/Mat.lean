import Verif.Csc.LinStep
import Verif.Csc.Utils

/-!
# Model of the matrix objects of the MKL back end

algebra/mkl/matrix.c, on raw memory (`Csc/Mem.lean`: `none` is undefined behaviour).  MKL's sparse routines are a parameter, of type `Lib`.
A handle keeps no copy: it refers to the arrays of the object's own matrix, as the comments at matrix.c:121-122 and elsewhere assume.
Allocations succeed.
-/

namespace Osqp.MklMat
open Osqp.Csc

/-- MKL's sparse routines. -/
structure Lib (K : Type*) where
  /-- `mkl_sparse_d_create_csc`: 0 is `SPARSE_STATUS_SUCCESS`, 1 `SPARSE_STATUS_NOT_INITIALIZED` (no handle is made) -/
  create : Csc K → ℤ
  /-- `mkl_sparse_d_mv` with a handle for the given arrays: transposed?, symmetric with the upper triangle stored?, `alpha`, the matrix, `x`, `beta`, `y`; the new `y` -/
  mv : Bool → Bool → K → Csc K → Buf K → K → Buf K → Option (Buf K)

/-- algebra_impl.h:39-45 `OSQPMatrix_`; `handle` says whether `mkl_mat` is not null; `triu` is `symmetry == TRIU`. -/
structure Mat (K : Type*) where
  csc : Csc K
  handle : Bool
  triu : Bool

variable {K : Type*} [Field K] [LinearOrder K]

/-- matrix.c:22-38 `mkl_csc_spalloc` with data. -/
def mklSpalloc (m n nzmax : ℤ) : Csc K := ⟨m, n, Buf.fresh (n + 1), Buf.fresh nzmax, Buf.fresh nzmax, max nzmax 0, -1⟩

/-- matrix.c:93-112 and :391-410: make the handle; the inner `none` is the returned NULL. -/
def withHandle (lib : Lib K) (M : Csc K) (triu : Bool) : Option (Mat K) :=
  if lib.create M ≠ 0 ∧ lib.create M ≠ 1 then none else some ⟨M, lib.create M = 0, triu⟩

/-- matrix.c:56-113 `OSQPMatrix_new_from_csc` of a matrix with data; `nzmax` entries are copied. -/
def newFromCsc (lib : Lib K) (A : Csc K) (triu : Bool) : Option (Option (Mat K)) :=
  let B : Csc K := mklSpalloc A.m A.n A.nzmax
  (forI 0 (A.n + 1) (fun i b => (A.p.rd i).bind fun v => b.wr i v) B.p).bind fun p =>
  (forI 0 A.nzmax (fun k (s : Buf ℤ × Buf K) => (A.i.rd k).bind fun v => (s.1.wr k v).bind fun i => (A.x.rd k).bind fun w => (s.2.wr k w).bind fun x => some (i, x))
    (B.i, B.x)).bind fun s =>
  some (withHandle lib { B with p := p, i := s.1, x := s.2 } triu)

/-- matrix.c:117-124 `OSQPMatrix_update_values`. -/
def update (M : Mat K) (new : Buf K) (idx : Option (Buf ℤ)) (cnt : ℤ) : Option (Mat K) :=
  (Csc.updateValues M.csc.x new idx cnt).bind fun x => some { M with csc := { M.csc with x := x } }

/-- matrix.c:175-180 `OSQPMatrix_mult_scalar`. -/
def multScalar (M : Mat K) (sc : K) : Option (Mat K) := (scale M.csc sc).bind fun C => some { M with csc := C }

/-- matrix.c:182-187 `OSQPMatrix_lmult_diag`. -/
def lmult (M : Mat K) (L : Buf K) : Option (Mat K) := (lmultDiag M.csc L).bind fun C => some { M with csc := C }

/-- matrix.c:189-194 `OSQPMatrix_rmult_diag`. -/
def rmult (M : Mat K) (R : Buf K) : Option (Mat K) := (rmultDiag M.csc R).bind fun C => some { M with csc := C }

/-- `mkl_sparse_d_mv` on the object's handle: without a handle it returns `SPARSE_STATUS_NOT_INITIALIZED`, which is ignored, and leaves `y`. -/
def mv (lib : Lib K) (trans : Bool) (M : Mat K) (x y : Buf K) (alpha beta : K) : Option (Buf K) :=
  if M.handle then lib.mv trans M.triu alpha M.csc x beta y else some y

/-- matrix.c:212-235 `OSQPMatrix_Axpy`. -/
def axpy (lib : Lib K) (M : Mat K) (x y : Buf K) (alpha beta : K) : Option (Buf K) := mv lib false M x y alpha beta

/-- matrix.c:237-259 `OSQPMatrix_Atxpy`. -/
def atxpy (lib : Lib K) (M : Mat K) (x y : Buf K) (alpha beta : K) : Option (Buf K) := mv lib true M x y alpha beta

/-- matrix.c:261-266 `OSQPMatrix_col_norm_inf`. -/
def colNorm (M : Mat K) (E : Buf K) : Option (Buf K) := colNormInf M.csc E

/-- matrix.c:268-274 `OSQPMatrix_row_norm_inf`. -/
def rowNorm (M : Mat K) (E : Buf K) : Option (Buf K) := if M.triu then rowNormInfSymTriu M.csc E else rowNormInf M.csc E

/-- matrix.c:362-412 `OSQPMatrix_submatrix_byrows`.  `mkl_submatrix_byrows` (:295-360) is `csc_submatrix_byrows` line by line but for the allocator. -/
def select (lib : Lib K) (M : Mat K) (rows : Buf ℤ) : Option (Option (Mat K)) :=
  if M.triu then some none else (submatrixByRows M.csc rows).bind fun R => some (withHandle lib R false)

/-- matrix.c:134-169 `OSQPMatrix_get_csc`: `mkl_sparse_d_export_csc` gives back the arrays of the handle, `p` and `p + 1` for the starts and ends. -/
def getCsc (M : Mat K) : Option (Csc K) :=
  let numrows := M.csc.m
  let numcols := M.csc.n
  if numcols ≤ 0 then none else
  (M.csc.p.rd numcols).bind fun last =>
  let B : Csc K := spalloc numcols numrows (last + 1)
  (forI 0 numcols (fun i b => (M.csc.p.rd i).bind fun v => b.wr i v) B.p).bind fun p =>
  (p.wr numcols (last + 1)).bind fun p =>
  (forI 0 (last + 1) (fun k (s : Buf ℤ × Buf K) => (M.csc.i.rd k).bind fun v => (s.1.wr k v).bind fun i => (M.csc.x.rd k).bind fun w => (s.2.wr k w).bind fun x => some (i, x))
    (B.i, B.x)).bind fun s => some { B with p := p, i := s.1, x := s.2 }

/-- reduced_kkt.c:9-24 `reduced_kkt_mv_times` with the matrix objects of this back end; the result is the new `v` and `work`. -/
def reducedMv (lib : Lib K) (P A : Mat K) (rho : Buf K) (sigma : K) (x v work : Buf K) : Option (Buf K × Buf K) :=
  (axpy lib A x work 1 0).bind fun work =>
  (ewProdIn work rho A.csc.m).bind fun work =>
  (copyVec v x P.csc.n).bind fun v =>
  (axpy lib P x v 1 sigma).bind fun v =>
  (atxpy lib A work v 1 1).bind fun v => some (v, work)

end Osqp.MklMat
