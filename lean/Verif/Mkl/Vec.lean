import Verif.Vm.Admm

/-!
# The vector routines of the MKL back end

`algebra/mkl/vector.c` on the memory of `Vm/Model.lean`.  Many routines are the loops of `algebra/builtin/vector.c` word for word (`Vm/Model.lean`); the others call MKL's BLAS and vector
mathematics (`algebra/mkl/blas_helpers.h`), which is a parameter here.
-/

namespace Osqp.MklVec
open Csc Vm

/-- A pointer to a number: array and element. -/
abbrev Ptr := ℕ × ℕ

/-- `v->values`. -/
def ptr (v : Ref) : Ptr := (v.blk, v.off)

/-- The routines of MKL that `vector.c` calls (blas_helpers.h:53-72), each with the length first; increments are 1 unless said otherwise. -/
structure Lib (K : Type*) where
  /-- `cblas_dcopy(n, x, 1, y, 1)`. -/
  copy : ℕ → Ptr → Ptr → Store K → Option (Store K)
  /-- `cblas_dcopy(n, &sc, 0, y, 1)`. -/
  fill : ℕ → K → Ptr → Store K → Option (Store K)
  /-- `cblas_dscal(n, a, x, 1)`. -/
  scal : ℕ → K → Ptr → Store K → Option (Store K)
  /-- `cblas_daxpy(n, a, x, 1, y, 1)`. -/
  axpy : ℕ → K → Ptr → Ptr → Store K → Option (Store K)
  /-- `vdAdd(n, a, b, y)`. -/
  add : ℕ → Ptr → Ptr → Ptr → Store K → Option (Store K)
  /-- `vdSub(n, a, b, y)`. -/
  sub : ℕ → Ptr → Ptr → Ptr → Store K → Option (Store K)
  /-- `vdMul(n, a, b, y)`. -/
  mul : ℕ → Ptr → Ptr → Ptr → Store K → Option (Store K)
  /-- `vdFmax(n, a, b, y)`. -/
  fmax : ℕ → Ptr → Ptr → Ptr → Store K → Option (Store K)
  /-- `vdFmin(n, a, b, y)`. -/
  fmin : ℕ → Ptr → Ptr → Ptr → Store K → Option (Store K)
  /-- `vdFmaxI(n, a, 1, &v, 0, y, 1)`. -/
  fmaxI : ℕ → Ptr → K → Ptr → Store K → Option (Store K)
  /-- `vdFminI(n, a, 1, &v, 0, y, 1)`. -/
  fminI : ℕ → Ptr → K → Ptr → Store K → Option (Store K)
  /-- `vdInv(n, a, y)`. -/
  inv : ℕ → Ptr → Ptr → Store K → Option (Store K)
  /-- `vdSqrt(n, a, y)`. -/
  sqrt : ℕ → Ptr → Ptr → Store K → Option (Store K)
  /-- `cblas_ddot(n, x, 1, y, 1)`. -/
  dot : ℕ → Ptr → Ptr → Store K → Option K
  /-- `cblas_dasum(n, x, 1)`. -/
  asum : ℕ → Ptr → Store K → Option K
  /-- `cblas_idamax(n, x, 1)`. -/
  iamax : ℕ → Ptr → Store K → Option ℕ

variable {K : Type*} [Field K] [LinearOrder K] (lib : Lib K)

/-- mkl/vector.c:179-183 `OSQPVectorf_copy`: the length is that of the source. -/
def copy (b a : Ref) (σ : Store K) : Option (Store K) := lib.copy a.len (ptr a) (ptr b) σ

/-- mkl/vector.c:185-189 `OSQPVectorf_from_raw`: the source is an array of the caller, here a vector over it. -/
def fromRaw (b a : Ref) (σ : Store K) : Option (Store K) := lib.copy b.len (ptr a) (ptr b) σ

/-- mkl/vector.c:202-206 `OSQPVectorf_to_raw`. -/
def toRaw (b a : Ref) (σ : Store K) : Option (Store K) := lib.copy a.len (ptr a) (ptr b) σ

/-- mkl/vector.c:219-225 `OSQPVectorf_set_scalar`. -/
def setScalar (a : Ref) (sc : K) (σ : Store K) : Option (Store K) := lib.fill a.len sc (ptr a) σ

/-- mkl/vector.c:258-262 `OSQPVectorf_mult_scalar`. -/
def multScalar (a : Ref) (sc : K) (σ : Store K) : Option (Store K) := lib.scal a.len sc (ptr a) σ

/-- mkl/vector.c:264-271 `OSQPVectorf_plus`. -/
def plus (x a b : Ref) (σ : Store K) : Option (Store K) := lib.add a.len (ptr a) (ptr b) (ptr x) σ

/-- mkl/vector.c:273-280 `OSQPVectorf_minus`. -/
def minus (x a b : Ref) (σ : Store K) : Option (Store K) := lib.sub a.len (ptr a) (ptr b) (ptr x) σ

/-- mkl/vector.c:282-305 `OSQPVectorf_add_scaled`. -/
def addScaled (x : Ref) (sca : K) (a : Ref) (scb : K) (b : Ref) (σ : Store K) : Option (Store K) :=
  if x.addr = a.addr ∧ sca = 1 then lib.axpy x.len scb (ptr b) (ptr x) σ
  else forI 0 x.len (fun i σ => (rd σ a i).bind fun v => (rd σ b i).bind fun w => wr σ x i (sca * v + scb * w)) σ

/-- mkl/vector.c:336-346 `OSQPVectorf_norm_inf`. -/
def normInf (v : Ref) (σ : Store K) : Option K :=
  if v.len ≠ 0 then (lib.iamax v.len (ptr v) σ).bind fun i => (rd σ v i).bind fun x => some (cAbs x) else some 0

/-- mkl/vector.c:440-444 `OSQPVectorf_dot_prod`. -/
def dotProd (a b : Ref) (σ : Store K) : Option K := lib.dot a.len (ptr a) (ptr b) σ

/-- mkl/vector.c:446-472 `OSQPVectorf_dot_prod_signed`. -/
def dotSigned (a b : Ref) (sign : ℤ) (σ : Store K) : Option K :=
  if sign = 1 then
    forI 0 a.len (fun i r => (rd σ a i).bind fun x => (rd σ b i).bind fun y => some (r + x * cMax y 0)) 0
  else if sign = -1 then
    forI 0 a.len (fun i r => (rd σ a i).bind fun x => (rd σ b i).bind fun y => some (r + x * cMin y 0)) 0
  else dotProd lib a b σ

/-- mkl/vector.c:474-478 `OSQPVectorf_ew_prod`. -/
def ewProd (c a b : Ref) (σ : Store K) : Option (Store K) := lib.mul a.len (ptr a) (ptr b) (ptr c) σ

/-- mkl/vector.c:618-627 `OSQPVectorf_norm_1`. -/
def norm1 (a : Ref) (σ : Store K) : Option K := if a.len ≠ 0 then lib.asum a.len (ptr a) σ else some 0

/-- mkl/vector.c:629-633 `OSQPVectorf_ew_reciprocal`. -/
def reciprocal (b a : Ref) (σ : Store K) : Option (Store K) := lib.inv a.len (ptr a) (ptr b) σ

/-- mkl/vector.c:635-638 `OSQPVectorf_ew_sqrt`. -/
def ewSqrt (a : Ref) (σ : Store K) : Option (Store K) := lib.sqrt a.len (ptr a) (ptr a) σ

/-- mkl/vector.c:640-646 `OSQPVectorf_ew_max`. -/
def ewMax (c a : Ref) (v : K) (σ : Store K) : Option (Store K) := lib.fmaxI a.len (ptr a) v (ptr c) σ

/-- mkl/vector.c:648-654 `OSQPVectorf_ew_min`. -/
def ewMin (c a : Ref) (v : K) (σ : Store K) : Option (Store K) := lib.fminI a.len (ptr a) v (ptr c) σ

/-- mkl/vector.c:656-661 `OSQPVectorf_ew_max_vec`. -/
def maxVec (c a b : Ref) (σ : Store K) : Option (Store K) := lib.fmax a.len (ptr a) (ptr b) (ptr c) σ

/-- mkl/vector.c:663-668 `OSQPVectorf_ew_min_vec`. -/
def minVec (c a b : Ref) (σ : Store K) : Option (Store K) := lib.fmin a.len (ptr a) (ptr b) (ptr c) σ

/-! ## The iteration with these routines

`OSQPVectorf_add_scaled3` (mkl/vector.c:307-333) and `OSQPVectorf_ew_bound_vec` (495-511) are the loops of the built-in algebra. -/

/-- src/auxil.c:136-158 `compute_rhs`. -/
def computeRhs (st : Settings K) (rho_inv : K) (W : Ptrs) (σ : Store K) : Option (Store K) :=
  (addScaled lib (W .xt) st.sigma (W .xPrev) (-1) (W .q) σ).bind fun σ =>
  if st.rho_is_vec ≠ 0 then
    (ewProd lib (W .zt) (W .rhoInv) (W .y) σ).bind fun σ =>
    addScaled lib (W .zt) (-1) (W .zt) 1 (W .zPrev) σ
  else addScaled lib (W .zt) 1 (W .zPrev) (-rho_inv) (W .y) σ

/-- src/auxil.c:160-170 `update_xz_tilde`. -/
def updateXZTilde (st : Settings K) (rho_inv : K) (slv : Buf K → Option (Buf K)) (W : Ptrs) (xz : Ref) (σ : Store K) : Option (Store K) :=
  (computeRhs lib st rho_inv W σ).bind fun σ => solveIn slv xz σ

/-- src/auxil.c:172-184 `update_x`. -/
def updateX (st : Settings K) (W : Ptrs) (σ : Store K) : Option (Store K) :=
  (addScaled lib (W .x) st.alpha (W .xt) (1 - st.alpha) (W .xPrev) σ).bind fun σ =>
  minus lib (W .dx) (W .x) (W .xPrev) σ

/-- src/auxil.c:186-208 `update_z`. -/
def updateZ (st : Settings K) (rho_inv : K) (W : Ptrs) (σ : Store K) : Option (Store K) :=
  (if st.rho_is_vec ≠ 0 then
    (ewProd lib (W .z) (W .rhoInv) (W .y) σ).bind fun σ =>
    addScaled3 (W .z) 1 (W .z) st.alpha (W .zt) (1 - st.alpha) (W .zPrev) σ
  else addScaled3 (W .z) st.alpha (W .zt) (1 - st.alpha) (W .zPrev) rho_inv (W .y) σ).bind fun σ =>
  boundVec (W .z) (W .z) (W .l) (W .u) σ

/-- src/auxil.c:210-229 `update_y`. -/
def updateY (st : Settings K) (W : Ptrs) (σ : Store K) : Option (Store K) :=
  (addScaled3 (W .dy) st.alpha (W .zt) (1 - st.alpha) (W .zPrev) (-1) (W .z) σ).bind fun σ =>
  (if st.rho_is_vec ≠ 0 then ewProd lib (W .dy) (W .dy) (W .rho) σ else multScalar lib (W .dy) st.rho σ).bind fun σ =>
  plus lib (W .y) (W .y) (W .dy) σ

/-- osqp_api.c:702-724: one iteration. -/
def iterate (st : Settings K) (rho_inv : K) (slv : Buf K → Option (Buf K)) (xz : Ref) (W : Ptrs) (σ : Store K) :
    Option (Ptrs × Store K) :=
  let W := swap .z .zPrev (swap .x .xPrev W)
  (updateXZTilde lib st rho_inv slv W xz σ).bind fun σ =>
  (updateX lib st W σ).bind fun σ =>
  (updateZ lib st rho_inv W σ).bind fun σ =>
  (updateY lib st W σ).bind fun σ => some (W, σ)

/-- `k` iterations with the same settings and factorisation. -/
def iterates (st : Settings K) (rho_inv : K) (slv : Buf K → Option (Buf K)) (xz : Ref) : ℕ → Ptrs → Store K → Option (Ptrs × Store K)
  | 0, W, σ => some (W, σ)
  | k + 1, W, σ => (iterate lib st rho_inv slv xz W σ).bind fun r => iterates st rho_inv slv xz k r.1 r.2

end Osqp.MklVec
