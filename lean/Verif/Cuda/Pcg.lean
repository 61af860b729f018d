import Verif.Model.Mat
import Verif.Model.Cg

/-!
# Model of the conjugate-gradient solver on the GPU

algebra/cuda/lin_sys/indirect/cuda_pcg.cu and cuda_pcg_interface.cu.  A device vector is `Vec K n`, a device matrix in compressed
rows is a pattern with values.  cuBLAS (`scal`, `axpy`, `dot`, `amax`) and cuSPARSE (`SpMV`) are not in the repository; they compute
what their documentation says, in exact arithmetic.  A division by zero, which in C gives an infinity or a NaN, is the outcome `none`.
-/

namespace Osqp.Cuda
open Osqp

variable {K : Type*} [Field K] [LinearOrder K] {m n : ℕ}

/-- algebra/cuda/include/csr_type.h:28-40 `csr`: an entry has a row (`row_ind`), a column and a value.  `row_ptr`, the same information
as `row_ind`, is left out. -/
structure Csr (m n : ℕ) (K : Type*) where
  pat : Pat m n
  val : Vec K pat.nnz

/-- `cusparseSpMV` with alpha = 1, beta = 0, as in cuda_lin_alg.cu:1053-1063 `cuda_mat_Axpy`. -/
def Csr.mul (M : Csr m n K) (x : Vec K n) : Vec K m := spMul M.pat M.val x

/-- cublas `dot`. -/
def dot {n : ℕ} (a b : Vec K n) : K := ∑ i, a i * b i

/-- cuda_lin_alg.cu:679-696 `cuda_vec_norm_inf`: the entry of largest absolute value (`amax`), then its absolute value. -/
def amax {n : ℕ} (v : Vec K n) : K := vNormInf v

/-- The division of `scalar_division_kernel`, cuda_pcg.cu:35-40. -/
def divide (a b : K) : Option K := if b = 0 then none else some (a / b)

/-- include/public/osqp_api_types.h `osqp_precond_type`. -/
inductive Precond
  | no
  | diagonal
  deriving DecidableEq

/-- cuda_pcg_interface.h:30-129 `cudapcg_solver`: the fields with a meaning between calls.  The work vectors of one solve (`d_p`, `d_Kp`,
`d_y`, `d_r`, `d_rhs`, `d_z` and the scalars) are in `Work`. -/
structure Solver (n m : ℕ) (K : Type*) where
  polishing : Bool
  zero_pcg_iters : ℤ
  max_iter : ℤ
  precond_type : Precond
  reduction_threshold : ℤ
  tol_fraction : K
  reduction_factor : K
  eps_prev : K
  h_rho : K
  h_sigma : K
  A : Csr m n K
  At : Csr n m K
  P : Csr n n K
  /-- `d_P_diag_ind`: where the diagonal entry of each row is stored -/
  diagInd : Vec (Fin P.pat.nnz) n
  /-- `d_rho_vec`; `none` is the null pointer -/
  rho_vec : Option (Vec K m)
  x : Vec K n
  P_diag : Vec K n
  AtA_diag : Vec K n
  AtRA_diag : Vec K n
  precond : Vec K n
  precond_inv : Vec K n

/-- The vectors and scalars of the loop of `cuda_pcg_alg`. -/
structure Work (n : ℕ) (K : Type*) where
  x : Vec K n
  p : Vec K n
  r : Vec K n
  y : Vec K n
  rTy : K
  r_norm : K

/-- cuda_pcg.cu:50-106 `mat_vec_prod`: `y = (P + sigma*I + A'*R*A) x`. -/
def matVec (s : Solver n m K) (x : Vec K n) : Vec K n :=
  let y : Vec K n := fun j => s.h_sigma * x j
  let y : Vec K n := fun j => s.P.mul x j + y j
  if m = 0 then y
  else
    let z : Vec K m := match s.rho_vec with
      | none => fun i => s.h_rho * s.A.mul x i
      | some rho => fun i => s.A.mul x i * rho i
    fun j => s.At.mul z j + y j

/-- cuda_pcg.cu:117-150, the part of `cuda_pcg_alg` before the loop.  `warm_start` is a function pointer, set by the initialisation, so the
iterate is never reset to zero (line 127). -/
def start (s : Solver n m K) (rhs : Vec K n) : Work n K :=
  let r : Vec K n := fun j => matVec s s.x j + -1 * rhs j
  let y : Vec K n := fun j => s.precond_inv j * r j
  { x := s.x, p := fun j => -1 * y j + 0, r := r, y := y, rTy := dot y r, r_norm := amax r }

/-- cuda_pcg.cu:155-202, one pass of the loop. -/
def step (s : Solver n m K) (w : Work n K) : Option (Work n K) :=
  let Kp := matVec s w.p
  let pKp := dot w.p Kp
  (divide w.rTy pKp).bind fun alpha =>
  let x : Vec K n := fun j => alpha * w.p j + w.x j
  let r : Vec K n := fun j => alpha * Kp j + w.r j
  let y : Vec K n := fun j => s.precond_inv j * r j
  let rTy_prev := w.rTy
  let rTy := dot y r
  let r_norm := amax r
  (divide rTy rTy_prev).bind fun beta =>
  let p : Vec K n := fun j => -1 * y j + beta * w.p j
  some { x := x, p := p, r := r, y := y, rTy := rTy, r_norm := r_norm }

/-- cuda_pcg.cu:155 the loop; `fuel` is `max_iter - iter`.  The result is the final work space and `iter`. -/
def loop (s : Solver n m K) (eps : K) : ℕ → ℕ → Work n K → Option (Work n K × ℕ)
  | 0, iter, w => some (w, iter)
  | fuel + 1, iter, w => if w.r_norm > eps then (step s w).bind fun w' => loop s eps fuel (iter + 1) w' else some (w, iter)

/-- cuda_pcg.cu:113-208 `cuda_pcg_alg`: the final iterate and the number of passes. -/
def pcgAlg (s : Solver n m K) (rhs : Vec K n) (eps : K) (max_iter : ℤ) : Option (Work n K × ℕ) :=
  loop s eps max_iter.toNat 0 (start s rhs)

/-- cuda_lin_alg.cu:465-497 and 982-991 `cuda_vec_segmented_sum`: the sum of the values of each row, zero for a row without entries.  The keys
are sorted, being row indices in compressed-row order (simplification: the sum is taken over all entries of a row). -/
def segmentedSum (M : Csr n m K) (v : Vec K M.pat.nnz) : Vec K n := fun j => ∑ k, if M.pat.row k = j then v k else 0

/-- cuda_pcg.cu:211-266 `cuda_pcg_update_precond_diagonal`. -/
def updatePrecondDiagonal (s : Solver n m K) (Pu Au Ru : Bool) : Solver n m K :=
  if !Pu && !Au && !Ru then s
  else
    let P_diag : Vec K n := if Pu then fun j => s.P.val (s.diagInd j) else s.P_diag
    let AtA_diag : Vec K n := if s.rho_vec.isNone && Au then segmentedSum s.At fun k => s.At.val k * s.At.val k else s.AtA_diag
    let AtRA_diag : Vec K n := if Au || Ru then
        match s.rho_vec with
        | none => fun j => s.h_rho * AtA_diag j
        | some rho => segmentedSum s.At fun k => s.At.val k * rho (s.At.pat.col k) * s.At.val k
      else s.AtRA_diag
    let d : Vec K n := fun j => AtRA_diag j + (P_diag j + s.h_sigma)
    { s with P_diag := P_diag, AtA_diag := AtA_diag, AtRA_diag := AtRA_diag, precond := d, precond_inv := fun j => 1 / d j }

/-- cuda_pcg.cu:269-285 `cuda_pcg_update_precond`. -/
def updatePrecond (s : Solver n m K) (Pu Au Ru : Bool) : Solver n m K :=
  match s.precond_type with
  | .no => { s with precond_inv := fun _ => 1 }
  | .diagonal => updatePrecondDiagonal s Pu Au Ru

/-- The settings that `init_linsys_solver_cudapcg` reads. -/
structure CgSettings (K : Type*) where
  cg_max_iter : ℤ
  cg_precond : Precond
  cg_tol_reduction : ℤ
  cg_tol_fraction : K
  sigma : K
  rho : K
  delta : K

/-- cuda_pcg_interface.cu:99-214 `init_linsys_solver_cudapcg`.  The structure is zeroed (`c_calloc`), so `eps_prev` starts as 0; `d_x` is zeroed; the
diagonals and the preconditioner are `cuda_malloc`ed, and `init` of the unknown contents is the parameter `junk`. -/
def init (P : Csr n n K) (diagInd : Vec (Fin P.pat.nnz) n) (A : Csr m n K) (At : Csr n m K) (rho_vec : Option (Vec K m)) (st : CgSettings K)
    (polishing : Bool) (junk : Vec K n) : Solver n m K :=
  updatePrecond
    { polishing := polishing, zero_pcg_iters := 0, max_iter := st.cg_max_iter, precond_type := st.cg_precond, reduction_threshold := st.cg_tol_reduction,
      tol_fraction := st.cg_tol_fraction, reduction_factor := st.cg_tol_fraction, eps_prev := 0,
      h_rho := if polishing then 1 / st.delta else st.rho, h_sigma := if polishing then st.delta else st.sigma,
      A := A, At := At, P := P, diagInd := diagInd, rho_vec := rho_vec, x := fun _ => 0,
      P_diag := junk, AtA_diag := junk, AtRA_diag := junk, precond := junk, precond_inv := junk } true true true

/-- cuda_pcg_interface.cu:32-64 `compute_tolerance`; `sqrt` is a parameter. -/
def computeTolerance (sqrt : K → K) (s : Solver n m K) (rhs : Vec K n) (prim dual : K) (admm_iter : ℤ) : Solver n m K × K :=
  let rhs_norm := amax rhs
  if s.polishing then (s, cMax (rhs_norm * Cg.polishTol) Cg.tolMin)
  else if admm_iter = 1 then
    let eps_prev := if rhs_norm < Cg.tolMin then 1 else rhs_norm * s.tol_fraction
    ({ s with reduction_factor := s.tol_fraction, eps_prev := eps_prev }, eps_prev)
  else
    let halve := s.zero_pcg_iters ≥ s.reduction_threshold
    let reduction_factor := if halve then s.reduction_factor / 2 else s.reduction_factor
    let zero_pcg_iters := if halve then 0 else s.zero_pcg_iters
    let eps := reduction_factor * sqrt (prim * dual)
    let eps := cMax (cMin eps s.eps_prev) Cg.tolMin
    ({ s with reduction_factor := reduction_factor, zero_pcg_iters := zero_pcg_iters, eps_prev := eps }, eps)

/-- cuda_pcg_interface.cu:66-92 `compute_rhs`: `rhs = b1 + A' rho b2`. -/
def computeRhs (s : Solver n m K) (b1 : Vec K n) (b2 : Vec K m) : Vec K n :=
  if m = 0 then b1
  else
    let z : Vec K m := match s.rho_vec with
      | none => fun i => s.h_rho * b2 i
      | some rho => fun i => b2 i * rho i
    fun j => s.At.mul z j + b1 j

/-- cuda_pcg_interface.cu:229-273 `solve_linsys_cudapcg` on the right-hand side `(b1, b2)`; the result is the solver and the vector returned in its
place.  `prim`, `dual` are the residuals the solver points to. -/
def solve (sqrt : K → K) (s : Solver n m K) (b1 : Vec K n) (b2 : Vec K m) (prim dual : K) (admm_iter : ℤ) : Option (Solver n m K × Vec K n × Vec K m) :=
  let rhs := computeRhs s b1 b2
  let (s, eps) := computeTolerance sqrt s rhs prim dual admm_iter
  (pcgAlg s rhs eps s.max_iter).bind fun (w, pcg_iters) =>
  let s := { s with x := w.x }
  let z : Vec K m := if s.polishing then fun i => s.h_rho * (s.A.mul s.x i - b2 i) else s.A.mul s.x
  let s := { s with zero_pcg_iters := if pcg_iters = 0 then s.zero_pcg_iters + 1 else 0 }
  some (s, s.x, z)

/-- cuda_pcg_interface.cu:276-289 `update_settings_linsys_solver_cudapcg`. -/
def updateSettings (s : Solver n m K) (st : CgSettings K) : Solver n m K :=
  let s := { s with max_iter := st.cg_max_iter, reduction_threshold := st.cg_tol_reduction, tol_fraction := st.cg_tol_fraction }
  if s.precond_type ≠ st.cg_precond then updatePrecond { s with precond_type := st.cg_precond } true true true else s

/-- cuda_pcg_interface.cu:292-296 `warm_start_linsys_solver_cudapcg`. -/
def warmStart (s : Solver n m K) (x : Vec K n) : Solver n m K := { s with x := x }

/-- cuda_pcg_interface.cu:337-349 `update_linsys_solver_matrices_cudapcg`.  The solver holds pointers to the matrices, whose values (not patterns) have
changed to `Pv`, `Av`, `Atv`. -/
def updateMatrices (s : Solver n m K) (Pv : Vec K s.P.pat.nnz) (Av : Vec K s.A.pat.nnz) (Atv : Vec K s.At.pat.nnz) : Solver n m K :=
  updatePrecond { s with P := ⟨s.P.pat, Pv⟩, A := ⟨s.A.pat, Av⟩, At := ⟨s.At.pat, Atv⟩ } true true false

/-- cuda_pcg_interface.cu:352-361 `update_linsys_solver_rho_vec_cudapcg`.  The solver holds a pointer to the vector `rho_vec` (if there is one), whose
contents have changed to `rho`. -/
def updateRho (s : Solver n m K) (rho : Vec K m) (rho_sc : K) : Solver n m K :=
  updatePrecond { s with rho_vec := s.rho_vec.map fun _ => rho, h_rho := rho_sc } false false true

end Osqp.Cuda
