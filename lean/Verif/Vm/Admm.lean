import Verif.Vm.Model
import Verif.Csc.LinStep

/-!
# The ADMM iteration on shared memory

`src/auxil.c:127-229` and the calls in the loop of `osqp_solve` (`src/osqp_api.c:702-724`), on the vectors of the workspace as
they lie in memory: `x`, `x_prev` and `z`, `z_prev` change places by exchanging pointers, `xtilde_view` and `ztilde_view` are two
parts of one array, which the linear-system solver overwrites in place.
-/

namespace Osqp.Vm
open Csc

/-- The vector pointers of `OSQPWorkspace`, its data and its scaling (include/private/types.h) that the iteration, the residuals, the
termination checks and the storing of the solution use, the arrays of `OSQPSolution` (`solX`, `solY`, `solPc`, `solDc`:
include/public/osqp_api_types.h:163-172), the work vectors of the scaling (`D_temp`, `D_temp_A`, `E_temp`) and the vectors `x`, `z`, `y` of
`OSQPPolish`. -/
inductive Name
  | x | y | z | xPrev | zPrev | dx | dy | xt | zt | q | l | u | rho | rhoInv | Ax | Px | Aty
  | Atdy | Pdx | Adx | D | Dinv | E | Einv | solX | solY | solPc | solDc | Dt | DtA | Et
  | pX | pZ | pY
  deriving DecidableEq

/-- Length of each vector (osqp_api.c:389-444, 458-469, 505-513, 528-536). -/
def Name.dim (n m : ℕ) : Name → ℕ
  | .x | .xPrev | .dx | .xt | .q | .Px | .Aty | .Atdy | .Pdx | .D | .Dinv | .solX | .solDc | .Dt | .DtA
  | .pX => n
  | .y | .z | .zPrev | .dy | .zt | .l | .u | .rho | .rhoInv | .Ax | .Adx | .E | .Einv | .solY | .solPc | .Et
  | .pZ | .pY => m

/-- Where each pointer points. -/
abbrev Ptrs := Name → Ref

/-- The fields of `qdldl_solver` (qdldl_interface.h) read by a solve. `qsolve` is `QDLDL_solve` with the current factor. -/
structure LinMem (K : Type*) where
  qsolve : Buf K → Option (Buf K)
  n : ℤ
  m : ℤ
  perm : Buf ℤ
  bp : Buf K
  sol : Buf K
  rho_inv_vec : Option (Buf K)
  rho_inv : K

/-- src/auxil.c:127-134 `swap_vectors`. -/
def swap (a b : Name) (W : Ptrs) : Ptrs := fun k => if k = a then W b else if k = b then W a else W k

variable {K : Type*} [Field K] [LinearOrder K]

/-- src/auxil.c:136-158 `compute_rhs`. -/
def computeRhs (st : Settings K) (rho_inv : K) (W : Ptrs) (σ : Store K) : Option (Store K) :=
  (addScaled (W .xt) st.sigma (W .xPrev) (-1) (W .q) σ).bind fun σ =>
  if st.rho_is_vec ≠ 0 then
    (ewProd (W .zt) (W .rhoInv) (W .y) σ).bind fun σ =>
    addScaled (W .zt) (-1) (W .zt) 1 (W .zPrev) σ
  else addScaled (W .zt) 1 (W .zPrev) (-rho_inv) (W .y) σ

/-- qdldl_interface.c:418-465 `solve_linsys_qdldl` on an array. The work arrays `bp`, `sol` belong to the solver; what is left in them is
not used again and not recorded. -/
def LinMem.solve (lin : LinMem K) (b : Buf K) : Option (Buf K) :=
  solveLinsys lin.qsolve lin.n lin.m false b lin.perm lin.bp lin.sol lin.rho_inv_vec lin.rho_inv

/-- The call `linsys_solver->solve(linsys_solver, work->xz_tilde, iter)`: `slv` is the function behind the pointer; `xz_tilde` starts at the
first element of its array. -/
def solveIn (slv : Buf K → Option (Buf K)) (xz : Ref) (σ : Store K) : Option (Store K) :=
  (slv (σ xz.blk)).map fun b => Function.update σ xz.blk b

/-- src/auxil.c:160-170 `update_xz_tilde`. -/
def updateXZTilde (st : Settings K) (rho_inv : K) (slv : Buf K → Option (Buf K)) (W : Ptrs) (xz : Ref) (σ : Store K) : Option (Store K) :=
  (computeRhs st rho_inv W σ).bind fun σ => solveIn slv xz σ

/-- src/auxil.c:172-184 `update_x`. -/
def updateX (st : Settings K) (W : Ptrs) (σ : Store K) : Option (Store K) :=
  (addScaled (W .x) st.alpha (W .xt) (1 - st.alpha) (W .xPrev) σ).bind fun σ =>
  minus (W .dx) (W .x) (W .xPrev) σ

/-- src/auxil.c:186-208 `update_z`. -/
def updateZ (st : Settings K) (rho_inv : K) (W : Ptrs) (σ : Store K) : Option (Store K) :=
  (if st.rho_is_vec ≠ 0 then
    (ewProd (W .z) (W .rhoInv) (W .y) σ).bind fun σ =>
    addScaled3 (W .z) 1 (W .z) st.alpha (W .zt) (1 - st.alpha) (W .zPrev) σ
  else addScaled3 (W .z) st.alpha (W .zt) (1 - st.alpha) (W .zPrev) rho_inv (W .y) σ).bind fun σ =>
  boundVec (W .z) (W .z) (W .l) (W .u) σ

/-- src/auxil.c:210-229 `update_y`. -/
def updateY (st : Settings K) (W : Ptrs) (σ : Store K) : Option (Store K) :=
  (addScaled3 (W .dy) st.alpha (W .zt) (1 - st.alpha) (W .zPrev) (-1) (W .z) σ).bind fun σ =>
  (if st.rho_is_vec ≠ 0 then ewProd (W .dy) (W .dy) (W .rho) σ else multScalar (W .dy) st.rho σ).bind fun σ =>
  plus (W .y) (W .y) (W .dy) σ

/-- osqp_api.c:702-724: one iteration. The pointers have changed places, so they are part of the result. -/
def iterate (st : Settings K) (rho_inv : K) (slv : Buf K → Option (Buf K)) (xz : Ref) (W : Ptrs) (σ : Store K) :
    Option (Ptrs × Store K) :=
  let W := swap .z .zPrev (swap .x .xPrev W)
  (updateXZTilde st rho_inv slv W xz σ).bind fun σ =>
  (updateX st W σ).bind fun σ =>
  (updateZ st rho_inv W σ).bind fun σ =>
  (updateY st W σ).bind fun σ => some (W, σ)

end Osqp.Vm
