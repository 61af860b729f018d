import Verif.Vm.Admm
import Verif.Csc.Kkt

/-!
# The QDLDL interface in memory

`algebra/_common/lin_sys/qdldl/qdldl_interface.c`: the object behind `work->linsys_solver`. Parameters: `amd_order` leaves the ordering
`perm`; `QDLDL_etree` returns `etree`; `QDLDL_factor` returns a number and leaves a factor, which is only ever given to `QDLDL_solve`, so
it is the function that solves with it. Allocations succeed.
-/

namespace Osqp.Vm
open Csc
variable {K : Type*} [Field K] [LinearOrder K]

/-- `QDLDL_etree` and `QDLDL_factor` as functions of the stored matrix. -/
structure Qdldl (K : Type*) where
  etree : Csc K → ℤ
  factor : Csc K → ℤ × (Buf K → Option (Buf K))

/-- The fields of `qdldl_solver` (qdldl_interface.h) used after `init`: those read by a solve, and the stored matrix with its three
index maps. -/
structure QMem (K : Type*) where
  lin : LinMem K
  sigma : K
  KKT : Csc K
  PtoKKT : Option (Buf ℤ)
  AtoKKT : Option (Buf ℤ)
  rhotoKKT : Option (Buf ℤ)

/-- The loops at qdldl_interface.c:333-335 and :507-509: `rho_inv_vec[i] = 1. / rhov[i]`. -/
def recips (rhov b : Buf K) (m : ℤ) : Option (Buf K) :=
  forI 0 m (fun i b => (rhov.rd i).bind fun v => b.wr i (1 / v)) b

/-- qdldl_interface.c:288-291, :330-336: `rho_inv_vec` is allocated and filled if there is a vector of step sizes, and is `NULL` otherwise. -/
def firstSteps (rho_vec : Option (Buf K)) (m : ℤ) : Option (Option (Buf K)) :=
  match rho_vec with
  | some rhov => (recips rhov (Buf.fresh m) m).map some
  | none => some none

/-- qdldl_interface.c:84-135 `LDL_factor`: exit flag and factor. -/
def ldlFactor (Q : Qdldl K) (G : Csc K) (nvar : ℤ) : ℤ × (Buf K → Option (Buf K)) :=
  if Q.etree G < 0 then (Q.etree G, fun _ => none)
  else
    let r := Q.factor G
    if r.1 < 0 then r else if r.1 < nvar then (-2, r.2) else (0, r.2)

/-- qdldl_interface.c:217-378 `init_linsys_solver_qdldl` with `polishing = 0`. The result is the object, absent if the factorisation is
refused, and the exit flag (6 is `OSQP_NONCVX_ERROR`). -/
def qInit (Q : Qdldl K) (perm : Buf ℤ) (P A : Csc K) (rho_vec : Option (Buf K)) (sigma rho : K) : Option (Option (QMem K) × ℤ) :=
  let n := P.n
  let m := A.m
  (firstSteps rho_vec m).bind fun riv =>
  (buildKKT P A sigma riv (1 / rho) perm).bind fun G =>
  let f := ldlFactor Q G.KKT n
  if f.1 < 0 then some (none, Err.nonCvx)
  else some (some {
    lin := { qsolve := f.2, n := n, m := m, perm := perm, bp := Buf.fresh (n + m), sol := Buf.fresh (n + m), rho_inv_vec := riv, rho_inv := 1 / rho }
    sigma := sigma, KKT := G.KKT, PtoKKT := G.PtoKKT, AtoKKT := G.AtoKKT, rhotoKKT := G.rhotoKKT }, 0)

/-- qdldl_interface.c:496-525 `update_linsys_solver_rho_vec_qdldl`. -/
def qUpdateRho (Q : Qdldl K) (s : QMem K) (rho_vec : Option (Buf K)) (rho_sc : K) : Option (QMem K × ℤ) :=
  (match s.lin.rho_inv_vec with
    | some b => rho_vec.bind fun rhov => (recips rhov b s.lin.m).map fun b => { s with lin := { s.lin with rho_inv_vec := some b } }
    | none => some { s with lin := { s.lin with rho_inv := 1 / rho_sc } }).bind fun s =>
  s.rhotoKKT.bind fun map =>
  (updateKktParam2 s.KKT s.lin.rho_inv_vec s.lin.rho_inv map s.lin.m).map fun G =>
  let r := Q.factor G
  ({ s with KKT := G, lin := { s.lin with qsolve := r.2 } }, if r.1 < 0 then 1 else 0)

/-- qdldl_interface.c:466-493 `update_linsys_solver_matrices_qdldl`. -/
def qUpdateMat (Q : Qdldl K) (s : QMem K) (P : Csc K) (Pi : Option (Buf ℤ)) (Pn : ℤ) (A : Csc K) (Ai : Option (Buf ℤ)) (An : ℤ) : Option (QMem K × ℤ) :=
  s.PtoKKT.bind fun pm =>
  (updateKktP s.KKT P Pi Pn pm s.sigma 0).bind fun G =>
  s.AtoKKT.bind fun am =>
  (updateKktA G A Ai An am).map fun G =>
  let r := Q.factor G
  ({ s with KKT := G, lin := { s.lin with qsolve := r.2 } }, if r.1 = P.n then 0 else 1)

end Osqp.Vm
