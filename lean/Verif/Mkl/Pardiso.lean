import Verif.Csc.Kkt
import Verif.Csc.LinStep

/-!
# Model of the direct solver of the MKL back end

algebra/mkl/lin_sys/direct/pardiso_interface.c, on raw memory (`Csc/Mem.lean`: `none` is undefined behaviour).  MKL's routine `PARDISO` is a
parameter, of type `Lib`.  `form_KKT` and the updates of the stored matrix are those of `Csc/Kkt.lean`, with format 1 (compressed rows).
The allocations made by the interface itself succeed; that of `form_KKT` may fail.
-/

namespace Osqp.Pardiso
open Osqp.Csc

/-- The arguments of `PARDISO` that give the matrix: `nKKT`, `KKT_p`, `KKT_i`, `KKT->x` (pardiso_interface.c:210-212). -/
structure Input (K : Type*) where
  n : ℤ
  ia : Buf ℤ
  ja : Buf ℤ
  a : Buf K

/-- MKL's `PARDISO`, by phases. -/
structure Lib (K : Type*) where
  /-- phase 11: the error code -/
  symbolic : Input K → ℤ
  /-- phase 22: the error code and `iparm[21]`, the number of positive eigenvalues -/
  numeric : Input K → ℤ × ℤ
  /-- phase 33 with the factors of the given matrix, `iparm[5]` (write the solution into `b`), `b` and `x`: the error code and the two arrays -/
  solve : Input K → Bool → Buf K → Buf K → ℤ × Buf K × Buf K

/-- `pardiso_solver`.  `fac` is the matrix of the last numerical factorisation, which `PARDISO` keeps behind `pt`. -/
structure Solver (K : Type*) where
  KKT : Csc K
  KKT_i : Buf ℤ
  KKT_p : Buf ℤ
  PtoKKT : Option (Buf ℤ)
  AtoKKT : Option (Buf ℤ)
  rhotoKKT : Option (Buf ℤ)
  rho_inv_vec : Option (Buf K)
  rho_inv : K
  sol : Buf K
  n : ℤ
  m : ℤ
  nKKT : ℤ
  sigma : K
  polishing : Bool
  fac : Input K

/-- What the caller's pointer `*sp` is after `init_linsys_solver_pardiso`. -/
inductive Handle (K : Type*)
  | null
  | live (s : Solver K)
  /-- it still points to memory that has been freed -/
  | freed

/-- osqp_api_constants.h:76-79. -/
def initError : ℤ := 4
/-- osqp_api_constants.h:76-79. -/
def noncvxError : ℤ := 5

variable {K : Type*} [Field K]

/-- pardiso_interface.c:141-143 and :341-343: `dst[i] = 1. / rhov[i]`. -/
def invert (m : ℤ) (rhov dst : Buf K) : Option (Buf K) := forI 0 m (fun i d => (rhov.rd i).bind fun v => d.wr i (1 / v)) dst

/-- pardiso_interface.c:166-171: `dst[i] = src[i] + 1`. -/
def oneBased (cnt : ℤ) (src dst : Buf ℤ) : Option (Buf ℤ) := forI 0 cnt (fun i d => (src.rd i).bind fun v => d.wr i (v + 1)) dst

/-- The arguments of the calls of `PARDISO` (pardiso_interface.c:210-212, :225-227, :268-270, :320-322, :355-357). -/
def Solver.input (s : Solver K) : Input K := ⟨s.nKKT, s.KKT_p, s.KKT_i, s.KKT.x⟩

/-- pardiso_interface.c:138-147: `rho_inv_vec` and `rho_inv` (0 from `calloc` where it is not set). -/
def startSteps (n m : ℤ) (rho_vec : Option (Buf K)) (rho : K) : Option (Option (Buf K) × K) :=
  match rho_vec with
  | some rhov => (invert m rhov (Buf.fresh (n + m))).bind fun v => some (some v, 0)
  | none => some (none, 1 / rho)

/-- pardiso_interface.c:338-347: the same in an update; a null `rho_vec` is read through if the object keeps a vector. -/
def nextSteps (s : Solver K) (rho_vec : Option (Buf K)) (rho_sc : K) : Option (Option (Buf K) × K) :=
  match s.rho_inv_vec with
  | some d => rho_vec.bind fun rhov => (invert s.m rhov d).bind fun v => some (some v, s.rho_inv)
  | none => some (none, 1 / rho_sc)

/-- pardiso_interface.c:119-153: `rho_inv_vec`, `rho_inv` (0 from `calloc` where it is not set) and the formed matrix. -/
def formed (P A : Csc K) (rho_vec : Option (Buf K)) (rho sigma : K) (polishing : Bool) : Option (Option (Buf K) × K × Formed K) :=
  let n := P.n
  let m := A.m
  let vec : Option (Buf K) := rho_vec.map fun _ => Buf.fresh (n + m)
  if polishing then
    (formKKT P A 1 sigma vec sigma none none none).bind fun F => some (vec, 0, F)
  else
    (P.p.rd n).bind fun Pnz => (A.p.rd n).bind fun Anz =>
    (startSteps n m rho_vec rho).bind fun r =>
    (formKKT P A 1 sigma r.1 r.2 (some (Buf.fresh Pnz)) (some (Buf.fresh Anz)) (some (Buf.fresh m))).bind fun F => some (r.1, r.2, F)

/-- pardiso_interface.c:161-243: the one-based copies, the two factorisation phases and the checks after them. -/
def finish (lib : Lib K) (P A : Csc K) (sigma : K) (polishing : Bool) (r : Option (Buf K) × K × Formed K) : Option (ℤ × Handle K) :=
  let n := P.n
  let m := A.m
  (r.2.2.KKT.p.rd (n + m)).bind fun nnz =>
  (oneBased nnz r.2.2.KKT.i (Buf.fresh nnz)).bind fun ki =>
  (oneBased (n + m + 1) r.2.2.KKT.p (Buf.fresh (n + m + 1))).bind fun kp =>
  let s : Solver K :=
    { KKT := r.2.2.KKT, KKT_i := ki, KKT_p := kp, PtoKKT := r.2.2.PtoKKT, AtoKKT := r.2.2.AtoKKT, rhotoKKT := r.2.2.rhotoKKT,
      rho_inv_vec := r.1, rho_inv := r.2.1, sol := Buf.fresh (n + m), n := n, m := m, nKKT := n + m, sigma := sigma, polishing := polishing,
      fac := ⟨n + m, kp, ki, r.2.2.KKT.x⟩ }
  if lib.symbolic s.input ≠ 0 then some (initError, .null)
  else if (lib.numeric s.input).1 ≠ 0 then some (initError, .null)
  else if (lib.numeric s.input).2 < n then some (noncvxError, .live s)
  else some (0, .live s)

/-- pardiso_interface.c:67-243 `init_linsys_solver_pardiso`; `alloc` says whether the allocation in `form_KKT` succeeds (if not, the code
before it runs all the same).  Lines 156-159 free the object and leave `*sp` as it is. -/
def init (lib : Lib K) (P A : Csc K) (rho_vec : Option (Buf K)) (rho sigma : K) (polishing alloc : Bool) : Option (ℤ × Handle K) :=
  (formed P A rho_vec rho sigma polishing).bind fun r =>
  if alloc then finish lib P A sigma polishing r else some (initError, .freed)

/-- pardiso_interface.c:252-300 `solve_linsys_pardiso`: the exit code, `b->values` and the solver. -/
def solve (lib : Lib K) (s : Solver K) (b : Buf K) : Option (ℤ × Buf K × Solver K) :=
  let t := lib.solve s.fac s.polishing b s.sol
  let s' := { s with sol := t.2.2 }
  if t.1 ≠ 0 then some (1, t.2.1, s')
  else if s.polishing then some (0, t.2.1, s')
  else
    (forI 0 s.n (fun j b => (t.2.2.rd j).bind fun v => b.wr j v) t.2.1).bind fun b =>
    (forI 0 s.m (fun j b => (b.rd (j + s.n)).bind fun o => (stepRd s.rho_inv_vec s.rho_inv j).bind fun r => (t.2.2.rd (j + s.n)).bind fun v =>
      b.wr (j + s.n) (o + r * v)) b).bind fun b => some (0, b, s')

/-- pardiso_interface.c:318-326 and :353-361: factorise again and return the error code.  `iparm[21]` is not looked at. -/
def refactor (lib : Lib K) (s : Solver K) : ℤ × Solver K := ((lib.numeric s.input).1, { s with fac := s.input })

/-- pardiso_interface.c:303-327 `update_linsys_solver_matrices_pardiso`. -/
def updateMatrices (lib : Lib K) (s : Solver K) (P : Csc K) (Pidx : Option (Buf ℤ)) (Pn : ℤ) (A : Csc K) (Aidx : Option (Buf ℤ)) (An : ℤ) :
    Option (ℤ × Solver K) :=
  s.PtoKKT.bind fun pm => s.AtoKKT.bind fun am =>
  (updateKktP s.KKT P Pidx Pn pm s.sigma 1).bind fun M => (updateKktA M A Aidx An am).bind fun M => some (refactor lib { s with KKT := M })

/-- pardiso_interface.c:330-362 `update_linsys_solver_rho_vec_pardiso`. -/
def updateRho (lib : Lib K) (s : Solver K) (rho_vec : Option (Buf K)) (rho_sc : K) : Option (ℤ × Solver K) :=
  (nextSteps s rho_vec rho_sc).bind fun r =>
  s.rhotoKKT.bind fun rm =>
  (updateKktParam2 s.KKT r.1 r.2 rm s.m).bind fun M => some (refactor lib { s with KKT := M, rho_inv_vec := r.1, rho_inv := r.2 })

/-- osqp_api.c:1095-1099 (in `osqp_cleanup`): free the linear-system solver if the pointer is not null; using freed memory is undefined. -/
def cleanup : Handle K → Option Unit
  | .null => some ()
  | .live _ => some ()
  | .freed => none

end Osqp.Pardiso
