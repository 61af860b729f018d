import Verif.Model.Mat
import Verif.Model.Cg

/-!
# Model of the conjugate-gradient interface of the MKL back end

algebra/mkl/lin_sys/indirect/mkl-cg_interface.c and algebra/_common/reduced_kkt.c.  MKL's routine `dcg` works by *reverse communication*: it
returns to its caller with a request (multiply, test, precondition) and is called again with the answer.  It is a parameter here, of type `Dcg`.
The reduced system itself is modelled on raw memory in `Verif/Csc/LinStep.lean`; here vectors are functions.  The allocations succeed.
-/

namespace Osqp.Mkl
universe u
variable {K : Type u} [Field K] [LinearOrder K] {n m : ℕ} {P : Pat n n} {A : Pat m n}

/-- The arrays that the interface shares with `dcg`: the solution `s->x` and the four parts of `s->tmp` (mkl-cg_interface.c:161-174). -/
structure Shared (n : ℕ) (K : Type u) where
  x : Vec K n
  /-- `tmp[0..n)`: the vector to multiply -/
  mvmPre : Vec K n
  /-- `tmp[n..2n)`: the product -/
  mvmPost : Vec K n
  /-- `tmp[2n..3n)`: the residual, also the vector to precondition -/
  precPre : Vec K n
  /-- `tmp[3n..4n)`: the preconditioned vector -/
  precPost : Vec K n

/-- MKL's conjugate-gradient routine for systems of `n` equations. -/
structure Dcg (n : ℕ) (K : Type u) where
  /-- its memory between two calls (`iparm`, `dparm` and what it keeps elsewhere) -/
  Mem : Type u
  /-- `dcg_init`, the parameters set by the caller (the iteration limit `iparm[4]`, the preconditioner flag `iparm[10]`; the other parameters are always
  the same) and `dcg_check` -/
  start : ℤ → Bool → Mem
  /-- `dcg`: the request code, its new memory and the shared arrays; the right-hand side is read only -/
  call : Mem → Shared n K → Vec K n → ℤ × Mem × Shared n K
  /-- `iparm[3]`, the number of iterations performed -/
  iters : Mem → ℤ

/-- `mklcg_solver`.  `s->P` and `s->A` are pointers to the problem's matrices
(mkl-cg_interface.c:98-101), whose patterns `P` and `A` never change: `Px` and `Ax` are their current values. -/
structure Solver {n m : ℕ} (P : Pat n n) (A : Pat m n) (K : Type u) where
  Px : Vec K P.nnz
  Ax : Vec K A.nnz
  rho_vec : Vec K m
  sigma : K
  /-- `osqp_precond_type` (osqp_api_constants.h:66-69): 0 none, 1 diagonal; nothing checks the value the caller sets -/
  precond_type : ℤ
  max_iter : ℤ
  /-- `none` is memory that has been allocated and not written -/
  precond_inv : Option (Vec K n)
  sh : Shared n K
  /-- the fields of the tolerance rule, among them `polish` -/
  tol : Cg.State K

/-- reduced_kkt.c:9-24 `reduced_kkt_mv_times`. -/
def mvTimes (s : Solver P A K) (x : Vec K n) : Vec K n :=
  let w : Vec K m := fun i => spMul A s.Ax x i * s.rho_vec i
  fun j => symMul P s.Px x j + s.sigma * x j + spMulT A s.Ax w j

/-- reduced_kkt.c:54-65 `reduced_kkt_compute_rhs`. -/
def computeRhs (s : Solver P A K) (b1 : Vec K n) (b2 : Vec K m) : Vec K n :=
  fun j => spMulT A s.Ax (fun i => b2 i * s.rho_vec i) j + b1 j

/-- csc_utils.c:290-308 `csc_extract_diag`. -/
def extractDiag (p : Pat n n) (v : Vec K p.nnz) : Vec K n := fun j =>
  (List.finRange p.nnz).foldl (fun e k => if p.col k = j ∧ p.row k = j then v k else e) 0

/-- csc_math.c:94-111 `csc_AtDA_extract_diag`. -/
def atdaDiag (p : Pat m n) (v : Vec K p.nnz) (D : Vec K m) : Vec K n := fun j =>
  (List.finRange p.nnz).foldl (fun e k => if p.col k = j then e + v k * v k * D (p.row k) else e) 0

/-- reduced_kkt.c:31-51 `reduced_kkt_diagonal`, the inverse (a division by zero gives 0 here). -/
def diagonalInv (s : Solver P A K) : Vec K n := fun j =>
  1 / (s.sigma + extractDiag P s.Px j + atdaDiag A s.Ax s.rho_vec j)

/-- mkl-cg_interface.c:67-80 `cg_update_precond`.  For type 0 it writes `precond`, which nothing reads; for an unknown type it writes nothing. -/
def updatePrecond (s : Solver P A K) : Solver P A K :=
  if s.precond_type = 1 then { s with precond_inv := some (diagonalInv s) } else s

/-- The settings that the interface reads. -/
structure Settings (K : Type u) where
  sigma : K
  cg_precond : ℤ
  cg_max_iter : ℤ
  cg_tol_reduction : ℤ
  cg_tol_fraction : K

/-- mkl-cg_interface.c:83-184 `init_linsys_mklcg`.  `rho_vec` is `none` for a null pointer, which line 114 reads through unless the object is
created for polishing: undefined.  `junk` is what the fresh `tmp` holds. -/
def init (Px : Vec K P.nnz) (Ax : Vec K A.nnz) (rho_vec : Option (Vec K m)) (st : Settings K) (polish : Bool)
    (junk : Shared n K) : Option (Solver P A K) :=
  (if polish then some (fun _ => 1 / st.sigma) else rho_vec).bind fun rho =>
  some (updatePrecond
    { Px := Px, Ax := Ax, rho_vec := rho, sigma := st.sigma, precond_type := st.cg_precond, max_iter := st.cg_max_iter,
      precond_inv := none, sh := { junk with x := fun _ => 0 }, tol := Cg.init polish st.cg_tol_fraction st.cg_tol_reduction })

/-- What one turn of the loop of `solve_linsys_mklcg` does. -/
inductive Turn (d : Dcg n K)
  | again (mem : d.Mem) (sh : Shared n K)
  | leave (code : ℤ) (mem : d.Mem) (sh : Shared n K)
  /-- unwritten memory has been read -/
  | undefined

/-- mkl-cg_interface.c:245-269, one turn; `rhs` is `s->r1`. -/
def turn (d : Dcg n K) (s : Solver P A K) (rhs : Vec K n) (eps : K) (mem : d.Mem) (sh : Shared n K) : Turn d :=
  let (req, mem, sh) := d.call mem sh rhs
  if req = 1 then .again mem { sh with mvmPost := mvTimes s sh.mvmPre }
  else if req = 2 then
    if vNormInf sh.precPre < eps then .leave req mem sh else .again mem sh
  else if req = 3 then
    match s.precond_inv with
    | some pinv => .again mem { sh with precPost := fun j => pinv j * sh.precPre j }
    | none => .undefined
  else .leave req mem sh

/-- mkl-cg_interface.c:245-269, the whole loop, which nothing bounds: how it ends, if it ends. -/
inductive Loop (d : Dcg n K) (s : Solver P A K) (rhs : Vec K n) (eps : K) : d.Mem → Shared n K → Turn d → Prop
  | leave {mem sh code mem' sh'} (h : turn d s rhs eps mem sh = .leave code mem' sh') : Loop d s rhs eps mem sh (.leave code mem' sh')
  | undefined {mem sh} (h : turn d s rhs eps mem sh = .undefined) : Loop d s rhs eps mem sh .undefined
  | again {mem sh mem' sh' t} (h : turn d s rhs eps mem sh = .again mem' sh') (rest : Loop d s rhs eps mem' sh' t) : Loop d s rhs eps mem sh t

/-- What a solve is given besides the vector: the iteration number and the current scaled residuals. -/
structure Args (K : Type u) where
  admm_iter : ℤ
  prim : K
  dual : K

/-- mkl-cg_interface.c:219-237: the tolerance, if no unwritten memory is read. -/
def tolerance (sqrt : K → K) (s : Solver P A K) (rhs : Vec K n) (a : Args K) : Option K :=
  (Cg.solve sqrt s.tol ⟨a.admm_iter, vNormInf rhs, a.prim, a.dual, true, true⟩).map Prod.snd

/-- mkl-cg_interface.c:271-290: the solution parts that are left in the caller's vector. -/
def answer (s : Solver P A K) (b2 : Vec K m) (rhs : Vec K n) (code : ℤ) (x : Vec K n) : Vec K n × Vec K m :=
  if code = 0 ∨ code = 2 then
    (x, if s.tol.polish then fun i => (spMul A s.Ax x i - b2 i) * s.rho_vec i else spMul A s.Ax x)
  else (rhs, b2)

/-- mkl-cg_interface.c:199-295 `solve_linsys_mklcg`, when it returns: the exit code, the two parts of the caller's vector and the new solver.
`b1`, `b2` are the parts of the vector before the call. -/
inductive Solves (sqrt : K → K) (d : Dcg n K) (s : Solver P A K) (b1 : Vec K n) (b2 : Vec K m) (a : Args K) :
    ℤ → Vec K n × Vec K m → Solver P A K → Prop
  | mk {eps : K} {tol' : Cg.State K} {code : ℤ} {mem : d.Mem} {sh : Shared n K}
      (htol : tolerance sqrt s (computeRhs s b1 b2) a = some eps)
      (loop : Loop d s (computeRhs s b1 b2) eps (d.start s.max_iter (s.precond_type ≠ 0)) s.sh (.leave code mem sh))
      (hst : Cg.solve sqrt s.tol ⟨a.admm_iter, vNormInf (computeRhs s b1 b2), a.prim, a.dual, code = 0 ∨ code = 2, d.iters mem = 0⟩ = some (tol', eps)) :
      Solves sqrt d s b1 b2 a code (answer s b2 (computeRhs s b1 b2) code sh.x) { s with sh := sh, tol := tol' }

/-- mkl-cg_interface.c:199-295: the call reads unwritten memory, either `eps_prev` or the preconditioner. -/
def SolveUndefined (sqrt : K → K) (d : Dcg n K) (s : Solver P A K) (b1 : Vec K n) (b2 : Vec K m) (a : Args K) : Prop :=
  tolerance sqrt s (computeRhs s b1 b2) a = none ∨
  ∃ eps, tolerance sqrt s (computeRhs s b1 b2) a = some eps ∧
    Loop d s (computeRhs s b1 b2) eps (d.start s.max_iter (s.precond_type ≠ 0)) s.sh .undefined

/-- mkl-cg_interface.c:298-328 `update_settings_linsys_solver_mklcg`. -/
def updateSettings (s : Solver P A K) (st : Settings K) : Solver P A K :=
  let s := if s.precond_type ≠ st.cg_precond then updatePrecond { s with precond_type := st.cg_precond } else s
  { s with max_iter := st.cg_max_iter, tol := Cg.updateSettings s.tol st.cg_tol_fraction st.cg_tol_reduction }

/-- mkl-cg_interface.c:331-337 `warm_start_linys_mklcg`. -/
def warmStart (s : Solver P A K) (_x : Vec K n) : Solver P A K := s

/-- mkl-cg_interface.c:340-361 `update_matrices_linsys_mklcg`, after the caller has changed the values of the matrices the solver points to. -/
def updateMatrices (s : Solver P A K) (Px : Vec K P.nnz) (Ax : Vec K A.nnz) : Solver P A K :=
  updatePrecond { s with Px := Px, Ax := Ax }

/-- mkl-cg_interface.c:364-373 `update_rho_linsys_mklcg`; a null pointer (`none`) is read through: undefined. -/
def updateRho (s : Solver P A K) (rho : Option (Vec K m)) : Option (Solver P A K) :=
  rho.bind fun rho => some (updatePrecond { s with rho_vec := rho })

end Osqp.Mkl
