import Verif.Csc.Model

/-!
# Model of the linear-system step on raw memory

`reduced_kkt.c`, the solve functions of `qdldl_interface.c` and of `mkl-cg_interface.c`.  `QDLDL_solve` and MKL's `dcg` are not
part of the repository: they are parameters.  A vector object is its array of values; its length is passed as an argument.
-/

namespace Osqp.Csc
variable {K : Type*} [Field K] [LinearOrder K]

/-! ## Vector operations used (algebra/builtin/vector.c) -/

/-- vector.c:619-641 `OSQPVectorf_ew_prod` with `c == a`. -/
def ewProdIn (c b : Buf K) (len : ℤ) : Option (Buf K) :=
  forI 0 len (fun i c => (c.rd i).bind fun v => (b.rd i).bind fun w => c.wr i (v * w)) c

/-- vector.c:619-641 `OSQPVectorf_ew_prod` with `c`, `a`, `b` distinct. -/
def ewProd (c a b : Buf K) (len : ℤ) : Option (Buf K) :=
  forI 0 len (fun i c => (a.rd i).bind fun v => (b.rd i).bind fun w => c.wr i (v * w)) c

/-- vector.c:370-390 `OSQPVectorf_plus` with `x == a`. -/
def plusIn (x b : Buf K) (len : ℤ) : Option (Buf K) :=
  forI 0 len (fun i x => (x.rd i).bind fun v => (b.rd i).bind fun w => x.wr i (v + w)) x

/-- vector.c:803-815 `OSQPVectorf_ew_reciprocal` (division by zero is not modelled: it gives 0 here). -/
def ewRecip (b a : Buf K) (len : ℤ) : Option (Buf K) :=
  forI 0 len (fun i b => (a.rd i).bind fun v => b.wr i (1 / v)) b

/-- vector.c:261-280 `OSQPVectorf_copy` / `OSQPVectorf_from_raw`. -/
def copyVec (b a : Buf K) (len : ℤ) : Option (Buf K) :=
  forI 0 len (fun i b => (a.rd i).bind fun v => b.wr i v) b

/-! ## reduced_kkt.c -/

/-- reduced_kkt.c:9-24 `reduced_kkt_mv_times`; the result is the new `v` and `work`.  `P` is stored as an upper triangle, so that
`OSQPMatrix_Axpy` is `csc_Axpy_sym_triu` (matrix.c:156-170); `A` is stored in full. -/
def mvTimes (P A : Csc K) (rho : Buf K) (sigma : K) (x v work : Buf K) : Option (Buf K × Buf K) :=
  (axpy A x work 1 0).bind fun work =>
  (ewProdIn work rho A.m).bind fun work =>
  (copyVec v x P.n).bind fun v =>
  (axpySymTriu P x v 1 sigma).bind fun v =>
  (atxpy A work v 1 1).bind fun v => some (v, work)

/-- reduced_kkt.c:31-51 `reduced_kkt_diagonal`; the result is the new `diag` and `diag_inv`. -/
def reducedDiag (P A : Csc K) (rho : Buf K) (sigma : K) (diag diagInv : Buf K) : Option (Buf K × Buf K) :=
  (vecSet diag sigma P.n).bind fun diag =>
  (extractDiag P diagInv).bind fun diagInv =>
  (plusIn diag diagInv P.n).bind fun diag =>
  (atdaDiag A rho diagInv).bind fun diagInv =>
  (plusIn diag diagInv P.n).bind fun diag =>
  (ewRecip diagInv diag P.n).bind fun diagInv => some (diag, diagInv)

/-- reduced_kkt.c:54-65 `reduced_kkt_compute_rhs`; the result is the new `b1` and `work`. -/
def reducedRhs (A : Csc K) (rho b1 b2 work : Buf K) : Option (Buf K × Buf K) :=
  (ewProd work b2 rho A.m).bind fun work =>
  (atxpy A work b1 1 1).bind fun b1 => some (b1, work)

/-! ## mkl-cg_interface.c -/

/-- mkl-cg_interface.c:204-287 `solve_linsys_mklcg` when `dcg` reports a solution (request 0 or 2).  `cg b1` stands for the loop around
`dcg`: the vector it leaves in `s->x` for the right-hand side `b1`.  The two parts of the caller's vector are separate arrays
here (`r1`, `r2` are views of its first `n` and its last `m` elements).  The result is the new `r1`, `r2`. -/
def mklSolve (cg : Buf K → Buf K) (A : Csc K) (rho : Buf K) (polish : Bool) (r1 r2 ywork : Buf K) : Option (Buf K × Buf K) :=
  (reducedRhs A rho r1 r2 ywork).bind fun t =>
  let x := cg t.1
  (copyVec t.1 x A.n).bind fun r1 =>
  if polish then
    (axpy A x r2 1 (-1)).bind fun r2 => (ewProdIn r2 rho A.m).bind fun r2 => some (r1, r2)
  else (axpy A x r2 1 0).bind fun r2 => some (r1, r2)

/-! ## qdldl_interface.c -/

/-- qdldl_interface.c:393-416 `LDLSolve`; `qsolve` is `QDLDL_solve` with the factor fixed, `N` is `L->n`.  The result is the new `x`
and `bp`.  (When polishing `x` and `b` are the same array: the first loop only reads it, the last only writes it.) -/
def ldlSolve (qsolve : Buf K → Option (Buf K)) (N : ℤ) (x b : Buf K) (P : Buf ℤ) (bp : Buf K) : Option (Buf K × Buf K) :=
  (forI 0 N (fun j bp => (P.rd j).bind fun k => (b.rd k).bind fun v => bp.wr j v) bp).bind fun bp =>
  (qsolve bp).bind fun bp =>
  (forI 0 N (fun j x => (P.rd j).bind fun k => (bp.rd j).bind fun v => x.wr k v) x).bind fun x => some (x, bp)

/-- The inverse step size of constraint `j`: `s->rho_inv_vec[j]`, or `s->rho_inv` if the array is `NULL`. -/
def stepRd (q : Option (Buf K)) (sc : K) (j : ℤ) : Option K :=
  match q with
  | some b => b.rd j
  | none => some sc

/-- qdldl_interface.c:419-465 `solve_linsys_qdldl`; the result is the new `b->values`.  `sol`, `bp` are the work arrays of the
solver object. -/
def solveLinsys (qsolve : Buf K → Option (Buf K)) (n m : ℤ) (polishing : Bool) (b : Buf K) (P : Buf ℤ) (bp sol : Buf K) (q : Option (Buf K)) (sc : K) : Option (Buf K) :=
  if polishing then (ldlSolve qsolve (n + m) b b P bp).bind fun t => some t.1
  else
    (ldlSolve qsolve (n + m) sol b P bp).bind fun t =>
    (forI 0 n (fun j b => (t.1.rd j).bind fun v => b.wr j v) b).bind fun b =>
    forI 0 m (fun j b => (b.rd (j + n)).bind fun o => (stepRd q sc j).bind fun r => (t.1.rd (j + n)).bind fun v => b.wr (j + n) (o + r * v)) b

end Osqp.Csc
