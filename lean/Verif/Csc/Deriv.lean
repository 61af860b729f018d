import Verif.Csc.Kkt
import Verif.Model.Types

/-!
# Model of `derivative.c` and of the adjoint part of `qdldl_interface.c` on raw memory

An `OSQPVectorf` is an array whose size is the `length` field.  Simplifications: allocations succeed (none of them is
checked in `adjoint_derivative_compute`); the freeing of temporaries is not represented; the symmetry flag of an
`OSQPMatrix` is fixed by where the matrix comes from (`P` and the adjoint matrix are upper triangles, the others are full),
as set by `OSQPMatrix_new_from_csc`.  A dereference of a `NULL` matrix is undefined behaviour (`none`).  A quotient by zero
is not undefined in C but is not a number: such values are `none` inside a cell (`Option K`), and every product with them is
`none` again.  AMD's ordering, QDLDL's factorisation and solve, and `sqrt` are parameters.
-/

namespace Osqp.Csc
variable {K : Type*} [Field K] [LinearOrder K]

/-! ## Vector operations (algebra/builtin/vector.c) -/

/-- vector.c:155-165 `OSQPVectorf_subvector_assign`. -/
def subAssign (A b : Buf K) (start length : ℤ) (mult : K) : Option (Buf K) :=
  forI 0 length (fun i A => (b.rd i).bind fun v => A.wr (start + i) (mult * v)) A

/-- vector.c:167-176 `OSQPVectorf_subvector_assign_scalar`. -/
def subAssignScalar (A : Buf K) (sc : K) (start length : ℤ) : Option (Buf K) :=
  forI 0 length (fun i A => A.wr (start + i) sc) A

/-- vector.c:178-198 `OSQPVectorf_subvector_byrows`. -/
def subByRows (A : Buf K) (rows : Buf ℤ) : Option (Buf K) :=
  (forI 0 rows.size (fun i (c : ℤ) => (rows.rd i).bind fun f => some (if f ≠ 0 then c + 1 else c)) 0).bind fun len =>
  (forI 0 rows.size (fun i (s : Buf K × ℤ) => (rows.rd i).bind fun f =>
    if f ≠ 0 then (A.rd i).bind fun v => (s.1.wr s.2 v).bind fun o => some (o, s.2 + 1) else some s) (Buf.fresh len, 0)).bind fun s => some s.1

/-- vector.c:200-213 `OSQPVectorf_concat` (after the first loop `i` is the length of `A`). -/
def concat (A B : Buf K) : Option (Buf K) :=
  (forI 0 A.size (fun i o => (A.rd i).bind fun v => o.wr i v) (Buf.fresh (A.size + B.size))).bind fun o =>
  forI 0 B.size (fun j o => (B.rd j).bind fun v => o.wr (j + A.size) v) o

/-- vector.c:271-280 `OSQPVectorf_from_raw(b, av)` (and `OSQPVectorf_copy`, :261-264): the length is that of `b`. -/
def fromRaw {α : Type*} (b av : Buf α) : Option (Buf α) := forI 0 b.size (fun i b => (av.rd i).bind fun v => b.wr i v) b

/-- vector.c:24-46 `OSQPVectorf_new(a, length)`, `OSQPVectori_new`, and `OSQPVectorf_copy_new` (vector.c:128-134). -/
def newFrom {α : Type*} (a : Buf α) (length : ℤ) : Option (Buf α) := fromRaw (Buf.fresh length) a

/-- vector.c:359-369 `OSQPVectorf_mult_scalar`. -/
def multScalar (a : Buf K) (sc : K) : Option (Buf K) := forI 0 a.size (fun i a => (a.rd i).bind fun v => a.wr i (v * sc)) a

/-- vector.c:619-632 `OSQPVectorf_ew_prod(c, c, b)`. -/
def ewProdInto (c b : Buf K) : Option (Buf K) := forI 0 c.size (fun i c => (c.rd i).bind fun v => (b.rd i).bind fun w => c.wr i (v * w)) c

/-- vector.c:855-868 `OSQPVectorf_ew_max_vec(c, a, b)` and :870-883 `OSQPVectorf_ew_min_vec` (`f` is `c_max` or `c_min`). -/
def ewVec (f : K → K → K) (c a b : Buf K) : Option (Buf K) :=
  forI 0 a.size (fun i c => (a.rd i).bind fun v => (b.rd i).bind fun w => c.wr i (f v w)) c

/-! ## `adjoint_derivative_compute` -/

/-- The arrays and counters filled by the classification loop (derivative.c:129-181). -/
structure Lists where
  ineqL : Buf ℤ
  ineqU : Buf ℤ
  eq : Buf ℤ
  eqIdx : Buf ℤ
  lIdx : Buf ℤ
  uIdx : Buf ℤ
  nuSign : Buf ℤ
  nl : ℤ
  nu : ℤ
  ne : ℤ

/-- derivative.c:129-136, 145-149 the arrays before the loop. -/
def Lists.start (m : ℤ) : Lists := ⟨Buf.fresh m, Buf.fresh m, Buf.fresh m, Buf.fresh m, Buf.fresh m, Buf.fresh m, Buf.fresh m, 0, 0, 0⟩

/-- derivative.c:150-181 one round of the loop. -/
def classStep (l u y : Buf K) (j : ℤ) (s : Lists) : Option Lists :=
  (l.rd j).bind fun a => (u.rd j).bind fun b =>
  if a < b then
    (s.eq.wr j 0).bind fun eq =>
    (if a > -Const.infval K then
        (s.lIdx.wr s.nl j).bind fun lIdx => (s.ineqL.wr j 1).bind fun ineqL => some { s with eq := eq, lIdx := lIdx, ineqL := ineqL, nl := s.nl + 1 }
      else (s.ineqL.wr j 0).bind fun ineqL => some { s with eq := eq, ineqL := ineqL }).bind fun s =>
    if b < Const.infval K then
      (s.uIdx.wr s.nu j).bind fun uIdx => (s.ineqU.wr j 1).bind fun ineqU => some { s with uIdx := uIdx, ineqU := ineqU, nu := s.nu + 1 }
    else (s.ineqU.wr j 0).bind fun ineqU => some { s with ineqU := ineqU }
  else
    (s.eqIdx.wr s.ne j).bind fun eqIdx => (s.eq.wr j 1).bind fun eq => (s.ineqL.wr j 0).bind fun ineqL => (s.ineqU.wr j 0).bind fun ineqU =>
    (y.rd j).bind fun v => (s.nuSign.wr s.ne (if v ≥ 0 then 1 else -1)).bind fun nuSign =>
    some { s with eqIdx := eqIdx, eq := eq, ineqL := ineqL, ineqU := ineqU, nuSign := nuSign, ne := s.ne + 1 }

/-- derivative.c:129-181: the classification of the constraints. -/
def classify (l u y : Buf K) (m : ℤ) : Option Lists := forI 0 m (classStep l u y) (Lists.start m)

/-- types.h `OSQPDerivativeData`. -/
structure DerivData (K : Type*) where
  nl : ℤ
  nu : ℤ
  ne : ℤ
  yl : Buf K
  yu : Buf K
  ryl : Buf (Option K)
  ryu : Buf (Option K)
  rhs : Buf K

/-- osqp_api.c:609-618 the derivative data made by `osqp_setup`. -/
def DerivData.alloc (n m : ℤ) : DerivData K :=
  ⟨0, 0, 0, Buf.fresh m, Buf.fresh m, Buf.fresh m, Buf.fresh m, Buf.fresh (2 * (n + 2 * m))⟩

/-- The scaling used by derivative.c:7-29: `cinv`, `Dinv`, `Einv`. -/
structure Unscale (K : Type*) where
  cinv : K
  Dinv : Buf K
  Einv : Buf K

/-- What `adjoint_derivative_compute` reads: the stored problem, the stored solution, the scaling (`none` when
`settings->scaling = 0`). -/
structure Stored (K : Type*) where
  n : ℤ
  m : ℤ
  P : Csc K
  A : Csc K
  l : Buf K
  u : Buf K
  x : Buf K
  y : Buf K
  scal : Option (Unscale K)

/-- derivative.c:114-123, 7-29: copies of the problem, unscaled. -/
def unscaled (S : Stored K) : Option (Csc K × Csc K × Buf K × Buf K) :=
  (copy S.P).bind fun P => (copy S.A).bind fun A => (newFrom S.l S.l.size).bind fun l => (newFrom S.u S.u.size).bind fun u =>
  match S.scal with
  | none => some (P, A, l, u)
  | some sc =>
    (scale P sc.cinv).bind fun P => (lmultDiag P sc.Dinv).bind fun P => (rmultDiag P sc.Dinv).bind fun P =>
    (lmultDiag A sc.Einv).bind fun A => (rmultDiag A sc.Dinv).bind fun A =>
    (ewProdInto l sc.Einv).bind fun l => (ewProdInto u sc.Einv).bind fun u => some (P, A, l, u)

/-- The linear system handed to `adjoint_derivative_linsys_solver`. -/
structure AdjSys (K : Type*) where
  Pfull : Csc K
  G : Csc K
  Aeq : Csc K
  GL : Csc K
  slacks : Buf K

/-- derivative.c:187-242, 278: the matrices and vectors of the linear system, and the parts `y_l`, `y_u` of the multipliers. -/
def buildSys (s : Lists) (m : ℤ) (P A : Csc K) (l u x y : Buf K) (D : DerivData K) : Option (AdjSys K × DerivData K) :=
  (newFrom s.ineqL m).bind fun ineqL => (submatrixByRows A ineqL).bind fun Al => (scale Al (-1)).bind fun Al =>
  (newFrom s.ineqU m).bind fun ineqU => (submatrixByRows A ineqU).bind fun Au =>
  (vstack Al Au).bind fun G => G.bind fun G =>
  (newFrom s.eq m).bind fun eq => (submatrixByRows A eq).bind fun Aeq =>
  (vecSet (Buf.fresh m) (0 : K) m).bind fun z =>
  (ewVec cMax D.yu y z).bind fun yu => (ewVec cMin D.yl y z).bind fun yl => (multScalar yl (-1)).bind fun yl =>
  (subByRows yl ineqL).bind fun yli => (subByRows yu ineqU).bind fun yui => (concat yli yui).bind fun lam =>
  (subByRows l ineqL).bind fun li => (multScalar li (-1)).bind fun li => (subByRows u ineqU).bind fun ui => (concat li ui).bind fun h =>
  (newFrom h h.size).bind fun slacks => (axpy G x slacks 1 (-1)).bind fun slacks =>
  (copy G).bind fun GL => (lmultDiag GL lam).bind fun GL =>
  (triuToCsc P).bind fun Pf => Pf.bind fun Pf =>
  some (⟨Pf, G, Aeq, GL, slacks⟩, { D with yl := yl, yu := yu })

/-- derivative.c:263-270 the right-hand side of the equality rows (`d_nu_vec` is allocated and not initialised). -/
def dNu (s : Lists) (dyl dyu : Buf K) : Option (Buf K) :=
  forI 0 s.ne (fun j b => (s.nuSign.rd j).bind fun sg =>
    if sg = 1 then (s.eqIdx.rd j).bind fun i => (dyu.rd i).bind fun v => b.wr j v
    else if sg = -1 then (s.eqIdx.rd j).bind fun i => (dyl.rd i).bind fun v => b.wr j (-v)
    else some b) (Buf.fresh s.ne)

/-- derivative.c:245-275 the right-hand side. -/
def buildRhs (s : Lists) (n m : ℤ) (dx dyl dyu rhs : Buf K) : Option (Buf K) :=
  (newFrom dyl m).bind fun dylv => (newFrom dyu m).bind fun dyuv => (newFrom s.ineqL m).bind fun ineqL => (newFrom s.ineqU m).bind fun ineqU =>
  (subByRows dylv ineqL).bind fun dyli => (subByRows dyuv ineqU).bind fun dyui =>
  (subAssign rhs dx 0 n (-1)).bind fun rhs =>
  (subAssign rhs dyli n s.nl (-1)).bind fun rhs =>
  (subAssign rhs dyui (n + s.nl) s.nu (-1)).bind fun rhs =>
  (dNu s dyl dyu).bind fun d =>
  (subAssign rhs d (n + s.nl + s.nu) s.ne (-1)).bind fun rhs =>
  subAssignScalar rhs 0 (n + s.nl + s.nu + s.ne) (n + s.nl + s.nu + s.ne)

/-- `a / b`, not a number when `b` is zero. -/
def cDiv (a b : K) : Option K := if b = 0 then none else some (a / b)

/-- derivative.c:290-315 the vectors `r_yl`, `r_yu` read off the solution of the linear system. -/
def readBack (s : Lists) (n m : ℤ) (y rhs : Buf K) : Option (Buf (Option K) × Buf (Option K)) :=
  (forI 0 m (fun j (b : Buf (Option K)) => b.wr j (some 0)) (Buf.fresh m)).bind fun rl =>
  (forI 0 m (fun j (b : Buf (Option K)) => b.wr j (some 0)) (Buf.fresh m)).bind fun ru =>
  let pos := n + s.nl + s.nu + s.ne + n
  (forI 0 s.nl (fun j (b : Buf (Option K)) => (s.lIdx.rd j).bind fun i => (rhs.rd (pos + j)).bind fun v => b.wr i (some (-v))) rl).bind fun rl =>
  let pos := pos + s.nl
  (forI 0 s.nu (fun j (b : Buf (Option K)) => (s.uIdx.rd j).bind fun i => (rhs.rd (pos + j)).bind fun v => b.wr i (some v)) ru).bind fun ru =>
  let pos := pos + s.nu
  forI 0 s.ne (fun j (b : Buf (Option K) × Buf (Option K)) => (s.nuSign.rd j).bind fun sg => (s.eqIdx.rd j).bind fun i =>
    (rhs.rd (pos + j)).bind fun v => (y.rd i).bind fun w =>
    if sg = 1 then (b.1.wr i (some 0)).bind fun rl => (b.2.wr i (cDiv v w)).bind fun ru => some (rl, ru)
    else (b.1.wr i (cDiv (-v) w)).bind fun rl => (b.2.wr i (some 0)).bind fun ru => some (rl, ru)) (rl, ru)

/-- derivative.c:319-325: `c[i] = c[i] * b[i] * sc` on the result vectors (`OSQPVectorf_ew_prod`, and `OSQPVectorf_mult_scalar`
for `ryl`). -/
def prodInto (c : Buf (Option K)) (b : Buf K) (sc : K) : Option (Buf (Option K)) :=
  forI 0 c.size (fun i c => (c.rd i).bind fun v => (b.rd i).bind fun w => c.wr i (v.map fun v => v * w * sc)) c

/-- derivative.c:101-331 `adjoint_derivative_compute` (past the check of the pointers, which is in `Mem/Calls.lean`).
`solve` is `adjoint_derivative_linsys_solver`: it gets the linear system and the right-hand side and leaves the solution in
the right-hand side; its return value is ignored. -/
def adjCompute (solve : AdjSys K → Buf K → Option (Buf K)) (S : Stored K) (dx dyl dyu : Buf K) (D : DerivData K) : Option (DerivData K) :=
  (unscaled S).bind fun Q =>
  (newFrom S.x S.n).bind fun x => (newFrom S.y S.m).bind fun y =>
  (classify Q.2.2.1 Q.2.2.2 y S.m).bind fun s =>
  (buildSys s S.m Q.1 Q.2.1 Q.2.2.1 Q.2.2.2 x y { D with nl := s.nl, nu := s.nu, ne := s.ne }).bind fun B =>
  (buildRhs s S.n S.m dx dyl dyu B.2.rhs).bind fun rhs =>
  (solve B.1 rhs).bind fun rhs =>
  (readBack s S.n S.m y rhs).bind fun r =>
  (fromRaw B.2.ryl r.1).bind fun ryl => (prodInto ryl B.2.yl (-1)).bind fun ryl =>
  (fromRaw B.2.ryu r.2).bind fun ryu => (prodInto ryu B.2.yu 1).bind fun ryu =>
  some { B.2 with rhs := rhs, ryl := ryl, ryu := ryu }

/-! ## Reading the derivatives -/

/-- derivative.c:47-48, 87-88 the offset of `rx` in the right-hand side. -/
def DerivData.pos (D : DerivData K) (n : ℤ) : ℤ := n + D.nl + D.nu + D.ne

/-- derivative.c:31-70 `adjoint_derivative_get_mat`: new contents of `dP->x` and `dA->x`.  Loop bounds are read once per column. -/
def getMat (D : DerivData K) (S : Stored K) (dP dA : Csc K) : Option (Buf (Option K) × Buf (Option K)) :=
  (newFrom S.x S.n).bind fun x =>
  let pos := D.pos S.n
  (forCols dP.p S.n (fun col p (b : Buf (Option K)) => (dP.i.rd p).bind fun i =>
    (D.rhs.rd (pos + i)).bind fun ri => (x.rd col).bind fun xc => (D.rhs.rd (pos + col)).bind fun rc => (x.rd i).bind fun xi =>
    b.wr p (some (1 / 2 * (ri * xc + rc * xi)))) ⟨dP.x.size, fun k => (dP.x.cell k).map some⟩).bind fun bP =>
  (forCols dA.p S.n (fun col p (b : Buf (Option K)) => (dA.i.rd p).bind fun i =>
    (D.yu.rd i).bind fun yu => (D.yl.rd i).bind fun yl => (D.rhs.rd (pos + col)).bind fun rc =>
    (D.ryu.rd i).bind fun ryu => (D.ryl.rd i).bind fun ryl => (x.rd col).bind fun xc =>
    b.wr p (ryu.bind fun ru => ryl.bind fun rl => some ((yu - yl) * rc + (ru - rl) * xc))) ⟨dA.x.size, fun k => (dA.x.cell k).map some⟩).bind fun bA =>
  some (bP, bA)

/-- derivative.c:72-98 `adjoint_derivative_get_vec`: new contents of `dq`, `dl`, `du`. -/
def getVec (D : DerivData K) (n : ℤ) (dq : Buf K) (dl du : Buf (Option K)) : Option (Buf K × Buf (Option K) × Buf (Option K)) :=
  let pos := D.pos n
  (forI 0 n (fun i b => (D.rhs.rd (pos + i)).bind fun v => b.wr i v) dq).bind fun dq =>
  (forI 0 D.ryl.size (fun i b => (D.ryl.rd i).bind fun v => b.wr i v) dl).bind fun dl =>
  (forI 0 D.ryu.size (fun i b => (D.ryu.rd i).bind fun v => b.wr i v) du).bind fun du =>
  (forI 0 D.ryu.size (fun i (b : Buf (Option K)) => (b.rd i).bind fun v => b.wr i (v.map fun v => -v)) du).bind fun du =>
  some (dq, dl, du)

/-! ## The adjoint linear system (qdldl_interface.c) -/

/-- qdldl_interface.c:609-631 `_fill_diag_values` with no index map; `val j` is `values[j]` or the scalar. -/
def fillDiagValues (s : Slots K) (initrow initcol : ℤ) (val : ℤ → Option K) (n : ℤ) : Option (Slots K) :=
  forI 0 n (fun j (s : Slots K) => (val j).bind fun v => (put s (j + initcol) (j + initrow) v).bind fun d => some d.1) s

/-- qdldl_interface.c:657-695 `_adj_assemble_csc`; the helper functions :534-607, :633-640 have the same text as those of
`kkt.c` (`Csc/Kkt.lean`). -/
def adjAssemble (D : Slots K) (Q : AdjSys K) : Option (Slots K) :=
  let n := Q.Pfull.m
  let x := Q.G.m
  let y := Q.Aeq.m
  let N := n + x + y
  (intSet D.p 0 (2 * N + 1)).bind fun p =>
  (colcountDiag p 0 N).bind fun p =>
  (colcountBlock p Q.Pfull N false).bind fun p =>
  (colcountBlock p Q.G N false).bind fun p =>
  (colcountBlock p Q.Aeq N false).bind fun p =>
  (colcountBlock p Q.GL (N + n) true).bind fun p =>
  (colcountDiag p (N + n) x).bind fun p =>
  (colcountBlock p Q.Aeq (N + n + x) true).bind fun p =>
  (colcountDiag p N N).bind fun p =>
  (colcountToColptr p (2 * N)).bind fun p =>
  (fillDiagValues ⟨p, D.i, D.x⟩ 0 0 (fun _ => some 1) N).bind fun s =>
  (fillBlock (s, none) Q.Pfull 0 N false).bind fun s =>
  (fillBlock (s.1, none) Q.G n N false).bind fun s =>
  (fillBlock (s.1, none) Q.Aeq (n + x) N false).bind fun s =>
  (fillBlock (s.1, none) Q.GL 0 (N + n) true).bind fun s =>
  (fillDiagValues s.1 n (N + n) (fun j => Q.slacks.rd j) x).bind fun s =>
  (fillBlock (s, none) Q.Aeq 0 (N + n + x) true).bind fun s =>
  (fillDiagValues s.1 N N (fun _ => some 0) N).bind fun s =>
  (backshift s.p (2 * N)).bind fun p => some ⟨p, s.i, s.x⟩

/-- qdldl_interface.c:642-655 `_adj_perturb` (`D->m` is even, so `D->m / 2` is exact). -/
def adjPerturb (D : Csc K) (eps : K) : Option (Csc K) :=
  (forI 0 (D.m / 2) (fun j x => (D.p.rd (j + 1)).bind fun d => (x.rd (d - 1)).bind fun v => x.wr (d - 1) (v + eps)) D.x).bind fun x =>
  (forI (D.m / 2) D.m (fun j x => (D.p.rd (j + 1)).bind fun d => (x.rd (d - 1)).bind fun v => x.wr (d - 1) (v - eps)) x).bind fun x =>
  some { D with x := x }

/-- AMD's ordering of a matrix, QDLDL's factorisation and solve (in place) and `sqrt`. -/
structure AdjEnv (K : Type*) where
  perm : Csc K → Buf ℤ
  qsolve : Csc K → Buf K → Buf K
  sqrt : K → K

/-- qdldl_interface.c:827-829, :845-847: `w[i] = b[P[i]]`, solve, `o[P[i]] = w[i]`. -/
def permSolve (env : AdjEnv K) (perm : Buf ℤ) (M : Csc K) (An : ℤ) (b w o : Buf K) : Option (Buf K × Buf K) :=
  (forI 0 An (fun i w => (perm.rd i).bind fun t => (b.rd t).bind fun v => w.wr i v) w).bind fun w =>
  let w := env.qsolve M w
  (forI 0 An (fun i o => (perm.rd i).bind fun t => (w.rd i).bind fun v => o.wr t v) o).bind fun o => some (w, o)

/-- vector.c:238-249 `OSQPVectorf_norm_2` before the square root. -/
def sumSq (v : Buf K) : Option K := forI 0 v.size (fun i (t : K) => (v.rd i).bind fun a => some (t + a * a)) 0

/-- The constant 1e-12 of qdldl_interface.c:843. -/
def adjTol : K := 1 / 10 ^ 12
/-- The constant 1e-6 of qdldl_interface.c:740. -/
def adjEps : K := 1 / 10 ^ 6

/-- qdldl_interface.c:839-850 the refinement loop with at most `fuel` rounds: (`sol`, `residual`, `x_work`). -/
def adjRefine (env : AdjEnv K) (perm : Buf ℤ) (adjM perturbed : Csc K) (An : ℤ) (rhs : Buf K) : ℕ → Buf K → Buf K → Buf K → Option (Buf K)
  | 0, sol, _, _ => some sol
  | k + 1, sol, res, w =>
    (fromRaw res rhs).bind fun res => (axpySymTriu adjM sol res 1 (-1)).bind fun res => (sumSq res).bind fun t =>
    if env.sqrt t < adjTol then some sol else
    (permSolve env perm perturbed An res w res).bind fun r =>
    (forI 0 sol.size (fun i s => (s.rd i).bind fun a => (r.2.rd i).bind fun b => s.wr i (a - b)) sol).bind fun sol =>
    adjRefine env perm adjM perturbed An rhs k sol r.2 r.1

/-- qdldl_interface.c:697-891 `adjoint_derivative_qdldl` when all allocations and AMD succeed; returns the new `rhs`. -/
def adjSolve (env : AdjEnv K) (Q : AdjSys K) (rhs : Buf K) : Option (Buf K) :=
  let n := Q.Pfull.m
  let x := Q.G.m
  let y := Q.Aeq.m
  (Q.Pfull.p.rd Q.Pfull.n).bind fun zP => (Q.G.p.rd Q.G.n).bind fun zG => (Q.Aeq.p.rd Q.Aeq.n).bind fun zA =>
  let dim := 2 * (n + x + y)
  let C : Csc K := spalloc dim dim (n + x + y + zP + zG + zA + zG + x + zA + n + x + y)
  (adjAssemble ⟨C.p, C.i, C.x⟩ Q).bind fun s =>
  let adj : Csc K := { C with p := s.p, i := s.i, x := s.x }
  (copy adj).bind fun adjM =>
  (adjPerturb adj adjEps).bind fun adj =>
  let perm := env.perm adj
  (pinv perm dim).bind fun pv => (symperm adj (some pv) none).bind fun r =>
  (permSolve env perm r.1 dim rhs (Buf.fresh dim) (Buf.fresh dim)).bind fun xs =>
  (newFrom xs.2 dim).bind fun sol =>
  (adjRefine env perm adjM r.1 dim rhs 200 sol (Buf.fresh dim) xs.1).bind fun sol =>
  subAssign rhs sol 0 sol.size 1

end Osqp.Csc
