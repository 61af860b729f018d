import Verif.Vm.Solve
import Verif.Csc.Utils
import Verif.Csc.Validate

/-!
# The other API functions on shared memory

`osqp_setup`, `osqp_update_data_vec`, `osqp_update_data_mat`, `osqp_update_settings`, `osqp_warm_start` and `osqp_get_solution`
(`src/osqp_api.c`), with `scale_data`, `unscale_data` (`src/scaling.c`) and `set_rho_vec`, `update_rho_vec` (`src/auxil.c`), on the memory of
`Vm/Solve.lean`. Vectors given by the caller are pointers into the same memory, so that they may be arrays of the solver, except that set-up reads its
arguments from arrays of their own. `none` is undefined behaviour.

Parameters (`Lib`): those of `Vm/Solve.lean`, and the functions that create the linear-system solver and give it new matrices. Allocation always
succeeds (see `Mem/` for its failures). Not modelled: printing, the profiler hooks, the derivative data.
-/

namespace Osqp.Vm
open Csc

/-- A solver object: matrices, `work->data->n` and `m`, the array of `xz_tilde`, whether `solver->solution` is there, and the rest. -/
structure Obj (L K : Type*) where
  P : Csc K
  A : Csc K
  n : ℤ
  m : ℤ
  xz : Ref
  hasSol : Bool
  M : Mach L K

/-- What is outside the modelled code: build options, square root, clock, interrupt flag, the functions of the linear-system solver, and
`polish`. `init P A rho_vec sigma rho` is `osqp_algebra_init_linsys_solver` (no object if it fails); `updMat` is `update_matrices`. -/
structure Lib (L K : Type*) where
  cfg : Cfg
  sqrt : K → K
  clk : ℕ → K
  intr : ℕ → Bool
  solve : L → Buf K → Option (Buf K)
  updRho : L → Option (Buf K) → K → Option (L × ℤ)
  init : Csc K → Csc K → Option (Buf K) → K → K → Option (Option L × ℤ)
  updMat : L → Csc K → Option (Buf ℤ) → ℤ → Csc K → Option (Buf ℤ) → ℤ → Option (L × ℤ)
  polish : Obj L K → Option (Mach L K × ℤ)

variable {L K : Type*}

/-- The constants of a call on the object. -/
def Lib.fix (E : Lib L K) (o : Obj L K) : Fix L K where
  cfg := E.cfg
  P := o.P
  A := o.A
  m := o.m
  xz := o.xz
  hasSol := o.hasSol
  sqrt := E.sqrt
  clk := E.clk
  intr := E.intr
  solve := E.solve
  updRho := E.updRho
  polish := fun M => E.polish { o with M := M }

variable [Field K] [LinearOrder K]

/-! ## Scaling -/

/-- The matrices, the arrays and the scalars `(c, cinv)` of `work->scaling` (`none`: a `NULL` pointer). -/
structure Prob (K : Type*) where
  P : Csc K
  A : Csc K
  σ : Store K
  scl : Option (K × K)

def Prob.vec (p : Prob K) (f : Store K → Option (Store K)) : Option (Prob K) := (f p.σ).map fun σ => { p with σ := σ }
def Prob.onP (p : Prob K) (f : Csc K → Option (Csc K)) : Option (Prob K) := (f p.P).map fun P => { p with P := P }
def Prob.onA (p : Prob K) (f : Csc K → Option (Csc K)) : Option (Prob K) := (f p.A).map fun A => { p with A := A }

/-- `OSQPVectorf_data(v)`. Only vectors that start at the first element of their array are modelled. -/
def data (v : Ref) (σ : Store K) : Option (Buf K) := if v.off = 0 then some (σ v.blk) else none

/-- A routine of csc_math.c that writes to the array of `v` (matrix.c:194-203). -/
def into (f : Buf K → Option (Buf K)) (v : Ref) (σ : Store K) : Option (Store K) :=
  (data v σ).bind fun b => (f b).map fun b => Function.update σ v.blk b

/-- A diagonal scaling of a matrix by the vector `v` (matrix.c:134-142). -/
def diag (f : Csc K → Buf K → Option (Csc K)) (v : Ref) (σ : Store K) (X : Csc K) : Option (Csc K) := (data v σ).bind fun b => f X b

/-- scaling.c:14-17 `limit_scaling_vector`. -/
def limitScaling (v : Ref) (σ : Store K) : Option (Store K) :=
  (setIfLt v v (Const.minScaling K) 1 σ).bind fun σ => setIfGt v v (Const.maxScaling K) (Const.maxScaling K) σ

/-- scaling.c:30-46 `compute_inf_norm_cols_KKT`. -/
def infNormCols (W : Ptrs) (p : Prob K) : Option (Prob K) :=
  (p.vec (into (colNormInf p.P) (W .Dt))).bind fun p =>
  (p.vec (into (colNormInf p.A) (W .DtA))).bind fun p =>
  (p.vec (maxVec (W .Dt) (W .DtA) (W .Dt))).bind fun p =>
  p.vec (into (rowNormInf p.A) (W .Et))

/-- scaling.c:83-115: the Ruiz step of one pass. -/
def ruizStep (sqrt : K → K) (W : Ptrs) (p : Prob K) : Option (Prob K) :=
  (infNormCols W p).bind fun p =>
  (p.vec (limitScaling (W .Dt))).bind fun p =>
  (p.vec (limitScaling (W .Et))).bind fun p =>
  (p.vec (ewSqrt sqrt (W .Dt))).bind fun p =>
  (p.vec (ewSqrt sqrt (W .Et))).bind fun p =>
  (p.vec (reciprocal (W .Dt) (W .Dt))).bind fun p =>
  (p.vec (reciprocal (W .Et) (W .Et))).bind fun p =>
  (p.onP (diag lmultDiag (W .Dt) p.σ)).bind fun p =>
  (p.onP (diag rmultDiag (W .Dt) p.σ)).bind fun p =>
  (p.onA (diag lmultDiag (W .Et) p.σ)).bind fun p =>
  (p.onA (diag rmultDiag (W .Dt) p.σ)).bind fun p =>
  (p.vec (ewProd (W .q) (W .q) (W .Dt))).bind fun p =>
  (p.vec (ewProd (W .D) (W .D) (W .Dt))).bind fun p =>
  p.vec (ewProd (W .E) (W .E) (W .Et))

/-- scaling.c:121-149: the cost normalisation of one pass. -/
def costStep (n : ℤ) (W : Ptrs) (p : Prob K) : Option (Prob K) :=
  (p.vec (into (colNormInf p.P) (W .Dt))).bind fun p =>
  (norm1 (W .Dt) p.σ).bind fun ct =>
  (normInf (W .q) p.σ).bind fun nq =>
  let c := 1 / limitScalingScalar (cMax (ct / (n : K)) (limitScalingScalar nq))
  (p.onP fun X => scale X c).bind fun p =>
  (p.vec (multScalar (W .q) c)).bind fun p =>
  p.scl.bind fun s => some { p with scl := some (s.1 * c, s.2) }

/-- scaling.c:48-164 `scale_data`; `passes` is `settings->scaling`. -/
def scaleData (sqrt : K → K) (n passes : ℤ) (W : Ptrs) (p : Prob K) : Option (Prob K) :=
  (p.scl.bind fun s => some { p with scl := some (1, s.2) }).bind fun p =>
  (p.vec (setScalar (W .D) 1)).bind fun p =>
  (p.vec (setScalar (W .Dinv) 1)).bind fun p =>
  (p.vec (setScalar (W .E) 1)).bind fun p =>
  (p.vec (setScalar (W .Einv) 1)).bind fun p =>
  (forI 0 passes (fun _ p => (ruizStep sqrt W p).bind fun p => costStep n W p) p).bind fun p =>
  (p.scl.bind fun s => some { p with scl := some (s.1, 1 / s.1) }).bind fun p =>
  (p.vec (reciprocal (W .Dinv) (W .D))).bind fun p =>
  (p.vec (reciprocal (W .Einv) (W .E))).bind fun p =>
  (p.vec (ewProd (W .l) (W .l) (W .E))).bind fun p =>
  p.vec (ewProd (W .u) (W .u) (W .E))

/-- scaling.c:169-192 `unscale_data`. -/
def unscaleData (W : Ptrs) (p : Prob K) : Option (Prob K) :=
  p.scl.bind fun s =>
  (p.onP fun X => scale X s.2).bind fun p =>
  (p.onP (diag lmultDiag (W .Dinv) p.σ)).bind fun p =>
  (p.onP (diag rmultDiag (W .Dinv) p.σ)).bind fun p =>
  (p.vec (multScalar (W .q) s.2)).bind fun p =>
  (p.vec (ewProd (W .q) (W .q) (W .Dinv))).bind fun p =>
  (p.onA (diag lmultDiag (W .Einv) p.σ)).bind fun p =>
  (p.onA (diag rmultDiag (W .Dinv) p.σ)).bind fun p =>
  (p.vec (ewProd (W .l) (W .l) (W .Einv))).bind fun p =>
  p.vec (ewProd (W .u) (W .u) (W .Einv))

/-! ## Updates of vectors -/

/-- osqp_api.c:1200-1203, 1326-1329 (profiling builds). -/
def clearTime (F : Fix L K) (M : Mach L K) : Mach L K :=
  if F.cfg.profiling then
    if M.g.clear_update_time then (M.upd fun g => { g with clear_update_time := false, info := { g.info with update_time := 0 } }) else M
  else M

/-- osqp_api.c:1247-1252, 1393-1406: `reset_info`, then the timer. -/
def endUpdate (F : Fix L K) (M : Mach L K) : Mach L K :=
  let M := M.upd fun g => { g with info := resetInfo F.cfg g.info }
  if F.cfg.profiling then
    let t := M.toc F
    t.2.upd fun g => { g with info := { g.info with update_time := g.info.update_time + t.1 } }
  else M

/-- src/auxil.c:76-105 `set_rho_vec`. -/
def setRhoVec (F : Fix L K) (M : Mach L K) : Option (Mach L K × Bool) :=
  let M := M.upd fun g => { g with st := { g.st with rho := clampRho g.st.rho } }
  (boundsType M.ct F.m (M.W .l) (M.W .u) (Const.rhoTol K) (Const.infval K) M.σ).bind fun r =>
  let M := { M with ct := r.1 }
  (M.vec fun W => setCond (W .rho) M.ct (Const.rhoMin K) M.g.st.rho (Const.rhoEqOverIneq K * M.g.st.rho)).bind fun M =>
  (M.vec fun W => reciprocal (W .rhoInv) (W .rho)).bind fun M => some (M, r.2)

/-- src/auxil.c:107-122 `update_rho_vec`. -/
def updateRhoVec (F : Fix L K) (M : Mach L K) : Option (Mach L K × ℤ) :=
  (setRhoVec F M).bind fun r =>
  if r.2 then
    (F.updRho r.1.lin (if r.1.g.st.rho_is_vec ≠ 0 then some (r.1.σ (r.1.W .rho).blk) else none) r.1.g.st.rho).bind fun t =>
    some ({ r.1 with lin := t.1 }, t.2)
  else some (r.1, 0)

/-- `if (a) f(a)` for a pointer argument. -/
def ifArg (a : Option Ref) (f : Ref → Ptrs → Store K → Option (Store K)) (M : Mach L K) : Option (Mach L K) :=
  match a with
  | some r => M.vec (f r)
  | none => some M

/-- osqp_api.c:1213-1235: copy and scale the new bounds, compare them; the result of the comparison. -/
def newBounds (l u : Option Ref) (M : Mach L K) : Option (Mach L K × Bool) :=
  (ifArg l (fun a W => copy (W .zPrev) a) M).bind fun M =>
  (ifArg u (fun a W => copy (W .dy) a) M).bind fun M =>
  (if M.g.st.scaling ≠ 0 then
    (ifArg l (fun _ W => ewProd (W .zPrev) (W .zPrev) (W .E)) M).bind fun M =>
    ifArg u (fun _ W => ewProd (W .dy) (W .dy) (W .E)) M
  else some M).bind fun M =>
  (if l.isSome && u.isSome then allLeq (M.W .zPrev) (M.W .dy) M.σ
  else if l.isSome then allLeq (M.W .zPrev) (M.W .u) M.σ
  else allLeq (M.W .l) (M.W .dy) M.σ).bind fun ok => some (M, ok)

/-- osqp_api.c:1207-1242: the bounds; `true` if they are rejected. -/
def setBounds (F : Fix L K) (l u : Option Ref) (M : Mach L K) : Option (Mach L K × ℤ × Bool) :=
  if l.isSome || u.isSome then
    (newBounds l u M).bind fun r =>
    if r.2 then
      let M := r.1
      let M := if l.isSome then { M with W := swap .zPrev .l M.W } else M
      let M := if u.isSome then { M with W := swap .dy .u M.W } else M
      if M.g.st.rho_is_vec ≠ 0 then (updateRhoVec F M).bind fun t => some (t.1, t.2, false) else some (M, 0, false)
    else some (r.1, Err.dataValidation, true)
  else some (M, 0, false)

/-- osqp_api.c:1244-1251: the linear cost. -/
def setCost (q : Option Ref) (M : Mach L K) : Option (Mach L K) :=
  (ifArg q (fun a W => copy (W .q) a) M).bind fun M =>
  if q.isSome && decide (M.g.st.scaling ≠ 0) then
    (M.vec fun W => ewProd (W .q) (W .q) (W .D)).bind fun M =>
    M.g.scl.bind fun c => M.vec fun W => multScalar (W .q) c.1
  else some M

/-- osqp_api.c:1184-1257 `osqp_update_data_vec` (`none` is a `NULL` argument). -/
def updateDataVec (F : Fix L K) (q l u : Option Ref) (M : Mach L K) : Option (Mach L K × ℤ) :=
  (setBounds F l u (clearTime F M)).bind fun r =>
  if r.2.2 then some (r.1, r.2.1)
  else (setCost q r.1).bind fun M => some (endUpdate F M, r.2.1)

/-- osqp_api.c:1260-1293 `osqp_warm_start` (QDLDL's `warm_start` hook does nothing). -/
def warmStart (F : Fix L K) (x y : Option Ref) (M : Mach L K) : Option (Mach L K × ℤ) :=
  let M := if M.g.st.warm_starting = 0 then (M.upd fun g => { g with st := { g.st with warm_starting := 1 } }) else M
  (ifArg x (fun a W => copy (W .x) a) M).bind fun M =>
  (ifArg y (fun a W => copy (W .y) a) M).bind fun M =>
  (if M.g.st.scaling ≠ 0 then
    (ifArg x (fun _ W => ewProd (W .x) (W .x) (W .Dinv)) M).bind fun M =>
    (ifArg y (fun _ W => ewProd (W .y) (W .y) (W .Einv)) M).bind fun M =>
    if y.isSome then M.g.scl.bind fun c => M.vec fun W => multScalar (W .y) c.1 else some M
  else some M).bind fun M =>
  (if x.isSome then mulA F .x .z M else some M).bind fun M => some (M, 0)

/-! ## Settings and solution -/

/-- osqp_api.c:1474-1530 `osqp_update_settings`. -/
def updateSettings (F : Fix L K) (new : Option (Settings K)) (M : Mach L K) : Mach L K × ℤ :=
  match new with
  | none => (M, Err.settingsValidation)
  | some n =>
    if validateSettings F.cfg n false then (M, Err.settingsValidation)
    else ((M.upd fun g => { g with st := { g.st with
        profiler_level := n.profiler_level
        verbose := n.verbose
        warm_starting := n.warm_starting
        polishing := n.polishing
        alpha := n.alpha
        cg_max_iter := n.cg_max_iter
        cg_tol_reduction := n.cg_tol_reduction
        cg_tol_fraction := n.cg_tol_fraction
        cg_precond := n.cg_precond
        max_iter := n.max_iter
        eps_abs := n.eps_abs
        eps_rel := n.eps_rel
        eps_prim_inf := n.eps_prim_inf
        eps_dual_inf := n.eps_dual_inf
        scaled_termination := n.scaled_termination
        check_termination := n.check_termination
        check_dualgap := n.check_dualgap
        time_limit := n.time_limit
        delta := n.delta
        polish_refine_iter := n.polish_refine_iter } }), 0)

/-- The arrays of an `OSQPSolution` of the caller. -/
structure Dst where
  x : Ref
  y : Ref
  pc : Ref
  dc : Ref

/-- osqp_api.c:1041-1052 `osqp_get_solution`: src/auxil.c:598-674 `store_solution(solver, solution)` with the arrays of the caller. -/
def getSolution (S : Dst) (M : Mach L K) : Option (Mach L K × ℤ) :=
  (if hasSolution M.g.info then
    (if M.g.st.scaling ≠ 0 then
      (M.vec fun W => ewProd (W .xPrev) (W .x) (W .D)).bind fun M =>
      (M.vec fun W => ewProd (W .zPrev) (W .y) (W .E)).bind fun M =>
      M.g.scl.bind fun c =>
      (M.vec fun W => multScalar (W .zPrev) c.2).bind fun M =>
      (M.vec fun W => toRaw S.x (W .xPrev)).bind fun M =>
      M.vec fun W => toRaw S.y (W .zPrev)
    else
      (M.vec fun W => toRaw S.x (W .x)).bind fun M =>
      M.vec fun W => toRaw S.y (W .y)).bind fun M =>
    (M.vec fun W => setScalar (W .dy) (Const.nan K)).bind fun M =>
    (M.vec fun W => setScalar (W .dx) (Const.nan K)).bind fun M =>
    (M.vec fun W => toRaw S.pc (W .dy)).bind fun M =>
    M.vec fun W => toRaw S.dc (W .dx)
  else
    (M.vec fun W => setScalar (W .x) (Const.nan K)).bind fun M =>
    (M.vec fun W => setScalar (W .y) (Const.nan K)).bind fun M =>
    (M.vec fun W => toRaw S.x (W .x)).bind fun M =>
    (M.vec fun W => toRaw S.y (W .y)).bind fun M =>
    (coldStart M).bind fun M =>
    (if M.g.info.status_val = St.primInf ∨ M.g.info.status_val = St.primInfInacc then
      (normOf M .dy).bind fun r =>
      (M.vec fun W => multScalar (W .dy) (1 / r)).bind fun M =>
      (M.vec fun W => toRaw S.pc (W .dy)).bind fun M =>
      (M.vec fun W => setScalar (W .dx) (Const.nan K)).bind fun M =>
      M.vec fun W => toRaw S.dc (W .dx)
    else some M).bind fun M =>
    if M.g.info.status_val = St.dualInf ∨ M.g.info.status_val = St.dualInfInacc then
      (normOf M .dx).bind fun r =>
      (M.vec fun W => multScalar (W .dx) (1 / r)).bind fun M =>
      (M.vec fun W => toRaw S.dc (W .dx)).bind fun M =>
      (M.vec fun W => setScalar (W .dy) (Const.nan K)).bind fun M =>
      M.vec fun W => toRaw S.pc (W .dy)
    else some M).bind fun M => some (M, 0)

/-! ## Updates of matrices -/

/-- The arguments of `osqp_update_data_mat` for one matrix: values and indices (`none` is `NULL`), and the count. -/
structure MatArg (K : Type*) where
  x : Option (Buf K)
  idx : Option (Buf ℤ)
  cnt : ℤ

/-- osqp_api.c:1337-1347, 1354-1365: is the argument rejected. -/
def MatArg.bad (a : MatArg K) (nnz : ℤ) : Bool :=
  decide (a.cnt > nnz) || decide (a.cnt < 0) || (a.idx.isNone && decide (a.cnt ≠ 0) && decide (a.cnt ≠ nnz))

/-- osqp_api.c:1349-1352, 1367-1370. -/
def MatArg.count (a : MatArg K) (nnz : ℤ) : ℤ := if a.cnt = 0 then nnz else a.cnt

/-- osqp_api.c:1374-1379: new values, if there are any. -/
def MatArg.apply (a : MatArg K) (nnz : ℤ) (X : Csc K) : Option (Csc K) :=
  match a.x with
  | some new => (Csc.updateValues X.x new a.idx (a.count nnz)).map fun x => { X with x := x }
  | none => some X

/-- osqp_api.c:1309-1409 `osqp_update_data_mat`. -/
def updateDataMat (E : Lib L K) (p a : MatArg K) (o : Obj L K) : Option (Obj L K × ℤ) :=
  let M := clearTime (E.fix o) o.M
  (o.P.p.rd o.P.n).bind fun nnzP =>
  (o.A.p.rd o.A.n).bind fun nnzA =>
  if p.bad nnzP then some ({ o with M := M }, 1)
  else if a.bad nnzA then some ({ o with M := M }, 2)
  else
    let b : Prob K := ⟨o.P, o.A, M.σ, M.g.scl⟩
    (if M.g.st.scaling ≠ 0 then unscaleData M.W b else some b).bind fun b =>
    (b.onP (p.apply nnzP)).bind fun b =>
    (b.onA (a.apply nnzA)).bind fun b =>
    (if M.g.st.scaling ≠ 0 then scaleData E.sqrt o.n M.g.st.scaling M.W b else some b).bind fun b =>
    (if M.g.st.scaling ≠ 0 then E.updMat M.lin b.P none nnzP b.A none nnzA
      else E.updMat M.lin b.P p.idx (p.count nnzP) b.A a.idx (a.count nnzA)).bind fun r =>
    let M : Mach L K := { M with σ := b.σ, lin := r.1, g := { M.g with scl := b.scl } }
    some ({ o with P := b.P, A := b.A, M := endUpdate (E.fix o) M }, r.2)

/-! ## Set-up -/

/-- Which vectors exist (osqp_api.c:405-420, 456-487, 524-548). -/
def Name.there (st : Settings K) : Name → Bool
  | .rho | .rhoInv => decide (st.rho_is_vec ≠ 0)
  | .D | .Dinv | .E | .Einv | .Dt | .DtA | .Et => decide (st.scaling ≠ 0)
  | .solX | .solY | .solPc | .solDc => decide (st.allocate_solution ≠ 0)
  | _ => true

/-- Which of them come from `malloc`. -/
def Name.raw : Name → Bool
  | .q | .l | .u | .rho | .rhoInv | .pX | .pZ | .pY => true
  | _ => false

/-- The array of a vector after its allocation; there is none behind a `NULL` pointer. -/
def newArray (st : Settings K) (n m : ℕ) (k : Name) : Buf K :=
  if k.there st then if k.raw then Buf.fresh (k.dim n m) else Buf.zeroed (k.dim n m) 0 else Buf.fresh 0

/-- All names. -/
def Name.all : List Name :=
  [.x, .y, .z, .xPrev, .zPrev, .dx, .dy, .xt, .zt, .q, .l, .u, .rho, .rhoInv, .Ax, .Px, .Aty, .Atdy, .Pdx, .Adx, .D, .Dinv, .E, .Einv,
    .solX, .solY, .solPc, .solDc, .Dt, .DtA, .Et, .pX, .pZ, .pY]

/-- The allocations of osqp_api.c:389-548, all at once. The allocator chooses `W` and `xz`. -/
def allocate (st : Settings K) (n m : ℕ) (W : Ptrs) (xz : Ref) (σ : Store K) : Store K := fun b =>
  if b = xz.blk then Buf.zeroed (n + m : ℕ) 0
  else match Name.all.find? fun k => decide ((W k).blk = b) with
    | some k => newArray st n m k
    | none => σ b

/-- `OSQPVectorf_new(a, length)` (vector.c:179-190), after its allocation: copy from an array of the caller, which may be `NULL`. -/
def fromRaw (v : Ref) (a : Option (Buf K)) (σ : Store K) : Option (Store K) :=
  forI 0 v.len (fun i σ => (rdPtr a i).bind fun x => wr σ v i x) σ

/-- What set-up leaves. -/
inductive Made (L K : Type*)
  /-- an argument is rejected, nothing is allocated -/
  | rejected (code : ℤ)
  /-- the linear-system solver could not be created -/
  | failed (code : ℤ)
  | ok (o : Obj L K)

/-- The arguments of `osqp_setup`; `none` is a `NULL` pointer. -/
structure SetupArgs (K : Type*) where
  P : Option (Csc K)
  q : Option (Buf K)
  A : Option (Csc K)
  l : Option (Buf K)
  u : Option (Buf K)
  m : ℤ
  n : ℤ
  st : Option (Settings K)

/-- The scalars of a new solver (`calloc`). -/
def zeroScal (st : Settings K) : Scal K where
  st := st
  info :=
    { status := "", status_val := 0, status_polish := 0, obj_val := 0, dual_obj_val := 0, prim_res := 0,
      dual_res := 0, duality_gap := 0, iter := 0, rho_updates := 0, rho_estimate := 0, setup_time := 0,
      solve_time := 0, update_time := 0, polish_time := 0, run_time := 0, primdual_int := 0, rel_kkt_error := 0 }
  scl := none
  rho_inv := 0
  scaled_prim_res := 0
  scaled_dual_res := 0
  scaled_dual_gap := 0
  xtPx := 0
  qtx := 0
  SC := 0
  last_rel_kkt := 0
  rho_updated := false
  first_run := false
  clear_update_time := false
  rho_update_from_solve := false
  ticks := 0
  polls := 0
  handler := false

/-- osqp_api.c:550-606: information and the interval of the step-size updates. -/
def setupInfo (F : Fix L K) (M : Mach L K) : Mach L K :=
  let M := M.upd fun g => { g with info := updateStatus { g.info with status_polish := Pol.notPerformed } St.unsolved }
  let M := if F.cfg.profiling then
      let t := M.toc F
      t.2.upd fun g => { g with
        info := { g.info with solve_time := 0, update_time := 0, polish_time := 0, run_time := 0, setup_time := t.1 }
        first_run := true, clear_update_time := false, rho_update_from_solve := false }
    else M
  let M := M.upd fun g => { g with
    info := { g.info with
      rho_updates := 0, rho_estimate := g.st.rho, obj_val := Const.infty K,
      prim_res := Const.infty K, dual_res := Const.infty K, rel_kkt_error := Const.infty K }
    last_rel_kkt := Const.infty K
    rho_updated := false }
  M.upd fun g => { g with st := { g.st with adaptive_rho_interval := setupInterval g.st } }

/-- osqp_api.c:332-631 `osqp_setup`. The allocator's choices are `W` and `xz`; `work->scaling` comes from `malloc`, its scalars are zero here
but written before they are read. Before the linear-system solver exists, the object is a record with the unit type in its place. -/
def setup (E : Lib L K) (W : Ptrs) (xz : Ref) (a : SetupArgs K) (σ : Store K) : Option (Made L K) :=
  (validateData a.P a.q a.A a.l a.u a.m a.n).bind fun bad =>
  if bad then some (.rejected Err.dataValidation)
  else match a.st with
  | none => some (.rejected Err.settingsValidation)
  | some st =>
    if validateSettings E.cfg st true then some (.rejected Err.settingsValidation)
    else
      a.P.bind fun P0 => a.A.bind fun A0 =>
      let σ := allocate st a.n.toNat a.m.toNat W xz σ
      (Csc.copy P0).bind fun P =>
      (fromRaw (W .q) a.q σ).bind fun σ =>
      (Csc.copy A0).bind fun A =>
      (fromRaw (W .l) a.l σ).bind fun σ =>
      (fromRaw (W .u) a.u σ).bind fun σ =>
      (if st.scaling ≠ 0 then scaleData E.sqrt a.n st.scaling W ⟨P, A, σ, some (0, 0)⟩ else some ⟨P, A, σ, none⟩).bind fun b =>
      let F : Fix Unit K := {
        cfg := E.cfg, P := b.P, A := b.A, m := a.m, xz := xz, hasSol := false, sqrt := E.sqrt, clk := E.clk,
        intr := E.intr, solve := fun _ _ => none, updRho := fun _ _ _ => none, polish := fun _ => none }
      let M : Mach Unit K := { W := W, σ := b.σ, ct := Buf.zeroed a.m 0, lin := (), g := { zeroScal st with scl := b.scl } }
      (if st.rho_is_vec ≠ 0 then (setRhoVec F M).bind fun r => some r.1
        else some (M.upd fun g => { g with st := { g.st with rho := clampRho st.rho }, rho_inv := 1 / st.rho })).bind fun M =>
      (E.init b.P b.A (if st.rho_is_vec ≠ 0 then some (M.σ (W .rho).blk) else none) M.g.st.sigma M.g.st.rho).bind fun r =>
      match r.1 with
      | none => some (.failed r.2)
      | some lin =>
        let M : Mach L K := { W := M.W, σ := M.σ, ct := M.ct, lin := lin, g := M.g }
        (coldStart M).bind fun M =>
        let o : Obj L K := { P := b.P, A := b.A, n := a.n, m := a.m, xz := xz, hasSol := decide (st.allocate_solution ≠ 0), M := M }
        some (.ok { o with M := setupInfo (E.fix o) M })

/-! ## All calls -/

/-- A call on an existing solver, with its arguments in memory. -/
inductive MOp (K : Type*)
  | solve
  | updateDataVec (q l u : Option Ref)
  | updateDataMat (p a : MatArg K)
  | updateRho (rho : K)
  | updateSettings (st : Option (Settings K))
  | warmStart (x y : Option Ref)
  | coldStart
  | getSolution (S : Dst)

/-- A call that does not touch the matrices. -/
def onMach (o : Obj L K) (r : Option (Mach L K × ℤ)) : Option (Obj L K × ℤ) := r.map fun r => ({ o with M := r.1 }, r.2)

/-- The call: new object and return value. -/
def run (E : Lib L K) (o : Obj L K) : MOp K → Option (Obj L K × ℤ)
  | .solve => onMach o (solve (E.fix o) o.M)
  | .updateDataVec q l u => onMach o (updateDataVec (E.fix o) q l u o.M)
  | .updateDataMat p a => updateDataMat E p a o
  | .updateRho r => onMach o (updateRho (E.fix o) r o.M)
  | .updateSettings st => onMach o (some (updateSettings (E.fix o) st o.M))
  | .warmStart x y => onMach o (warmStart (E.fix o) x y o.M)
  | .coldStart => onMach o ((coldStart o.M).map fun M => (M, 0))
  | .getSolution S => onMach o (getSolution S o.M)

end Osqp.Vm
