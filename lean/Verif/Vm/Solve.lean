import Verif.Vm.Admm
import Verif.Model.Api

/-!
# `osqp_solve` on shared memory

The whole of `osqp_solve` (`src/osqp_api.c:636-1038`) and the functions of `src/auxil.c` it calls, on the memory of the library: vectors
are pointers into arrays (`Vm/Model.lean`), matrices are compressed-column arrays (`Csc/Model.lean`), scalars are the fields of the
structures. `none` is undefined behaviour: an access outside an array, to an uninitialised element or through a `NULL` pointer.

Parameters: the clock, the interrupt flag, the square root, the linear-system solver behind its function pointers, and `polish`. Not
modelled: printing and the profiler hooks. The two matrices are constants here, since nothing in `osqp_solve` writes to them, and their
arrays are apart from those of the vectors. Division by zero is as in `Model/Auxil.lean`.
-/

namespace Osqp.Vm
open Csc

/-- Scalar fields of `OSQPSettings`, `OSQPInfo`, `OSQPWorkspace` and `OSQPScaling`; `scl` is `(c, cinv)`, or `none` if
`work->scaling` is `NULL`. The last three fields are the positions in the streams of clock readings and interrupt polls, and the
signal handler. -/
structure Scal (K : Type*) where
  st : Settings K
  info : Info K
  scl : Option (K × K)
  rho_inv : K
  scaled_prim_res : K
  scaled_dual_res : K
  scaled_dual_gap : K
  xtPx : K
  qtx : K
  SC : K
  last_rel_kkt : K
  rho_updated : Bool
  first_run : Bool
  clear_update_time : Bool
  rho_update_from_solve : Bool
  ticks : ℕ
  polls : ℕ
  handler : Bool

/-- What changes during a call: vector pointers, arrays, the integer vector `constr_type`, the linear-system solver, scalars. -/
structure Mach (L K : Type*) where
  W : Ptrs
  σ : Store K
  ct : Buf ℤ
  lin : L
  g : Scal K

/-- What does not: build options, matrices (`P` is the upper triangle), `work->data->m`, the array of `xz_tilde`, whether
`solver->solution` is there, and the functions outside. `updRho lin rho_vec rho` is `linsys_solver->update_rho_vec`; the array is absent if
`work->rho_vec` is `NULL`. -/
structure Fix (L K : Type*) where
  cfg : Cfg
  P : Csc K
  A : Csc K
  m : ℤ
  xz : Ref
  hasSol : Bool
  sqrt : K → K
  clk : ℕ → K
  intr : ℕ → Bool
  solve : L → Buf K → Option (Buf K)
  updRho : L → Option (Buf K) → K → Option (L × ℤ)
  polish : Mach L K → Option (Mach L K × ℤ)

variable {L K : Type*} [Field K] [LinearOrder K]

/-- A vector routine. -/
def Mach.vec (M : Mach L K) (f : Ptrs → Store K → Option (Store K)) : Option (Mach L K) :=
  (f M.W M.σ).map fun σ => { M with σ := σ }

/-- A product `y = M x` (matrix.c:156-181) by a routine `f` of csc_math.c. Only calls on vectors that start at the first element of different
arrays are modelled. -/
def product (f : Buf K → Buf K → Option (Buf K)) (x y : Ref) (σ : Store K) : Option (Store K) :=
  if x.off = 0 ∧ y.off = 0 ∧ x.blk ≠ y.blk then (f (σ x.blk) (σ y.blk)).map fun b => Function.update σ y.blk b else none

/-- `OSQPMatrix_Axpy(A, x, y, 1, 0)`. -/
def mulA (F : Fix L K) (x y : Name) (M : Mach L K) : Option (Mach L K) :=
  M.vec fun W => product (fun x y => axpy F.A x y 1 0) (W x) (W y)

/-- `OSQPMatrix_Atxpy(A, x, y, 1, 0)`. -/
def mulAt (F : Fix L K) (x y : Name) (M : Mach L K) : Option (Mach L K) :=
  M.vec fun W => product (fun x y => atxpy F.A x y 1 0) (W x) (W y)

/-- `OSQPMatrix_Axpy(P, x, y, 1, 0)`. -/
def mulP (F : Fix L K) (x y : Name) (M : Mach L K) : Option (Mach L K) :=
  M.vec fun W => product (fun x y => axpySymTriu F.P x y 1 0) (W x) (W y)

/-- `OSQPVectorf_norm_inf`, or with scaling `OSQPVectorf_scaled_norm_inf(sc, v)`. -/
def normOf (M : Mach L K) (v : Name) : Option K := normInf (M.W v) M.σ
def scaledNormOf (M : Mach L K) (sc v : Name) : Option K := scaledNormInf (M.W sc) (M.W v) M.σ

/-- Assignment to scalar fields. -/
def Mach.upd (M : Mach L K) (f : Scal K → Scal K) : Mach L K := { M with g := f M.g }

/-- `update_status` (src/auxil.c:799-806). -/
def Mach.status (M : Mach L K) (v : ℤ) : Mach L K := M.upd fun g => { g with info := updateStatus g.info v }

/-- `osqp_toc(work->timer)`. -/
def Mach.toc (F : Fix L K) (M : Mach L K) : K × Mach L K := (F.clk M.g.ticks, M.upd fun g => { g with ticks := g.ticks + 1 })

/-! ## Objective, residuals, tolerances -/

/-- src/auxil.c:231-285 `compute_obj_val_dual_gap` with the vectors `work->x`, `work->y`. -/
def computeObj (M : Mach L K) : Option (Mach L K × K × K × K) :=
  (dotProd (M.W .Px) (M.W .x) M.σ).bind fun quad =>
  (dotProd (M.W .q) (M.W .x) M.σ).bind fun lin =>
  (M.vec fun W => copy (W .zPrev) (W .y)).bind fun M =>
  (M.vec fun W => projectPolar (W .zPrev) (W .l) (W .u) (Const.infval K)).bind fun M =>
  (M.vec fun W => roundToZero (W .zPrev) (Const.zeroDeadzone K)).bind fun M =>
  (dotSigned (M.W .u) (M.W .zPrev) 1 M.σ).bind fun sup1 =>
  (dotSigned (M.W .l) (M.W .zPrev) (-1) M.σ).bind fun sup2 =>
  let sup := sup1 + sup2
  let obj := 1 / 2 * quad + lin
  let dobj := -(1 / 2) * quad - sup
  let sgap := quad + lin + sup
  let M := M.upd fun g => { g with scaled_dual_gap := sgap, xtPx := quad, qtx := lin, SC := sup }
  if M.g.st.scaling ≠ 0 then
    M.g.scl.bind fun c => some (M, obj * c.2, dobj * c.2, c.2 * sgap)
  else some (M, obj, dobj, sgap)

/-- src/auxil.c:287-306 `compute_duality_gap_tol`. -/
def gapTol (M : Mach L K) (eps_abs eps_rel : K) : Option K :=
  let mx := cMax (cMax (cAbs M.g.xtPx) (cAbs M.g.qtx)) (cAbs M.g.SC)
  if M.g.st.unscaledTerm then M.g.scl.bind fun c => some (eps_abs + eps_rel * (c.2 * mx))
  else some (eps_abs + eps_rel * mx)

/-- src/auxil.c:308-332 `compute_prim_res`. -/
def computePrimRes (F : Fix L K) (M : Mach L K) : Option (Mach L K × K) :=
  (mulA F .x .Ax M).bind fun M =>
  (M.vec fun W => minus (W .zPrev) (W .Ax) (W .z)).bind fun M =>
  (normOf M .zPrev).bind fun sres =>
  let M := M.upd fun g => { g with scaled_prim_res := sres }
  if M.g.st.unscaledTerm then (scaledNormOf M .Einv .zPrev).bind fun r => some (M, r) else some (M, sres)

/-- src/auxil.c:334-369 `compute_prim_tol`. -/
def primTol (M : Mach L K) (eps_abs eps_rel : K) : Option K :=
  if M.g.st.unscaledTerm then
    (scaledNormOf M .Einv .z).bind fun a => (scaledNormOf M .Einv .Ax).bind fun b => some (eps_abs + eps_rel * cMax a b)
  else (normOf M .z).bind fun a => (normOf M .Ax).bind fun b => some (eps_abs + eps_rel * cMax a b)

/-- src/auxil.c:371-410 `compute_dual_res`. -/
def computeDualRes (F : Fix L K) (M : Mach L K) : Option (Mach L K × K) :=
  (M.vec fun W => copy (W .xPrev) (W .q)).bind fun M =>
  (mulP F .x .Px M).bind fun M =>
  (M.vec fun W => plus (W .xPrev) (W .xPrev) (W .Px)).bind fun M =>
  (if F.m ≠ 0 then (mulAt F .y .Aty M).bind fun M => M.vec fun W => plus (W .xPrev) (W .xPrev) (W .Aty) else some M).bind fun M =>
  (normOf M .xPrev).bind fun sres =>
  let M := M.upd fun g => { g with scaled_dual_res := sres }
  if M.g.st.unscaledTerm then
    M.g.scl.bind fun c => (scaledNormOf M .Dinv .xPrev).bind fun r => some (M, c.2 * r)
  else some (M, sres)

/-- src/auxil.c:412-458 `compute_dual_tol`. -/
def dualTol (M : Mach L K) (eps_abs eps_rel : K) : Option K :=
  if M.g.st.unscaledTerm then
    (scaledNormOf M .Dinv .q).bind fun a => (scaledNormOf M .Dinv .Aty).bind fun b => (scaledNormOf M .Dinv .Px).bind fun e =>
    M.g.scl.bind fun c => some (eps_abs + eps_rel * (cMax (cMax a b) e * c.2))
  else
    (normOf M .q).bind fun a => (normOf M .Aty).bind fun b => (normOf M .Px).bind fun e => some (eps_abs + eps_rel * cMax (cMax a b) e)

/-- src/auxil.c:676-762 `update_info(solver, iter, 0)`. -/
def updateInfo (F : Fix L K) (iter : ℤ) (M : Mach L K) : Option (Mach L K) :=
  let M := M.upd fun g => { g with info := { g.info with iter := iter } }
  (if F.m = 0 then some (M, 0) else computePrimRes F M).bind fun r =>
  let M := r.1.upd fun g => { g with info := { g.info with prim_res := r.2 } }
  (computeDualRes F M).bind fun r =>
  let M := r.1.upd fun g => { g with info := { g.info with dual_res := r.2 } }
  (computeObj M).bind fun r =>
  let M := r.1.upd fun g => { g with info := { g.info with obj_val := r.2.1, dual_obj_val := r.2.2.1, duality_gap := r.2.2.2 } }
  let M := M.upd fun g => { g with info := { g.info with primdual_int := g.info.primdual_int + cAbs g.info.duality_gap } }
  let M := if F.cfg.profiling then
      let t := M.toc F
      (t.2.upd fun g => { g with info := { g.info with solve_time := t.1 } })
    else M
  some (M.upd fun g => { g with info := { g.info with
    rel_kkt_error := cMax (cMax g.info.dual_res g.info.prim_res) g.info.duality_gap } })

/-! ## Infeasibility detection and termination -/

/-- src/auxil.c:460-512 `is_primal_infeasible`. -/
def isPrimalInfeasible (F : Fix L K) (eps : K) (M : Mach L K) : Option (Mach L K × Bool) :=
  (M.vec fun W => projectPolar (W .dy) (W .l) (W .u) (Const.infval K)).bind fun M =>
  (if M.g.st.unscaledTerm then
    (M.vec fun W => ewProd (W .Adx) (W .E) (W .dy)).bind fun M => (normOf M .Adx).bind fun r => some (M, r)
  else (normOf M .dy).bind fun r => some (M, r)).bind fun r =>
  let M := r.1
  let nrm := r.2
  if nrm > Const.divisionTol K then
    (dotSigned (M.W .u) (M.W .dy) 1 M.σ).bind fun a =>
    (dotSigned (M.W .l) (M.W .dy) (-1) M.σ).bind fun b =>
    if a + b < 0 then
      (mulAt F .dy .Atdy M).bind fun M =>
      (if M.g.st.unscaledTerm then M.vec fun W => ewProd (W .Atdy) (W .Atdy) (W .Dinv) else some M).bind fun M =>
      (normOf M .Atdy).bind fun r => some (M, decide (r < eps * nrm))
    else some (M, false)
  else some (M, false)

/-- src/auxil.c:514-588 `is_dual_infeasible`. -/
def isDualInfeasible (F : Fix L K) (eps : K) (M : Mach L K) : Option (Mach L K × Bool) :=
  (if M.g.st.unscaledTerm then (scaledNormOf M .D .dx).bind fun r => M.g.scl.bind fun c => some (r, c.1)
  else (normOf M .dx).bind fun r => some (r, 1)).bind fun r =>
  let nrm := r.1
  let cs := r.2
  if nrm > Const.divisionTol K then
    (dotProd (M.W .q) (M.W .dx) M.σ).bind fun a =>
    if a < 0 then
      (mulP F .dx .Pdx M).bind fun M =>
      (if M.g.st.unscaledTerm then M.vec fun W => ewProd (W .Pdx) (W .Pdx) (W .Dinv) else some M).bind fun M =>
      (normOf M .Pdx).bind fun r =>
      if r < cs * eps * nrm then
        (mulA F .dx .Adx M).bind fun M =>
        (if M.g.st.unscaledTerm then M.vec fun W => ewProd (W .Adx) (W .Adx) (W .Einv) else some M).bind fun M =>
        (inReccone (M.W .Adx) (M.W .l) (M.W .u) (Const.infval K) (eps * nrm) M.σ).bind fun r => some (M, r)
      else some (M, false)
    else some (M, false)
  else some (M, false)

/-- src/auxil.c:808-945 `check_termination`. -/
def checkTermination (F : Fix L K) (approx : Bool) (M : Mach L K) : Option (Mach L K × Bool) :=
  let st := M.g.st
  if M.g.info.prim_res > Const.infty K ∨ M.g.info.dual_res > Const.infty K then
    some ((M.upd fun g => { g with info := { updateStatus g.info St.nonCvx with obj_val := Const.nan K } }), true)
  else
    let k : K := if approx then 10 else 1
    let eps_abs := st.eps_abs * k
    let eps_rel := st.eps_rel * k
    let eps_prim_inf := st.eps_prim_inf * k
    let eps_dual_inf := st.eps_dual_inf * k
    (if F.m = 0 then some (M, true, false) else
      (primTol M eps_abs eps_rel).bind fun eps_prim =>
      if M.g.info.prim_res < eps_prim then some (M, true, false)
      else (isPrimalInfeasible F eps_prim_inf M).bind fun r => some (r.1, false, r.2)).bind fun r =>
    let M := r.1
    let primOk := r.2.1
    let primInf := r.2.2
    (dualTol M eps_abs eps_rel).bind fun eps_dual =>
    (if M.g.info.dual_res < eps_dual then some (M, true, false)
      else (isDualInfeasible F eps_dual_inf M).bind fun r => some (r.1, false, r.2)).bind fun r =>
    let M := r.1
    let dualOk := r.2.1
    let dualInf := r.2.2
    (if st.check_dualgap ≠ 0 then
      (gapTol M eps_abs eps_rel).bind fun t =>
      if st.unscaledTerm then some (decide (cAbs M.g.info.duality_gap < t)) else some (decide (cAbs M.g.scaled_dual_gap < t))
    else some true).bind fun gapOk =>
    if primOk && dualOk && gapOk then
      some (M.status (if approx then St.solvedInacc else St.solved), true)
    else if primInf then
      let M := M.status (if approx then St.primInfInacc else St.primInf)
      (if st.unscaledTerm then M.vec fun W => ewProd (W .dy) (W .dy) (W .E) else some M).bind fun M =>
      some ((M.upd fun g => { g with info := { g.info with obj_val := Const.infty K } }), true)
    else if dualInf then
      let M := M.status (if approx then St.dualInfInacc else St.dualInf)
      (if st.unscaledTerm then M.vec fun W => ewProd (W .dx) (W .dx) (W .D) else some M).bind fun M =>
      some ((M.upd fun g => { g with info := { g.info with obj_val := -Const.infty K } }), true)
    else some (M, false)

/-! ## Storing the solution -/

/-- osqp_api.c:1296-1304 `osqp_cold_start` (QDLDL's `warm_start` hook does nothing). -/
def coldStart (M : Mach L K) : Option (Mach L K) :=
  (M.vec fun W => setScalar (W .x) 0).bind fun M =>
  (M.vec fun W => setScalar (W .z) 0).bind fun M =>
  M.vec fun W => setScalar (W .y) 0

/-- src/auxil.c:598-674 `store_solution(solver, solver->solution)`; lines 194-208 of scaling.c (`unscale_solution`) inlined. -/
def storeSolution (F : Fix L K) (M : Mach L K) : Option (Mach L K) :=
  if F.hasSol = false then some M
  else if hasSolution M.g.info then
    (if M.g.st.scaling ≠ 0 then
      (M.vec fun W => ewProd (W .xPrev) (W .x) (W .D)).bind fun M =>
      (M.vec fun W => ewProd (W .zPrev) (W .y) (W .E)).bind fun M =>
      M.g.scl.bind fun c =>
      (M.vec fun W => multScalar (W .zPrev) c.2).bind fun M =>
      (M.vec fun W => toRaw (W .solX) (W .xPrev)).bind fun M =>
      M.vec fun W => toRaw (W .solY) (W .zPrev)
    else
      (M.vec fun W => toRaw (W .solX) (W .x)).bind fun M =>
      M.vec fun W => toRaw (W .solY) (W .y)).bind fun M =>
    (M.vec fun W => setScalar (W .dy) (Const.nan K)).bind fun M =>
    (M.vec fun W => setScalar (W .dx) (Const.nan K)).bind fun M =>
    (M.vec fun W => toRaw (W .solPc) (W .dy)).bind fun M =>
    M.vec fun W => toRaw (W .solDc) (W .dx)
  else
    (M.vec fun W => setScalar (W .x) (Const.nan K)).bind fun M =>
    (M.vec fun W => setScalar (W .y) (Const.nan K)).bind fun M =>
    (M.vec fun W => toRaw (W .solX) (W .x)).bind fun M =>
    (M.vec fun W => toRaw (W .solY) (W .y)).bind fun M =>
    (coldStart M).bind fun M =>
    (if M.g.info.status_val = St.primInf ∨ M.g.info.status_val = St.primInfInacc then
      (normOf M .dy).bind fun r =>
      (M.vec fun W => multScalar (W .dy) (1 / r)).bind fun M =>
      (M.vec fun W => toRaw (W .solPc) (W .dy)).bind fun M =>
      (M.vec fun W => setScalar (W .dx) (Const.nan K)).bind fun M =>
      M.vec fun W => toRaw (W .solDc) (W .dx)
    else some M).bind fun M =>
    if M.g.info.status_val = St.dualInf ∨ M.g.info.status_val = St.dualInfInacc then
      (normOf M .dx).bind fun r =>
      (M.vec fun W => multScalar (W .dx) (1 / r)).bind fun M =>
      (M.vec fun W => toRaw (W .solDc) (W .dx)).bind fun M =>
      (M.vec fun W => setScalar (W .dy) (Const.nan K)).bind fun M =>
      M.vec fun W => toRaw (W .solPc) (W .dy)
    else some M

/-! ## Step size -/

/-- src/auxil.c:14-47 `compute_rho_estimate`. -/
def computeRhoEstimate (F : Fix L K) (M : Mach L K) : Option K :=
  (normOf M .z).bind fun a => (normOf M .Ax).bind fun b =>
  (normOf M .q).bind fun c => (normOf M .Aty).bind fun e => (normOf M .Px).bind fun f =>
  let prim_res := M.g.scaled_prim_res / (cMax a b + Const.divisionTol K)
  let dual_res := M.g.scaled_dual_res / (cMax (cMax c e) f + Const.divisionTol K)
  some (if dual_res = 0 then if prim_res = 0 then Const.rhoMin K else Const.rhoMax K
    else clampRho (M.g.st.rho * F.sqrt (prim_res / dual_res)))

/-- osqp_api.c:1412-1464 `osqp_update_rho`. -/
def updateRho (F : Fix L K) (rho_new : K) (M : Mach L K) : Option (Mach L K × ℤ) :=
  if rho_new ≤ 0 then some (M, 1)
  else
    let M := if F.cfg.profiling && !M.g.rho_update_from_solve then
        if M.g.clear_update_time then (M.upd fun g => { g with clear_update_time := false, info := { g.info with update_time := 0 } }) else M
      else M
    let M := M.upd fun g => { g with st := { g.st with rho := clampRho rho_new } }
    (if M.g.st.rho_is_vec ≠ 0 then
      (M.vec fun W => setCond (W .rho) M.ct (Const.rhoMin K) M.g.st.rho (Const.rhoEqOverIneq K * M.g.st.rho)).bind fun M =>
      M.vec fun W => reciprocal (W .rhoInv) (W .rho)
    else some (M.upd fun g => { g with rho_inv := 1 / g.st.rho })).bind fun M =>
    (F.updRho M.lin (if M.g.st.rho_is_vec ≠ 0 then some (M.σ (M.W .rho).blk) else none) M.g.st.rho).bind fun r =>
    let M := { M with lin := r.1 }
    let M := if F.cfg.profiling && !M.g.rho_update_from_solve then
        let t := M.toc F
        (t.2.upd fun g => { g with info := { g.info with update_time := g.info.update_time + t.1 } })
      else M
    some (M, r.2)

/-- src/auxil.c:49-74 `adapt_rho`. -/
def adaptRho (F : Fix L K) (M : Mach L K) : Option (Mach L K × ℤ) :=
  (computeRhoEstimate F M).bind fun rho_new =>
  let M := M.upd fun g => { g with info := { g.info with rho_estimate := rho_new } }
  if rho_new > M.g.st.rho * M.g.st.adaptive_rho_tolerance ∨ rho_new < M.g.st.rho / M.g.st.adaptive_rho_tolerance then
    (updateRho F rho_new M).bind fun r =>
    let M := r.1
    some ((M.upd fun g => { g with rho_updated := true, info := { g.info with rho_updates := g.info.rho_updates + 1 } }), r.2)
  else some (M, 0)

/-! ## The loop -/

/-- osqp_api.c:776-843: may the step size be adapted in this iteration? -/
def adaptDecision (F : Fix L K) (iter : ℤ) (M : Mach L K) : Mach L K × Bool :=
  let ar := M.g.st.adaptive_rho
  if ar = 2 then
    if F.cfg.profiling then
      if M.g.st.adaptive_rho_interval = 0 then
        let t := M.toc F
        let M := t.2
        if t.1 > M.g.st.adaptive_rho_fraction * M.g.info.setup_time then
          let M := M.upd fun g => { g with st := { g.st with adaptive_rho_interval := timeInterval g.st iter } }
          (M, intervalRule M.g.st iter)
        else (M, false)
      else (M, intervalRule M.g.st iter)
    else (M, false)
  else if ar = 3 ∨ ar = 1 then (M, intervalRule M.g.st iter)
  else (M, false)

/-- osqp_api.c:741-759: is the time limit reached? -/
def timeCheck (F : Fix L K) (M : Mach L K) : Mach L K × Bool :=
  if F.cfg.profiling then
    let t := M.toc F
    let M := t.2
    let run := (if M.g.first_run then M.g.info.setup_time else M.g.info.update_time) + t.1
    (M, decide (M.g.st.time_limit ≠ 0) && decide (run ≥ M.g.st.time_limit))
  else (M, false)

/-- osqp_api.c:730-736: interrupt poll. -/
def intrCheck (F : Fix L K) (M : Mach L K) : Mach L K × Bool :=
  if F.cfg.interrupt then ((M.upd fun g => { g with polls := g.polls + 1 }), F.intr M.g.polls) else (M, false)

/-- osqp_api.c:867-895. -/
def adaptPhase (F : Fix L K) (canAdapt : Bool) (M : Mach L K) : Option (Mach L K × Bool) :=
  let M := M.upd fun g => { g with rho_updated := false }
  let canAdapt := if canAdapt && decide (M.g.st.adaptive_rho = 3) then
      decide (M.g.info.rel_kkt_error ≤ M.g.st.adaptive_rho_fraction * M.g.last_rel_kkt)
    else canAdapt
  (if canAdapt then adaptRho F M else some (M, 0)).bind fun r =>
  let M := r.1
  if r.2 ≠ 0 then some (M, true)
  else if M.g.rho_updated then some ((M.upd fun g => { g with last_rel_kkt := g.info.rel_kkt_error }), false)
  else some (M, false)

/-- The machine and the locals `can_print`, `can_check_termination`. -/
structure LoopM (L K : Type*) where
  M : Mach L K
  canPrint : Bool
  canCheck : Bool

/-- How a pass through the loop body ends. -/
inductive IterM (L K : Type*)
  | cont (l : LoopM L K)
  | brk (l : LoopM L K)
  | exit (M : Mach L K)

/-- osqp_api.c:698-903: the body of the main loop. -/
def iterBody (F : Fix L K) (iter : ℤ) (l : LoopM L K) : Option (IterM L K) :=
  (iterate l.M.g.st l.M.g.rho_inv (F.solve l.M.lin) F.xz l.M.W l.M.σ).bind fun r =>
  let M := { l.M with W := r.1, σ := r.2 }
  let r := intrCheck F M
  let M := r.1
  if r.2 then some (.exit (M.status St.sigint))
  else
    let r := timeCheck F M
    let M := r.1
    if r.2 then some (.brk { M := M.status St.timeLimit, canPrint := if F.cfg.printing then false else l.canPrint, canCheck := l.canCheck })
    else
      let canCheck := decide (M.g.st.check_termination ≠ 0) && decide (iter % M.g.st.check_termination = 0)
      let canPrint := F.cfg.printing && decide (M.g.st.verbose ≠ 0) && (decide (iter % 200 = 0) || decide (iter = 1))
      let r := adaptDecision F iter M
      let M := r.1
      let canAdapt := r.2
      (if canCheck || canPrint || canAdapt || decide (iter = 1) then updateInfo F iter M else some M).bind fun M =>
      (if canCheck then checkTermination F false M else some (M, false)).bind fun r =>
      let M := r.1
      if r.2 then some (.brk { M := M, canPrint := canPrint, canCheck := canCheck })
      else
        (adaptPhase F canAdapt M).bind fun r =>
        if r.2 then some (.exit r.1) else some (.cont { M := r.1, canPrint := canPrint, canCheck := canCheck })

/-- How the loop ends. -/
inductive LoopEnd (L K : Type*)
  | done (iter : ℤ) (l : LoopM L K)
  | exit (M : Mach L K)

/-- `for (iter = 1; iter <= max_iter; iter++)`; the first argument is the number of iterations left. -/
def loop (F : Fix L K) : ℕ → ℤ → LoopM L K → Option (LoopEnd L K)
  | 0, iter, l => some (.done iter l)
  | k + 1, iter, l =>
    (iterBody F iter l).bind fun r =>
    match r with
    | .cont l' => loop F k (iter + 1) l'
    | .brk l' => some (.done iter l')
    | .exit M => some (.exit M)

/-- osqp_api.c:658-693. -/
def solveEntry (F : Fix L K) (M : Mach L K) : Option (LoopM L K) :=
  let M := if F.cfg.profiling then
      let M := if M.g.clear_update_time then (M.upd fun g => { g with info := { g.info with update_time := 0 } }) else M
      (M.upd fun g => { g with rho_update_from_solve := true })
    else M
  let M := if F.cfg.interrupt then (M.upd fun g => { g with handler := true }) else M
  (if M.g.st.warm_starting = 0 then coldStart M else some M).bind fun M =>
  some { M := M, canPrint := F.cfg.printing && decide (M.g.st.verbose ≠ 0), canCheck := false }

/-- osqp_api.c:906-932. -/
def postCheck (F : Fix L K) (iter : ℤ) (l : LoopM L K) : Option (Mach L K) :=
  if !l.canCheck then
    (if F.cfg.printing && l.canPrint then some l.M else updateInfo F (iter - 1) l.M).bind fun M =>
    (checkTermination F false M).bind fun r => some r.1
  else some l.M

/-- osqp_api.c:934-941. -/
def postObj (M : Mach L K) : Option (Mach L K) :=
  if hasSolution M.g.info then
    (computeObj M).bind fun r =>
    some (r.1.upd fun g => { g with info := { g.info with obj_val := r.2.1, dual_obj_val := r.2.2.1, duality_gap := r.2.2.2 } })
  else some M

/-- osqp_api.c:951-956. -/
def postMaxIter (F : Fix L K) (M : Mach L K) : Option (Mach L K) :=
  if M.g.info.status_val = St.unsolved then
    (checkTermination F true M).bind fun r => some (if r.2 then r.1 else r.1.status St.maxIter)
  else some M

/-- osqp_api.c:958-964. -/
def postTimeLimit (F : Fix L K) (M : Mach L K) : Option (Mach L K) :=
  if F.cfg.profiling && decide (M.g.info.status_val = St.timeLimit) then
    (checkTermination F true M).bind fun r => some (if r.2 then r.1 else r.1.status St.timeLimit)
  else some M

/-- osqp_api.c:968-976. -/
def postRho (F : Fix L K) (M : Mach L K) : Option (Mach L K) :=
  (computeRhoEstimate F M).bind fun r =>
  let M := M.upd fun g => { g with info := { g.info with rho_estimate := r } }
  some (if F.cfg.profiling then
      let t := M.toc F
      (t.2.upd fun g => { g with info := { g.info with solve_time := t.1 } })
    else M)

/-- osqp_api.c:993-1015. -/
def postTiming (F : Fix L K) (M : Mach L K) : Mach L K :=
  if F.cfg.profiling then
    let base := if M.g.first_run then M.g.info.setup_time else M.g.info.update_time
    (M.upd fun g => { g with
      info := { g.info with run_time := base + g.info.solve_time + g.info.polish_time }
      first_run := false, clear_update_time := true, rho_update_from_solve := false })
  else M

/-- osqp_api.c:1030-1033. -/
def endListener (F : Fix L K) (M : Mach L K) : Mach L K :=
  if F.cfg.interrupt then (M.upd fun g => { g with handler := false }) else M

/-- osqp_api.c:979-1037. -/
def finish (F : Fix L K) (M : Mach L K) : Option (Mach L K × ℤ) :=
  (if M.g.st.polishing ≠ 0 ∧ M.g.info.status_val = St.solved then F.polish M else some (M, 0)).bind fun r =>
  let M := r.1
  if r.2 > 0 then some (endListener F M, r.2)
  else (storeSolution F (postTiming F M)).bind fun M => some (endListener F M, r.2)

/-- osqp_api.c:636-1038 `osqp_solve` on an initialised solver. -/
def solve (F : Fix L K) (M : Mach L K) : Option (Mach L K × ℤ) :=
  (solveEntry F M).bind fun l =>
  (loop F l.M.g.st.max_iter.toNat 1 l).bind fun r =>
  match r with
  | .exit M => some (endListener F M, 1)
  | .done iter l =>
    (postCheck F iter l).bind fun M =>
    (postObj M).bind fun M =>
    (postMaxIter F M).bind fun M =>
    (postTimeLimit F M).bind fun M =>
    (postRho F M).bind fun M => finish F M

end Osqp.Vm
