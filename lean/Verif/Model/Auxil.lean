import Verif.Model.Types

/-!
# `src/auxil.c`: ADMM steps, residuals, termination

Each definition transcribes one C function.  A function taking `OSQPSolver*` and mutating it becomes a
function `Solver → Solver` (plus return value).
-/

namespace Osqp
variable {K : Type*} [Field K] [LinearOrder K] {d : Dims}

/-! ## Small state helpers -/

/-- `osqp_toc(work->timer)` (src/timing_linux.c:33-46): next reading of the clock oracle. -/
def toc (env : Env d K) (s : Solver d K) : K × Solver d K :=
  (env.clk s.ticks, { s with ticks := s.ticks + 1 })

/-- src/auxil.c:799-806 `update_status`.  Indexing `OSQP_STATUS_MESSAGE` outside its bounds would be
undefined; the model leaves the text unchanged then (never reached: all callers pass constants). -/
def updateStatus (i : Info K) (v : ℤ) : Info K :=
  { i with status_val := v, status := (statusMessage v).getD i.status }

/-- Shorthand for `update_status(solver->info, v)`. -/
def setStatus (s : Solver d K) (v : ℤ) : Solver d K := { s with info := updateStatus s.info v }

/-! ## Step size (rho) -/

/-- `c_min(c_max(x, OSQP_RHO_MIN), OSQP_RHO_MAX)` as used at auxil.c:44, 83 and osqp_api.c:495, 1439. -/
def clampRho (x : K) : K := cMin (cMax x (Const.rhoMin K)) (Const.rhoMax K)

/-- src/auxil.c:14-47 `compute_rho_estimate`.  IEEE division by zero is made explicit: `0/0` is NaN, which
`c_max` turns into `OSQP_RHO_MIN`; `p/0` with `p > 0` is `+Inf`, which `c_min` turns into `OSQP_RHO_MAX`. -/
def computeRhoEstimate (env : Env d K) (s : Solver d K) : K :=
  let w := s.work
  let prim_res_norm := cMax (vNormInf w.z) (vNormInf w.Ax)
  let prim_res := w.scaled_prim_res / (prim_res_norm + Const.divisionTol K)
  let dual_res_norm := cMax (cMax (vNormInf w.data.q) (vNormInf w.Aty)) (vNormInf w.Px)
  let dual_res := w.scaled_dual_res / (dual_res_norm + Const.divisionTol K)
  if dual_res = 0 then
    if prim_res = 0 then Const.rhoMin K else Const.rhoMax K
  else clampRho (s.settings.rho * env.sqrt (prim_res / dual_res))

/-- The rho vector written at auxil.c:96-100 and osqp_api.c:1443-1447. -/
def rhoVecOf (ct : Fin d.m → ℤ) (rho : K) : Vec K d.m :=
  vSetCond ct (Const.rhoMin K) rho (Const.rhoEqOverIneq K * rho)

/-- src/auxil.c:76-105 `set_rho_vec`; returns the new state and `constr_types_changed`. -/
def setRhoVec (s : Solver d K) : Solver d K × Bool :=
  let rho := clampRho s.settings.rho
  let ct := vBoundsType s.work.data.l s.work.data.u (Const.rhoTol K) (Const.infval K)
  let rv := rhoVecOf ct rho
  ({ s with
      settings := { s.settings with rho := rho }
      work := { s.work with constr_type := ct, rho_vec := rv, rho_inv_vec := vRecip rv } },
   vTypeChanged s.work.constr_type ct)

/-- algebra/_common/lin_sys/qdldl/qdldl_interface.c `update_linsys_solver_rho_vec_qdldl`: refresh the
inverse step sizes of the KKT matrix, refactor; the exit flag is 1 iff QDLDL returned a negative value. -/
def linsysUpdateRho (env : Env d K) (ls : LinSys d K) (rho_vec : Vec K d.m) (rho : K) :
    LinSys d K × ℤ :=
  let ls' : LinSys d K := match ls.rho_inv_vec with
    | some _ => { ls with rho_inv_vec := some (fun i => 1 / rho_vec i) }
    | none => { ls with rho_inv := 1 / rho }
  (ls', if env.factor ls' < 0 then 1 else 0)

/-- src/auxil.c:107-122 `update_rho_vec`. -/
def updateRhoVec (env : Env d K) (s : Solver d K) : Solver d K × ℤ :=
  let r := setRhoVec s
  let s := r.1
  let changed := r.2
  if changed then
    let r := linsysUpdateRho env s.work.linsys s.work.rho_vec s.settings.rho
    let ls := r.1
    let ef := r.2
    ({ s with work := { s.work with linsys := ls } }, ef)
  else (s, 0)

/-! ## ADMM iteration -/

/-- osqp_api.c:702-703 `swap_vectors(&x, &x_prev); swap_vectors(&z, &z_prev)`. -/
def swapIterates (s : Solver d K) : Solver d K :=
  { s with work := { s.work with x := s.work.x_prev, x_prev := s.work.x, z := s.work.z_prev, z_prev := s.work.z } }

/-- src/auxil.c:136-158 `compute_rhs`: the right-hand side left in `xz_tilde` (x part, z part). -/
def computeRhs (s : Solver d K) : Vec K d.n × Vec K d.m :=
  let w := s.work
  let bx := vAddScaled s.settings.sigma w.x_prev (-1) w.data.q
  let bz := if s.settings.rho_is_vec ≠ 0 then
      vAddScaled (-1) (vEwProd w.rho_inv_vec w.y) 1 w.z_prev
    else vAddScaled 1 w.z_prev (-w.rho_inv) w.y
  (bx, bz)

/-- qdldl_interface.c `solve_linsys_qdldl` (not polishing): x̃ is the x part of the KKT solution and
z̃ = b_z + rho_inv ∘ ν. -/
def linsysSolve (env : Env d K) (ls : LinSys d K) (b : Vec K d.n × Vec K d.m) : Vec K d.n × Vec K d.m :=
  let sol := env.kktSolve ls b.1 b.2
  (sol.1, fun j => b.2 j + ls.param2 j * sol.2 j)

/-- src/auxil.c:160-170 `update_xz_tilde`; the result is the pair of views `xtilde`, `ztilde`. -/
def updateXZTilde (env : Env d K) (s : Solver d K) : Vec K d.n × Vec K d.m :=
  linsysSolve env s.work.linsys (computeRhs s)

/-- src/auxil.c:172-184 `update_x`. -/
def updateX (xt : Vec K d.n) (s : Solver d K) : Solver d K :=
  let x := vAddScaled s.settings.alpha xt (1 - s.settings.alpha) s.work.x_prev
  { s with work := { s.work with x := x, delta_x := vMinus x s.work.x_prev } }

/-- src/auxil.c:186-208 `update_z`. -/
def updateZ (zt : Vec K d.m) (s : Solver d K) : Solver d K :=
  let w := s.work
  let al := s.settings.alpha
  let z := if s.settings.rho_is_vec ≠ 0 then
      vAddScaled3 1 (vEwProd w.rho_inv_vec w.y) al zt (1 - al) w.z_prev
    else vAddScaled3 al zt (1 - al) w.z_prev w.rho_inv w.y
  { s with work := { w with z := vBound z w.data.l w.data.u } }

/-- src/auxil.c:210-229 `update_y`. -/
def updateY (zt : Vec K d.m) (s : Solver d K) : Solver d K :=
  let w := s.work
  let al := s.settings.alpha
  let dy0 := vAddScaled3 al zt (1 - al) w.z_prev (-1) w.z
  let dy := if s.settings.rho_is_vec ≠ 0 then vEwProd dy0 w.rho_vec else vScale dy0 s.settings.rho
  { s with work := { w with delta_y := dy, y := vPlus w.y dy } }

/-- osqp_api.c:700-727: the ADMM steps of one iteration. -/
def admmStep (env : Env d K) (s : Solver d K) : Solver d K :=
  let s := swapIterates s
  let t := updateXZTilde env s
  updateY t.2 (updateZ t.2 (updateX t.1 s))

/-! ## Objective, residuals, tolerances -/

/-- Values produced by `update_info` for the point it is given (the fields it writes through its
`prim_obj_val` … `dual_res` pointers). -/
structure Report (K : Type*) where
  obj : K
  dobj : K
  gap : K
  pres : K
  dres : K

/-- src/auxil.c:231-285 `compute_obj_val_dual_gap`: new state and `(prim_obj_val, dual_obj_val, gap)`.
Uses the *stored* `work->Px`. -/
def computeObj (s : Solver d K) (x : Vec K d.n) (y : Vec K d.m) : Solver d K × (K × K × K) :=
  let w := s.work
  let quad := vDot w.Px x
  let lin := vDot w.data.q x
  let yp := vRoundToZero (vProjectPolar y w.data.l w.data.u (Const.infval K)) (Const.zeroDeadzone K)
  let sup := vDotPos w.data.u yp + vDotNeg w.data.l yp
  let obj := 1 / 2 * quad + lin
  let dobj := -(1 / 2) * quad - sup
  let sgap := quad + lin + sup
  let s' := { s with work := { w with z_prev := yp, scaled_dual_gap := sgap, xtPx := quad, qtx := lin, SC := sup } }
  if s.settings.scaling ≠ 0 then
    (s', obj * w.scaling.cinv, dobj * w.scaling.cinv, w.scaling.cinv * sgap)
  else (s', obj, dobj, sgap)

/-- "unscale for termination": `settings->scaling && !settings->scaled_termination`. -/
def Settings.unscaledTerm (st : Settings K) : Prop := st.scaling ≠ 0 ∧ st.scaled_termination = 0

instance (st : Settings K) : Decidable st.unscaledTerm := by unfold Settings.unscaledTerm; infer_instance

/-- src/auxil.c:287-306 `compute_duality_gap_tol`. -/
def gapTol (s : Solver d K) (eps_abs eps_rel : K) : K :=
  let w := s.work
  let mx := cMax (cMax (cAbs w.xtPx) (cAbs w.qtx)) (cAbs w.SC)
  let mx := if s.settings.unscaledTerm then w.scaling.cinv * mx else mx
  eps_abs + eps_rel * mx

/-- src/auxil.c:308-332 `compute_prim_res`. -/
def computePrimRes (s : Solver d K) (x : Vec K d.n) (z : Vec K d.m) : Solver d K × K :=
  let w := s.work
  let Ax := spMul d.A w.data.A x
  let zp := vMinus Ax z
  let sres := vNormInf zp
  let s' := { s with work := { w with Ax := Ax, z_prev := zp, scaled_prim_res := sres } }
  (s', if s.settings.unscaledTerm then vScaledNormInf w.scaling.Einv zp else sres)

/-- src/auxil.c:334-369 `compute_prim_tol`. -/
def primTol (s : Solver d K) (eps_abs eps_rel : K) : K :=
  let w := s.work
  let mx := if s.settings.unscaledTerm then
      cMax (vScaledNormInf w.scaling.Einv w.z) (vScaledNormInf w.scaling.Einv w.Ax)
    else cMax (vNormInf w.z) (vNormInf w.Ax)
  eps_abs + eps_rel * mx

/-- src/auxil.c:371-410 `compute_dual_res`. -/
def computeDualRes (s : Solver d K) (x : Vec K d.n) (y : Vec K d.m) : Solver d K × K :=
  let w := s.work
  let Px := symMul d.P w.data.P x
  let r0 := vPlus w.data.q Px
  let Aty := if d.m ≠ 0 then spMulT d.A w.data.A y else w.Aty
  let r := if d.m ≠ 0 then vPlus r0 Aty else r0
  let sres := vNormInf r
  let s' := { s with work := { w with Px := Px, Aty := Aty, x_prev := r, scaled_dual_res := sres } }
  (s', if s.settings.unscaledTerm then w.scaling.cinv * vScaledNormInf w.scaling.Dinv r else sres)

/-- src/auxil.c:412-458 `compute_dual_tol`. -/
def dualTol (s : Solver d K) (eps_abs eps_rel : K) : K :=
  let w := s.work
  let mx := if s.settings.unscaledTerm then
      cMax (cMax (vScaledNormInf w.scaling.Dinv w.data.q) (vScaledNormInf w.scaling.Dinv w.Aty))
        (vScaledNormInf w.scaling.Dinv w.Px) * w.scaling.cinv
    else cMax (cMax (vNormInf w.data.q) (vNormInf w.Aty)) (vNormInf w.Px)
  eps_abs + eps_rel * mx

/-- The computations of src/auxil.c:676-762 `update_info` on a point, without the bookkeeping fields. -/
def computeReport (s : Solver d K) (x : Vec K d.n) (z y : Vec K d.m) : Solver d K × Report K :=
  let r := if d.m = 0 then (s, 0) else computePrimRes s x z
  let s := r.1
  let pres := r.2
  let r := computeDualRes s x y
  let s := r.1
  let dres := r.2
  let r := computeObj s x y
  let s := r.1
  let obj := r.2.1
  let dobj := r.2.2.1
  let gap := r.2.2.2
  (s, ⟨obj, dobj, gap, pres, dres⟩)

/-- src/auxil.c:757 relative KKT error. -/
def relKkt (r : Report K) : K := cMax (cMax r.dres r.pres) r.gap

/-- src/auxil.c:676-762 `update_info(solver, iter, 0)`. -/
def updateInfo (cfg : Cfg) (env : Env d K) (iter : ℤ) (s : Solver d K) : Solver d K :=
  let rr := computeReport s s.work.x s.work.z s.work.y
  let s := rr.1
  let r := rr.2
  let s := { s with info := { s.info with
      iter := iter, obj_val := r.obj, dual_obj_val := r.dobj, duality_gap := r.gap,
      prim_res := r.pres, dual_res := r.dres,
      primdual_int := s.info.primdual_int + cAbs r.gap,
      rel_kkt_error := relKkt r } }
  if cfg.profiling then
    let r := toc env s
    let t := r.1
    let s := r.2
    { s with info := { s.info with solve_time := t } }
  else s

/-- src/auxil.c:765-782 `reset_info`. -/
def resetInfo (cfg : Cfg) (i : Info K) : Info K :=
  let i := if cfg.profiling then { i with solve_time := 0, polish_time := 0 } else i
  { updateStatus i St.unsolved with rho_updates := 0 }

/-! ## Infeasibility detection and termination -/

/-- src/auxil.c:460-512 `is_primal_infeasible`.  Always projects `delta_y` in place. -/
def isPrimalInfeasible (s : Solver d K) (eps : K) : Solver d K × Bool :=
  let w := s.work
  let dy := vProjectPolar w.delta_y w.data.l w.data.u (Const.infval K)
  let s' := { s with work := { w with delta_y := dy } }
  let nrm := if s.settings.unscaledTerm then vNormInf (vEwProd w.scaling.E dy) else vNormInf dy
  if nrm > Const.divisionTol K then
    let lhs := vDotPos w.data.u dy + vDotNeg w.data.l dy
    if lhs < 0 then
      let Aty := spMulT d.A w.data.A dy
      let Aty := if s.settings.unscaledTerm then vEwProd Aty w.scaling.Dinv else Aty
      (s', decide (vNormInf Aty < eps * nrm))
    else (s', false)
  else (s', false)

/-- src/auxil.c:514-588 `is_dual_infeasible` (does not change observable state). -/
def isDualInfeasible (s : Solver d K) (eps : K) : Bool :=
  let w := s.work
  let un := s.settings.unscaledTerm
  let nrm := if un then vScaledNormInf w.scaling.D w.delta_x else vNormInf w.delta_x
  let cs := if un then w.scaling.c else 1
  if nrm > Const.divisionTol K then
    if vDot w.data.q w.delta_x < 0 then
      let Pdx := symMul d.P w.data.P w.delta_x
      let Pdx := if un then vEwProd Pdx w.scaling.Dinv else Pdx
      if vNormInf Pdx < cs * eps * nrm then
        let Adx := spMul d.A w.data.A w.delta_x
        let Adx := if un then vEwProd Adx w.scaling.Einv else Adx
        vInReccone Adx w.data.l w.data.u (Const.infval K) (eps * nrm)
      else false
    else false
  else false

/-- src/auxil.c:590-596 `has_solution`. -/
def hasSolution (i : Info K) : Bool :=
  decide (i.status_val ≠ St.primInf) && decide (i.status_val ≠ St.primInfInacc) &&
  decide (i.status_val ≠ St.dualInf) && decide (i.status_val ≠ St.dualInfInacc) &&
  decide (i.status_val ≠ St.nonCvx)

/-- src/auxil.c:808-945 `check_termination`. -/
def checkTermination (approx : Bool) (s : Solver d K) : Solver d K × Bool :=
  let st := s.settings
  if s.info.prim_res > Const.infty K ∨ s.info.dual_res > Const.infty K then
    ({ s with info := { updateStatus s.info St.nonCvx with obj_val := Const.nan K } }, true)
  else
    let k : K := if approx then 10 else 1
    let eps_abs := st.eps_abs * k
    let eps_rel := st.eps_rel * k
    let eps_prim_inf := st.eps_prim_inf * k
    let eps_dual_inf := st.eps_dual_inf * k
    -- primal residual and primal infeasibility (lines 851-866)
    let primOk : Bool := d.m = 0 || decide (s.info.prim_res < primTol s eps_abs eps_rel)
    let r := if primOk then (s, false) else isPrimalInfeasible s eps_prim_inf
    let s := r.1
    let primInf := r.2
    -- dual residual and dual infeasibility (lines 868-877)
    let dualOk : Bool := decide (s.info.dual_res < dualTol s eps_abs eps_rel)
    let dualInf : Bool := if dualOk then false else isDualInfeasible s eps_dual_inf
    -- duality gap (lines 879-898)
    let gapOk : Bool := if st.check_dualgap ≠ 0 then
        if st.unscaledTerm then decide (cAbs s.info.duality_gap < gapTol s eps_abs eps_rel)
        else decide (cAbs s.work.scaled_dual_gap < gapTol s eps_abs eps_rel)
      else true
    if primOk && dualOk && gapOk then
      (setStatus s (if approx then St.solvedInacc else St.solved), true)
    else if primInf then
      let s := setStatus s (if approx then St.primInfInacc else St.primInf)
      let s := if st.unscaledTerm then
          { s with work := { s.work with delta_y := vEwProd s.work.delta_y s.work.scaling.E } } else s
      ({ s with info := { s.info with obj_val := Const.infty K } }, true)
    else if dualInf then
      let s := setStatus s (if approx then St.dualInfInacc else St.dualInf)
      let s := if st.unscaledTerm then
          { s with work := { s.work with delta_x := vEwProd s.work.delta_x s.work.scaling.D } } else s
      ({ s with info := { s.info with obj_val := -Const.infty K } }, true)
    else (s, false)

/-! ## Storing the solution -/

/-- osqp_api.c:1296-1304 `osqp_cold_start` (QDLDL's `warm_start` hook does nothing). -/
def coldStart (s : Solver d K) : Solver d K :=
  { s with work := { s.work with x := vSet 0, z := vSet 0, y := vSet 0 } }

/-- scaling.c:194-208 `unscale_solution`. -/
def unscaleSolution (sc : Scaling d K) (x : Vec K d.n) (y : Vec K d.m) : Vec K d.n × Vec K d.m :=
  (vEwProd x sc.D, vScale (vEwProd y sc.E) sc.cinv)

/-- src/auxil.c:598-674 `store_solution(solver, solution)` with a non-NULL destination `sol`: new solver
state and new contents of the destination.  Simplification: `1. / norm_vec` is field division (`1/0 = 0`)
in the certificate normalisation; the validity theorems show `norm_vec > 0` for fresh certificates. -/
def storeSolution (s : Solver d K) (sol : Solution d K) : Solver d K × Solution d K :=
  let w := s.work
  if hasSolution s.info then
    let r := if s.settings.scaling ≠ 0 then
        let us := unscaleSolution w.scaling w.x w.y
        ({ s with work := { s.work with x_prev := us.1, z_prev := us.2 } }, { sol with x := us.1, y := us.2 })
      else (s, { sol with x := w.x, y := w.y })
    let s := r.1
    let sol := r.2
    let s := { s with work := { s.work with delta_y := vSet (Const.nan K), delta_x := vSet (Const.nan K) } }
    (s, { sol with prim_inf_cert := s.work.delta_y, dual_inf_cert := s.work.delta_x })
  else
    let sol := { sol with x := vSet (Const.nan K), y := vSet (Const.nan K) }
    let s := coldStart s
    let v := s.info.status_val
    let r := if v = St.primInf ∨ v = St.primInfInacc then
        let dy := vScale s.work.delta_y (1 / vNormInf s.work.delta_y)
        ({ s with work := { s.work with delta_y := dy, delta_x := vSet (Const.nan K) } },
         { sol with prim_inf_cert := dy, dual_inf_cert := vSet (Const.nan K) })
      else (s, sol)
    let s := r.1
    let sol := r.2
    if v = St.dualInf ∨ v = St.dualInfInacc then
      let dx := vScale s.work.delta_x (1 / vNormInf s.work.delta_x)
      ({ s with work := { s.work with delta_x := dx, delta_y := vSet (Const.nan K) } },
       { sol with dual_inf_cert := dx, prim_inf_cert := vSet (Const.nan K) })
    else (s, sol)

/-- `store_solution(solver, solver->solution)` as called at osqp_api.c:1023 (returns at once when the
solution struct was not allocated, auxil.c:608-610). -/
def storeOwnSolution (s : Solver d K) : Solver d K :=
  match s.solution with
  | none => s
  | some sol =>
    let r := storeSolution s sol
    { r.1 with solution := some r.2 }

end Osqp
