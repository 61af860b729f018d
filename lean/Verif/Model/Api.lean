import Verif.Model.Scaling
import Verif.Model.Polish
import Verif.Model.Validate

/-!
# `src/osqp_api.c`: the public API

`osqp_setup`, `osqp_solve`, `osqp_update_*`, `osqp_warm_start`, `osqp_cold_start`, `osqp_get_solution`, and
histories of API calls.  NULL-pointer handling is modelled separately (`Verif/Mem/Calls.lean`).
-/

namespace Osqp
variable {K : Type*} [Field K] [LinearOrder K] {d : Dims}

/-! ## Step-size updates -/

/-- `if (work->clear_update_time == 1) { clear_update_time = 0; info->update_time = 0 }`
(osqp_api.c:1200-1203, 1326-1329, 1430-1433), under `OSQP_ENABLE_PROFILING`. -/
def clearUpdateTime (s : Solver d K) : Solver d K :=
  if s.work.clear_update_time then
    { s with work := { s.work with clear_update_time := false }, info := { s.info with update_time := 0 } }
  else s

/-- `info->update_time += osqp_toc(work->timer)`. -/
def addUpdateTime (env : Env d K) (s : Solver d K) : Solver d K :=
  let r := toc env s
  let t := r.1
  let s := r.2
  { s with info := { s.info with update_time := s.info.update_time + t } }

/-- osqp_api.c:1438-1453: store the clamped step size and recompute the vectors / inverse. -/
def setRho (s : Solver d K) (rho_new : K) : Solver d K :=
  let rho := clampRho rho_new
  let s := { s with settings := { s.settings with rho := rho } }
  if s.settings.rho_is_vec ≠ 0 then
    let rv := rhoVecOf s.work.constr_type rho
    { s with work := { s.work with rho_vec := rv, rho_inv_vec := vRecip rv } }
  else { s with work := { s.work with rho_inv := 1 / rho } }

/-- osqp_api.c:1412-1464 `osqp_update_rho`. -/
def osqpUpdateRho (cfg : Cfg) (env : Env d K) (s : Solver d K) (rho_new : K) : Solver d K × ℤ :=
  if rho_new ≤ 0 then (s, 1)
  else
    let s := if cfg.profiling && !s.work.rho_update_from_solve then clearUpdateTime s else s
    let s := setRho s rho_new
    let r := linsysUpdateRho env s.work.linsys s.work.rho_vec s.settings.rho
    let ls := r.1
    let ef := r.2
    let s := { s with work := { s.work with linsys := ls } }
    let s := if cfg.profiling && !s.work.rho_update_from_solve then addUpdateTime env s else s
    (s, ef)

/-- src/auxil.c:49-74 `adapt_rho`. -/
def adaptRho (cfg : Cfg) (env : Env d K) (s : Solver d K) : Solver d K × ℤ :=
  let rho_new := computeRhoEstimate env s
  let s := { s with info := { s.info with rho_estimate := rho_new } }
  if rho_new > s.settings.rho * s.settings.adaptive_rho_tolerance ∨
     rho_new < s.settings.rho / s.settings.adaptive_rho_tolerance then
    let r := osqpUpdateRho cfg env s rho_new
    let s := r.1
    let ef := r.2
    ({ s with info := { s.info with rho_updates := s.info.rho_updates + 1 }
              work := { s.work with rho_updated := true } }, ef)
  else (s, 0)

/-! ## The main loop -/

/-- State of the loop of `osqp_solve`: the solver and the C locals `can_print`, `can_check_termination`. -/
structure LoopSt (d : Dims) (K : Type*) where
  s : Solver d K
  canPrint : Bool
  canCheck : Bool

/-- Outcome of one loop body. -/
inductive IterOut (d : Dims) (K : Type*)
  | cont (L : LoopSt d K)      -- next iteration
  | brk (L : LoopSt d K)       -- `break`
  | exit (s : Solver d K)      -- `exitflag = 1; goto exit`

/-- `(OSQPInt)c_roundmultiple(iter, N)` (glob_opts.h:49) for positive integers:
`x + N/2 - fmod(x + N/2, N)` is the largest multiple of `N` not above `x + N/2`. -/
def roundMultiple (x N : ℤ) : ℤ := N * ((2 * x + N) / (2 * N))

/-- `settings->adaptive_rho_interval && (iter % settings->adaptive_rho_interval == 0)`, osqp_api.c:837-841. -/
def intervalRule (st : Settings K) (iter : ℤ) : Bool :=
  decide (st.adaptive_rho_interval ≠ 0) && decide (iter % st.adaptive_rho_interval = 0)

/-- osqp_api.c:793-812: the interval chosen in time mode. -/
def timeInterval (st : Settings K) (iter : ℤ) : ℤ :=
  let r := if st.check_termination ≠ 0 then roundMultiple iter st.check_termination
    else roundMultiple iter 25
  let mx := if r > st.check_termination then r else st.check_termination   -- c_max
  if 1 < mx then 1 else mx                                                 -- c_min(1, .)

/-- osqp_api.c:776-843: the `switch` deciding `can_adapt_rho` (and, in time mode, fixing the interval). -/
def adaptDecision (cfg : Cfg) (env : Env d K) (iter : ℤ) (s : Solver d K) : Solver d K × Bool :=
  let ar := s.settings.adaptive_rho
  if ar = 2 then
    if cfg.profiling then
      if s.settings.adaptive_rho_interval = 0 then
        let r := toc env s
        let t := r.1
        let s := r.2
        if t > s.settings.adaptive_rho_fraction * s.info.setup_time then
          let s := { s with settings := { s.settings with adaptive_rho_interval := timeInterval s.settings iter } }
          (s, intervalRule s.settings iter)
        else (s, false)
      else (s, intervalRule s.settings iter)
    else (s, false)
  else if ar = 3 ∨ ar = 1 then (s, intervalRule s.settings iter)
  else (s, false)

/-- osqp_api.c:741-759: the time-limit test of one iteration (profiling builds). Returns `true` to break. -/
def timeCheck (cfg : Cfg) (env : Env d K) (s : Solver d K) : Solver d K × Bool :=
  if cfg.profiling then
    let r := toc env s
    let t := r.1
    let s := r.2
    let run := (if s.work.first_run then s.info.setup_time else s.info.update_time) + t
    (s, decide (s.settings.time_limit ≠ 0) && decide (run ≥ s.settings.time_limit))
  else (s, false)

/-- osqp_api.c:730-736: interrupt poll. -/
def intrCheck (cfg : Cfg) (env : Env d K) (s : Solver d K) : Solver d K × Bool :=
  if cfg.interrupt then ({ s with polls := s.polls + 1 }, env.intr s.polls) else (s, false)

/-- osqp_api.c:867-895: the rho adaptation at the end of an iteration; `true` = failed (`goto exit`). -/
def adaptPhase (cfg : Cfg) (env : Env d K) (canAdapt : Bool) (s : Solver d K) : Solver d K × Bool :=
  let s := { s with work := { s.work with rho_updated := false } }
  let canAdapt := if canAdapt && decide (s.settings.adaptive_rho = 3) then
      decide (s.info.rel_kkt_error ≤ s.settings.adaptive_rho_fraction * s.work.last_rel_kkt)
    else canAdapt
  let r := if canAdapt then adaptRho cfg env s else (s, 0)
  let s := r.1
  let ef := r.2
  if ef ≠ 0 then (s, true)
  else if s.work.rho_updated then
    ({ s with work := { s.work with last_rel_kkt := s.info.rel_kkt_error } }, false)
  else (s, false)

/-- osqp_api.c:698-903: one pass through the body of the main loop. -/
def iterBody (cfg : Cfg) (env : Env d K) (iter : ℤ) (L : LoopSt d K) : IterOut d K :=
  let s := admmStep env L.s
  let r := intrCheck cfg env s
  let s := r.1
  let hit := r.2
  if hit then .exit (setStatus s St.sigint)
  else
    let r := timeCheck cfg env s
    let s := r.1
    let late := r.2
    if late then
      .brk { s := setStatus s St.timeLimit, canPrint := if cfg.printing then false else L.canPrint,
             canCheck := L.canCheck }
    else
      let st := s.settings
      let canCheck := decide (st.check_termination ≠ 0) && decide (iter % st.check_termination = 0)
      let canPrint := cfg.printing && decide (st.verbose ≠ 0) && (decide (iter % 200 = 0) || decide (iter = 1))
      let r := adaptDecision cfg env iter s
      let s := r.1
      let canAdapt := r.2
      let s := if canCheck || canPrint || canAdapt || decide (iter = 1) then updateInfo cfg env iter s else s
      let r := if canCheck then checkTermination false s else (s, false)
      let s := r.1
      let stop := r.2
      if stop then .brk { s := s, canPrint := canPrint, canCheck := canCheck }
      else
        let r := adaptPhase cfg env canAdapt s
        let s := r.1
        let fail := r.2
        if fail then .exit s else .cont { s := s, canPrint := canPrint, canCheck := canCheck }

/-- How the loop ended: normally or by `break` (with the value of `iter`), or by `goto exit`. -/
inductive LoopOut (d : Dims) (K : Type*)
  | done (iter : ℤ) (L : LoopSt d K)
  | exit (s : Solver d K)

/-- `for (iter = 1; iter <= max_iter; iter++)`; the first argument is the number of iterations left. -/
def admmLoop (cfg : Cfg) (env : Env d K) : ℕ → ℤ → LoopSt d K → LoopOut d K
  | 0, iter, L => .done iter L
  | k + 1, iter, L =>
    match iterBody cfg env iter L with
    | .cont L' => admmLoop cfg env k (iter + 1) L'
    | .brk L' => .done iter L'
    | .exit s => .exit s

/-- osqp_api.c:658-693: entry of `osqp_solve` up to the loop. -/
def solveEntry (cfg : Cfg) (s : Solver d K) : LoopSt d K :=
  let s := if cfg.profiling then
      let s := if s.work.clear_update_time then { s with info := { s.info with update_time := 0 } } else s
      { s with work := { s.work with rho_update_from_solve := true } }
    else s
  let s := if cfg.interrupt then { s with handler := true } else s
  let s := if s.settings.warm_starting = 0 then coldStart s else s
  { s := s, canPrint := cfg.printing && decide (s.settings.verbose ≠ 0), canCheck := false }

/-- osqp_api.c:906-932: final update and check when the last iteration did not check. -/
def postCheck (cfg : Cfg) (env : Env d K) (iter : ℤ) (L : LoopSt d K) : Solver d K :=
  if !L.canCheck then
    let s := if cfg.printing && L.canPrint then L.s else updateInfo cfg env (iter - 1) L.s
    (checkTermination false s).1
  else L.s

/-- osqp_api.c:934-941: recompute the objective if there is a solution. -/
def postObj (s : Solver d K) : Solver d K :=
  if hasSolution s.info then
    let r := computeObj s s.work.x s.work.y
    let s := r.1
    let obj := r.2.1
    let dobj := r.2.2.1
    let gap := r.2.2.2
    { s with info := { s.info with obj_val := obj, dual_obj_val := dobj, duality_gap := gap } }
  else s

/-- osqp_api.c:951-956: unsolved → approximate check or "maximum iterations". -/
def postMaxIter (s : Solver d K) : Solver d K :=
  if s.info.status_val = St.unsolved then
    let r := checkTermination true s
    let s := r.1
    let ok := r.2
    if ok then s else setStatus s St.maxIter
  else s

/-- osqp_api.c:958-964: time limit → approximate check (profiling builds). -/
def postTimeLimit (cfg : Cfg) (s : Solver d K) : Solver d K :=
  if cfg.profiling && decide (s.info.status_val = St.timeLimit) then
    let r := checkTermination true s
    let s := r.1
    let ok := r.2
    if ok then s else setStatus s St.timeLimit
  else s

/-- osqp_api.c:968-976: rho estimate and solve time. -/
def postRho (cfg : Cfg) (env : Env d K) (s : Solver d K) : Solver d K :=
  let s := { s with info := { s.info with rho_estimate := computeRhoEstimate env s } }
  if cfg.profiling then
    let r := toc env s
    let t := r.1
    let s := r.2
    { s with info := { s.info with solve_time := t } }
  else s

/-- osqp_api.c:979-991: polishing. -/
def postPolish (cfg : Cfg) (env : Env d K) (s : Solver d K) : Solver d K × ℤ :=
  if s.settings.polishing ≠ 0 ∧ s.info.status_val = St.solved then polish cfg env s else (s, 0)

/-- osqp_api.c:993-1015: run time and first-run flags (profiling builds). -/
def postTiming (cfg : Cfg) (s : Solver d K) : Solver d K :=
  if cfg.profiling then
    let base := if s.work.first_run then s.info.setup_time else s.info.update_time
    { s with
      info := { s.info with run_time := base + s.info.solve_time + s.info.polish_time }
      work := { s.work with first_run := false, clear_update_time := true, rho_update_from_solve := false } }
  else s

/-- osqp_api.c:1030-1033: restore the signal handler at label `exit`. -/
def endListener (cfg : Cfg) (s : Solver d K) : Solver d K :=
  if cfg.interrupt then { s with handler := false } else s

/-- osqp_api.c:906-976: everything between the loop and polishing. -/
def postLoop (cfg : Cfg) (env : Env d K) (iter : ℤ) (L : LoopSt d K) : Solver d K :=
  postRho cfg env (postTimeLimit cfg (postMaxIter (postObj (postCheck cfg env iter L))))

/-- osqp_api.c:979-1037: polishing, timing, storing the solution; returns the exit flag. -/
def finish (cfg : Cfg) (env : Env d K) (s : Solver d K) : Solver d K × ℤ :=
  let r := postPolish cfg env s
  let s := r.1
  let ef := r.2
  if ef > 0 then (endListener cfg s, ef)
  else (endListener cfg (storeOwnSolution (postTiming cfg s)), ef)

/-- osqp_api.c:636-1038 `osqp_solve` (on an initialised solver). -/
def osqpSolve (cfg : Cfg) (env : Env d K) (s : Solver d K) : Solver d K × ℤ :=
  let L := solveEntry cfg s
  match admmLoop cfg env L.s.settings.max_iter.toNat 1 L with
  | .exit s => (endListener cfg s, 1)
  | .done iter L => finish cfg env (postLoop cfg env iter L)

/-! ## Data updates -/

/-- osqp_api.c:1184-1257 `osqp_update_data_vec` (`none` = NULL argument). -/
def osqpUpdateDataVec (cfg : Cfg) (env : Env d K) (s : Solver d K)
    (q_new : Option (Vec K d.n)) (l_new u : Option (Vec K d.m)) : Solver d K × ℤ :=
  let s := if cfg.profiling then clearUpdateTime s else s
  let sc (v : Vec K d.m) : Vec K d.m := if s.settings.scaling ≠ 0 then vEwProd v s.work.scaling.E else v
  -- copy to scratch
  let s := match l_new with
    | some l => { s with work := { s.work with z_prev := sc l } }
    | none => s
  let s := match u with
    | some u => { s with work := { s.work with delta_y := sc u } }
    | none => s
  let bad := match l_new, u with
    | some _, some _ => !vAllLeq s.work.z_prev s.work.delta_y
    | some _, none => !vAllLeq s.work.z_prev s.work.data.u
    | none, some _ => !vAllLeq s.work.data.l s.work.delta_y
    | none, none => false
  if bad then (s, Err.dataValidation)
  else
    -- swap into place
    let s := match l_new with
      | some _ => { s with work := { s.work with
          z_prev := s.work.data.l, data := { s.work.data with l := s.work.z_prev } } }
      | none => s
    let s := match u with
      | some _ => { s with work := { s.work with
          delta_y := s.work.data.u, data := { s.work.data with u := s.work.delta_y } } }
      | none => s
    let r := if (l_new.isSome || u.isSome) && decide (s.settings.rho_is_vec ≠ 0)
      then updateRhoVec env s else (s, 0)
    let s := r.1
    let ef := r.2
    let s := match q_new with
      | some q =>
        let q' := if s.settings.scaling ≠ 0 then vScale (vEwProd q s.work.scaling.D) s.work.scaling.c else q
        { s with work := { s.work with data := { s.work.data with q := q' } } }
      | none => s
    let s := { s with info := resetInfo cfg s.info }
    let s := if cfg.profiling then addUpdateTime env s else s
    (s, ef)

/-- Arguments of `osqp_update_data_mat` for one matrix: values array, index array (either may be NULL) and
the element count. -/
structure MatUpd (K : Type*) where
  x : Option (List K)
  idx : Option (List ℤ)
  cnt : ℤ

/-- osqp_api.c:1337-1347 and 1354-1365: argument check of one matrix (true = rejected). -/
def matUpdBad (nnz : ℕ) (a : MatUpd K) : Bool :=
  decide (a.cnt > nnz) || decide (a.cnt < 0) ||
  (a.idx.isNone && decide (a.cnt ≠ 0) && decide (a.cnt ≠ nnz))

/-- osqp_api.c:1349-1352, 1367-1370: a count of 0 means "all". -/
def matUpdCnt (nnz : ℕ) (a : MatUpd K) : ℕ := if a.cnt = 0 then nnz else a.cnt.toNat

/-- Replace values if a value array was given (osqp_api.c:1374-1379). -/
def matUpdApply {q : ℕ} (v : Vec K q) (a : MatUpd K) : Option (Vec K q) :=
  match a.x with
  | some new => updateValues v new a.idx (matUpdCnt q a)
  | none => some v

/-- qdldl_interface.c `update_linsys_solver_matrices_qdldl`. -/
def linsysUpdateMat (env : Env d K) (ls : LinSys d K) (D : Data d K)
    (pi : Option (List ℤ)) (pn : ℕ) (ai : Option (List ℤ)) (an : ℕ) : Option (LinSys d K × ℤ) :=
  match copyValues ls.P D.P pi pn, copyValues ls.A D.A ai an with
  | some P, some A =>
    let ls' := { ls with P := P, A := A }
    some (ls', if env.factor ls' = d.n then 0 else 1)
  | _, _ => none

/-- osqp_api.c:1309-1409 `osqp_update_data_mat`; `none` = undefined behaviour. -/
def osqpUpdateDataMat (cfg : Cfg) (env : Env d K) (s : Solver d K) (p a : MatUpd K) :
    Option (Solver d K × ℤ) :=
  let s := if cfg.profiling then clearUpdateTime s else s
  if matUpdBad d.P.nnz p then some (s, 1)
  else if matUpdBad d.A.nnz a then some (s, 2)
  else
    let D0 := if s.settings.scaling ≠ 0 then unscaleData s.work.scaling s.work.data else s.work.data
    match matUpdApply D0.P p, matUpdApply D0.A a with
    | some P, some A =>
      let D1 := { D0 with P := P, A := A }
      let r := if s.settings.scaling ≠ 0 then scaleData env s.settings.scaling D1 else (D1, s.work.scaling)
      let s : Solver d K := { s with work := { s.work with data := r.1, scaling := r.2 } }
      let upd := if s.settings.scaling ≠ 0 then
          linsysUpdateMat env s.work.linsys s.work.data none d.P.nnz none d.A.nnz
        else linsysUpdateMat env s.work.linsys s.work.data p.idx (matUpdCnt d.P.nnz p) a.idx (matUpdCnt d.A.nnz a)
      match upd with
      | some (ls, ef) =>
        let s := { s with work := { s.work with linsys := ls }, info := resetInfo cfg s.info }
        let s := if cfg.profiling then addUpdateTime env s else s
        some (s, ef)
      | none => none
    | _, _ => none

/-! ## Warm start, settings, solution -/

/-- osqp_api.c:1260-1293 `osqp_warm_start`. -/
def osqpWarmStart (s : Solver d K) (x : Option (Vec K d.n)) (y : Option (Vec K d.m)) : Solver d K × ℤ :=
  let s := if s.settings.warm_starting = 0 then
      { s with settings := { s.settings with warm_starting := 1 } } else s
  let s := match x with
    | some x =>
      let x' := if s.settings.scaling ≠ 0 then vEwProd x s.work.scaling.Dinv else x
      { s with work := { s.work with x := x' } }
    | none => s
  let s := match y with
    | some y =>
      let y' := if s.settings.scaling ≠ 0 then vScale (vEwProd y s.work.scaling.Einv) s.work.scaling.c else y
      { s with work := { s.work with y := y' } }
    | none => s
  let s := match x with
    | some _ => { s with work := { s.work with z := spMul d.A s.work.data.A s.work.x } }
    | none => s
  (s, 0)

/-- osqp_api.c:1474-1530 `osqp_update_settings` (with non-NULL solver; `none` = NULL settings). -/
def osqpUpdateSettings (cfg : Cfg) (s : Solver d K) (new : Option (Settings K)) : Solver d K × ℤ :=
  match new with
  | none => (s, Err.settingsValidation)
  | some n =>
    if validateSettings cfg n false then (s, Err.settingsValidation)
    else ({ s with settings := { s.settings with
        profiler_level := n.profiler_level
        verbose := n.verbose
        warm_starting := n.warm_starting
        polishing := n.polishing
        alpha := n.alpha
        cg_max_iter := n.cg_max_iter
        cg_tol_reduction := n.cg_tol_reduction
        cg_tol_fraction := n.cg_tol_fraction
        cg_precond := n.cg_precond
        max_iter := n.max_iter
        eps_abs := n.eps_abs
        eps_rel := n.eps_rel
        eps_prim_inf := n.eps_prim_inf
        eps_dual_inf := n.eps_dual_inf
        scaled_termination := n.scaled_termination
        check_termination := n.check_termination
        check_dualgap := n.check_dualgap
        time_limit := n.time_limit
        delta := n.delta
        polish_refine_iter := n.polish_refine_iter } }, 0)

/-- osqp_api.c:1041-1052 `osqp_get_solution` with a non-NULL destination. -/
def osqpGetSolution (s : Solver d K) (dst : Solution d K) : Solver d K × Solution d K × ℤ :=
  let r := storeSolution s dst
  let s := r.1
  let sol := r.2
  (s, sol, 0)

/-! ## Setup -/

/-- Result of `osqp_setup`. -/
inductive SetupOut (d : Dims) (K : Type*)
  /-- validation error: `*solverp` is not written -/
  | rejected (code : ℤ)
  /-- linear-system initialisation failed: `*solverp` points to a partially built solver without a
  linear-system solver (only `osqp_cleanup` may be called) -/
  | failed (code : ℤ)
  | ok (s : Solver d K)

/-- osqp_api.c:574-606: adaptive-rho interval chosen at setup. -/
def setupInterval (st : Settings K) : ℤ :=
  if st.adaptive_rho = 1 then
    if st.adaptive_rho_interval = 0 then
      if st.check_termination ≠ 0 then 4 * st.check_termination else 100
    else st.adaptive_rho_interval
  else if st.adaptive_rho = 3 then
    if st.adaptive_rho_interval = 0 then 1 else st.adaptive_rho_interval
  else st.adaptive_rho_interval

/-- src/auxil.c:950-1017 `validate_data` on data whose dimensions already match the pattern (dimension and
pointer checks are modelled on raw inputs in `Verif/Csc/Validate.lean`); `true` = rejected. -/
def validateDataBad (D : Data d K) : Bool :=
  decide (d.n = 0) || (List.finRange d.P.nnz).any (fun k => decide (d.P.row k > d.P.col k)) ||
  (List.finRange d.m).any (fun j => decide (D.l j > D.u j))

/-- osqp_api.c:332-631 `osqp_setup` (allocations assumed to succeed here; see `Verif/Mem`). -/
def osqpSetup (cfg : Cfg) (env : Env d K) (D : Data d K) (st : Settings K) : SetupOut d K :=
  if validateDataBad D then .rejected Err.dataValidation
  else if validateSettings cfg st true then .rejected Err.settingsValidation
  else
    let sc0 : Scaling d K := ⟨0, 0, vSet 0, vSet 0, vSet 0, vSet 0⟩
    let r := if st.scaling ≠ 0 then scaleData env st.scaling D else (D, sc0)
    let w0 : Work d K :=
      { data := r.1, linsys := ⟨r.1.P, r.1.A, st.sigma, none, 0⟩,
        rho_vec := vSet 0, rho_inv_vec := vSet 0, rho_inv := 0, constr_type := fun _ => 0,
        x := vSet 0, y := vSet 0, z := vSet 0, x_prev := vSet 0, z_prev := vSet 0,
        Ax := vSet 0, Px := vSet 0, Aty := vSet 0, delta_y := vSet 0, delta_x := vSet 0,
        scaling := r.2, scaled_prim_res := 0, scaled_dual_res := 0, scaled_dual_gap := 0,
        xtPx := 0, qtx := 0, SC := 0, rho_updated := false, last_rel_kkt := 0,
        first_run := false, clear_update_time := false, rho_update_from_solve := false }
    let i0 : Info K :=
      { status := "", status_val := 0, status_polish := 0, obj_val := 0, dual_obj_val := 0, prim_res := 0,
        dual_res := 0, duality_gap := 0, iter := 0, rho_updates := 0, rho_estimate := 0, setup_time := 0,
        solve_time := 0, update_time := 0, polish_time := 0, run_time := 0, primdual_int := 0,
        rel_kkt_error := 0 }
    let s : Solver d K :=
      { settings := st, info := i0, work := w0, solution := none, ticks := 0, polls := 0, handler := false }
    -- step size, osqp_api.c:489-497 (the inverse is taken of the caller's value, line 496)
    let s := if st.rho_is_vec ≠ 0 then (setRhoVec s).1
      else { s with settings := { s.settings with rho := clampRho st.rho }
                    work := { s.work with rho_inv := 1 / st.rho } }
    -- linear-system solver, osqp_api.c:500-510 and init_linsys_solver_qdldl
    let ls : LinSys d K :=
      { P := s.work.data.P, A := s.work.data.A, sigma := s.settings.sigma,
        rho_inv_vec := if st.rho_is_vec ≠ 0 then some (fun i => 1 / s.work.rho_vec i) else none,
        rho_inv := 1 / s.settings.rho }
    if env.factor ls < d.n then .failed Err.nonCvx
    else
      let s := { s with work := { s.work with linsys := ls } }
      let s := coldStart s
      let sol : Option (Solution d K) := if st.allocate_solution ≠ 0 then
        some ⟨vSet 0, vSet 0, vSet 0, vSet 0⟩ else none
      let s := { s with solution := sol, info := updateStatus { s.info with status_polish := Pol.notPerformed } St.unsolved }
      let s := if cfg.profiling then
          let r := toc env s
          let t := r.1
          let s := r.2
          { s with info := { s.info with setup_time := t }
                   work := { s.work with first_run := true } }
        else s
      let s := { s with info := { s.info with
          rho_updates := 0, rho_estimate := s.settings.rho, obj_val := Const.infty K,
          prim_res := Const.infty K, dual_res := Const.infty K, rel_kkt_error := Const.infty K } }
      .ok { s with
        settings := { s.settings with adaptive_rho_interval := setupInterval s.settings }
        work := { s.work with last_rel_kkt := Const.infty K, rho_updated := false } }

/-! ## Histories of API calls -/

/-- One API call on an initialised solver. -/
inductive Op (d : Dims) (K : Type*)
  | solve
  | updateDataVec (q : Option (Vec K d.n)) (l u : Option (Vec K d.m))
  | updateDataMat (p a : MatUpd K)
  | updateRho (rho : K)
  | updateSettings (st : Option (Settings K))
  | warmStart (x : Option (Vec K d.n)) (y : Option (Vec K d.m))
  | coldStart
  | getSolution (dst : Solution d K)

/-- Effect and return code of one API call; `none` = undefined behaviour. -/
def apiStep (cfg : Cfg) (env : Env d K) (s : Solver d K) : Op d K → Option (Solver d K × ℤ)
  | .solve => some (osqpSolve cfg env s)
  | .updateDataVec q l u => some (osqpUpdateDataVec cfg env s q l u)
  | .updateDataMat p a => osqpUpdateDataMat cfg env s p a
  | .updateRho r => some (osqpUpdateRho cfg env s r)
  | .updateSettings st => some (osqpUpdateSettings cfg s st)
  | .warmStart x y => some (osqpWarmStart s x y)
  | .coldStart => some (coldStart s, 0)
  | .getSolution dst => let r := osqpGetSolution s dst; some (r.1, r.2.2)

/-- A history of API calls. -/
inductive Reach (cfg : Cfg) (env : Env d K) : Solver d K → Solver d K → Prop
  | refl (s) : Reach cfg env s s
  | step {s s' s'' : Solver d K} {op : Op d K} {code : ℤ} :
      Reach cfg env s s' → apiStep cfg env s' op = some (s'', code) → Reach cfg env s s''

/-- States of a solver created by a successful `osqp_setup` and any sequence of API calls. -/
def Reachable (cfg : Cfg) (env : Env d K) (s : Solver d K) : Prop :=
  ∃ D st s0, osqpSetup cfg env D st = .ok s0 ∧ Reach cfg env s0 s

end Osqp
