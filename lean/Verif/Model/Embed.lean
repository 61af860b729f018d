import Verif.Model.Api

/-!
# Embedded builds

The same sources compiled with `OSQP_EMBEDDED_MODE` equal to 1 (only vectors can be updated) or 2 (matrices too), as generated code is. A function that
is not here is compiled as in the desktop build, up to code that has no effect on the model's state.

Left out of the preprocessed text, compared with the desktop build: polishing and the copying of infeasibility certificates in both modes; the
adaptation of rho, the rho estimate, the constraint types and the update functions for matrices and rho in mode 1.
-/

namespace Osqp
variable {K : Type*} [Field K] [LinearOrder K] {d : Dims}

/-- The value of `OSQP_EMBEDDED_MODE`. -/
inductive Emb | one | two
  deriving DecidableEq

/-- src/auxil.c:598-674 `store_solution` with `OSQP_EMBEDDED_MODE` defined: lines 646-672 are left out. -/
def storeSolutionE (s : Solver d K) (sol : Solution d K) : Solver d K × Solution d K :=
  let w := s.work
  if hasSolution s.info then
    let r := if s.settings.scaling ≠ 0 then
        let us := unscaleSolution w.scaling w.x w.y
        ({ s with work := { s.work with x_prev := us.1, z_prev := us.2 } }, { sol with x := us.1, y := us.2 })
      else (s, { sol with x := w.x, y := w.y })
    let s := r.1
    let sol := r.2
    let s := { s with work := { s.work with delta_y := vSet (Const.nan K), delta_x := vSet (Const.nan K) } }
    (s, { sol with prim_inf_cert := s.work.delta_y, dual_inf_cert := s.work.delta_x })
  else (coldStart s, { sol with x := vSet (Const.nan K), y := vSet (Const.nan K) })

/-- `store_solution(solver, solver->solution)`, osqp_api.c:1023. -/
def storeOwnSolutionE (s : Solver d K) : Solver d K :=
  match s.solution with
  | none => s
  | some sol =>
    let r := storeSolutionE s sol
    { r.1 with solution := some r.2 }

/-- src/auxil.c:765-782 `reset_info`: the polishing time is not reset, and in mode 1 the number of rho updates is not either. -/
def resetInfoE (e : Emb) (cfg : Cfg) (i : Info K) : Info K :=
  let i := if cfg.profiling then { i with solve_time := 0 } else i
  let i := updateStatus i St.unsolved
  if e = .two then { i with rho_updates := 0 } else i

/-- osqp_api.c:775-845: in mode 1 rho is never adapted. -/
def adaptDecisionE (e : Emb) (cfg : Cfg) (env : Env d K) (iter : ℤ) (s : Solver d K) : Solver d K × Bool :=
  match e with
  | .two => adaptDecision cfg env iter s
  | .one => (s, false)

/-- osqp_api.c:867-895: in mode 1 only `work->rho_updated = 0` is left, so that line 893 does nothing. -/
def adaptPhaseE (e : Emb) (cfg : Cfg) (env : Env d K) (canAdapt : Bool) (s : Solver d K) : Solver d K × Bool :=
  match e with
  | .two => adaptPhase cfg env canAdapt s
  | .one => ({ s with work := { s.work with rho_updated := false } }, false)

/-- osqp_api.c:698-903: one pass through the body of the main loop. -/
def iterBodyE (e : Emb) (cfg : Cfg) (env : Env d K) (iter : ℤ) (L : LoopSt d K) : IterOut d K :=
  let s := admmStep env L.s
  let r := intrCheck cfg env s
  let s := r.1
  let hit := r.2
  if hit then .exit (setStatus s St.sigint)
  else
    let r := timeCheck cfg env s
    let s := r.1
    let late := r.2
    if late then
      .brk { s := setStatus s St.timeLimit, canPrint := if cfg.printing then false else L.canPrint,
             canCheck := L.canCheck }
    else
      let st := s.settings
      let canCheck := decide (st.check_termination ≠ 0) && decide (iter % st.check_termination = 0)
      let canPrint := cfg.printing && decide (st.verbose ≠ 0) && (decide (iter % 200 = 0) || decide (iter = 1))
      let r := adaptDecisionE e cfg env iter s
      let s := r.1
      let canAdapt := r.2
      let s := if canCheck || canPrint || canAdapt || decide (iter = 1) then updateInfo cfg env iter s else s
      let r := if canCheck then checkTermination false s else (s, false)
      let s := r.1
      let stop := r.2
      if stop then .brk { s := s, canPrint := canPrint, canCheck := canCheck }
      else
        let r := adaptPhaseE e cfg env canAdapt s
        let s := r.1
        let fail := r.2
        if fail then .exit s else .cont { s := s, canPrint := canPrint, canCheck := canCheck }

/-- The main loop, osqp_api.c:697-903. -/
def admmLoopE (e : Emb) (cfg : Cfg) (env : Env d K) : ℕ → ℤ → LoopSt d K → LoopOut d K
  | 0, iter, L => .done iter L
  | k + 1, iter, L =>
    match iterBodyE e cfg env iter L with
    | .cont L' => admmLoopE e cfg env k (iter + 1) L'
    | .brk L' => .done iter L'
    | .exit s => .exit s

/-- osqp_api.c:968-976: solve time and, in mode 2, rho estimate. -/
def postRhoE (e : Emb) (cfg : Cfg) (env : Env d K) (s : Solver d K) : Solver d K :=
  let s := if e = .two then { s with info := { s.info with rho_estimate := computeRhoEstimate env s } } else s
  if cfg.profiling then
    let r := toc env s
    let t := r.1
    let s := r.2
    { s with info := { s.info with solve_time := t } }
  else s

/-- osqp_api.c:906-976: everything between the loop and the timing. -/
def postLoopE (e : Emb) (cfg : Cfg) (env : Env d K) (iter : ℤ) (L : LoopSt d K) : Solver d K :=
  postRhoE e cfg env (postTimeLimit cfg (postMaxIter (postObj (postCheck cfg env iter L))))

/-- osqp_api.c:636-1038 `osqp_solve`. -/
def osqpSolveE (e : Emb) (cfg : Cfg) (env : Env d K) (s : Solver d K) : Solver d K × ℤ :=
  let L := solveEntry cfg s
  match admmLoopE e cfg env L.s.settings.max_iter.toNat 1 L with
  | .exit s => (endListener cfg s, 1)
  | .done iter L => (endListener cfg (storeOwnSolutionE (postTiming cfg (postLoopE e cfg env iter L))), 0)

/-- osqp_api.c:1184-1257 `osqp_update_data_vec`: in mode 1 lines 1234-1237 (constraint types and step sizes) are left out. -/
def osqpUpdateDataVecE (e : Emb) (cfg : Cfg) (env : Env d K) (s : Solver d K)
    (q_new : Option (Vec K d.n)) (l_new u : Option (Vec K d.m)) : Solver d K × ℤ :=
  let s := if cfg.profiling then clearUpdateTime s else s
  let sc (v : Vec K d.m) : Vec K d.m := if s.settings.scaling ≠ 0 then vEwProd v s.work.scaling.E else v
  let s := match l_new with
    | some l => { s with work := { s.work with z_prev := sc l } }
    | none => s
  let s := match u with
    | some u => { s with work := { s.work with delta_y := sc u } }
    | none => s
  let bad := match l_new, u with
    | some _, some _ => !vAllLeq s.work.z_prev s.work.delta_y
    | some _, none => !vAllLeq s.work.z_prev s.work.data.u
    | none, some _ => !vAllLeq s.work.data.l s.work.delta_y
    | none, none => false
  if bad then (s, Err.dataValidation)
  else
    let s : Solver d K := match l_new with
      | some _ => { s with work := { s.work with
          z_prev := s.work.data.l, data := { s.work.data with l := s.work.z_prev } } }
      | none => s
    let s : Solver d K := match u with
      | some _ => { s with work := { s.work with
          delta_y := s.work.data.u, data := { s.work.data with u := s.work.delta_y } } }
      | none => s
    let r := if decide (e = .two) && (l_new.isSome || u.isSome) && decide (s.settings.rho_is_vec ≠ 0) then updateRhoVec env s else (s, 0)
    let s := r.1
    let ef := r.2
    let s := match q_new with
      | some q =>
        let q' := if s.settings.scaling ≠ 0 then vScale (vEwProd q s.work.scaling.D) s.work.scaling.c else q
        { s with work := { s.work with data := { s.work.data with q := q' } } }
      | none => s
    let s := { s with info := resetInfoE e cfg s.info }
    let s := if cfg.profiling then addUpdateTime env s else s
    (s, ef)

/-- osqp_api.c:1309-1409 `osqp_update_data_mat`, mode 2; `none` = undefined behaviour. -/
def osqpUpdateDataMatE (cfg : Cfg) (env : Env d K) (s : Solver d K) (p a : MatUpd K) :
    Option (Solver d K × ℤ) :=
  let s := if cfg.profiling then clearUpdateTime s else s
  if matUpdBad d.P.nnz p then some (s, 1)
  else if matUpdBad d.A.nnz a then some (s, 2)
  else
    let D0 := if s.settings.scaling ≠ 0 then unscaleData s.work.scaling s.work.data else s.work.data
    match matUpdApply D0.P p, matUpdApply D0.A a with
    | some P, some A =>
      let D1 := { D0 with P := P, A := A }
      let r := if s.settings.scaling ≠ 0 then scaleData env s.settings.scaling D1 else (D1, s.work.scaling)
      let s : Solver d K := { s with work := { s.work with data := r.1, scaling := r.2 } }
      let upd := if s.settings.scaling ≠ 0 then
          linsysUpdateMat env s.work.linsys s.work.data none d.P.nnz none d.A.nnz
        else linsysUpdateMat env s.work.linsys s.work.data p.idx (matUpdCnt d.P.nnz p) a.idx (matUpdCnt d.A.nnz a)
      match upd with
      | some (ls, ef) =>
        let s := { s with work := { s.work with linsys := ls }, info := resetInfoE .two cfg s.info }
        let s := if cfg.profiling then addUpdateTime env s else s
        some (s, ef)
      | none => none
    | _, _ => none

/-- The functions that exist in an embedded build (include/public/osqp_api_functions.h:241-457). -/
def Op.exists (e : Emb) : Op d K → Prop
  | .updateDataMat _ _ => e = .two
  | .updateRho _ => e = .two
  | _ => True

/-- Effect and return code of one API call of an embedded build; `none` = undefined behaviour, or a function that does not exist. -/
def apiStepE (e : Emb) (cfg : Cfg) (env : Env d K) (s : Solver d K) : Op d K → Option (Solver d K × ℤ)
  | .solve => some (osqpSolveE e cfg env s)
  | .updateDataVec q l u => some (osqpUpdateDataVecE e cfg env s q l u)
  | .updateDataMat p a => if e = .two then osqpUpdateDataMatE cfg env s p a else none
  | .updateRho r => if e = .two then some (osqpUpdateRho cfg env s r) else none
  | .updateSettings st => some (osqpUpdateSettings cfg s st)
  | .warmStart x y => some (osqpWarmStart s x y)
  | .coldStart => some (coldStart s, 0)
  | .getSolution dst => some ((storeSolutionE s dst).1, 0)

end Osqp
