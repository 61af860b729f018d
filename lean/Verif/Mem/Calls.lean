import Verif.Mem.Setup
import Verif.Model.Entry

/-!
# Which pointers the API functions check and dereference

For every API function that takes a solver: the checks at its beginning, and the pointers its body dereferences.  Reading a field of a structure
that is not there, or dereferencing a null pointer, is undefined behaviour (`Out.ub`); the instructions are those of `Mem/Prog.lean`.
What the bodies compute is modelled in `Model/Api.lean`; here a body that dereferences only allocated objects ends with 0.
-/

namespace Osqp.Mem

open Slot Instr

/-- The API functions that take a solver, with the arguments that decide which pointers are used. -/
inductive Fn
  | getDimensions
  | solve
  /-- `out`: the second argument is not null -/
  | getSolution (out : Bool)
  /-- new bounds given, new cost vector given -/
  | updateDataVec (bounds q : Bool)
  /-- which of `x`, `y` are given -/
  | warmStart (x y : Bool)
  | coldStart
  | updateDataMat
  /-- `positive`: the new value is positive -/
  | updateRho (positive : Bool)
  | updateSettings
  | adjointCompute
  | adjointGetMat
  | adjointGetVec
  /-- `nonCvx`: the status is "problem non convex"; `defines`: the options are acceptable -/
  | codegen (nonCvx defines : Bool)
deriving DecidableEq

/-- `OSQP_WORKSPACE_NOT_INIT_ERROR`. -/
abbrev notInit : ℤ := Err.workspaceNotInit

variable (c : SetupCfg)

/-- The scaling vectors, used when `settings->scaling` is set. -/
def scalingSlots : List Slot := if c.scaling then [scaling, scD, scDinv, scE, scEinv] else []

/-- The temporaries of `scale_data`. -/
def scaleTemps : List Slot := if c.scaling then [D_temp, D_temp_A, E_temp] else []

/-- The rho vectors, used when `settings->rho_is_vec` is set. -/
def rhoSlots : List Slot := if c.rhoIsVec then [rho_vec, rho_inv_vec, constr_type] else []

/-- The timer, used when profiling is compiled in. -/
def timerSlot : List Slot := if c.profiling then [timer] else []

/-- auxil.c:598-676 `store_solution` into an allocated solution. -/
def storeSlots : List Slot := [info, settings, x, y, x_prev, z_prev, delta_x, delta_y, linsys, z] ++ scalingSlots c

/-- The checks and dereferences of an API function, in order, and the value returned at the end.
* osqp_api.c:252-265 `osqp_get_dimensions` (−1 stands for `*m = -1; *n = -1`)
* osqp_api.c:636-1039 `osqp_solve` with the functions it calls in auxil.c
* osqp_api.c:1042-1053 `osqp_get_solution`
* osqp_api.c:1184-1256 `osqp_update_data_vec`
* osqp_api.c:1260-1293 `osqp_warm_start`
* osqp_api.c:1296-1304 `osqp_cold_start` (no check)
* osqp_api.c:1309-1405 `osqp_update_data_mat`
* osqp_api.c:1412-1466 `osqp_update_rho`
* osqp_api.c:1474-1532 `osqp_update_settings` (reads `solver->settings` before the check)
* osqp_api.c:1583-1634 and derivative.c:30-99, 101- the derivative functions
* osqp_api.c:1537-1578 `osqp_codegen` (`OSQP_CODEGEN` on). -/
def Fn.prog : Fn → List (Instr Slot) × ℤ
  | .getDimensions => ([check [solver, work, data] (-1), use [data]], 0)
  | .solve =>
    ([check [solver, work] notInit,
      use ([settings, info] ++ timerSlot c),
      use ([x, x_prev, z, z_prev, xz_tilde, xtilde_view, ztilde_view, y, linsys, data, dataP, dataA, dataQ, dataL, dataU,
        Ax, Px, Aty, delta_x, delta_y, Atdelta_y, Pdelta_x, Adelta_x] ++ rhoSlots c ++ scalingSlots c),
      use [pol, polFlags, polX, polZ, polY]], 0)
  | .getSolution out =>
    if out then ([check [solver, work, settings, info] notInit, use (storeSlots c)], 0)
    else ([check [solver, work, settings, info] notInit], notInit)
  | .updateDataVec bounds q =>
    ([check [solver, work] notInit, use ([settings, info] ++ timerSlot c)] ++
     (if bounds then [use ([z_prev, delta_y, data, dataL, dataU] ++ scalingSlots c ++ (if c.rhoIsVec then rhoSlots c ++ [linsys] else []))] else []) ++
     (if q then [use ([data, dataQ] ++ scalingSlots c)] else []), 0)
  | .warmStart gx gy =>
    ([check [solver, work] notInit, use [settings]] ++
     (if gx then [use ([x, z, data, dataA] ++ scalingSlots c)] else []) ++
     (if gy then [use ([y] ++ scalingSlots c)] else []) ++
     [use [linsys]], 0)
  | .coldStart => ([use [solver, work], use [x, z, y], use [linsys]], 0)
  | .updateDataMat =>
    ([check [solver, work] notInit, use ([info] ++ timerSlot c),
      use ([data, dataP, dataA, dataQ, dataL, dataU, settings] ++ scalingSlots c ++ scaleTemps c), use [linsys]], 0)
  | .updateRho positive =>
    if positive then ([check [solver, work] notInit, use ([settings, info] ++ timerSlot c ++ rhoSlots c), use [linsys]], 0)
    else ([check [solver, work] notInit], 1)
  | .updateSettings => ([use [solver], check [solver, work] notInit, use [settings, linsys]], 0)
  | .adjointCompute =>
    if c.derivatives then
      ([check [solver, work, derivative_data] notInit,
        use ([data, dataP, dataA, dataL, dataU, settings, solution] ++ scalingSlots c),
        use [dY_u, dY_l, dRyl, dRyu], use [dRhs]], 0)
    else ([], Err.funcNotImplemented)
  | .adjointGetMat =>
    if c.derivatives then
      ([check [solver, work, derivative_data] notInit, use [data, solution], use [dY_u, dY_l, dRyl, dRyu], use [dRhs]], 0)
    else ([], Err.funcNotImplemented)
  | .adjointGetVec =>
    if c.derivatives then ([check [solver, work, derivative_data] notInit, use [data], use [dRhs], use [dRyl, dRyu]], 0)
    else ([], Err.funcNotImplemented)
  | .codegen nonCvx defines =>
    if nonCvx then ([check [solver, work, settings, info] notInit], Err.nonCvx)
    else if defines then
      ([check [solver, work, settings, info] notInit, check [data, linsys] notInit,
        use ([dataP, dataA, dataQ, dataL, dataU, x, y, z, xz_tilde, x_prev, z_prev, Ax, Px, Aty, delta_x, delta_y] ++ scalingSlots c ++ rhoSlots c)], 0)
    else ([check [solver, work, settings, info] notInit, check [data, linsys] notInit], Err.codegenDefines)

/-- Calling the function on a solver in this state. -/
def Fn.call (f : Fn) (st : St Slot) : Out Slot :=
  match run (fun _ => false) st (f.prog c).1 with
  | .ub st => .ub st
  | .ret st code => .ret st (if code = 0 then (f.prog c).2 else code)

end Osqp.Mem
