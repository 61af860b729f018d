import Verif.Mem.Prog
import Verif.Model.Types

/-!
# Allocation and release in `osqp_setup` and `osqp_cleanup`

Every pointer field that `osqp_setup` fills, the sequence of allocations and checks of `osqp_setup` (osqp_api.c:332-631) and the
sequence of frees of `osqp_cleanup` (osqp_api.c:1057-1174).  The arithmetic is left out (it allocates nothing).  The
allocations inside the linear-system solver are summarised by `Sub`.
-/

namespace Osqp.Mem

/-- The pointer slots: the local variable `solver` and the pointer fields of the structures
(include/public/osqp_api_types.h, include/private/types.h). -/
inductive Slot
  | solver
  -- OSQPSolver
  | settings | solution | info | work
  -- OSQPSolution
  | solX | solY | solPrimCert | solDualCert
  -- OSQPWorkspace
  | data | linsys | pol | rho_vec | rho_inv_vec | constr_type
  | x | y | z | xz_tilde | xtilde_view | ztilde_view | x_prev | z_prev
  | Ax | Px | Aty | delta_y | Atdelta_y | delta_x | Pdelta_x | Adelta_x
  | D_temp | D_temp_A | E_temp | scaling | timer | derivative_data
  -- OSQPData
  | dataP | dataA | dataQ | dataL | dataU
  -- OSQPScaling
  | scD | scDinv | scE | scEinv
  -- OSQPPolish (the field `Ared` is only used inside `polish`)
  | polFlags | polX | polZ | polY
  -- OSQPDerivativeData
  | dY_u | dY_l | dRyl | dRyu | dRhs
deriving DecidableEq

namespace Slot

/-- All slots. -/
def all : List Slot :=
  [solver, settings, solution, info, work, solX, solY, solPrimCert, solDualCert, data, linsys, pol, rho_vec, rho_inv_vec, constr_type,
   x, y, z, xz_tilde, xtilde_view, ztilde_view, x_prev, z_prev, Ax, Px, Aty, delta_y, Atdelta_y, delta_x, Pdelta_x, Adelta_x,
   D_temp, D_temp_A, E_temp, scaling, timer, derivative_data, dataP, dataA, dataQ, dataL, dataU, scD, scDinv, scE, scEinv,
   polFlags, polX, polZ, polY, dY_u, dY_l, dRyl, dRyu, dRhs]

/-- The structure a field belongs to. -/
def parent : Slot → Option Slot
  | solver => none
  | settings | solution | info | work => some solver
  | solX | solY | solPrimCert | solDualCert => some solution
  | data | linsys | pol | rho_vec | rho_inv_vec | constr_type
  | x | y | z | xz_tilde | xtilde_view | ztilde_view | x_prev | z_prev
  | Ax | Px | Aty | delta_y | Atdelta_y | delta_x | Pdelta_x | Adelta_x
  | D_temp | D_temp_A | E_temp | scaling | timer | derivative_data => some work
  | dataP | dataA | dataQ | dataL | dataU => some data
  | scD | scDinv | scE | scEinv => some scaling
  | polFlags | polX | polZ | polY => some pol
  | dY_u | dY_l | dRyl | dRyu | dRhs => some derivative_data

/-- The pointer fields of the structure in a slot. -/
def kids (s : Slot) : List Slot := all.filter fun t => parent t = some s

end Slot

instance : Layout Slot := ⟨Slot.parent, Slot.kids⟩

/-- What decides the path through `osqp_setup`: the build options `OSQP_ENABLE_PROFILING`, `OSQP_ENABLE_DERIVATIVES`, the settings
`rho_is_vec`, `scaling`, `allocate_solution`, the dimensions and the outcome of the linear-system solver's initialisation. -/
structure SetupCfg where
  profiling : Bool
  derivatives : Bool
  rhoIsVec : Bool
  scaling : Bool
  allocSolution : Bool
  n : ℕ
  m : ℕ
  linsys : Sub

open Slot Instr

/-- `OSQP_MEM_ALLOC_ERROR`. -/
abbrev memErr : ℤ := Err.memAlloc

/-- osqp_api.c:356-383, solver, workspace, info, timer, data struct.  The caller's `*solverp` is written (line 359) once the first
allocation has succeeded.  `osqp_algebra_init_libs` (algebra_libs.c:17-21) always returns 0. -/
def setupStructs (c : SetupCfg) : List (Instr Slot) :=
  [struct solver true, check [solver] memErr,
   struct work true, check [work] memErr,
   struct info true, check [info] memErr] ++
  (if c.profiling then [struct timer false, check [timer] memErr, use [timer]] else []) ++
  [struct data true, check [data] memErr]

/-- osqp_api.c:385-414, problem data and rho vectors. -/
def setupData (c : SetupCfg) : List (Instr Slot) :=
  [mat dataP, vec dataQ c.n, check [dataP, dataQ] memErr,
   mat dataA, check [dataA] memErr,
   vec dataL c.m, vec dataU c.m, check [dataL, dataU] memErr] ++
  (if c.rhoIsVec then
    [vec rho_vec c.m, vec rho_inv_vec c.m, check [rho_vec, rho_inv_vec] memErr,
     vec constr_type c.m, check [constr_type] memErr]
   else [null rho_vec, null rho_inv_vec])

/-- osqp_api.c:416-455, iterates, residual vectors, settings. -/
def setupIterates (c : SetupCfg) : List (Instr Slot) :=
  [vec x c.n, vec z c.m, vec xz_tilde (c.n + c.m), view xtilde_view xz_tilde, view ztilde_view xz_tilde,
   vec x_prev c.n, vec z_prev c.m, vec y c.m,
   check [x, z, xz_tilde] memErr, check [xtilde_view, ztilde_view] memErr, check [x_prev, z_prev, y] memErr,
   vec Ax c.m, vec Px c.n, vec Aty c.n,
   vec delta_y c.m, vec Atdelta_y c.n,
   vec delta_x c.n, vec Pdelta_x c.n, vec Adelta_x c.m,
   check [Ax, Px, Aty] memErr, check [delta_y, Atdelta_y] memErr, check [delta_x, Pdelta_x, Adelta_x] memErr,
   struct settings false, check [settings] memErr]

/-- osqp_api.c:457-497, scaling, `set_rho_vec`. -/
def setupScaling (c : SetupCfg) : List (Instr Slot) :=
  (if c.scaling then
    [struct scaling false, check [scaling] memErr,
     vec scD c.n, vec scDinv c.n, vec scE c.m, vec scEinv c.m, check [scD, scDinv, scE, scEinv] memErr,
     vec D_temp c.n, vec D_temp_A c.n, vec E_temp c.m, check [D_temp, D_temp_A, E_temp] memErr,
     -- scale_data
     use [settings, dataP, dataA, dataQ, dataL, dataU, scaling, scD, scDinv, scE, scEinv, D_temp, D_temp_A, E_temp]]
   else [null scaling, null D_temp, null D_temp_A, null E_temp]) ++
  (if c.rhoIsVec then [use [settings, rho_vec, rho_inv_vec, constr_type, dataL, dataU]] else [use [settings]])

/-- osqp_api.c:499-525, linear system, `osqp_cold_start`, polish structure. -/
def setupSolver (c : SetupCfg) : List (Instr Slot) :=
  [use [dataP, dataA, settings], initSub linsys c.linsys,
   use [x, z, y, linsys],
   struct pol false, check [pol] memErr,
   vec polFlags c.m, vec polX c.n, vec polZ c.m, vec polY c.m,
   check [polX] memErr, check [polFlags, polZ, polY] memErr]

/-- osqp_api.c:527-546, solution. -/
def setupSolution (c : SetupCfg) : List (Instr Slot) :=
  if c.allocSolution then
    [struct solution true, check [solution] memErr,
     raw solX c.n, raw solY c.m, raw solPrimCert c.m, raw solDualCert c.n,
     check [solX, solDualCert] memErr] ++
    (if c.m ≠ 0 then [check [solY, solPrimCert] memErr] else [])
  else [null solution]

/-- osqp_api.c:548-619, info, settings, derivative structure.  The vector `rhs` is not checked. -/
def setupRest (c : SetupCfg) : List (Instr Slot) :=
  [use [info, settings]] ++
  (if c.profiling then [use [timer]] else []) ++
  (if c.derivatives then
    [struct derivative_data true, check [derivative_data] memErr,
     vec dY_u c.m, vec dY_l c.m, vec dRyl c.m, vec dRyu c.m, vec dRhs (2 * (c.n + 2 * c.m)),
     check [dY_u, dY_l, dRyl, dRyu] memErr]
   else [])

/-- osqp_api.c:332-631 `osqp_setup` after validation. -/
def setupProg (c : SetupCfg) : List (Instr Slot) :=
  setupStructs c ++ setupData c ++ setupIterates c ++ setupScaling c ++ setupSolver c ++ setupSolution c ++ setupRest c

/-- The state in which `osqp_setup` starts allocating: an empty heap, no pointer initialised. -/
def initial : St Slot := ⟨⟨0, []⟩, fun _ => .uninit, []⟩

/-- The allocations of `osqp_setup`, with an allocator that refuses the requests in `fails`. -/
def setupMem (c : SetupCfg) (fails : ℕ → Bool) : Out Slot := run fails initial (setupProg c)

/-- osqp_api.c:1068-1165, the frees inside `if (work)`.  (`if (work->scaling) {…} c_free(work->scaling)` frees the struct
unconditionally; a null pointer is allowed.) -/
def cleanupBlocks (profiling derivatives : Bool) : List (Block Slot) :=
  [⟨some data, [dataP, dataA, dataQ, dataL, dataU, data]⟩,
   ⟨some scaling, [scD, scDinv, scE, scEinv]⟩, ⟨none, [scaling]⟩,
   ⟨none, [D_temp, D_temp_A, E_temp]⟩,
   ⟨some linsys, [linsys]⟩,
   ⟨some pol, [polFlags, polX, polZ, polY, pol]⟩,
   ⟨none, [rho_vec, rho_inv_vec, constr_type, x, z, xz_tilde, xtilde_view, ztilde_view, x_prev, z_prev, y, Ax, Px, Aty,
     delta_y, Atdelta_y, delta_x, Pdelta_x, Adelta_x]⟩,
   ⟨some settings, [settings]⟩,
   ⟨some solution, [solX, solY, solPrimCert, solDualCert, solution]⟩,
   ⟨some info, [info]⟩] ++
  (if profiling then [⟨some timer, [timer]⟩] else []) ++
  (if derivatives then
    [⟨some derivative_data, [dY_l, dY_u, dRyl, dRyu, dRhs, derivative_data]⟩]
   else [])

/-- osqp_api.c:1057-1174 `osqp_cleanup(solver)`; `none` is undefined behaviour. -/
def cleanupMem (profiling derivatives : Bool) (st : St Slot) : Option (St Slot) :=
  match st.ptr solver with
  | .uninit => none
  | .null => some st
  | .obj _ =>
    (match st.ptr work with
     | .uninit => none
     | .null => some st
     | .obj _ => ((cleanupBlocks profiling derivatives).foldlM runBlock st).bind fun st => freeSlot st work).bind fun st =>
    freeSlot st solver

end Osqp.Mem
