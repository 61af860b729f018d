import Mathlib.Data.List.Sort
import Mathlib.Data.Int.Order.Basic

/-!
# The subset of C used by generated workspaces

`osqp_codegen` writes a C file made of arrays, null macros and positionally initialised structures. This file defines what such a
file means to a C compiler: which declarations are accepted, and which value every member of every structure gets. Nothing here
mentions the writer; it is the meaning against which the written file is judged.
-/

namespace Osqp.Gen

/-! ## Types -/

/-- The structure types of the generated file. -/
inductive CTy
  | vectorf | vectori | csc | matrix | settings | solution | info | scaling | data | qdldl | workspace | solver
  deriving DecidableEq

/-- The functions whose addresses are taken, `algebra/_common/lin_sys/qdldl/qdldl_interface.h`. -/
inductive Fn
  | name | solve | update_settings | warm_start | update_matrices | update_rho_vec
  deriving DecidableEq

/-- Member types. `pFn f` is the type of pointers to functions with the signature of `f`. -/
inductive Ty
  | int | enum | float | chars (n : ℕ) | pF | pI | pB | pS (t : CTy) | pLinSys | pFn (f : Fn) | pTimer | pDerivative
  deriving DecidableEq

/-- Member names of all structures. -/
inductive Fld
  | values | length
  | m | n | p | i | x | nzmax | nz | owned
  | csc | symmetry
  | device | linsys_solver | allocate_solution | verbose | profiler_level | warm_starting | scaling | polishing | rho | rho_is_vec
  | sigma | alpha | cg_max_iter | cg_tol_reduction | cg_tol_fraction | cg_precond | adaptive_rho | adaptive_rho_interval
  | adaptive_rho_fraction | adaptive_rho_tolerance | max_iter | eps_abs | eps_rel | eps_prim_inf | eps_dual_inf | scaled_termination
  | check_termination | check_dualgap | time_limit | delta | polish_refine_iter
  | status | status_val | status_polish | obj_val | dual_obj_val | prim_res | dual_res | duality_gap | iter | rho_updates | rho_estimate
  | setup_time | solve_time | update_time | polish_time | run_time | primdual_int | rel_kkt_error
  | y | prim_inf_cert | dual_inf_cert
  | c | D | E | cinv | Dinv | Einv
  | P | A | q | l | u
  | type | name | solve | update_settings | warm_start | update_matrices | update_rho_vec | nthreads | L | bp | sol | rho_inv_vec
  | rho_inv | KKT | PtoKKT | AtoKKT | rhotoKKT | etree | Lnz | iwork | bwork | fwork | adj
  | data | rho_vec | constr_type | z | xz_tilde | xtilde_view | ztilde_view | x_prev | z_prev | Ax | Px | Aty
  | xtPx | qtx | SC | scaled_dual_gap | delta_y | Atdelta_y | delta_x | Pdelta_x | Adelta_x | D_temp | D_temp_A | E_temp
  | scaled_prim_res | scaled_dual_res | timer | first_run | clear_update_time | rho_update_from_solve | summary_printed
  | derivative_data | rho_updated | last_rel_kkt
  | settings | solution | info | work
  deriving DecidableEq

/-- The macros of the generated `osqp_configure.h` that change structure types: `mats` is `OSQP_EMBEDDED_MODE != 1`. -/
structure Macros where
  mats : Bool
  profiling : Bool
  printing : Bool
  derivatives : Bool

/-- Members of each structure in order of declaration, with `OSQP_EMBEDDED_MODE` defined.
`include/public/osqp_api_types.h:37-188` (`OSQPCscMatrix`, `OSQPSettings`, `OSQPInfo`, `OSQPSolution`, `OSQPSolver`),
`include/private/types.h:32-39, 73-81, 99-231` (`OSQPScaling`, `OSQPData`, `OSQPWorkspace`), `algebra/builtin/algebra_impl.h:15-44`
(`OSQPVectori`, `OSQPVectorf`, `OSQPMatrix`), `algebra/_common/lin_sys/qdldl/qdldl_interface.h:18-106` (`qdldl_solver`). -/
def layout (cf : Macros) : CTy → List (Fld × Ty)
  | .vectorf => [(.values, .pF), (.length, .int)]
  | .vectori => [(.values, .pI), (.length, .int)]
  | .csc => [(.m, .int), (.n, .int), (.p, .pI), (.i, .pI), (.x, .pF), (.nzmax, .int), (.nz, .int), (.owned, .int)]
  | .matrix => [(.csc, .pS .csc), (.symmetry, .enum)]
  | .settings =>
    [(.device, .int), (.linsys_solver, .enum), (.allocate_solution, .int), (.verbose, .int), (.profiler_level, .int),
     (.warm_starting, .int), (.scaling, .int), (.polishing, .int), (.rho, .float), (.rho_is_vec, .int), (.sigma, .float),
     (.alpha, .float), (.cg_max_iter, .int), (.cg_tol_reduction, .int), (.cg_tol_fraction, .float), (.cg_precond, .enum),
     (.adaptive_rho, .int), (.adaptive_rho_interval, .int), (.adaptive_rho_fraction, .float), (.adaptive_rho_tolerance, .float),
     (.max_iter, .int), (.eps_abs, .float), (.eps_rel, .float), (.eps_prim_inf, .float), (.eps_dual_inf, .float),
     (.scaled_termination, .int), (.check_termination, .int), (.check_dualgap, .int), (.time_limit, .float), (.delta, .float),
     (.polish_refine_iter, .int)]
  | .solution => [(.x, .pF), (.y, .pF), (.prim_inf_cert, .pF), (.dual_inf_cert, .pF)]
  | .info =>
    [(.status, .chars 32), (.status_val, .int), (.status_polish, .int), (.obj_val, .float), (.dual_obj_val, .float),
     (.prim_res, .float), (.dual_res, .float), (.duality_gap, .float), (.iter, .int), (.rho_updates, .int), (.rho_estimate, .float),
     (.setup_time, .float), (.solve_time, .float), (.update_time, .float), (.polish_time, .float), (.run_time, .float),
     (.primdual_int, .float), (.rel_kkt_error, .float)]
  | .scaling =>
    [(.c, .float), (.D, .pS .vectorf), (.E, .pS .vectorf), (.cinv, .float), (.Dinv, .pS .vectorf), (.Einv, .pS .vectorf)]
  | .data =>
    [(.n, .int), (.m, .int), (.P, .pS .matrix), (.A, .pS .matrix), (.q, .pS .vectorf), (.l, .pS .vectorf), (.u, .pS .vectorf)]
  | .qdldl =>
    [(.type, .enum), (.name, .pFn .name), (.solve, .pFn .solve), (.update_settings, .pFn .update_settings),
     (.warm_start, .pFn .warm_start)] ++
    (if cf.mats then [(.update_matrices, .pFn .update_matrices), (.update_rho_vec, .pFn .update_rho_vec)] else []) ++
    [(.nthreads, .int), (.L, .pS .csc), (.Dinv, .pF), (.P, .pI), (.bp, .pF), (.sol, .pF), (.rho_inv_vec, .pF), (.sigma, .float),
     (.rho_inv, .float), (.n, .int), (.m, .int)] ++
    (if cf.mats then
      [(.KKT, .pS .csc), (.PtoKKT, .pI), (.AtoKKT, .pI), (.rhotoKKT, .pI), (.D, .pF), (.etree, .pI), (.Lnz, .pI), (.iwork, .pI),
       (.bwork, .pB), (.fwork, .pF), (.adj, .pS .csc)]
     else [])
  | .workspace =>
    [(.data, .pS .data), (.linsys_solver, .pLinSys), (.rho_vec, .pS .vectorf), (.rho_inv_vec, .pS .vectorf)] ++
    (if cf.mats then [(.constr_type, .pS .vectori)] else []) ++
    [(.x, .pS .vectorf), (.y, .pS .vectorf), (.z, .pS .vectorf), (.xz_tilde, .pS .vectorf), (.xtilde_view, .pS .vectorf),
     (.ztilde_view, .pS .vectorf), (.x_prev, .pS .vectorf), (.z_prev, .pS .vectorf), (.Ax, .pS .vectorf), (.Px, .pS .vectorf),
     (.Aty, .pS .vectorf), (.xtPx, .float), (.qtx, .float), (.SC, .float), (.scaled_dual_gap, .float), (.delta_y, .pS .vectorf),
     (.Atdelta_y, .pS .vectorf), (.delta_x, .pS .vectorf), (.Pdelta_x, .pS .vectorf), (.Adelta_x, .pS .vectorf)] ++
    (if cf.mats then [(.D_temp, .pS .vectorf), (.D_temp_A, .pS .vectorf), (.E_temp, .pS .vectorf)] else []) ++
    [(.scaling, .pS .scaling), (.scaled_prim_res, .float), (.scaled_dual_res, .float), (.rho_inv, .float)] ++
    (if cf.profiling then [(.timer, .pTimer), (.first_run, .int), (.clear_update_time, .int), (.rho_update_from_solve, .int)] else []) ++
    (if cf.printing then [(.summary_printed, .int)] else []) ++
    (if cf.derivatives then [(.derivative_data, .pDerivative)] else []) ++
    [(.rho_updated, .int), (.last_rel_kkt, .float)]
  | .solver => [(.settings, .pS .settings), (.solution, .pS .solution), (.info, .pS .info), (.work, .pS .workspace)]

/-! ## Declarations -/

/-- A floating-point literal with 20 decimals, as printed by `%.20f`: `some k` is the number `k / 10^20`; `none` is the text `inf` or
`nan`, which is not a C constant. -/
abbrev Lit := Option ℤ

/-- Initialisers. `OSQP_NULL` is `0` (`osqp_api_constants.h:189`), so it is `int 0`. -/
inductive Ini (N : Type)
  /-- An integer constant. -/
  | int (z : ℤ)
  /-- `(OSQPFloat)` followed by a literal. -/
  | dec (k : Lit)
  /-- `&name` of a structure. -/
  | addr (nm : N)
  /-- `(LinSysSolver *)&name`. -/
  | addrLin (nm : N)
  /-- `name` or `name+off`, of an array or a null macro. -/
  | arr (nm : N) (off : ℕ)
  /-- `&function`. -/
  | fn (f : Fn)
  /-- A string constant. -/
  | str (s : String)

/-- What is declared. -/
inductive Body (N : Type)
  /-- `#define name (OSQP_NULL)` -/
  | null
  /-- `OSQPFloat name[len] = {…};` -/
  | arrF (vals : List Lit)
  /-- `OSQPInt name[len] = {…};` -/
  | arrI (vals : List ℤ)
  /-- `OSQPFloat name[len];` (`QDLDL_float` is the same type) -/
  | zeroF (len : ℕ)
  /-- `QDLDL_int name[len];` -/
  | zeroI (len : ℕ)
  /-- `QDLDL_bool name[len];` -/
  | zeroB (len : ℕ)
  /-- `T name = {…};` -/
  | struct (t : CTy) (inits : List (Ini N))

/-- A declaration: a name and what it is. -/
structure Decl (N : Type) where
  nm : N
  body : Body N

/-! ## Objects -/

/-- The value of a member. `flt k` is the number `k / 10^20`. -/
inductive Val (N : Type)
  | int (z : ℤ) | flt (k : ℤ) | null | ptr (nm : N) (off : ℕ) | fn (f : Fn) | str (s : String)
  deriving DecidableEq

/-- What a name stands for. -/
inductive Obj (N : Type)
  | null
  | arrF (vals : List ℤ)
  | arrI (vals : List ℤ)
  | arrB (len : ℕ)
  | struct (t : CTy) (vals : List (Val N))

/-- The names declared so far. -/
abbrev Env (N : Type) := List (N × Obj N)

section
variable {N : Type} [DecidableEq N]

/-- The value of a member without initialiser. -/
def zero : Ty → Val N
  | .int | .enum => .int 0
  | .float => .flt 0
  | .chars _ => .str ""
  | _ => .null

/-- Is `z` in the range of `int`? -/
def inInt (z : ℤ) : Bool := decide (-2147483648 ≤ z ∧ z ≤ 2147483647)

/-- Initialisation of a member of type `t` by an integer: a pointer can only be initialised by the constant 0. -/
def convInt (z : ℤ) : Ty → Option (Val N)
  | .int | .enum => some (.int z)
  | .float => some (.flt (z * 10 ^ 20))
  | .chars _ => none
  | _ => if z = 0 then some .null else none

/-- Initialisation of a member of type `t` by an initialiser, or `none` if the compiler rejects it or its meaning is undefined. -/
def conv (env : Env N) (t : Ty) : Ini N → Option (Val N)
  | .int z => convInt z t
  | .dec l => l.bind fun k =>
    match t with
    | .float => some (.flt k)
    | .int | .enum => if inInt (k.tdiv (10 ^ 20)) then some (.int (k.tdiv (10 ^ 20))) else none
    | _ => none
  | .addr nm =>
    match env.lookup nm with
    | some (.struct t' _) => if t = .pS t' then some (.ptr nm 0) else none
    | _ => none
  | .addrLin nm =>
    match env.lookup nm with
    | some (.struct .qdldl _) => if t = .pLinSys then some (.ptr nm 0) else none
    | _ => none
  | .arr nm off =>
    match env.lookup nm with
    | some .null => convInt off t
    | some (.arrF vs) => if t = .pF ∧ off ≤ vs.length then some (.ptr nm off) else none
    | some (.arrI vs) => if t = .pI ∧ off ≤ vs.length then some (.ptr nm off) else none
    | some (.arrB len) => if t = .pB ∧ off ≤ len then some (.ptr nm off) else none
    | _ => none
  | .fn f => if t = .pFn f then some (.fn f) else none
  | .str s =>
    match t with
    | .chars n => if s.length < n then some (.str s) else none
    | _ => none

/-- Positional initialisation: members without initialiser are zero, too many initialisers are an error. -/
def initAll (env : Env N) : List (Fld × Ty) → List (Ini N) → Option (List (Val N))
  | [], [] => some []
  | [], _ :: _ => none
  | (_, t) :: ls, [] => (initAll env ls []).map (zero t :: ·)
  | (_, t) :: ls, i :: is => (conv env t i).bind fun v => (initAll env ls is).map (v :: ·)

/-- The functions declared by the headers: the two update functions only if `OSQP_EMBEDDED_MODE != 1`
(`qdldl_interface.h:151-183`). -/
def fnDeclared (cf : Macros) : Ini N → Bool
  | .fn .update_matrices | .fn .update_rho_vec => cf.mats
  | _ => true

/-- The object a declaration makes. Arrays must have at least one element. -/
def object (cf : Macros) (env : Env N) : Body N → Option (Obj N)
  | .null => some .null
  | .arrF vals => if vals = [] then none else (vals.mapM id).map .arrF
  | .arrI vals => if vals = [] then none else some (.arrI vals)
  | .zeroF len => if len = 0 then none else some (.arrF (List.replicate len 0))
  | .zeroI len => if len = 0 then none else some (.arrI (List.replicate len 0))
  | .zeroB len => if len = 0 then none else some (.arrB len)
  | .struct t inits =>
    if inits.all (fnDeclared cf) then (initAll env (layout cf t) inits).map (.struct t) else none

/-- Compilation of a file: every name is declared once, and before it is used. -/
def compile (cf : Macros) : Env N → List (Decl N) → Option (Env N)
  | env, [] => some env
  | env, d :: ds =>
    if (env.lookup d.nm).isSome then none
    else (object cf env d.body).bind fun o => compile cf (env ++ [(d.nm, o)]) ds

/-! ## Reading the result -/

/-- The member `f` of a structure of type `t`. -/
def member (cf : Macros) (env : Env N) (t : CTy) (f : Fld) : Val N → Option (Val N)
  | .ptr nm 0 =>
    match env.lookup nm with
    | some (.struct t' vals) => if t' = t then (((layout cf t).map Prod.fst).zip vals).lookup f else none
    | _ => none
  | _ => none

/-- `len` elements of a floating-point array, as multiples of `10^-20`. -/
def readF (env : Env N) (len : ℕ) : Val N → Option (List ℤ)
  | .null => if len = 0 then some [] else none
  | .ptr nm off =>
    match env.lookup nm with
    | some (.arrF vs) => if off + len ≤ vs.length then some ((vs.drop off).take len) else none
    | _ => none
  | _ => none

/-- `len` elements of an integer array. -/
def readI (env : Env N) (len : ℕ) : Val N → Option (List ℤ)
  | .null => if len = 0 then some [] else none
  | .ptr nm off =>
    match env.lookup nm with
    | some (.arrI vs) => if off + len ≤ vs.length then some ((vs.drop off).take len) else none
    | _ => none
  | _ => none

end
end Osqp.Gen
