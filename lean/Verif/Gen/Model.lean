import Verif.Gen.CLang
import Verif.Model.Types
import Verif.Model.Entry

/-!
# The writer of generated workspaces

`src/codegen.c`, the functions `write_*`: the declarations written to `<prefix>workspace.c`, in order. The common prefix of all names
is left out. `pr` is `printf` with the conversion `%.20f`.
-/

namespace Osqp.Gen

/-- The names declared in the file, without the prefix; the last five constructors are the suffixes `_val`, `_csc`, `_p`, `_i`, `_x`. -/
inductive Nm
  | settings | sol_x | sol_y | sol_prim_inf_cert | sol_dual_inf_cert | sol | info
  | data_P | data_A | data_q | data_l | data_u | data
  | linsys_L | linsys_Dinv | linsys_P | linsys_bp | linsys_sol | linsys_rho_inv_vec | linsys_KKT | linsys_PtoKKT | linsys_AtoKKT
  | linsys_rhotoKKT | linsys_D | linsys_etree | linsys_Lnz | linsys_iwork | linsys_bwork | linsys_fwork | linsys
  | work_rho_vec | work_rho_inv_vec | work_constr_type | work_x | work_y | work_z | work_xz_tilde | work_xtilde_view | work_ztilde_view
  | work_x_prev | work_z_prev | work_Ax | work_Px | work_Aty | work_delta_y | work_Atdelta_y | work_delta_x | work_Pdelta_x
  | work_Adelta_x | work_D_temp | work_D_temp_A | work_E_temp
  | scaling_D | scaling_E | scaling_Dinv | scaling_Einv | scaling | work | solver
  | val (b : Nm) | csc (b : Nm) | p (b : Nm) | i (b : Nm) | x (b : Nm)
  deriving DecidableEq

/-- The C identifier, without the prefix. -/
def Nm.text : Nm → String
  | settings => "settings" | sol_x => "sol_x" | sol_y => "sol_y" | sol_prim_inf_cert => "sol_prim_inf_cert"
  | sol_dual_inf_cert => "sol_dual_inf_cert" | sol => "sol" | info => "info"
  | data_P => "data_P" | data_A => "data_A" | data_q => "data_q" | data_l => "data_l" | data_u => "data_u" | data => "data"
  | linsys_L => "linsys_L" | linsys_Dinv => "linsys_Dinv" | linsys_P => "linsys_P" | linsys_bp => "linsys_bp"
  | linsys_sol => "linsys_sol" | linsys_rho_inv_vec => "linsys_rho_inv_vec" | linsys_KKT => "linsys_KKT"
  | linsys_PtoKKT => "linsys_PtoKKT" | linsys_AtoKKT => "linsys_AtoKKT" | linsys_rhotoKKT => "linsys_rhotoKKT"
  | linsys_D => "linsys_D" | linsys_etree => "linsys_etree" | linsys_Lnz => "linsys_Lnz" | linsys_iwork => "linsys_iwork"
  | linsys_bwork => "linsys_bwork" | linsys_fwork => "linsys_fwork" | linsys => "linsys"
  | work_rho_vec => "work_rho_vec" | work_rho_inv_vec => "work_rho_inv_vec" | work_constr_type => "work_constr_type"
  | work_x => "work_x" | work_y => "work_y" | work_z => "work_z" | work_xz_tilde => "work_xz_tilde"
  | work_xtilde_view => "work_xtilde_view" | work_ztilde_view => "work_ztilde_view" | work_x_prev => "work_x_prev"
  | work_z_prev => "work_z_prev" | work_Ax => "work_Ax" | work_Px => "work_Px" | work_Aty => "work_Aty"
  | work_delta_y => "work_delta_y" | work_Atdelta_y => "work_Atdelta_y" | work_delta_x => "work_delta_x"
  | work_Pdelta_x => "work_Pdelta_x" | work_Adelta_x => "work_Adelta_x" | work_D_temp => "work_D_temp"
  | work_D_temp_A => "work_D_temp_A" | work_E_temp => "work_E_temp"
  | scaling_D => "scaling_D" | scaling_E => "scaling_E" | scaling_Dinv => "scaling_Dinv" | scaling_Einv => "scaling_Einv"
  | scaling => "scaling" | work => "work" | solver => "solver"
  | val b => b.text ++ "_val" | csc b => b.text ++ "_csc" | p b => b.text ++ "_p" | i b => b.text ++ "_i" | x b => b.text ++ "_x"

/-! ## What the writer reads -/

/-- `OSQPCscMatrix` (osqp_api_types.h:37-46): sizes and the arrays it points to (simplification: sizes are not negative). -/
structure Sparse (K : Type*) where
  m : ℕ
  n : ℕ
  p : List ℤ
  i : List ℤ
  x : List K
  nzmax : ℕ
  nz : ℤ

/-- `OSQPMatrix` (algebra_impl.h:41-44). -/
structure Mat (K : Type*) where
  csc : Sparse K
  symmetry : ℤ

/-- The members of `qdldl_solver` needed for matrix updates (qdldl_interface.h:87-102). -/
structure Upd (K : Type*) where
  KKT : Sparse K
  PtoKKT : List ℤ
  AtoKKT : List ℤ
  rhotoKKT : List ℤ
  D : List K
  etree : List ℤ
  Lnz : List ℤ

/-- `qdldl_solver` (qdldl_interface.h:18-106), what the writer reads of it. -/
structure Lin (K : Type*) where
  type : ℤ
  nthreads : ℤ
  L : Sparse K
  Dinv : List K
  P : List ℤ
  /-- Null if rho is a scalar. -/
  rho_inv_vec : Option (List K)
  sigma : K
  rho_inv : K
  n : ℕ
  m : ℕ

/-- `OSQPScaling` (types.h:32-39). -/
structure Scal (K : Type*) where
  c : K
  D : List K
  E : List K
  cinv : K
  Dinv : List K
  Einv : List K

/-- What the writer reads of a solver. An `OSQPVectorf` is the list of its `length` values. Simplification: the pointers that every
setup sets are not null; those that depend on settings may be. -/
structure Src (K : Type*) where
  settings : Settings K
  rho_estimate : K
  n : ℕ
  m : ℕ
  P : Mat K
  A : Mat K
  q : List K
  l : List K
  u : List K
  lin : Lin K
  /-- The part of the linear system solver used by matrix updates; it is part of the structure unless `OSQP_EMBEDDED_MODE == 1`. -/
  upd : Option (Upd K)
  rho_vec : Option (List K)
  rho_inv_vec : Option (List K)
  constr_type : Option (List ℤ)
  x : List K
  y : List K
  z : List K
  scaling : Option (Scal K)
  rho_inv : K
  rho_updated : ℤ
  last_rel_kkt : K

/-! ## The writer -/

/-- Why writing stops: an error code is returned, or memory outside an array is read. -/
inductive Stop
  | code (e : ℤ)
  | ub
  deriving DecidableEq

/-- What a writing function does: it stops, or it has written declarations. -/
abbrev W := Except Stop (List (Decl Nm))

variable {K : Type*} (pr : K → Lit)

/-- `if (c) { w }`. -/
def when (c : Prop) [Decidable c] (w : W) : W := if c then w else .ok []

/-- codegen.c:33-52 `write_vecf`. -/
def writeVecf (v : Option (List K)) (n : ℕ) (nm : Nm) : W :=
  match v with
  | none => .ok [⟨nm, .null⟩]
  | some xs =>
    if n = 0 then .ok [⟨nm, .null⟩]
    else if n ≤ xs.length then .ok [⟨nm, .arrF ((xs.take n).map pr)⟩] else .error .ub

/-- codegen.c:54-73 `write_veci`. -/
def writeVeci (v : Option (List ℤ)) (n : ℕ) (nm : Nm) : W :=
  match v with
  | none => .ok [⟨nm, .null⟩]
  | some xs =>
    if n = 0 then .ok [⟨nm, .null⟩]
    else if n ≤ xs.length then .ok [⟨nm, .arrI (xs.take n)⟩] else .error .ub

/-- codegen.c:75-89 `write_OSQPVectorf`. -/
def writeVectorf (v : Option (List K)) (nm : Nm) : W :=
  match v with
  | none => .error (.code Err.dataNotInitialized)
  | some xs => do
    let a ← writeVecf pr (some xs) xs.length (.val nm)
    return a ++ [⟨nm, .struct .vectorf [.arr (.val nm) 0, .int xs.length]⟩]

/-- codegen.c:91-105 `write_OSQPVectori`. -/
def writeVectori (v : Option (List ℤ)) (nm : Nm) : W :=
  match v with
  | none => .error (.code Err.dataNotInitialized)
  | some xs => do
    let a ← writeVeci (some xs) xs.length (.val nm)
    return a ++ [⟨nm, .struct .vectori [.arr (.val nm) 0, .int xs.length]⟩]

/-- codegen.c:112-138 `write_csc`. -/
def writeCsc (M : Sparse K) (nm : Nm) : W := do
  let a ← writeVeci (some M.p) (M.n + 1) (.p nm)
  let b ← writeVeci (some M.i) M.nzmax (.i nm)
  let c ← writeVecf pr (some M.x) M.nzmax (.x nm)
  return a ++ b ++ c ++
    [⟨nm, .struct .csc [.int M.m, .int M.n, .arr (.p nm) 0, .arr (.i nm) 0, .arr (.x nm) 0, .int M.nzmax, .int M.nz]⟩]

/-- codegen.c:140-157 `write_OSQPMatrix`. -/
def writeMatrix (M : Mat K) (nm : Nm) : W := do
  let a ← writeCsc pr M.csc (.csc nm)
  return a ++ [⟨nm, .struct .matrix [.addr (.csc nm), .int M.symmetry]⟩]

/-- codegen.c:164-207 `write_settings`. -/
def writeSettings (s : Settings K) : W :=
  .ok [⟨.settings, .struct .settings
    [.int 0, .int 1, .int 1, .int 0, .int 0, .int s.warm_starting, .int s.scaling, .int 0, .dec (pr s.rho), .int s.rho_is_vec,
     .dec (pr s.sigma), .dec (pr s.alpha), .int s.cg_max_iter, .int s.cg_tol_reduction, .dec (pr s.cg_tol_fraction),
     .int s.cg_precond, .int s.adaptive_rho, .int s.adaptive_rho_interval, .dec (pr s.adaptive_rho_fraction),
     .dec (pr s.adaptive_rho_tolerance), .int s.max_iter, .dec (pr s.eps_abs), .dec (pr s.eps_rel), .dec (pr s.eps_prim_inf),
     .dec (pr s.eps_dual_inf), .int s.scaled_termination, .int s.check_termination, .int s.check_dualgap, .dec (pr s.time_limit),
     .dec (pr s.delta), .int s.polish_refine_iter]⟩]

/-- `(OSQPFloat)0.0`. -/
def dec0 : Ini Nm := .dec (some 0)

/-- `%.20f` of `OSQP_INFTY`: `10^30`, which is printed exactly (simplification: the nearest double differs from `10^30`). -/
def decInfty : Ini Nm := .dec (some (10 ^ 50))

/-- codegen.c:214-243 `write_info`. -/
def writeInfo (rho_estimate : K) : W :=
  .ok [⟨.info, .struct .info
    [.str "unsolved", .int St.unsolved, .int 0, decInfty, decInfty, decInfty, decInfty, decInfty, .int 0, .int 0, .dec (pr rho_estimate),
     dec0, dec0, dec0, dec0, dec0, dec0, dec0]⟩]

/-- codegen.c:250-272 `write_solution`. -/
def writeSolution (n m : ℕ) : W :=
  .ok <| [⟨.sol_x, .zeroF n⟩] ++
    [if m > 0 then ⟨.sol_y, .zeroF m⟩ else ⟨.sol_y, .null⟩] ++
    [if m > 0 then ⟨.sol_prim_inf_cert, .zeroF m⟩ else ⟨.sol_prim_inf_cert, .null⟩] ++
    [⟨.sol_dual_inf_cert, .zeroF n⟩] ++
    [⟨.sol, .struct .solution [.arr .sol_x 0, .arr .sol_y 0, .arr .sol_prim_inf_cert 0, .arr .sol_dual_inf_cert 0]⟩]

/-- codegen.c:279-307 `write_scaling`. -/
def writeScaling (s : Option (Scal K)) : W :=
  match s with
  | none => .error (.code Err.workspaceNotInit)
  | some s => do
    let a ← writeVectorf pr (some s.D) .scaling_D
    let b ← writeVectorf pr (some s.E) .scaling_E
    let c ← writeVectorf pr (some s.Dinv) .scaling_Dinv
    let d ← writeVectorf pr (some s.Einv) .scaling_Einv
    return a ++ b ++ c ++ d ++
      [⟨.scaling, .struct .scaling
        [.dec (pr s.c), .addr .scaling_D, .addr .scaling_E, .dec (pr s.cinv), .addr .scaling_Dinv, .addr .scaling_Einv]⟩]

/-- codegen.c:314-345 `write_data`. -/
def writeData (s : Src K) : W := do
  let a ← writeMatrix pr s.P .data_P
  let b ← writeMatrix pr s.A .data_A
  let c ← writeVectorf pr (some s.q) .data_q
  let d ← writeVectorf pr (some s.l) .data_l
  let e ← writeVectorf pr (some s.u) .data_u
  return a ++ b ++ c ++ d ++ e ++
    [⟨.data, .struct .data [.int s.n, .int s.m, .addr .data_P, .addr .data_A, .addr .data_q, .addr .data_l, .addr .data_u]⟩]

/-- `M->p[n]`, or `none` outside the array (simplification: not negative). -/
def Sparse.nnz (M : Sparse K) (n : ℕ) : Option ℕ := (M.p[n]?).map Int.toNat

/-- codegen.c:381-399: the arrays written only if `embedded > 1`. -/
def writeUpd (s : Src K) (v : Lin K) (w : Upd K) : W := do
  let a ← writeCsc pr w.KKT .linsys_KKT
  let np ← (s.P.csc.nnz v.n).elim (.error .ub) .ok
  let b ← writeVeci (some w.PtoKKT) np .linsys_PtoKKT
  let na ← (s.A.csc.nnz v.n).elim (.error .ub) .ok
  let c ← writeVeci (some w.AtoKKT) na .linsys_AtoKKT
  let d ← writeVeci (some w.rhotoKKT) v.m .linsys_rhotoKKT
  let e ← writeVecf pr (some w.D) (v.n + v.m) .linsys_D
  let f ← writeVeci (some w.etree) (v.n + v.m) .linsys_etree
  let g ← writeVeci (some w.Lnz) (v.n + v.m) .linsys_Lnz
  return a ++ b ++ c ++ d ++ e ++ f ++ g ++
    [⟨.linsys_iwork, .zeroI (3 * (v.n + v.m))⟩, ⟨.linsys_bwork, .zeroB (v.n + v.m)⟩, ⟨.linsys_fwork, .zeroF (v.n + v.m)⟩]

/-- codegen.c:352-444 `write_linsys`. -/
def writeLinsys (s : Src K) (embedded : ℤ) : W := do
  let v := s.lin
  let a ← writeCsc pr v.L .linsys_L
  let b ← writeVecf pr (some v.Dinv) (v.n + v.m) .linsys_Dinv
  let c ← writeVeci (some v.P) (v.n + v.m) .linsys_P
  let d : List (Decl Nm) := [⟨.linsys_bp, .zeroF (v.n + v.m)⟩, ⟨.linsys_sol, .zeroF (v.n + v.m)⟩]
  let e ← when v.rho_inv_vec.isSome (writeVecf pr v.rho_inv_vec v.m .linsys_rho_inv_vec)
  let f ← when (embedded > 1) (s.upd.elim (.error .ub) (writeUpd pr s v))
  return a ++ b ++ c ++ d ++ e ++ f ++
    [⟨.linsys, .struct .qdldl <|
      [.int v.type, .fn .name, .fn .solve, .fn .update_settings, .fn .warm_start] ++
      (if embedded > 1 then [.fn .update_matrices, .fn .update_rho_vec] else []) ++
      [.int v.nthreads, .addr .linsys_L, .arr .linsys_Dinv 0, .arr .linsys_P 0, .arr .linsys_bp 0, .arr .linsys_sol 0] ++
      (if v.rho_inv_vec.isSome then [.arr .linsys_rho_inv_vec 0] else [.int 0]) ++
      [.dec (pr v.sigma), .dec (pr v.rho_inv), .int v.n, .int v.m] ++
      (if embedded > 1 then
        [.addr .linsys_KKT, .arr .linsys_PtoKKT 0, .arr .linsys_AtoKKT 0, .arr .linsys_rhotoKKT 0, .arr .linsys_D 0,
         .arr .linsys_etree 0, .arr .linsys_Lnz 0, .arr .linsys_iwork 0, .arr .linsys_bwork 0, .arr .linsys_fwork 0]
       else [])⟩]

/-- An array without initialiser and the `OSQPVectorf` around it, e.g. codegen.c:491-492. -/
def scratch (nm : Nm) (len : ℕ) : List (Decl Nm) :=
  [⟨.val nm, .zeroF len⟩, ⟨nm, .struct .vectorf [.arr (.val nm) 0, .int len]⟩]

/-- The same for a vector of length `m`: without array if `m` is zero, e.g. codegen.c:493-502. -/
def scratchM (nm : Nm) (m : ℕ) : List (Decl Nm) :=
  if m > 0 then scratch nm m else [⟨nm, .struct .vectorf [.int 0, .int 0]⟩]

/-- codegen.c:467-477: the step-size vectors. -/
def writeRho (s : Src K) (embedded : ℤ) : W :=
  if s.settings.rho_is_vec ≠ 0 then do
    let a ← writeVectorf pr s.rho_vec .work_rho_vec
    let b ← writeVectorf pr s.rho_inv_vec .work_rho_inv_vec
    let c ← when (embedded > 1) (writeVectori s.constr_type .work_constr_type)
    return a ++ b ++ c
  else .ok []

/-- codegen.c:487-539: the vectors without initial values. -/
def workScratch (n m : ℕ) (embedded : ℤ) : List (Decl Nm) :=
  [⟨.val .work_xz_tilde, .zeroF (n + m)⟩,
   ⟨.work_xz_tilde, .struct .vectorf [.arr (.val .work_xz_tilde) 0, .int ((n + m : ℕ) : ℤ)]⟩,
   ⟨.work_xtilde_view, .struct .vectorf [.arr (.val .work_xz_tilde) 0, .int n]⟩,
   ⟨.work_ztilde_view, .struct .vectorf [.arr (.val .work_xz_tilde) n, .int m]⟩] ++
  scratch .work_x_prev n ++ scratchM .work_z_prev m ++ scratchM .work_Ax m ++ scratch .work_Px n ++ scratch .work_Aty n ++
  scratchM .work_delta_y m ++ scratch .work_Atdelta_y n ++ scratch .work_delta_x n ++ scratch .work_Pdelta_x n ++
  scratchM .work_Adelta_x m ++
  (if embedded > 1 then scratch .work_D_temp n ++ scratch .work_D_temp_A n ++ scratchM .work_E_temp m else [])

/-- codegen.c:545-609: the initialiser of the workspace structure. -/
def workInits (s : Src K) (embedded : ℤ) : List (Ini Nm) :=
  [.addr .data, .addrLin .linsys] ++
  (if s.settings.rho_is_vec ≠ 0 then
    [.addr .work_rho_vec, .addr .work_rho_inv_vec] ++ (if embedded > 1 then [.addr .work_constr_type] else [])
   else [.int 0, .int 0] ++ (if embedded > 1 then [.int 0] else [])) ++
  [.addr .work_x, .addr .work_y, .addr .work_z, .addr .work_xz_tilde, .addr .work_xtilde_view, .addr .work_ztilde_view,
   .addr .work_x_prev, .addr .work_z_prev, .addr .work_Ax, .addr .work_Px, .addr .work_Aty, dec0, dec0, dec0, dec0,
   .addr .work_delta_y, .addr .work_Atdelta_y, .addr .work_delta_x, .addr .work_Pdelta_x, .addr .work_Adelta_x] ++
  (if embedded > 1 then
    if s.settings.scaling ≠ 0 then [.addr .work_D_temp, .addr .work_D_temp_A, .addr .work_E_temp] else [.int 0, .int 0, .int 0]
   else []) ++
  (if s.settings.scaling ≠ 0 then [.addr .scaling] else [.int 0]) ++
  [dec0, dec0, .dec (pr s.rho_inv), .int s.rho_updated, .dec (pr s.last_rel_kkt)]

/-- codegen.c:451-612 `write_workspace`. -/
def writeWorkspace (s : Src K) (n m : ℕ) (embedded : ℤ) : W := do
  let a ← writeData pr s
  let b ← writeLinsys pr s embedded
  let c ← writeRho pr s embedded
  let d ← writeVectorf pr (some s.x) .work_x
  let e ← writeVectorf pr (some s.y) .work_y
  let f ← writeVectorf pr (some s.z) .work_z
  let g ← when (s.settings.scaling ≠ 0) (writeScaling pr s.scaling)
  return a ++ b ++ c ++ d ++ e ++ f ++ workScratch n m embedded ++ g ++ [⟨.work, .struct .workspace (workInits pr s embedded)⟩]

/-- codegen.c:619-645 `write_solver`. -/
def writeSolver (s : Src K) (embedded : ℤ) : W := do
  let a ← writeSettings pr s.settings
  let b ← writeSolution s.n s.m
  let c ← writeInfo pr s.rho_estimate
  let d ← writeWorkspace pr s s.n s.m embedded
  return a ++ b ++ c ++ d ++
    [⟨.solver, .struct .solver [.addr .settings, .addr .sol, .addr .info, .addr .work]⟩]

/-- codegen.c:750-813 `codegen_defines`: the macros it writes. The value of `OSQP_EMBEDDED_MODE` is `embedded_mode`. -/
def macros (f : CodegenDefines) : Macros where
  mats := decide (f.embedded_mode ≠ 1)
  profiling := decide (f.profiling_enable = 1)
  printing := decide (f.printing_enable = 1)
  derivatives := decide (f.derivatives_enable = 1)

/-- codegen.c:709-747 `codegen_src` as called from osqp_api.c:1566: the declarations of `<prefix>workspace.c`. -/
def generate (s : Src K) (f : CodegenDefines) : W := writeSolver pr s f.embedded_mode

end Osqp.Gen
