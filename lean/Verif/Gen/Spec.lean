import Verif.Gen.Model

/-!
# What a generated workspace must be

The file is compiled with the macros of the generated configuration header. Starting from the variable `solver`, a program that uses
the structures sees a problem, settings, iterates and a factorisation: `loadSrc`. They must be those of the solver from which the
file was generated, up to the rounding of printed numbers: `SameBody`, `SameTail`. The remaining members are results not computed
yet and room for vectors: `Fresh`.
-/

namespace Osqp.Gen
variable {K : Type} [Field K] [LinearOrder K]

/-- The number `k / 10^20`. -/
def num (k : ℤ) : K := (k : K) / 10 ^ 20

section
variable {N : Type} [DecidableEq N] (cf : Macros) (env : Env N)

/-- An integer member. -/
def int (t : CTy) (f : Fld) (v : Val N) : Option ℤ :=
  (member cf env t f v).bind fun | .int z => some z | _ => none

/-- A member that is a size. -/
def size (t : CTy) (f : Fld) (v : Val N) : Option ℕ :=
  (int cf env t f v).bind fun z => if 0 ≤ z then some z.toNat else none

/-- A floating-point member. -/
def flt (t : CTy) (f : Fld) (v : Val N) : Option K :=
  (member cf env t f v).bind fun | .flt k => some (num k) | _ => none

/-- The array of `len` numbers a member points to. -/
def arrF (t : CTy) (f : Fld) (len : ℕ) (v : Val N) : Option (List K) :=
  (member cf env t f v).bind fun a => (readF env len a).map (List.map num)

/-- The array of `len` integers a member points to. -/
def arrI (t : CTy) (f : Fld) (len : ℕ) (v : Val N) : Option (List ℤ) :=
  (member cf env t f v).bind (readI env len)

/-- The values of an `OSQPVectorf`. -/
def loadVecf (v : Val N) : Option (List K) :=
  (size cf env .vectorf .length v).bind fun len => arrF cf env .vectorf .values len v

/-- The values of an `OSQPVectori`. -/
def loadVeci (v : Val N) : Option (List ℤ) :=
  (size cf env .vectori .length v).bind fun len => arrI cf env .vectori .values len v

/-- An `OSQPVectorf` a member points to. -/
def vecf (t : CTy) (f : Fld) (v : Val N) : Option (List K) := (member cf env t f v).bind (loadVecf cf env)

/-- What a member points to, or `none` if it is null. -/
def orNull {α : Type} (t : CTy) (f : Fld) (read : Val N → Option α) (v : Val N) : Option (Option α) :=
  (member cf env t f v).bind fun a => if a = .null then some none else (read a).map some

/-- A member that is part of the structure only if `b`. -/
def ifExists {α : Type} (b : Bool) (o : Option (Option α)) : Option (Option α) := if b then o else some none

/-- An `OSQPCscMatrix`. -/
def loadCsc (v : Val N) : Option (Sparse K) := do
  let m ← size cf env .csc .m v
  let n ← size cf env .csc .n v
  let nzmax ← size cf env .csc .nzmax v
  let p ← arrI cf env .csc .p (n + 1) v
  let i ← arrI cf env .csc .i nzmax v
  let x ← arrF cf env .csc .x nzmax v
  let nz ← int cf env .csc .nz v
  return ⟨m, n, p, i, x, nzmax, nz⟩

/-- An `OSQPMatrix`. -/
def loadMat (v : Val N) : Option (Mat K) := do
  let c ← member cf env .matrix .csc v
  let c ← loadCsc cf env c
  let s ← int cf env .matrix .symmetry v
  return ⟨c, s⟩

/-- `OSQPSettings`. -/
def loadSettings (v : Val N) : Option (Settings K) := do
  let z := fun f => int cf env .settings f v
  let r := fun f => (flt cf env .settings f v : Option K)
  return {
    device := ← z .device, linsys_solver := ← z .linsys_solver, allocate_solution := ← z .allocate_solution
    verbose := ← z .verbose, profiler_level := ← z .profiler_level, warm_starting := ← z .warm_starting
    scaling := ← z .scaling, polishing := ← z .polishing, rho := ← r .rho, rho_is_vec := ← z .rho_is_vec
    sigma := ← r .sigma, alpha := ← r .alpha, cg_max_iter := ← z .cg_max_iter, cg_tol_reduction := ← z .cg_tol_reduction
    cg_tol_fraction := ← r .cg_tol_fraction, cg_precond := ← z .cg_precond, adaptive_rho := ← z .adaptive_rho
    adaptive_rho_interval := ← z .adaptive_rho_interval, adaptive_rho_fraction := ← r .adaptive_rho_fraction
    adaptive_rho_tolerance := ← r .adaptive_rho_tolerance, max_iter := ← z .max_iter, eps_abs := ← r .eps_abs
    eps_rel := ← r .eps_rel, eps_prim_inf := ← r .eps_prim_inf, eps_dual_inf := ← r .eps_dual_inf
    scaled_termination := ← z .scaled_termination, check_termination := ← z .check_termination
    check_dualgap := ← z .check_dualgap, time_limit := ← r .time_limit, delta := ← r .delta
    polish_refine_iter := ← z .polish_refine_iter }

/-- `OSQPScaling`. -/
def loadScaling (v : Val N) : Option (Scal K) := do
  return {
    c := ← flt cf env .scaling .c v, D := ← vecf cf env .scaling .D v, E := ← vecf cf env .scaling .E v
    cinv := ← flt cf env .scaling .cinv v, Dinv := ← vecf cf env .scaling .Dinv v, Einv := ← vecf cf env .scaling .Einv v }

/-- `qdldl_solver`. -/
def loadLin (v : Val N) : Option (Lin K) := do
  let n ← size cf env .qdldl .n v
  let m ← size cf env .qdldl .m v
  let L ← member cf env .qdldl .L v
  return {
    type := ← int cf env .qdldl .type v, nthreads := ← int cf env .qdldl .nthreads v, L := ← loadCsc cf env L
    Dinv := ← arrF cf env .qdldl .Dinv (n + m) v, P := ← arrI cf env .qdldl .P (n + m) v
    rho_inv_vec := ← orNull cf env .qdldl .rho_inv_vec (fun a => (readF env m a).map (List.map num)) v
    sigma := ← flt cf env .qdldl .sigma v, rho_inv := ← flt cf env .qdldl .rho_inv v, n := n, m := m }

/-- The part of `qdldl_solver` for matrix updates, when `P` and `A` have `np` and `na` stored entries. -/
def loadUpd (np na : ℕ) (v : Val N) : Option (Upd K) := do
  let n ← size cf env .qdldl .n v
  let m ← size cf env .qdldl .m v
  let KKT ← member cf env .qdldl .KKT v
  return {
    KKT := ← loadCsc cf env KKT, PtoKKT := ← arrI cf env .qdldl .PtoKKT np v, AtoKKT := ← arrI cf env .qdldl .AtoKKT na v
    rhotoKKT := ← arrI cf env .qdldl .rhotoKKT m v, D := ← arrF cf env .qdldl .D (n + m) v
    etree := ← arrI cf env .qdldl .etree (n + m) v, Lnz := ← arrI cf env .qdldl .Lnz (n + m) v }

/-- The solver structure at `v`. The members that exist only with `OSQP_EMBEDDED_MODE != 1` are `none` otherwise. -/
def loadSrc (v : Val N) : Option (Src K) := do
  let settings ← member cf env .solver .settings v
  let info ← member cf env .solver .info v
  let work ← member cf env .solver .work v
  let data ← member cf env .workspace .data work
  let lin ← member cf env .workspace .linsys_solver work
  let P ← member cf env .data .P data
  let P ← loadMat cf env P
  let A ← member cf env .data .A data
  let A ← loadMat cf env A
  let np ← P.csc.nnz P.csc.n
  let na ← A.csc.nnz A.csc.n
  return {
    settings := ← loadSettings cf env settings, rho_estimate := ← flt cf env .info .rho_estimate info
    n := ← size cf env .data .n data, m := ← size cf env .data .m data, P := P, A := A
    q := ← vecf cf env .data .q data, l := ← vecf cf env .data .l data, u := ← vecf cf env .data .u data
    lin := ← loadLin cf env lin
    upd := ← ifExists cf.mats ((loadUpd cf env np na lin).map some)
    rho_vec := ← orNull cf env .workspace .rho_vec (loadVecf cf env) work
    rho_inv_vec := ← orNull cf env .workspace .rho_inv_vec (loadVecf cf env) work
    constr_type := ← ifExists cf.mats (orNull cf env .workspace .constr_type (loadVeci cf env) work)
    x := ← vecf cf env .workspace .x work, y := ← vecf cf env .workspace .y work, z := ← vecf cf env .workspace .z work
    scaling := ← orNull cf env .workspace .scaling (loadScaling cf env) work
    rho_inv := ← flt cf env .workspace .rho_inv work, rho_updated := ← int cf env .workspace .rho_updated work
    last_rel_kkt := ← flt cf env .workspace .last_rel_kkt work }

end

/-! ## Comparison -/

/-- Equal up to half a unit of the twentieth decimal. -/
def Near (a b : K) : Prop := |a - b| ≤ 1 / (2 * 10 ^ 20)

/-- Elementwise `Near`. -/
def NearL (a b : List K) : Prop := List.Forall₂ Near a b

/-- The same matrix up to rounding of the values. -/
structure SameSparse (M M' : Sparse K) : Prop where
  m : M'.m = M.m
  n : M'.n = M.n
  p : M'.p = M.p
  i : M'.i = M.i
  x : NearL M.x M'.x
  nzmax : M'.nzmax = M.nzmax
  nz : M'.nz = M.nz

structure SameMat (M M' : Mat K) : Prop where
  csc : SameSparse M.csc M'.csc
  symmetry : M'.symmetry = M.symmetry

/-- Settings of the generated solver: those of the original, except that the solution is allocated, nothing is printed and polishing is
off. -/
structure SameSettings (s t : Settings K) : Prop where
  device : t.device = 0
  linsys_solver : t.linsys_solver = 1
  allocate_solution : t.allocate_solution = 1
  verbose : t.verbose = 0
  profiler_level : t.profiler_level = 0
  warm_starting : t.warm_starting = s.warm_starting
  scaling : t.scaling = s.scaling
  polishing : t.polishing = 0
  rho : Near s.rho t.rho
  rho_is_vec : t.rho_is_vec = s.rho_is_vec
  sigma : Near s.sigma t.sigma
  alpha : Near s.alpha t.alpha
  cg_max_iter : t.cg_max_iter = s.cg_max_iter
  cg_tol_reduction : t.cg_tol_reduction = s.cg_tol_reduction
  cg_tol_fraction : Near s.cg_tol_fraction t.cg_tol_fraction
  cg_precond : t.cg_precond = s.cg_precond
  adaptive_rho : t.adaptive_rho = s.adaptive_rho
  adaptive_rho_interval : t.adaptive_rho_interval = s.adaptive_rho_interval
  adaptive_rho_fraction : Near s.adaptive_rho_fraction t.adaptive_rho_fraction
  adaptive_rho_tolerance : Near s.adaptive_rho_tolerance t.adaptive_rho_tolerance
  max_iter : t.max_iter = s.max_iter
  eps_abs : Near s.eps_abs t.eps_abs
  eps_rel : Near s.eps_rel t.eps_rel
  eps_prim_inf : Near s.eps_prim_inf t.eps_prim_inf
  eps_dual_inf : Near s.eps_dual_inf t.eps_dual_inf
  scaled_termination : t.scaled_termination = s.scaled_termination
  check_termination : t.check_termination = s.check_termination
  check_dualgap : t.check_dualgap = s.check_dualgap
  time_limit : Near s.time_limit t.time_limit
  delta : Near s.delta t.delta
  polish_refine_iter : t.polish_refine_iter = s.polish_refine_iter

structure SameScal (s t : Scal K) : Prop where
  c : Near s.c t.c
  D : NearL s.D t.D
  E : NearL s.E t.E
  cinv : Near s.cinv t.cinv
  Dinv : NearL s.Dinv t.Dinv
  Einv : NearL s.Einv t.Einv

/-- The same factorisation. With no constraints, `rho_inv_vec` has no elements and may become null. -/
structure SameLin (s t : Lin K) : Prop where
  type : t.type = s.type
  nthreads : t.nthreads = s.nthreads
  L : SameSparse s.L t.L
  Dinv : NearL s.Dinv t.Dinv
  P : t.P = s.P
  rho_inv_vec : (s.m = 0 ∧ t.rho_inv_vec = none) ∨ Option.Rel NearL s.rho_inv_vec t.rho_inv_vec
  sigma : Near s.sigma t.sigma
  rho_inv : Near s.rho_inv t.rho_inv
  n : t.n = s.n
  m : t.m = s.m

structure SameUpd (s t : Upd K) : Prop where
  KKT : SameSparse s.KKT t.KKT
  PtoKKT : t.PtoKKT = s.PtoKKT
  AtoKKT : t.AtoKKT = s.AtoKKT
  rhotoKKT : t.rhotoKKT = s.rhotoKKT
  D : NearL s.D t.D
  etree : t.etree = s.etree
  Lnz : t.Lnz = s.Lnz

/-- Everything a solve or update reads, except the two members of `SameTail`. With `mats` also what matrix updates need. -/
structure SameBody (mats : Bool) (s t : Src K) : Prop where
  settings : SameSettings s.settings t.settings
  rho_estimate : Near s.rho_estimate t.rho_estimate
  n : t.n = s.n
  m : t.m = s.m
  P : SameMat s.P t.P
  A : SameMat s.A t.A
  q : NearL s.q t.q
  l : NearL s.l t.l
  u : NearL s.u t.u
  lin : SameLin s.lin t.lin
  upd : mats = true → Option.Rel SameUpd s.upd t.upd
  rho_vec : Option.Rel NearL s.rho_vec t.rho_vec
  rho_inv_vec : Option.Rel NearL s.rho_inv_vec t.rho_inv_vec
  constr_type : mats = true → t.constr_type = s.constr_type
  x : NearL s.x t.x
  y : NearL s.y t.y
  z : NearL s.z t.z
  scaling : Option.Rel SameScal s.scaling t.scaling
  rho_inv : Near s.rho_inv t.rho_inv

/-- The record of the step-size adaptation. -/
structure SameTail (s t : Src K) : Prop where
  rho_updated : t.rho_updated = s.rho_updated
  last_rel_kkt : Near s.last_rel_kkt t.last_rel_kkt

/-! ## Memory of the generated solver -/

/-- Where an `OSQPVectorf` member of the workspace has its values: the array and the position in it. -/
structure Place (N : Type) where
  arr : N
  off : ℕ
  deriving DecidableEq

section
variable {N : Type} [DecidableEq N] (cf : Macros) (env : Env N)

/-- The member `f` of type `OSQPVectorf *` has room for `len` numbers at `pl`; a vector without elements may have a null pointer. -/
def RoomAt (work : Val N) (f : Fld) (len : ℕ) (pl : Place N) : Prop :=
  ∃ v a, member cf env .workspace f work = some v ∧ size cf env .vectorf .length v = some len ∧
    member cf env .vectorf .values v = some a ∧
    ((len = 0 ∧ a = .null) ∨ (a = .ptr pl.arr pl.off ∧ (readF env len a).isSome))

/-- The vectors of the workspace that solving writes, and their lengths, apart from the two views. `temps`: also those that scaling
new matrices needs. -/
def vectors (temps : Bool) (n m : ℕ) : List (Fld × ℕ) :=
  [(.x, n), (.y, m), (.z, m), (.xz_tilde, n + m), (.x_prev, n), (.z_prev, m), (.Ax, m), (.Px, n), (.Aty, n), (.delta_y, m),
   (.Atdelta_y, n), (.delta_x, n), (.Pdelta_x, n), (.Adelta_x, m)] ++
  if temps then [(.D_temp, n), (.D_temp_A, n), (.E_temp, m)] else []

/-- The workspace has room for all its vectors, each in its own array; the two views are the parts of `xz_tilde`. -/
def Rooms (temps : Bool) (n m : ℕ) (work : Val N) : Prop :=
  ∃ arr : Fld → N,
    (∀ f ∈ vectors temps n m, ∀ g ∈ vectors temps n m, arr f.1 = arr g.1 → f.1 = g.1) ∧
    (∀ f ∈ vectors temps n m, RoomAt cf env work f.1 f.2 ⟨arr f.1, 0⟩) ∧
    RoomAt cf env work .xtilde_view n ⟨arr .xz_tilde, 0⟩ ∧ RoomAt cf env work .ztilde_view m ⟨arr .xz_tilde, n⟩

/-- The solution structure has its four arrays, each of its own. -/
def Results (n m : ℕ) (sol : Val N) : Prop :=
  ∃ arr : Fld → N, (∀ f ∈ [Fld.x, .y, .prim_inf_cert, .dual_inf_cert], ∀ g ∈ [Fld.x, .y, .prim_inf_cert, .dual_inf_cert],
      arr f = arr g → f = g) ∧
    ∀ f ∈ [(Fld.x, n), (.y, m), (.prim_inf_cert, m), (.dual_inf_cert, n)],
      ∃ a, member cf env .solution f.1 sol = some a ∧ ((f.2 = 0 ∧ a = .null) ∨ (a = .ptr (arr f.1) 0 ∧ (readF env f.2 a).isSome))

/-- The linear system solver has its functions and its work arrays. -/
def LinReady (mats : Bool) (nm : ℕ) (lin : Val N) : Prop :=
  member cf env .qdldl .name lin = some (.fn .name) ∧ member cf env .qdldl .solve lin = some (.fn .solve) ∧
  member cf env .qdldl .update_settings lin = some (.fn .update_settings) ∧
  member cf env .qdldl .warm_start lin = some (.fn .warm_start) ∧
  (∀ f ∈ [Fld.bp, .sol], ((member cf env .qdldl f lin).bind (readF env nm)).isSome) ∧
  (mats = true →
    member cf env .qdldl .update_matrices lin = some (.fn .update_matrices) ∧
    member cf env .qdldl .update_rho_vec lin = some (.fn .update_rho_vec) ∧
    ((member cf env .qdldl .iwork lin).bind (readI env (3 * nm))).isSome ∧
    ((member cf env .qdldl .fwork lin).bind (readF env nm)).isSome ∧
    ∃ b, member cf env .qdldl .bwork lin = some (.ptr b 0) ∧ env.lookup b = some (.arrB nm))

/-- The generated solver has not been run: the information record says so, and there is room for everything a solve writes and, with
`mats`, for matrix updates. `scal`: the problem is scaled. -/
def Fresh (mats scal : Bool) (n m : ℕ) (v : Val N) : Prop :=
  ∃ info sol work lin, member cf env .solver .info v = some info ∧ member cf env .solver .solution v = some sol ∧
    member cf env .solver .work v = some work ∧ member cf env .workspace .linsys_solver work = some lin ∧
    member cf env .info .status info = some (.str "unsolved") ∧ int cf env .info .status_val info = some St.unsolved ∧
    int cf env .info .iter info = some 0 ∧ int cf env .info .rho_updates info = some 0 ∧
    Results cf env n m sol ∧ Rooms cf env (mats && scal) n m work ∧ LinReady cf env mats (n + m) lin

end

/-! ## Solvers as setup leaves them -/

/-- Array sizes of a matrix. -/
structure SparseOk (M : Sparse K) : Prop where
  p : M.p.length = M.n + 1
  i : M.i.length = M.nzmax
  x : M.x.length = M.nzmax

/-- The sizes of a solver's arrays, and which pointers are null: `osqp_setup` (osqp_api.c:381-520) and
`init_linsys_solver_qdldl` (qdldl_interface.c:216-390). -/
structure Sized (s : Src K) : Prop where
  n_pos : 0 < s.n
  P : SparseOk s.P.csc
  P_n : s.P.csc.n = s.n
  A : SparseOk s.A.csc
  A_n : s.A.csc.n = s.n
  q : s.q.length = s.n
  l : s.l.length = s.m
  u : s.u.length = s.m
  lin_n : s.lin.n = s.n
  lin_m : s.lin.m = s.m
  L : SparseOk s.lin.L
  Dinv : s.lin.Dinv.length = s.n + s.m
  perm : s.lin.P.length = s.n + s.m
  lin_rho : ∀ v, s.lin.rho_inv_vec = some v → v.length = s.m
  x : s.x.length = s.n
  y : s.y.length = s.m
  z : s.z.length = s.m
  rho_vec : (s.settings.rho_is_vec = 0 → s.rho_vec = none ∧ s.rho_inv_vec = none ∧ s.constr_type = none) ∧
    (s.settings.rho_is_vec ≠ 0 → s.rho_vec.isSome ∧ s.rho_inv_vec.isSome ∧ s.constr_type.isSome)
  scaling : (s.settings.scaling = 0 → s.scaling = none) ∧ (s.settings.scaling ≠ 0 → s.scaling.isSome)
  upd : ∃ w, s.upd = some w ∧ SparseOk w.KKT ∧ s.P.csc.nnz s.n = some w.PtoKKT.length ∧
    s.A.csc.nnz s.n = some w.AtoKKT.length ∧ w.rhotoKKT.length = s.m ∧ w.D.length = s.n + s.m ∧ w.etree.length = s.n + s.m ∧
    w.Lnz.length = s.n + s.m

/-- All floating-point values of a solver that are written; with `mats` also those for matrix updates. -/
def Src.nums (mats : Bool) (s : Src K) : List K :=
  [s.settings.rho, s.settings.sigma, s.settings.alpha, s.settings.cg_tol_fraction, s.settings.adaptive_rho_fraction,
   s.settings.adaptive_rho_tolerance, s.settings.eps_abs, s.settings.eps_rel, s.settings.eps_prim_inf, s.settings.eps_dual_inf,
   s.settings.time_limit, s.settings.delta, s.rho_estimate, s.rho_inv, s.last_rel_kkt, s.lin.sigma, s.lin.rho_inv] ++
  s.P.csc.x ++ s.A.csc.x ++ s.q ++ s.l ++ s.u ++ s.lin.L.x ++ s.lin.Dinv ++ s.lin.rho_inv_vec.getD [] ++
  (if mats then s.upd.elim [] fun w => w.KKT.x ++ w.D else []) ++ s.rho_vec.getD [] ++ s.rho_inv_vec.getD [] ++ s.x ++ s.y ++ s.z ++
  (s.scaling.elim [] fun c => [c.c, c.cinv] ++ c.D ++ c.E ++ c.Dinv ++ c.Einv)

/-- The conversion of the printed number to `int` is defined. -/
def IntLit (l : Lit) : Prop := ∃ k, l = some k ∧ inInt (k.tdiv (10 ^ 20)) = true

/-- The last members of the workspace structure accept what is written for them. The writer ends with `rho_updated` and
`last_rel_kkt`. With profiling, these two positions are those of a pointer and an integer; with printing those of two integers, or of
an integer and a pointer if derivatives are enabled as well; with derivatives alone those of a pointer and an integer. -/
def TailFits (cf : Macros) (ru : ℤ) (l : Lit) : Prop :=
  if cf.profiling then ru = 0 ∧ IntLit l
  else if cf.printing then cf.derivatives = false ∧ IntLit l
  else if cf.derivatives then ru = 0 ∧ IntLit l
  else l.isSome

/-- `printf` with `%.20f`: a value that is printed as a number is rounded to 20 decimals. -/
def Rounds (pr : K → Lit) : Prop := ∀ x k, pr x = some k → Near x (num k)

end Osqp.Gen
