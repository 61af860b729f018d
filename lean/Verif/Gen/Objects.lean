import Verif.Gen.Compile

/-!
# The objects of the compiled file
-/

set_option linter.unusedSectionVars false
namespace Osqp.Gen
variable {K : Type} [Field K] [LinearOrder K]

section
variable (pr : K → Lit)

/-- The printed number. -/
def dig (x : K) : ℤ := (pr x).getD 0

def fObj (xs : List K) : Obj Nm := if xs = [] then .null else .arrF (xs.map (dig pr))
def iObj (xs : List ℤ) : Obj Nm := if xs = [] then .null else .arrI xs
def zObj (b : Bool) (len : ℕ) : Obj Nm := if b then .arrF (List.replicate len 0) else .null
def ptr0 (len : ℕ) (nm : Nm) : Val Nm := if len = 0 then .null else .ptr nm 0
def vObj (nm : Nm) (len : ℕ) : Obj Nm := .struct .vectorf [ptr0 len (.val nm), .int len]
def viObj (nm : Nm) (len : ℕ) : Obj Nm := .struct .vectori [ptr0 len (.val nm), .int len]
def cObj (nm : Nm) (M : Sparse K) : Obj Nm :=
  .struct .csc [.int M.m, .int M.n, ptr0 M.p.length (.p nm), ptr0 M.i.length (.i nm), ptr0 M.x.length (.x nm), .int M.nzmax, .int M.nz, .int 0]
def mObj (nm : Nm) (M : Mat K) : Obj Nm := .struct .matrix [.ptr (.csc nm) 0, .int M.symmetry]

def settingsVals (s : Settings K) : List (Val Nm) :=
  [.int 0, .int 1, .int 1, .int 0, .int 0, .int s.warm_starting, .int s.scaling, .int 0, .flt (dig pr s.rho), .int s.rho_is_vec,
   .flt (dig pr s.sigma), .flt (dig pr s.alpha), .int s.cg_max_iter, .int s.cg_tol_reduction, .flt (dig pr s.cg_tol_fraction),
   .int s.cg_precond, .int s.adaptive_rho, .int s.adaptive_rho_interval, .flt (dig pr s.adaptive_rho_fraction),
   .flt (dig pr s.adaptive_rho_tolerance), .int s.max_iter, .flt (dig pr s.eps_abs), .flt (dig pr s.eps_rel),
   .flt (dig pr s.eps_prim_inf), .flt (dig pr s.eps_dual_inf), .int s.scaled_termination, .int s.check_termination,
   .int s.check_dualgap, .flt (dig pr s.time_limit), .flt (dig pr s.delta), .int s.polish_refine_iter]

def solVals (mpos : Bool) : List (Val Nm) :=
  [.ptr .sol_x 0, if mpos then .ptr .sol_y 0 else .null, if mpos then .ptr .sol_prim_inf_cert 0 else .null, .ptr .sol_dual_inf_cert 0]

def infoVals (r : K) : List (Val Nm) :=
  [.str "unsolved", .int St.unsolved, .int 0, .flt (10 ^ 50), .flt (10 ^ 50), .flt (10 ^ 50), .flt (10 ^ 50), .flt (10 ^ 50), .int 0, .int 0,
   .flt (dig pr r), .flt 0, .flt 0, .flt 0, .flt 0, .flt 0, .flt 0, .flt 0]

def dataVals (n m : ℕ) : List (Val Nm) :=
  [.int n, .int m, .ptr .data_P 0, .ptr .data_A 0, .ptr .data_q 0, .ptr .data_l 0, .ptr .data_u 0]

def linVals (v : Lin K) (w : Upd K) (mats rinv : Bool) : List (Val Nm) :=
  [.int v.type, .fn .name, .fn .solve, .fn .update_settings, .fn .warm_start] ++
  (if mats then [.fn .update_matrices, .fn .update_rho_vec] else []) ++
  [.int v.nthreads, .ptr .linsys_L 0, ptr0 v.Dinv.length .linsys_Dinv, ptr0 v.P.length .linsys_P, .ptr .linsys_bp 0, .ptr .linsys_sol 0,
   if rinv then ptr0 (v.rho_inv_vec.getD []).length .linsys_rho_inv_vec else .null, .flt (dig pr v.sigma), .flt (dig pr v.rho_inv),
   .int v.n, .int v.m] ++
  (if mats then
    [.ptr .linsys_KKT 0, ptr0 w.PtoKKT.length .linsys_PtoKKT, ptr0 w.AtoKKT.length .linsys_AtoKKT,
     ptr0 w.rhotoKKT.length .linsys_rhotoKKT, ptr0 w.D.length .linsys_D, ptr0 w.etree.length .linsys_etree,
     ptr0 w.Lnz.length .linsys_Lnz, .ptr .linsys_iwork 0, .ptr .linsys_bwork 0, .ptr .linsys_fwork 0, .null]
   else [])

def scalVals (c : Scal K) : List (Val Nm) :=
  [.flt (dig pr c.c), .ptr .scaling_D 0, .ptr .scaling_E 0, .flt (dig pr c.cinv), .ptr .scaling_Dinv 0, .ptr .scaling_Einv 0]

def opt (b : Bool) (nm : Nm) : Val Nm := if b then .ptr nm 0 else .null

def headVals (mats rho scal : Bool) (k : ℤ) : List (Val Nm) :=
  [.ptr .data 0, .ptr .linsys 0, opt rho .work_rho_vec, opt rho .work_rho_inv_vec] ++
  (if mats then [opt rho .work_constr_type] else []) ++
  [.ptr .work_x 0, .ptr .work_y 0, .ptr .work_z 0, .ptr .work_xz_tilde 0, .ptr .work_xtilde_view 0, .ptr .work_ztilde_view 0,
   .ptr .work_x_prev 0, .ptr .work_z_prev 0, .ptr .work_Ax 0, .ptr .work_Px 0, .ptr .work_Aty 0, .flt 0, .flt 0, .flt 0, .flt 0,
   .ptr .work_delta_y 0, .ptr .work_Atdelta_y 0, .ptr .work_delta_x 0, .ptr .work_Pdelta_x 0, .ptr .work_Adelta_x 0] ++
  (if mats then [opt scal .work_D_temp, opt scal .work_D_temp_A, opt scal .work_E_temp] else []) ++
  [opt scal .scaling, .flt 0, .flt 0, .flt k]

def bObj (b : Bool) (nm : Nm) (len : ℕ) : Obj Nm :=
  .struct .vectorf [if b then .ptr (.val nm) 0 else .null, .int len]

/-- The members of the workspace after `rho_inv`. -/
def tailLayout (cf : Macros) : List (Fld × Ty) :=
  (if cf.profiling then [(.timer, .pTimer), (.first_run, .int), (.clear_update_time, .int), (.rho_update_from_solve, .int)] else []) ++
  (if cf.printing then [(.summary_printed, .int)] else []) ++
  (if cf.derivatives then [(.derivative_data, .pDerivative)] else []) ++
  [(.rho_updated, .int), (.last_rel_kkt, .float)]

/-- The members of the workspace up to `rho_inv`. -/
def headLayout (mats : Bool) : List (Fld × Ty) :=
  [(.data, .pS .data), (.linsys_solver, .pLinSys), (.rho_vec, .pS .vectorf), (.rho_inv_vec, .pS .vectorf)] ++
  (if mats then [(.constr_type, .pS .vectori)] else []) ++
  [(.x, .pS .vectorf), (.y, .pS .vectorf), (.z, .pS .vectorf), (.xz_tilde, .pS .vectorf), (.xtilde_view, .pS .vectorf),
   (.ztilde_view, .pS .vectorf), (.x_prev, .pS .vectorf), (.z_prev, .pS .vectorf), (.Ax, .pS .vectorf), (.Px, .pS .vectorf),
   (.Aty, .pS .vectorf), (.xtPx, .float), (.qtx, .float), (.SC, .float), (.scaled_dual_gap, .float), (.delta_y, .pS .vectorf),
   (.Atdelta_y, .pS .vectorf), (.delta_x, .pS .vectorf), (.Pdelta_x, .pS .vectorf), (.Adelta_x, .pS .vectorf)] ++
  (if mats then [(.D_temp, .pS .vectorf), (.D_temp_A, .pS .vectorf), (.E_temp, .pS .vectorf)] else []) ++
  [(.scaling, .pS .scaling), (.scaled_prim_res, .float), (.scaled_dual_res, .float), (.rho_inv, .float)]

theorem layout_work (cf : Macros) : layout cf .workspace = headLayout cf.mats ++ tailLayout cf := by
  simp only [layout, headLayout, tailLayout, List.append_assoc]

/-- The object of each name. -/
def obj (s : Src K) (w : Upd K) (c : Scal K) (fl : Fl) (tv : List (Val Nm)) : Nm → Obj Nm
  | .settings => .struct .settings (settingsVals pr s.settings)
  | .sol_x => .arrF (List.replicate s.n 0)
  | .sol_y => zObj fl.mpos s.m
  | .sol_prim_inf_cert => zObj fl.mpos s.m
  | .sol_dual_inf_cert => .arrF (List.replicate s.n 0)
  | .sol => .struct .solution (solVals fl.mpos)
  | .info => .struct .info (infoVals pr s.rho_estimate)
  | .p (.csc .data_P) => iObj s.P.csc.p
  | .i (.csc .data_P) => iObj s.P.csc.i
  | .x (.csc .data_P) => fObj pr s.P.csc.x
  | .csc .data_P => cObj (.csc .data_P) s.P.csc
  | .data_P => mObj .data_P s.P
  | .p (.csc .data_A) => iObj s.A.csc.p
  | .i (.csc .data_A) => iObj s.A.csc.i
  | .x (.csc .data_A) => fObj pr s.A.csc.x
  | .csc .data_A => cObj (.csc .data_A) s.A.csc
  | .data_A => mObj .data_A s.A
  | .val .data_q => fObj pr s.q
  | .data_q => vObj .data_q s.q.length
  | .val .data_l => fObj pr s.l
  | .data_l => vObj .data_l s.l.length
  | .val .data_u => fObj pr s.u
  | .data_u => vObj .data_u s.u.length
  | .data => .struct .data (dataVals s.n s.m)
  | .p .linsys_L => iObj s.lin.L.p
  | .i .linsys_L => iObj s.lin.L.i
  | .x .linsys_L => fObj pr s.lin.L.x
  | .linsys_L => cObj .linsys_L s.lin.L
  | .linsys_Dinv => fObj pr s.lin.Dinv
  | .linsys_P => iObj s.lin.P
  | .linsys_bp => .arrF (List.replicate (s.lin.n + s.lin.m) 0)
  | .linsys_sol => .arrF (List.replicate (s.lin.n + s.lin.m) 0)
  | .linsys_rho_inv_vec => fObj pr (s.lin.rho_inv_vec.getD [])
  | .p .linsys_KKT => iObj w.KKT.p
  | .i .linsys_KKT => iObj w.KKT.i
  | .x .linsys_KKT => fObj pr w.KKT.x
  | .linsys_KKT => cObj .linsys_KKT w.KKT
  | .linsys_PtoKKT => iObj w.PtoKKT
  | .linsys_AtoKKT => iObj w.AtoKKT
  | .linsys_rhotoKKT => iObj w.rhotoKKT
  | .linsys_D => fObj pr w.D
  | .linsys_etree => iObj w.etree
  | .linsys_Lnz => iObj w.Lnz
  | .linsys_iwork => .arrI (List.replicate (3 * (s.lin.n + s.lin.m)) 0)
  | .linsys_bwork => .arrB (s.lin.n + s.lin.m)
  | .linsys_fwork => .arrF (List.replicate (s.lin.n + s.lin.m) 0)
  | .linsys => .struct .qdldl (linVals pr s.lin w fl.mats fl.rinv)
  | .val .work_rho_vec => fObj pr (s.rho_vec.getD [])
  | .work_rho_vec => vObj .work_rho_vec (s.rho_vec.getD []).length
  | .val .work_rho_inv_vec => fObj pr (s.rho_inv_vec.getD [])
  | .work_rho_inv_vec => vObj .work_rho_inv_vec (s.rho_inv_vec.getD []).length
  | .val .work_constr_type => iObj (s.constr_type.getD [])
  | .work_constr_type => viObj .work_constr_type (s.constr_type.getD []).length
  | .val .work_x => fObj pr s.x
  | .work_x => vObj .work_x s.x.length
  | .val .work_y => fObj pr s.y
  | .work_y => vObj .work_y s.y.length
  | .val .work_z => fObj pr s.z
  | .work_z => vObj .work_z s.z.length
  | .val .work_xz_tilde => .arrF (List.replicate (s.n + s.m) 0)
  | .work_xz_tilde => .struct .vectorf [.ptr (.val .work_xz_tilde) 0, .int ((s.n + s.m : ℕ) : ℤ)]
  | .work_xtilde_view => .struct .vectorf [.ptr (.val .work_xz_tilde) 0, .int s.n]
  | .work_ztilde_view => .struct .vectorf [.ptr (.val .work_xz_tilde) s.n, .int s.m]
  | .val .work_x_prev => .arrF (List.replicate s.n 0)
  | .work_x_prev => bObj true .work_x_prev s.n
  | .val .work_z_prev => .arrF (List.replicate s.m 0)
  | .work_z_prev => bObj fl.mpos .work_z_prev s.m
  | .val .work_Ax => .arrF (List.replicate s.m 0)
  | .work_Ax => bObj fl.mpos .work_Ax s.m
  | .val .work_Px => .arrF (List.replicate s.n 0)
  | .work_Px => bObj true .work_Px s.n
  | .val .work_Aty => .arrF (List.replicate s.n 0)
  | .work_Aty => bObj true .work_Aty s.n
  | .val .work_delta_y => .arrF (List.replicate s.m 0)
  | .work_delta_y => bObj fl.mpos .work_delta_y s.m
  | .val .work_Atdelta_y => .arrF (List.replicate s.n 0)
  | .work_Atdelta_y => bObj true .work_Atdelta_y s.n
  | .val .work_delta_x => .arrF (List.replicate s.n 0)
  | .work_delta_x => bObj true .work_delta_x s.n
  | .val .work_Pdelta_x => .arrF (List.replicate s.n 0)
  | .work_Pdelta_x => bObj true .work_Pdelta_x s.n
  | .val .work_Adelta_x => .arrF (List.replicate s.m 0)
  | .work_Adelta_x => bObj fl.mpos .work_Adelta_x s.m
  | .val .work_D_temp => .arrF (List.replicate s.n 0)
  | .work_D_temp => bObj true .work_D_temp s.n
  | .val .work_D_temp_A => .arrF (List.replicate s.n 0)
  | .work_D_temp_A => bObj true .work_D_temp_A s.n
  | .val .work_E_temp => .arrF (List.replicate s.m 0)
  | .work_E_temp => bObj fl.mpos .work_E_temp s.m
  | .val .scaling_D => fObj pr c.D
  | .scaling_D => vObj .scaling_D c.D.length
  | .val .scaling_E => fObj pr c.E
  | .scaling_E => vObj .scaling_E c.E.length
  | .val .scaling_Dinv => fObj pr c.Dinv
  | .scaling_Dinv => vObj .scaling_Dinv c.Dinv.length
  | .val .scaling_Einv => fObj pr c.Einv
  | .scaling_Einv => vObj .scaling_Einv c.Einv.length
  | .scaling => .struct .scaling (scalVals pr c)
  | .work => .struct .workspace (headVals fl.mats fl.rho fl.scal (dig pr s.rho_inv) ++ tv)
  | .solver => .struct .solver [.ptr .settings 0, .ptr .sol 0, .ptr .info 0, .ptr .work 0]
  | _ => .null

/-! ## Members -/

variable {env : Env Nm} {cf : Macros}

/-- Does the value print as a number? -/
def Pr (x : K) : Prop := (pr x).isSome

variable {pr}

theorem Pr.eq {x : K} (h : Pr pr x) : pr x = some (dig pr x) := by
  obtain ⟨k, hk⟩ := Option.isSome_iff_exists.1 h
  simp [dig, hk]

theorem conv_dec {x : K} (h : Pr pr x) : conv env .float (.dec (pr x)) = some (.flt (dig pr x)) := by
  rw [h.eq]; rfl

theorem conv_fptr {nm : Nm} {xs : List K} (h : env.lookup nm = some (fObj pr xs)) :
    conv env .pF (.arr nm 0) = some (ptr0 xs.length nm) := by
  by_cases hx : xs = []
  · simp [conv, h, fObj, hx, ptr0, convInt]
  · have : xs.length ≠ 0 := by simpa using hx
    simp [conv, h, fObj, hx, ptr0]

theorem conv_iptr {nm : Nm} {xs : List ℤ} (h : env.lookup nm = some (iObj xs)) :
    conv env .pI (.arr nm 0) = some (ptr0 xs.length nm) := by
  by_cases hx : xs = []
  · simp [conv, h, iObj, hx, ptr0, convInt]
  · have : xs.length ≠ 0 := by simpa using hx
    simp [conv, h, iObj, hx, ptr0]

theorem conv_zptr {nm : Nm} {b : Bool} {len : ℕ} (h : env.lookup nm = some (zObj b len)) :
    conv env .pF (.arr nm 0) = some (if b then .ptr nm 0 else .null) := by
  cases b <;> simp [conv, h, zObj, convInt]

theorem conv_arrF {nm : Nm} {xs : List ℤ} {off : ℕ} (h : env.lookup nm = some (.arrF xs)) (ho : off ≤ xs.length) :
    conv env .pF (.arr nm off) = some (.ptr nm off) := by simp [conv, h, ho]

theorem conv_arrI {nm : Nm} {xs : List ℤ} (h : env.lookup nm = some (.arrI xs)) :
    conv env .pI (.arr nm 0) = some (.ptr nm 0) := by simp [conv, h]

theorem conv_arrB {nm : Nm} {len : ℕ} (h : env.lookup nm = some (.arrB len)) :
    conv env .pB (.arr nm 0) = some (.ptr nm 0) := by simp [conv, h]

theorem conv_addr {nm : Nm} {t : CTy} {vs : List (Val Nm)} (h : env.lookup nm = some (.struct t vs)) :
    conv env (.pS t) (.addr nm) = some (.ptr nm 0) := by simp [conv, h]

theorem conv_lin {nm : Nm} {vs : List (Val Nm)} (h : env.lookup nm = some (.struct .qdldl vs)) :
    conv env .pLinSys (.addrLin nm) = some (.ptr nm 0) := by simp [conv, h]

theorem object_f {xs : List K} (h : ∀ x ∈ xs, Pr pr x) : object cf env (fBody pr xs) = some (fObj pr xs) := by
  unfold fBody fObj
  by_cases hx : xs = []
  · simp [hx, object]
  · have : (xs.map pr).mapM id = some (xs.map (dig pr)) := by
      clear hx
      induction xs with
      | nil => rfl
      | cons x xs ih =>
        simp only [List.map_cons, List.mapM_cons, id, (h x (by simp)).eq, ih fun y hy => h y (by simp [hy])]
        rfl
    simp [hx, object, this]

theorem object_i (xs : List ℤ) : object cf env (iBody xs) = some (iObj xs) := by
  unfold iBody iObj
  by_cases hx : xs = [] <;> simp [hx, object]

theorem object_z {b : Bool} {len : ℕ} (h : b = true → len ≠ 0) : object cf env (zBody b len) = some (zObj b len) := by
  cases b
  · rfl
  · simp [zBody, zObj, object, h rfl]

theorem object_zero {len : ℕ} (h : len ≠ 0) : object cf env (.zeroF len) = some (.arrF (List.replicate len 0)) := by
  simp [object, h]

theorem object_v {nm : Nm} {xs : List K} (h : env.lookup (.val nm) = some (fObj pr xs)) :
    object cf env (.struct .vectorf [.arr (.val nm) 0, .int xs.length]) = some (vObj nm xs.length) := by
  simp only [object, layout, initAll, conv_fptr h, fnDeclared, List.all_cons, List.all_nil, Bool.and_true, if_true,
    Option.bind_some, Option.map_some, vObj]
  rfl

theorem object_vi {nm : Nm} {xs : List ℤ} (h : env.lookup (.val nm) = some (iObj xs)) :
    object cf env (.struct .vectori [.arr (.val nm) 0, .int xs.length]) = some (viObj nm xs.length) := by
  simp only [object, layout, initAll, conv_iptr h, fnDeclared, List.all_cons, List.all_nil, Bool.and_true, if_true,
    Option.bind_some, Option.map_some, viObj]
  rfl

theorem object_b {nm : Nm} {len k : ℕ} (h : env.lookup (.val nm) = some (.arrF (List.replicate k 0))) :
    object cf env (.struct .vectorf [.arr (.val nm) 0, .int len]) = some (bObj true nm len) := by
  simp only [object, layout, initAll, conv_arrF h (Nat.zero_le _), fnDeclared, List.all_cons, List.all_nil, Bool.and_true,
    if_true, Option.bind_some, Option.map_some, bObj]
  rfl

theorem object_b0 {nm : Nm} : object cf env (.struct .vectorf [.int 0, .int 0]) = some (bObj false nm 0) := rfl

theorem object_csc {nm : Nm} {M : Sparse K} (hp : env.lookup (.p nm) = some (iObj M.p)) (hi : env.lookup (.i nm) = some (iObj M.i))
    (hx : env.lookup (.x nm) = some (fObj pr M.x)) :
    object cf env (.struct .csc [.int M.m, .int M.n, .arr (.p nm) 0, .arr (.i nm) 0, .arr (.x nm) 0, .int M.nzmax, .int M.nz]) =
      some (cObj nm M) := by
  simp only [object, layout, initAll, conv_iptr hp, conv_iptr hi, conv_fptr hx, fnDeclared, List.all_cons, List.all_nil,
    Bool.and_true, if_true, Option.bind_some, Option.map_some, cObj, zero]
  rfl

theorem object_mat {nm : Nm} {M : Mat K} (h : env.lookup (.csc nm) = some (cObj (.csc nm) M.csc)) :
    object cf env (.struct .matrix [.addr (.csc nm), .int M.symmetry]) = some (mObj nm M) := by
  simp only [object, layout, initAll, conv_addr h, fnDeclared, List.all_cons, List.all_nil, Bool.and_true, if_true, Option.bind_some,
    Option.map_some, mObj]
  rfl

theorem initAll_append (l1 : List (Fld × Ty)) (i1 : List (Ini Nm)) (hl : l1.length = i1.length) (l2 : List (Fld × Ty))
    (i2 : List (Ini Nm)) {v1 v2 : List (Val Nm)} (h1 : initAll env l1 i1 = some v1) (h2 : initAll env l2 i2 = some v2) :
    initAll env (l1 ++ l2) (i1 ++ i2) = some (v1 ++ v2) := by
  induction l1 generalizing i1 v1 with
  | nil =>
    cases i1 with
    | nil => simp only [initAll, Option.some.injEq] at h1; subst h1; simpa using h2
    | cons _ _ => simp at hl
  | cons a l1 ih =>
    cases i1 with
    | nil => simp at hl
    | cons b i1 =>
      obtain ⟨f, t⟩ := a
      simp only [initAll] at h1
      cases hc : conv env t b with
      | none => simp [hc] at h1
      | some v =>
        cases hr : initAll env l1 i1 with
        | none => simp [hc, hr] at h1
        | some vs =>
          simp only [hc, hr, Option.bind_some, Option.map_some, Option.some.injEq] at h1
          subst h1
          simp only [List.cons_append, initAll, hc, Option.bind_some, ih i1 (by simpa using hl) hr, Option.map_some]

end
end Osqp.Gen
