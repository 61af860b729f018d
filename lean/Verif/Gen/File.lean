import Verif.Gen.Spec

/-!
# The file written for a well-sized solver

For a solver whose arrays have the sizes setup gives them, the writer does not stop, and the file is the list `file` below.
-/

set_option linter.unusedSectionVars false
namespace Osqp.Gen
variable {K : Type} [Field K] [LinearOrder K]

/-- What the shape of the file depends on. -/
structure Fl where
  mats : Bool
  rho : Bool
  rinv : Bool
  mpos : Bool
  scal : Bool

def flags (s : Src K) (f : CodegenDefines) : Fl where
  mats := decide (f.embedded_mode > 1)
  rho := decide (s.settings.rho_is_vec ≠ 0)
  rinv := s.lin.rho_inv_vec.isSome
  mpos := decide (s.m > 0)
  scal := decide (s.settings.scaling ≠ 0)

section
variable (pr : K → Lit)

def fBody (xs : List K) : Body Nm := if xs = [] then .null else .arrF (xs.map pr)
def iBody (xs : List ℤ) : Body Nm := if xs = [] then .null else .arrI xs
def zBody (b : Bool) (len : ℕ) : Body Nm := if b then .zeroF len else .null

def vDecls (nm : Nm) (xs : List K) : List (Decl Nm) :=
  [⟨.val nm, fBody pr xs⟩, ⟨nm, .struct .vectorf [.arr (.val nm) 0, .int xs.length]⟩]
def viDecls (nm : Nm) (xs : List ℤ) : List (Decl Nm) :=
  [⟨.val nm, iBody xs⟩, ⟨nm, .struct .vectori [.arr (.val nm) 0, .int xs.length]⟩]
def cscDecls (nm : Nm) (M : Sparse K) : List (Decl Nm) :=
  [⟨.p nm, iBody M.p⟩, ⟨.i nm, iBody M.i⟩, ⟨.x nm, fBody pr M.x⟩,
   ⟨nm, .struct .csc [.int M.m, .int M.n, .arr (.p nm) 0, .arr (.i nm) 0, .arr (.x nm) 0, .int M.nzmax, .int M.nz]⟩]
def matDecls (nm : Nm) (M : Mat K) : List (Decl Nm) :=
  cscDecls pr (.csc nm) M.csc ++ [⟨nm, .struct .matrix [.addr (.csc nm), .int M.symmetry]⟩]

theorem ok_bind {α β : Type} (a : α) (g : α → Except Stop β) : (Except.ok a >>= g) = g a := rfl

theorem writeVecf_eq (xs : List K) (nm : Nm) {n : ℕ} (h : xs.length = n) :
    writeVecf pr (some xs) n nm = .ok [⟨nm, fBody pr xs⟩] := by
  subst h
  unfold writeVecf fBody
  by_cases hx : xs = []
  · simp [hx]
  · have : xs.length ≠ 0 := by simpa using hx
    simp [hx]

theorem writeVeci_eq (xs : List ℤ) (nm : Nm) {n : ℕ} (h : xs.length = n) :
    writeVeci (some xs) n nm = .ok [⟨nm, iBody xs⟩] := by
  subst h
  unfold writeVeci iBody
  by_cases hx : xs = []
  · simp [hx]
  · have : xs.length ≠ 0 := by simpa using hx
    simp [hx]

theorem writeVectorf_eq (xs : List K) (nm : Nm) : writeVectorf pr (some xs) nm = .ok (vDecls pr nm xs) := by
  simp only [writeVectorf, writeVecf_eq pr xs _ rfl]; rfl

theorem writeVectori_eq (xs : List ℤ) (nm : Nm) : writeVectori (some xs) nm = .ok (viDecls nm xs) := by
  simp only [writeVectori, writeVeci_eq xs _ rfl]; rfl

theorem writeCsc_eq {M : Sparse K} (h : SparseOk M) (nm : Nm) : writeCsc pr M nm = .ok (cscDecls pr nm M) := by
  simp only [writeCsc, writeVeci_eq _ _ h.p, writeVeci_eq _ _ h.i, writeVecf_eq pr _ _ h.x]; rfl

theorem writeMatrix_eq {M : Mat K} (h : SparseOk M.csc) (nm : Nm) : writeMatrix pr M nm = .ok (matDecls pr nm M) := by
  simp only [writeMatrix, writeCsc_eq pr h]; rfl

/-! ## The file -/

def settingsDecls (s : Settings K) : List (Decl Nm) :=
  [⟨.settings, .struct .settings
    [.int 0, .int 1, .int 1, .int 0, .int 0, .int s.warm_starting, .int s.scaling, .int 0, .dec (pr s.rho), .int s.rho_is_vec,
     .dec (pr s.sigma), .dec (pr s.alpha), .int s.cg_max_iter, .int s.cg_tol_reduction, .dec (pr s.cg_tol_fraction),
     .int s.cg_precond, .int s.adaptive_rho, .int s.adaptive_rho_interval, .dec (pr s.adaptive_rho_fraction),
     .dec (pr s.adaptive_rho_tolerance), .int s.max_iter, .dec (pr s.eps_abs), .dec (pr s.eps_rel), .dec (pr s.eps_prim_inf),
     .dec (pr s.eps_dual_inf), .int s.scaled_termination, .int s.check_termination, .int s.check_dualgap, .dec (pr s.time_limit),
     .dec (pr s.delta), .int s.polish_refine_iter]⟩]

def solDecls (n m : ℕ) (mpos : Bool) : List (Decl Nm) :=
  [⟨.sol_x, .zeroF n⟩, ⟨.sol_y, zBody mpos m⟩, ⟨.sol_prim_inf_cert, zBody mpos m⟩, ⟨.sol_dual_inf_cert, .zeroF n⟩,
   ⟨.sol, .struct .solution [.arr .sol_x 0, .arr .sol_y 0, .arr .sol_prim_inf_cert 0, .arr .sol_dual_inf_cert 0]⟩]

def infoDecls (r : K) : List (Decl Nm) :=
  [⟨.info, .struct .info
    [.str "unsolved", .int St.unsolved, .int 0, decInfty, decInfty, decInfty, decInfty, decInfty, .int 0, .int 0, .dec (pr r),
     dec0, dec0, dec0, dec0, dec0, dec0, dec0]⟩]

def dataDecls (s : Src K) : List (Decl Nm) :=
  matDecls pr .data_P s.P ++ matDecls pr .data_A s.A ++ vDecls pr .data_q s.q ++ vDecls pr .data_l s.l ++ vDecls pr .data_u s.u ++
    [⟨.data, .struct .data [.int s.n, .int s.m, .addr .data_P, .addr .data_A, .addr .data_q, .addr .data_l, .addr .data_u]⟩]

def updDecls (w : Upd K) (nm : ℕ) : List (Decl Nm) :=
  cscDecls pr .linsys_KKT w.KKT ++
  [⟨.linsys_PtoKKT, iBody w.PtoKKT⟩, ⟨.linsys_AtoKKT, iBody w.AtoKKT⟩, ⟨.linsys_rhotoKKT, iBody w.rhotoKKT⟩,
   ⟨.linsys_D, fBody pr w.D⟩, ⟨.linsys_etree, iBody w.etree⟩, ⟨.linsys_Lnz, iBody w.Lnz⟩,
   ⟨.linsys_iwork, .zeroI (3 * nm)⟩, ⟨.linsys_bwork, .zeroB nm⟩, ⟨.linsys_fwork, .zeroF nm⟩]

def linInits (v : Lin K) (mats rinv : Bool) : List (Ini Nm) :=
  [.int v.type, .fn .name, .fn .solve, .fn .update_settings, .fn .warm_start] ++
  (if mats then [.fn .update_matrices, .fn .update_rho_vec] else []) ++
  [.int v.nthreads, .addr .linsys_L, .arr .linsys_Dinv 0, .arr .linsys_P 0, .arr .linsys_bp 0, .arr .linsys_sol 0] ++
  (if rinv then [.arr .linsys_rho_inv_vec 0] else [.int 0]) ++
  [.dec (pr v.sigma), .dec (pr v.rho_inv), .int v.n, .int v.m] ++
  (if mats then
    [.addr .linsys_KKT, .arr .linsys_PtoKKT 0, .arr .linsys_AtoKKT 0, .arr .linsys_rhotoKKT 0, .arr .linsys_D 0,
     .arr .linsys_etree 0, .arr .linsys_Lnz 0, .arr .linsys_iwork 0, .arr .linsys_bwork 0, .arr .linsys_fwork 0]
   else [])

def linDecls (v : Lin K) (w : Upd K) (mats rinv : Bool) : List (Decl Nm) :=
  cscDecls pr .linsys_L v.L ++
  [⟨.linsys_Dinv, fBody pr v.Dinv⟩, ⟨.linsys_P, iBody v.P⟩, ⟨.linsys_bp, .zeroF (v.n + v.m)⟩, ⟨.linsys_sol, .zeroF (v.n + v.m)⟩] ++
  (if rinv then [⟨.linsys_rho_inv_vec, fBody pr (v.rho_inv_vec.getD [])⟩] else []) ++
  (if mats then updDecls pr w (v.n + v.m) else []) ++
  [⟨.linsys, .struct .qdldl (linInits pr v mats rinv)⟩]

def rhoDecls (s : Src K) (mats rho : Bool) : List (Decl Nm) :=
  if rho then
    vDecls pr .work_rho_vec (s.rho_vec.getD []) ++ vDecls pr .work_rho_inv_vec (s.rho_inv_vec.getD []) ++
      (if mats then viDecls .work_constr_type (s.constr_type.getD []) else [])
  else []

def scratchB (b : Bool) (nm : Nm) (len : ℕ) : List (Decl Nm) :=
  if b then scratch nm len else [⟨nm, .struct .vectorf [.int 0, .int 0]⟩]

def scratchDecls (n m : ℕ) (mats mpos : Bool) : List (Decl Nm) :=
  [⟨.val .work_xz_tilde, .zeroF (n + m)⟩,
   ⟨.work_xz_tilde, .struct .vectorf [.arr (.val .work_xz_tilde) 0, .int ((n + m : ℕ) : ℤ)]⟩,
   ⟨.work_xtilde_view, .struct .vectorf [.arr (.val .work_xz_tilde) 0, .int n]⟩,
   ⟨.work_ztilde_view, .struct .vectorf [.arr (.val .work_xz_tilde) n, .int m]⟩] ++
  scratch .work_x_prev n ++ scratchB mpos .work_z_prev m ++ scratchB mpos .work_Ax m ++ scratch .work_Px n ++
  scratch .work_Aty n ++ scratchB mpos .work_delta_y m ++ scratch .work_Atdelta_y n ++ scratch .work_delta_x n ++
  scratch .work_Pdelta_x n ++ scratchB mpos .work_Adelta_x m ++
  (if mats then scratch .work_D_temp n ++ scratch .work_D_temp_A n ++ scratchB mpos .work_E_temp m else [])

def scalDecls (c : Scal K) : List (Decl Nm) :=
  vDecls pr .scaling_D c.D ++ vDecls pr .scaling_E c.E ++ vDecls pr .scaling_Dinv c.Dinv ++ vDecls pr .scaling_Einv c.Einv ++
    [⟨.scaling, .struct .scaling
      [.dec (pr c.c), .addr .scaling_D, .addr .scaling_E, .dec (pr c.cinv), .addr .scaling_Dinv, .addr .scaling_Einv]⟩]

/-- The initialisers of the workspace up to `rho_inv`. -/
def headInits (mats rho scal : Bool) (rinv : Lit) : List (Ini Nm) :=
  [.addr .data, .addrLin .linsys] ++
  (if rho then [.addr .work_rho_vec, .addr .work_rho_inv_vec] ++ (if mats then [.addr .work_constr_type] else [])
   else [.int 0, .int 0] ++ (if mats then [.int 0] else [])) ++
  [.addr .work_x, .addr .work_y, .addr .work_z, .addr .work_xz_tilde, .addr .work_xtilde_view, .addr .work_ztilde_view,
   .addr .work_x_prev, .addr .work_z_prev, .addr .work_Ax, .addr .work_Px, .addr .work_Aty, dec0, dec0, dec0, dec0,
   .addr .work_delta_y, .addr .work_Atdelta_y, .addr .work_delta_x, .addr .work_Pdelta_x, .addr .work_Adelta_x] ++
  (if mats then
    if scal then [.addr .work_D_temp, .addr .work_D_temp_A, .addr .work_E_temp] else [.int 0, .int 0, .int 0]
   else []) ++
  (if scal then [.addr .scaling] else [.int 0]) ++ [dec0, dec0, .dec rinv]

/-- The last two initialisers of the workspace. -/
def tailInits (s : Src K) : List (Ini Nm) := [.int s.rho_updated, .dec (pr s.last_rel_kkt)]

def workDecls (s : Src K) (fl : Fl) : List (Decl Nm) :=
  [⟨.work, .struct .workspace (headInits fl.mats fl.rho fl.scal (pr s.rho_inv) ++ tailInits pr s)⟩]

def file (s : Src K) (w : Upd K) (c : Scal K) (fl : Fl) : List (Decl Nm) :=
  settingsDecls pr s.settings ++ solDecls s.n s.m fl.mpos ++ infoDecls pr s.rho_estimate ++
  (dataDecls pr s ++ linDecls pr s.lin w fl.mats fl.rinv ++ rhoDecls pr s fl.mats fl.rho ++ vDecls pr .work_x s.x ++
    vDecls pr .work_y s.y ++ vDecls pr .work_z s.z ++ scratchDecls s.n s.m fl.mats fl.mpos ++
    (if fl.scal then scalDecls pr c else []) ++ workDecls pr s fl) ++
  [⟨.solver, .struct .solver [.addr .settings, .addr .sol, .addr .info, .addr .work]⟩]

/-! ## The writer writes it -/

variable {s : Src K}

theorem writeData_eq (h : Sized s) : writeData pr s = .ok (dataDecls pr s) := by
  simp only [writeData, writeMatrix_eq pr h.P, writeMatrix_eq pr h.A, writeVectorf_eq]; rfl

theorem writeUpd_eq (h : Sized s) {w : Upd K} (hk : SparseOk w.KKT) (h1 : s.P.csc.nnz s.n = some w.PtoKKT.length)
    (h2 : s.A.csc.nnz s.n = some w.AtoKKT.length) (h3 : w.rhotoKKT.length = s.m) (h4 : w.D.length = s.n + s.m)
    (h5 : w.etree.length = s.n + s.m) (h6 : w.Lnz.length = s.n + s.m) :
    writeUpd pr s s.lin w = .ok (updDecls pr w (s.n + s.m)) := by
  simp only [writeUpd, writeCsc_eq pr hk, h.lin_n, h.lin_m, h1, h2, Option.elim_some, ok_bind, writeVeci_eq _ _ rfl, writeVeci_eq _ _ h3,
    writeVecf_eq pr _ _ h4, writeVeci_eq _ _ h5, writeVeci_eq _ _ h6]
  rfl

theorem writeLinsys_eq (h : Sized s) {w : Upd K} (hw : s.upd = some w) (hu : writeUpd pr s s.lin w = .ok (updDecls pr w (s.n + s.m)))
    (f : CodegenDefines) :
    writeLinsys pr s f.embedded_mode = .ok (linDecls pr s.lin w (flags s f).mats (flags s f).rinv) := by
  have he : when s.lin.rho_inv_vec.isSome (writeVecf pr s.lin.rho_inv_vec s.lin.m .linsys_rho_inv_vec) =
      (.ok (if s.lin.rho_inv_vec.isSome then [⟨.linsys_rho_inv_vec, fBody pr (s.lin.rho_inv_vec.getD [])⟩] else []) : W) := by
    cases hr : s.lin.rho_inv_vec with
    | none => rfl
    | some v => simp [when, writeVecf_eq pr v _ ((h.lin_rho v hr).trans h.lin_m.symm)]
  have hD : s.lin.Dinv.length = s.lin.n + s.lin.m := by rw [h.lin_n, h.lin_m]; exact h.Dinv
  have hP : s.lin.P.length = s.lin.n + s.lin.m := by rw [h.lin_n, h.lin_m]; exact h.perm
  unfold writeLinsys
  simp only [writeCsc_eq pr h.L, writeVecf_eq pr _ _ hD, writeVeci_eq _ _ hP, he, hw, Option.elim_some, hu, ok_bind]
  unfold linDecls linInits flags
  by_cases hm : f.embedded_mode > 1
  · simp only [when, hm, if_true, decide_true, h.lin_n, h.lin_m, ok_bind]
    exact congrArg Except.ok (by simp)
  · simp only [when, hm, if_false, decide_false, Bool.false_eq_true, ok_bind]
    exact congrArg Except.ok (by simp)

theorem writeRho_eq (h : Sized s) (f : CodegenDefines) :
    writeRho pr s f.embedded_mode = .ok (rhoDecls pr s (flags s f).mats (flags s f).rho) := by
  unfold writeRho rhoDecls flags
  by_cases hr : s.settings.rho_is_vec = 0
  · simp [hr]
  · obtain ⟨a, b, c⟩ := h.rho_vec.2 hr
    obtain ⟨va, ha⟩ := Option.isSome_iff_exists.1 a
    obtain ⟨vb, hb⟩ := Option.isSome_iff_exists.1 b
    obtain ⟨vc, hc⟩ := Option.isSome_iff_exists.1 c
    by_cases hm : f.embedded_mode > 1
    · simp only [ne_eq, hr, not_false_eq_true, if_true, hm, ha, hb, hc, when, writeVectorf_eq, writeVectori_eq, decide_true, Option.getD_some]
      rfl
    · simp only [ne_eq, hr, not_false_eq_true, if_true, if_false, hm, ha, hb, hc, when, writeVectorf_eq, decide_true, decide_false,
        Bool.false_eq_true, Option.getD_some]
      rfl

theorem workScratch_eq (n m : ℕ) (e : ℤ) : workScratch n m e = scratchDecls n m (decide (e > 1)) (decide (m > 0)) := by
  unfold workScratch scratchDecls scratchM scratchB
  simp only [decide_eq_true_eq]

theorem workInits_eq (f : CodegenDefines) :
    workInits pr s f.embedded_mode =
      headInits (flags s f).mats (flags s f).rho (flags s f).scal (pr s.rho_inv) ++ tailInits pr s := by
  unfold workInits headInits tailInits flags
  simp only [decide_eq_true_eq, List.append_assoc]
  rfl

theorem generate_eq (h : Sized s) (f : CodegenDefines) : ∃ w c, s.upd = some w ∧ (s.settings.scaling ≠ 0 → s.scaling = some c) ∧
    generate pr s f = .ok (file pr s w c (flags s f)) := by
  obtain ⟨w, hw, hk, h1, h2, h3, h4, h5, h6⟩ := h.upd
  have hu := writeUpd_eq pr h hk h1 h2 h3 h4 h5 h6
  have hc : ∃ c, s.settings.scaling ≠ 0 → s.scaling = some c := by
    by_cases hs : s.settings.scaling = 0
    · exact ⟨⟨0, [], [], 0, [], []⟩, fun h => absurd hs h⟩
    · obtain ⟨c, hc⟩ := Option.isSome_iff_exists.1 (h.scaling.2 hs); exact ⟨c, fun _ => hc⟩
  obtain ⟨c, hc⟩ := hc
  refine ⟨w, c, hw, hc, ?_⟩
  have hsc : when (s.settings.scaling ≠ 0) (writeScaling pr s.scaling) =
      (.ok (if (flags s f).scal then scalDecls pr c else []) : W) := by
    by_cases hs : s.settings.scaling = 0
    · simp [when, hs, flags]
    · have : (flags s f).scal = true := by simp [flags, hs]
      rw [when, if_pos hs, hc hs, this, if_pos rfl]
      simp only [writeScaling, writeVectorf_eq]; rfl
  unfold generate writeSolver writeWorkspace
  simp only [writeData_eq pr h, writeLinsys_eq pr h hw hu f, writeRho_eq pr h f, writeVectorf_eq, hsc, workScratch_eq, workInits_eq]
  have hsol : writeSolution s.n s.m = .ok (solDecls s.n s.m (flags s f).mpos) := by
    unfold writeSolution solDecls zBody flags
    by_cases hm : s.m > 0 <;> simp [hm]
  simp only [hsol, writeSettings, writeInfo, ok_bind]
  rfl

end
end Osqp.Gen
