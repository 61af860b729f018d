import Verif.Gen.File

/-!
# The written file compiles

`obj` is the object that each name of the file stands for. The declarations of the file are processed in the order of `names`.
-/

set_option linter.unusedSectionVars false
namespace Osqp.Gen
variable {K : Type} [Field K] [LinearOrder K]

/-- All names in order of declaration. -/
def names : List Nm :=
  [.settings, .sol_x, .sol_y, .sol_prim_inf_cert, .sol_dual_inf_cert, .sol, .info,
   .p (.csc .data_P), .i (.csc .data_P), .x (.csc .data_P), .csc .data_P, .data_P,
   .p (.csc .data_A), .i (.csc .data_A), .x (.csc .data_A), .csc .data_A, .data_A,
   .val .data_q, .data_q, .val .data_l, .data_l, .val .data_u, .data_u, .data,
   .p .linsys_L, .i .linsys_L, .x .linsys_L, .linsys_L, .linsys_Dinv, .linsys_P, .linsys_bp, .linsys_sol, .linsys_rho_inv_vec,
   .p .linsys_KKT, .i .linsys_KKT, .x .linsys_KKT, .linsys_KKT, .linsys_PtoKKT, .linsys_AtoKKT, .linsys_rhotoKKT, .linsys_D,
   .linsys_etree, .linsys_Lnz, .linsys_iwork, .linsys_bwork, .linsys_fwork, .linsys,
   .val .work_rho_vec, .work_rho_vec, .val .work_rho_inv_vec, .work_rho_inv_vec, .val .work_constr_type, .work_constr_type,
   .val .work_x, .work_x, .val .work_y, .work_y, .val .work_z, .work_z,
   .val .work_xz_tilde, .work_xz_tilde, .work_xtilde_view, .work_ztilde_view, .val .work_x_prev, .work_x_prev, .val .work_z_prev,
   .work_z_prev, .val .work_Ax, .work_Ax, .val .work_Px, .work_Px, .val .work_Aty, .work_Aty, .val .work_delta_y, .work_delta_y,
   .val .work_Atdelta_y, .work_Atdelta_y, .val .work_delta_x, .work_delta_x, .val .work_Pdelta_x, .work_Pdelta_x,
   .val .work_Adelta_x, .work_Adelta_x, .val .work_D_temp, .work_D_temp, .val .work_D_temp_A, .work_D_temp_A, .val .work_E_temp,
   .work_E_temp, .val .scaling_D, .scaling_D, .val .scaling_E, .scaling_E, .val .scaling_Dinv, .scaling_Dinv, .val .scaling_Einv,
   .scaling_Einv, .scaling, .work, .solver]

def rank (nm : Nm) : ℕ := names.idxOf nm

theorem names_sorted : names.Pairwise fun a b => rank a < rank b := by decide +kernel

/-- The C identifiers of the names are all different. -/
theorem names_text : (names.map Nm.text).Nodup := by decide +kernel

/-- Is the name declared? -/
def present (fl : Fl) : Nm → Bool
  | .linsys_rho_inv_vec => fl.rinv
  | .p .linsys_KKT | .i .linsys_KKT | .x .linsys_KKT | .linsys_KKT | .linsys_PtoKKT | .linsys_AtoKKT | .linsys_rhotoKKT | .linsys_D
  | .linsys_etree | .linsys_Lnz | .linsys_iwork | .linsys_bwork | .linsys_fwork => fl.mats
  | .val .work_rho_vec | .work_rho_vec | .val .work_rho_inv_vec | .work_rho_inv_vec => fl.rho
  | .val .work_constr_type | .work_constr_type => fl.rho && fl.mats
  | .val .work_z_prev | .val .work_Ax | .val .work_delta_y | .val .work_Adelta_x => fl.mpos
  | .val .work_E_temp => fl.mpos && fl.mats
  | .val .work_D_temp | .work_D_temp | .val .work_D_temp_A | .work_D_temp_A | .work_E_temp => fl.mats
  | .val .scaling_D | .scaling_D | .val .scaling_E | .scaling_E | .val .scaling_Dinv | .scaling_Dinv | .val .scaling_Einv
  | .scaling_Einv | .scaling => fl.scal
  | _ => true

def vNames (nm : Nm) : List Nm := [.val nm, nm]
def cscNames (nm : Nm) : List Nm := [.p nm, .i nm, .x nm, nm]
def scNames (b : Bool) (nm : Nm) : List Nm := if b then [.val nm, nm] else [nm]

/-- The names of the file. -/
def fileNames (fl : Fl) : List Nm :=
  [.settings, .sol_x, .sol_y, .sol_prim_inf_cert, .sol_dual_inf_cert, .sol, .info] ++
  (cscNames (.csc .data_P) ++ [.data_P] ++ (cscNames (.csc .data_A) ++ [.data_A]) ++ vNames .data_q ++ vNames .data_l ++
    vNames .data_u ++ [.data]) ++
  (cscNames .linsys_L ++ [.linsys_Dinv, .linsys_P, .linsys_bp, .linsys_sol] ++ (if fl.rinv then [.linsys_rho_inv_vec] else []) ++
    (if fl.mats then cscNames .linsys_KKT ++ [.linsys_PtoKKT, .linsys_AtoKKT, .linsys_rhotoKKT, .linsys_D, .linsys_etree,
      .linsys_Lnz, .linsys_iwork, .linsys_bwork, .linsys_fwork] else []) ++ [.linsys]) ++
  (if fl.rho then vNames .work_rho_vec ++ vNames .work_rho_inv_vec ++ (if fl.mats then vNames .work_constr_type else []) else []) ++
  (vNames .work_x ++ vNames .work_y ++ vNames .work_z) ++
  ([.val .work_xz_tilde, .work_xz_tilde, .work_xtilde_view, .work_ztilde_view] ++
    vNames .work_x_prev ++ scNames fl.mpos .work_z_prev ++ scNames fl.mpos .work_Ax ++ vNames .work_Px ++ vNames .work_Aty ++
    scNames fl.mpos .work_delta_y ++ vNames .work_Atdelta_y ++ vNames .work_delta_x ++ vNames .work_Pdelta_x ++
    scNames fl.mpos .work_Adelta_x ++
    (if fl.mats then vNames .work_D_temp ++ vNames .work_D_temp_A ++ scNames fl.mpos .work_E_temp else [])) ++
  (if fl.scal then vNames .scaling_D ++ vNames .scaling_E ++ vNames .scaling_Dinv ++ vNames .scaling_Einv ++ [.scaling] else []) ++
  [.work, .solver]

theorem fileNames_eq (fl : Fl) : fileNames fl = names.filter (present fl) := by
  obtain ⟨a, b, c, d, e⟩ := fl
  revert a b c d e
  decide +kernel

theorem file_names (pr : K → Lit) (s : Src K) (w : Upd K) (c : Scal K) (fl : Fl) :
    (file pr s w c fl).map Decl.nm = names.filter (present fl) := by
  rw [← fileNames_eq]
  have v : ∀ nm (xs : List K), (vDecls pr nm xs).map Decl.nm = vNames nm := fun _ _ => rfl
  have v' : ∀ nm (xs : List ℤ), (viDecls nm xs).map Decl.nm = vNames nm := fun _ _ => rfl
  have c' : ∀ nm (M : Sparse K), (cscDecls pr nm M).map Decl.nm = cscNames nm := fun _ _ => rfl
  have sc : ∀ nm len, (scratch nm len).map Decl.nm = vNames nm := fun _ _ => rfl
  have sb : ∀ b nm len, (scratchB b nm len).map Decl.nm = scNames b nm := by intro b; cases b <;> intros <;> rfl
  have hu : ∀ k, (updDecls pr w k).map Decl.nm = cscNames .linsys_KKT ++ [.linsys_PtoKKT, .linsys_AtoKKT, .linsys_rhotoKKT,
    .linsys_D, .linsys_etree, .linsys_Lnz, .linsys_iwork, .linsys_bwork, .linsys_fwork] := fun _ => rfl
  have hl : ∀ a b, (linDecls pr s.lin w a b).map Decl.nm = cscNames .linsys_L ++ [.linsys_Dinv, .linsys_P, .linsys_bp, .linsys_sol] ++
      (if b then [.linsys_rho_inv_vec] else []) ++ (if a then cscNames .linsys_KKT ++ [.linsys_PtoKKT, .linsys_AtoKKT, .linsys_rhotoKKT,
        .linsys_D, .linsys_etree, .linsys_Lnz, .linsys_iwork, .linsys_bwork, .linsys_fwork] else []) ++ [.linsys] := by
    intro a b; cases a <;> cases b <;> rfl
  have hr : (rhoDecls pr s fl.mats fl.rho).map Decl.nm = if fl.rho then vNames .work_rho_vec ++ vNames .work_rho_inv_vec ++
      (if fl.mats then vNames .work_constr_type else []) else [] := by
    cases h1 : fl.rho <;> cases h2 : fl.mats <;> rfl
  have hs : (if fl.scal then scalDecls pr c else []).map Decl.nm = if fl.scal then vNames .scaling_D ++ vNames .scaling_E ++
      vNames .scaling_Dinv ++ vNames .scaling_Einv ++ [.scaling] else [] := by cases h1 : fl.scal <;> rfl
  have hx : ∀ a b, (scratchDecls s.n s.m a b).map Decl.nm = [.val .work_xz_tilde, .work_xz_tilde, .work_xtilde_view, .work_ztilde_view] ++
    vNames .work_x_prev ++ scNames b .work_z_prev ++ scNames b .work_Ax ++ vNames .work_Px ++ vNames .work_Aty ++
    scNames b .work_delta_y ++ vNames .work_Atdelta_y ++ vNames .work_delta_x ++ vNames .work_Pdelta_x ++
    scNames b .work_Adelta_x ++
    (if a then vNames .work_D_temp ++ vNames .work_D_temp_A ++ scNames b .work_E_temp else []) := by
    intro a b; cases a <;> cases b <;> rfl
  simp only [file, List.map_append, v, hl, hr, hs, hx, dataDecls, matDecls, c', settingsDecls, infoDecls, solDecls, workDecls,
    List.map_cons, List.map_nil, fileNames, List.append_assoc]
  rfl

/-! ## Compilation of a sorted file -/

section
variable {N : Type} [DecidableEq N] {cf : Macros}

theorem lookup_append {a b : Env N} {nm : N} : (a ++ b).lookup nm = (a.lookup nm).or (b.lookup nm) := by
  induction a with
  | nil => rfl
  | cons x a ih =>
    obtain ⟨k, o⟩ := x
    simp only [List.cons_append, List.lookup_cons]
    by_cases h : nm == k
    · simp [h]
    · simp only [h]; exact ih

theorem lookup_map_eq {ds : List (Decl N)} {O : N → Obj N} {nm : N} :
    (ds.map fun d => (d.nm, O d.nm)).lookup nm = if nm ∈ ds.map Decl.nm then some (O nm) else none := by
  induction ds with
  | nil => rfl
  | cons d ds ih =>
    simp only [List.map_cons, List.lookup_cons, List.mem_cons]
    by_cases h : nm = d.nm
    · subst h; simp
    · have : (nm == d.nm) = false := by simpa using h
      simp only [this, h, false_or]; exact ih

theorem compile_sorted {rk : N → ℕ} {O : N → Obj N} (file : List (Decl N))
    (hs : (file.map Decl.nm).Pairwise fun a b => rk a < rk b)
    (h : ∀ d ∈ file, ∀ env : Env N,
      (∀ nm, nm ∈ file.map Decl.nm → rk nm < rk d.nm → env.lookup nm = some (O nm)) → object cf env d.body = some (O d.nm)) :
    compile cf [] file = some (file.map fun d => (d.nm, O d.nm)) := by
  suffices H : ∀ pre ds, file = pre ++ ds →
      compile cf (pre.map fun d => (d.nm, O d.nm)) ds = some (file.map fun d => (d.nm, O d.nm)) from H [] file rfl
  intro pre ds
  induction ds generalizing pre with
  | nil => intro he; simp [he, compile]
  | cons d ds ih =>
    intro he
    have hs' := hs
    rw [he, List.map_append, List.pairwise_append] at hs'
    obtain ⟨_, h2, h3⟩ := hs'
    have hfresh : d.nm ∉ pre.map Decl.nm := fun hm => lt_irrefl _ (h3 _ hm d.nm (by simp))
    have hobj := h d (by simp [he]) (pre.map fun d => (d.nm, O d.nm)) (by
      intro nm hm hr
      rw [lookup_map_eq, if_pos]
      rw [he, List.map_append, List.mem_append] at hm
      rcases hm with hm | hm
      · exact hm
      · exfalso
        rw [List.map_cons, List.mem_cons] at hm
        rcases hm with hm | hm
        · subst hm; exact lt_irrefl _ hr
        · rw [List.map_cons, List.pairwise_cons] at h2
          exact lt_asymm hr (h2.1 _ hm))
    rw [compile, lookup_map_eq, if_neg hfresh]
    simp only [Option.isSome_none, Bool.false_eq_true, if_false, hobj, Option.bind_some]
    have := ih (pre ++ [d]) (by simp [he])
    simpa using this

end
end Osqp.Gen
