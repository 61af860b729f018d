import Verif.Gen.Objects

/-!
# Every declaration of the written file is accepted
-/

set_option linter.unusedSectionVars false
namespace Osqp.Gen
variable {K : Type} [Field K] [LinearOrder K]
variable {pr : K → Lit} {s : Src K} {w : Upd K} {c : Scal K} {fl : Fl} {tv : List (Val Nm)} {cf : Macros}

/-- The earlier declarations of the file are known. -/
def Know (pr : K → Lit) (s : Src K) (w : Upd K) (c : Scal K) (fl : Fl) (tv : List (Val Nm)) (env : Env Nm) (top : ℕ) : Prop :=
  ∀ nm, nm ∈ names → present fl nm = true → rank nm < top → env.lookup nm = some (obj pr s w c fl tv nm)

/-- The declaration is accepted after the earlier ones and makes the object `obj`. -/
def Good (pr : K → Lit) (s : Src K) (w : Upd K) (c : Scal K) (fl : Fl) (tv : List (Val Nm)) (cf : Macros) (d : Decl Nm) : Prop :=
  ∀ env, Know pr s w c fl tv env (rank d.nm) → object cf env d.body = some (obj pr s w c fl tv d.nm)

/-- All numbers print, sizes and shape are as setup leaves them. -/
structure Fit (pr : K → Lit) (s : Src K) (w : Upd K) (c : Scal K) (fl : Fl) (tv : List (Val Nm)) (cf : Macros) : Prop where
  sized : Sized s
  upd : s.upd = some w
  scal : fl.scal = true → s.scaling = some c
  prints : ∀ x ∈ s.nums fl.mats, Pr pr x
  mats : fl.mats = cf.mats
  mpos : fl.mpos = decide (s.m > 0)
  rinv : fl.rinv = s.lin.rho_inv_vec.isSome
  tail : ∀ env, initAll env (tailLayout cf) (tailInits pr s) = some tv

theorem good_v (nm : Nm) (xs : List K) (hx : ∀ x ∈ xs, Pr pr x) (h1 : obj pr s w c fl tv (.val nm) = fObj pr xs)
    (h2 : obj pr s w c fl tv nm = vObj nm xs.length) (hn : (.val nm) ∈ names) (hp : present fl (.val nm) = true)
    (hr : rank (.val nm) < rank nm) : ∀ d ∈ vDecls pr nm xs, Good pr s w c fl tv cf d := by
  simp only [vDecls, List.forall_mem_cons, List.not_mem_nil, false_imp_iff, implies_true, and_true]
  exact ⟨fun env _ => (object_f hx).trans (by rw [h1]), fun env hk => by
    rw [show (⟨nm, _⟩ : Decl Nm).nm = nm from rfl, h2]
    exact object_v ((hk _ hn hp hr).trans (by rw [h1]))⟩

theorem good_vi (nm : Nm) (xs : List ℤ) (h1 : obj pr s w c fl tv (.val nm) = iObj xs)
    (h2 : obj pr s w c fl tv nm = viObj nm xs.length) (hn : (.val nm) ∈ names) (hp : present fl (.val nm) = true)
    (hr : rank (.val nm) < rank nm) : ∀ d ∈ viDecls nm xs, Good pr s w c fl tv cf d := by
  simp only [viDecls, List.forall_mem_cons, List.not_mem_nil, false_imp_iff, implies_true, and_true]
  exact ⟨fun env _ => (object_i xs).trans (by rw [h1]), fun env hk => by
    rw [show (⟨nm, _⟩ : Decl Nm).nm = nm from rfl, h2]
    exact object_vi ((hk _ hn hp hr).trans (by rw [h1]))⟩

theorem good_csc (nm : Nm) (M : Sparse K) (hx : ∀ x ∈ M.x, Pr pr x) (h1 : obj pr s w c fl tv (.p nm) = iObj M.p)
    (h2 : obj pr s w c fl tv (.i nm) = iObj M.i) (h3 : obj pr s w c fl tv (.x nm) = fObj pr M.x)
    (h4 : obj pr s w c fl tv nm = cObj nm M)
    (hn : ∀ k ∈ [Nm.p nm, .i nm, .x nm], k ∈ names ∧ rank k < rank nm) (hp : ∀ k ∈ [Nm.p nm, .i nm, .x nm], present fl k = true) :
    ∀ d ∈ cscDecls pr nm M, Good pr s w c fl tv cf d := by
  simp only [cscDecls, List.forall_mem_cons, List.not_mem_nil, false_imp_iff, implies_true, and_true]
  refine ⟨fun env _ => (object_i _).trans (by rw [h1]), fun env _ => (object_i _).trans (by rw [h2]),
    fun env _ => (object_f hx).trans (by rw [h3]), fun env hk => ?_⟩
  rw [show (⟨nm, _⟩ : Decl Nm).nm = nm from rfl, h4]
  have g : ∀ k ∈ [Nm.p nm, .i nm, .x nm], env.lookup k = some (obj pr s w c fl tv k) := fun k hm =>
    hk k (hn k hm).1 (hp k hm) (hn k hm).2
  exact object_csc ((g _ (by simp)).trans (by rw [h1])) ((g _ (by simp)).trans (by rw [h2])) ((g _ (by simp)).trans (by rw [h3]))

theorem good_mat (nm : Nm) (M : Mat K) (hx : ∀ x ∈ M.csc.x, Pr pr x) (h1 : obj pr s w c fl tv (.p (.csc nm)) = iObj M.csc.p)
    (h2 : obj pr s w c fl tv (.i (.csc nm)) = iObj M.csc.i) (h3 : obj pr s w c fl tv (.x (.csc nm)) = fObj pr M.csc.x)
    (h4 : obj pr s w c fl tv (.csc nm) = cObj (.csc nm) M.csc) (h5 : obj pr s w c fl tv nm = mObj nm M)
    (hn : ∀ k ∈ [Nm.p (.csc nm), .i (.csc nm), .x (.csc nm)], k ∈ names ∧ rank k < rank (.csc nm))
    (hp : ∀ k ∈ [Nm.p (.csc nm), .i (.csc nm), .x (.csc nm)], present fl k = true)
    (hn' : .csc nm ∈ names) (hp' : present fl (.csc nm) = true) (hr' : rank (.csc nm) < rank nm) :
    ∀ d ∈ matDecls pr nm M, Good pr s w c fl tv cf d := by
  simp only [matDecls, List.forall_mem_append, List.forall_mem_cons, List.not_mem_nil, false_imp_iff, implies_true, and_true]
  refine ⟨good_csc _ _ hx h1 h2 h3 h4 hn hp, fun env hk => ?_⟩
  rw [show (⟨nm, _⟩ : Decl Nm).nm = nm from rfl, h5]
  exact object_mat ((hk _ hn' hp' hr').trans (by rw [h4]))

theorem good_scratch (nm : Nm) {len : ℕ} (hl : len ≠ 0) (h1 : obj pr s w c fl tv (.val nm) = .arrF (List.replicate len 0))
    (h2 : obj pr s w c fl tv nm = bObj true nm len) (hn : (.val nm) ∈ names) (hp : present fl (.val nm) = true)
    (hr : rank (.val nm) < rank nm) : ∀ d ∈ scratch nm len, Good pr s w c fl tv cf d := by
  simp only [scratch, List.forall_mem_cons, List.not_mem_nil, false_imp_iff, implies_true, and_true]
  exact ⟨fun env _ => (object_zero hl).trans (by rw [h1]), fun env hk => by
    rw [show (⟨nm, _⟩ : Decl Nm).nm = nm from rfl, h2]
    exact object_b ((hk _ hn hp hr).trans (by rw [h1]))⟩

theorem good_scratchB (nm : Nm) (b : Bool) {len : ℕ} (hl : b = true → len ≠ 0) (hl0 : b = false → len = 0)
    (h1 : obj pr s w c fl tv (.val nm) = .arrF (List.replicate len 0))
    (h2 : obj pr s w c fl tv nm = bObj b nm len) (hn : (.val nm) ∈ names) (hp : b = true → present fl (.val nm) = true)
    (hr : rank (.val nm) < rank nm) : ∀ d ∈ scratchB b nm len, Good pr s w c fl tv cf d := by
  cases b
  · simp only [scratchB, Bool.false_eq_true, if_false, List.forall_mem_cons, List.not_mem_nil, false_imp_iff, implies_true, and_true]
    intro env _
    rw [show (⟨nm, _⟩ : Decl Nm).nm = nm from rfl, h2, hl0 rfl]
    rfl
  · exact good_scratch nm (hl rfl) h1 h2 hn (hp rfl) hr

variable (F : Fit pr s w c fl tv cf)
include F

theorem Fit.pr_of {x : K} (h : x ∈ s.nums fl.mats) : Pr pr x := F.prints x h

theorem Fit.scalars : Pr pr s.settings.rho ∧ Pr pr s.settings.sigma ∧ Pr pr s.settings.alpha ∧ Pr pr s.settings.cg_tol_fraction ∧
    Pr pr s.settings.adaptive_rho_fraction ∧ Pr pr s.settings.adaptive_rho_tolerance ∧ Pr pr s.settings.eps_abs ∧
    Pr pr s.settings.eps_rel ∧ Pr pr s.settings.eps_prim_inf ∧ Pr pr s.settings.eps_dual_inf ∧ Pr pr s.settings.time_limit ∧
    Pr pr s.settings.delta ∧ Pr pr s.rho_estimate ∧ Pr pr s.rho_inv ∧ Pr pr s.last_rel_kkt ∧ Pr pr s.lin.sigma ∧
    Pr pr s.lin.rho_inv := by
  refine ⟨?_, ?_, ?_, ?_, ?_, ?_, ?_, ?_, ?_, ?_, ?_, ?_, ?_, ?_, ?_, ?_, ?_⟩ <;> exact F.prints _ (by simp [Src.nums])

theorem Fit.vecs : (∀ x ∈ s.P.csc.x, Pr pr x) ∧ (∀ x ∈ s.A.csc.x, Pr pr x) ∧ (∀ x ∈ s.q, Pr pr x) ∧ (∀ x ∈ s.l, Pr pr x) ∧
    (∀ x ∈ s.u, Pr pr x) ∧ (∀ x ∈ s.lin.L.x, Pr pr x) ∧ (∀ x ∈ s.lin.Dinv, Pr pr x) ∧
    (∀ x ∈ s.lin.rho_inv_vec.getD [], Pr pr x) ∧ (fl.mats = true → (∀ x ∈ w.KKT.x, Pr pr x) ∧ (∀ x ∈ w.D, Pr pr x)) ∧
    (∀ x ∈ s.rho_vec.getD [], Pr pr x) ∧ (∀ x ∈ s.rho_inv_vec.getD [], Pr pr x) ∧ (∀ x ∈ s.x, Pr pr x) ∧ (∀ x ∈ s.y, Pr pr x) ∧
    (∀ x ∈ s.z, Pr pr x) := by
  have h := F.prints
  cases hm : fl.mats <;> simp only [Src.nums, hm, F.upd, Option.elim_some, List.forall_mem_append, if_true] at h <;> tauto

theorem Fit.scals (hs : fl.scal = true) : Pr pr c.c ∧ Pr pr c.cinv ∧ (∀ x ∈ c.D, Pr pr x) ∧ (∀ x ∈ c.E, Pr pr x) ∧
    (∀ x ∈ c.Dinv, Pr pr x) ∧ (∀ x ∈ c.Einv, Pr pr x) := by
  have h := F.prints
  simp only [Src.nums, F.scal hs, Option.elim_some, List.forall_mem_append, List.forall_mem_cons] at h
  tauto

theorem good_settings : ∀ d ∈ settingsDecls pr s.settings, Good pr s w c fl tv cf d := by
  obtain ⟨h1, h2, h3, h4, h5, h6, h7, h8, h9, h10, h11, h12, -⟩ := F.scalars
  simp only [settingsDecls, List.forall_mem_cons, List.not_mem_nil, false_imp_iff, implies_true, and_true]
  intro env _
  simp only [object, layout, initAll, conv_dec h1, conv_dec h2, conv_dec h3, conv_dec h4, conv_dec h5, conv_dec h6, conv_dec h7,
    conv_dec h8, conv_dec h9, conv_dec h10, conv_dec h11, conv_dec h12, Option.bind_some, Option.map_some]
  rfl

theorem good_sol : ∀ d ∈ solDecls s.n s.m fl.mpos, Good pr s w c fl tv cf d := by
  have hn : s.n ≠ 0 := F.sized.n_pos.ne'
  have hm : fl.mpos = true → s.m ≠ 0 := by rw [F.mpos]; intro h; simp only [decide_eq_true_eq] at h; omega
  simp only [solDecls, List.forall_mem_cons, List.not_mem_nil, false_imp_iff, implies_true, and_true]
  refine ⟨fun env _ => object_zero hn, fun env _ => object_z hm, fun env _ => object_z hm, fun env _ => object_zero hn, fun env hk => ?_⟩
  have hk : Know pr s w c fl tv env (rank .sol) := hk
  have e1 := conv_arrF (off := 0) (hk .sol_x (by decide) rfl (by decide)) (Nat.zero_le _)
  have e2 := conv_zptr (hk .sol_y (by decide) rfl (by decide))
  have e3 := conv_zptr (hk .sol_prim_inf_cert (by decide) rfl (by decide))
  have e4 := conv_arrF (off := 0) (hk .sol_dual_inf_cert (by decide) rfl (by decide)) (Nat.zero_le _)
  simp only [object, layout, initAll, e1, e2, e3, e4, Option.bind_some, Option.map_some]
  rfl

theorem good_info : ∀ d ∈ infoDecls pr s.rho_estimate, Good pr s w c fl tv cf d := by
  obtain ⟨-, -, -, -, -, -, -, -, -, -, -, -, h, -⟩ := F.scalars
  simp only [infoDecls, List.forall_mem_cons, List.not_mem_nil, false_imp_iff, implies_true, and_true]
  intro env _
  simp only [object, layout, initAll, conv_dec h, Option.bind_some, Option.map_some]
  have hs : conv env (.chars 32) (.str "unsolved") = some (.str "unsolved") := rfl
  simp only [hs, Option.bind_some]
  rfl

theorem good_data : ∀ d ∈ dataDecls pr s, Good pr s w c fl tv cf d := by
  obtain ⟨hP, hA, hq, hl, hu, -⟩ := F.vecs
  simp only [dataDecls, List.forall_mem_append, List.forall_mem_cons, List.not_mem_nil, false_imp_iff, implies_true, and_true]
  refine ⟨⟨⟨⟨⟨?_, ?_⟩, ?_⟩, ?_⟩, ?_⟩, fun env hk => ?_⟩
  · exact good_mat _ _ hP rfl rfl rfl rfl rfl (by decide) (by simp [present]) (by decide) rfl (by decide)
  · exact good_mat _ _ hA rfl rfl rfl rfl rfl (by decide) (by simp [present]) (by decide) rfl (by decide)
  · exact good_v _ _ hq rfl rfl (by decide) rfl (by decide)
  · exact good_v _ _ hl rfl rfl (by decide) rfl (by decide)
  · exact good_v _ _ hu rfl rfl (by decide) rfl (by decide)
  · have hk : Know pr s w c fl tv env (rank .data) := hk
    have e1 := conv_addr (hk .data_P (by decide) rfl (by decide))
    have e2 := conv_addr (hk .data_A (by decide) rfl (by decide))
    have e3 := conv_addr (hk .data_q (by decide) rfl (by decide))
    have e4 := conv_addr (hk .data_l (by decide) rfl (by decide))
    have e5 := conv_addr (hk .data_u (by decide) rfl (by decide))
    simp only [object, layout, initAll, e1, e2, e3, e4, e5, Option.bind_some, Option.map_some]
    rfl

theorem good_upd (hm : fl.mats = true) : ∀ d ∈ updDecls pr w (s.lin.n + s.lin.m), Good pr s w c fl tv cf d := by
  obtain ⟨-, -, -, -, -, -, -, -, hu, -⟩ := F.vecs
  obtain ⟨hK, hD⟩ := hu hm
  have h0 : s.lin.n + s.lin.m ≠ 0 := by have := F.sized.n_pos; rw [F.sized.lin_n]; omega
  simp only [updDecls, List.forall_mem_append, List.forall_mem_cons, List.not_mem_nil, false_imp_iff, implies_true, and_true]
  refine ⟨good_csc _ _ hK rfl rfl rfl rfl (by decide) (by simp [present, hm]), fun env _ => object_i _, fun env _ => object_i _,
    fun env _ => object_i _, fun env _ => object_f hD, fun env _ => object_i _, fun env _ => object_i _, fun env _ => ?_, fun env _ => ?_,
    fun env _ => object_zero h0⟩
  · have : 3 * (s.lin.n + s.lin.m) ≠ 0 := by omega
    simp only [object, this, if_false]; rfl
  · simp only [object, h0, if_false]; rfl

theorem good_lin : ∀ d ∈ linDecls pr s.lin w fl.mats fl.rinv, Good pr s w c fl tv cf d := by
  obtain ⟨-, -, -, -, -, hL, hDi, hR, -⟩ := F.vecs
  have h0 : s.lin.n + s.lin.m ≠ 0 := by have := F.sized.n_pos; rw [F.sized.lin_n]; omega
  simp only [linDecls, List.forall_mem_append, List.forall_mem_cons, List.not_mem_nil, false_imp_iff, implies_true, and_true]
  refine ⟨⟨⟨⟨good_csc _ _ hL rfl rfl rfl rfl (by decide) (by simp [present]), fun env _ => object_f hDi, fun env _ => object_i _,
    fun env _ => object_zero h0, fun env _ => object_zero h0⟩, ?_⟩, ?_⟩, fun env hk => ?_⟩
  · cases hr : fl.rinv
    · simp
    · simp only [if_true, List.forall_mem_cons, List.not_mem_nil, false_imp_iff, implies_true, and_true]
      exact fun env _ => object_f hR
  · cases hm : fl.mats
    · simp
    · simpa using good_upd F hm
  · obtain ⟨-, -, -, -, -, -, -, -, -, -, -, -, -, -, -, hs, hi⟩ := F.scalars
    have hk : Know pr s w c fl tv env (rank .linsys) := hk
    have e1 := conv_addr (hk .linsys_L (by decide) rfl (by decide))
    have e2 := conv_fptr (pr := pr) (hk .linsys_Dinv (by decide) rfl (by decide))
    have e3 := conv_iptr (hk .linsys_P (by decide) rfl (by decide))
    have e4 := conv_arrF (off := 0) (hk .linsys_bp (by decide) rfl (by decide)) (Nat.zero_le _)
    have e5 := conv_arrF (off := 0) (hk .linsys_sol (by decide) rfl (by decide)) (Nat.zero_le _)
    have e6 : ∀ b, fl.rinv = b → b = true →
        conv env .pF (.arr .linsys_rho_inv_vec 0) = some (ptr0 (s.lin.rho_inv_vec.getD []).length .linsys_rho_inv_vec) := by
      intro b hb ht
      exact conv_fptr (pr := pr) (hk .linsys_rho_inv_vec (by decide) (by simp [present, hb, ht]) (by decide))
    have ef : ∀ f, conv env (.pFn f) (.fn f) = some (.fn f) := fun f => by simp [conv]
    have en : ∀ z t, conv env t (.int z) = convInt z t := fun z t => rfl
    have hcf := F.mats
    rw [show (⟨.linsys, _⟩ : Decl Nm).nm = .linsys from rfl]
    show object cf env (.struct .qdldl (linInits pr s.lin fl.mats fl.rinv)) = some (.struct .qdldl (linVals pr s.lin w fl.mats fl.rinv))
    cases hm : fl.mats
    · rw [hm] at hcf
      cases hr : fl.rinv
      · simp only [object, layout, linInits, ← hcf, Bool.false_eq_true, if_false, List.append_nil, List.cons_append, List.nil_append,
          initAll, e1, e2, e3, e4, e5, ef, en, convInt, if_true, conv_dec hs, conv_dec hi, Option.bind_some, Option.map_some, linVals]
        rfl
      · simp only [object, layout, linInits, ← hcf, Bool.false_eq_true, if_false, List.append_nil, List.cons_append, List.nil_append,
          initAll, e1, e2, e3, e4, e5, e6 _ hr rfl, ef, en, convInt, if_true, conv_dec hs, conv_dec hi, Option.bind_some, Option.map_some, linVals]
        rfl
    · have k1 := conv_addr (hk .linsys_KKT (by decide) hm (by decide))
      have k2 := conv_iptr (hk .linsys_PtoKKT (by decide) hm (by decide))
      have k3 := conv_iptr (hk .linsys_AtoKKT (by decide) hm (by decide))
      have k4 := conv_iptr (hk .linsys_rhotoKKT (by decide) hm (by decide))
      have k5 := conv_fptr (pr := pr) (hk .linsys_D (by decide) hm (by decide))
      have k6 := conv_iptr (hk .linsys_etree (by decide) hm (by decide))
      have k7 := conv_iptr (hk .linsys_Lnz (by decide) hm (by decide))
      have k8 := conv_arrI (hk .linsys_iwork (by decide) hm (by decide))
      have k9 := conv_arrB (hk .linsys_bwork (by decide) hm (by decide))
      have k10 := conv_arrF (off := 0) (hk .linsys_fwork (by decide) hm (by decide)) (Nat.zero_le _)
      rw [hm] at hcf
      cases hr : fl.rinv
      · simp only [object, layout, linInits, ← hcf, Bool.false_eq_true, if_false, List.append_nil, List.cons_append, List.nil_append,
          initAll, e1, e2, e3, e4, e5, ef, en, convInt, if_true, conv_dec hs, conv_dec hi, k1, k2, k3, k4, k5, k6, k7, k8, k9, k10,
          Option.bind_some, Option.map_some, linVals, fnDeclared, List.all_cons, List.all_nil, Bool.and_true, zero]
      · simp only [object, layout, linInits, ← hcf, Bool.false_eq_true, if_false, List.append_nil, List.cons_append, List.nil_append,
          initAll, e1, e2, e3, e4, e5, e6 _ hr rfl, ef, en, convInt, if_true, conv_dec hs, conv_dec hi, k1, k2, k3, k4, k5, k6, k7, k8,
          k9, k10, Option.bind_some, Option.map_some, linVals, fnDeclared, List.all_cons, List.all_nil, Bool.and_true, zero]

theorem good_rho : ∀ d ∈ rhoDecls pr s fl.mats fl.rho, Good pr s w c fl tv cf d := by
  obtain ⟨-, -, -, -, -, -, -, -, -, h1, h2, -⟩ := F.vecs
  cases hr : fl.rho
  · simp [rhoDecls]
  · simp only [rhoDecls, if_true, List.forall_mem_append]
    refine ⟨⟨good_v _ _ h1 rfl rfl (by decide) hr (by decide), good_v _ _ h2 rfl rfl (by decide) hr (by decide)⟩, ?_⟩
    cases hm : fl.mats
    · simp
    · simpa using good_vi .work_constr_type (s.constr_type.getD []) rfl rfl (by decide) (by simp [present, hr, hm]) (by decide)

theorem good_scratchDecls : ∀ d ∈ scratchDecls s.n s.m fl.mats fl.mpos, Good pr s w c fl tv cf d := by
  have hn : s.n ≠ 0 := F.sized.n_pos.ne'
  have hm : fl.mpos = true → s.m ≠ 0 := by rw [F.mpos]; intro h; simp only [decide_eq_true_eq] at h; omega
  have hm0 : fl.mpos = false → s.m = 0 := by rw [F.mpos]; intro h; simp only [decide_eq_false_iff_not] at h; omega
  simp only [scratchDecls, List.forall_mem_append, List.forall_mem_cons, List.not_mem_nil, false_imp_iff, implies_true, and_true]
  refine ⟨⟨⟨⟨⟨⟨⟨⟨⟨⟨⟨⟨fun env _ => object_zero (by omega), fun env hk => ?_, fun env hk => ?_, fun env hk => ?_⟩, ?_⟩, ?_⟩, ?_⟩, ?_⟩, ?_⟩, ?_⟩,
    ?_⟩, ?_⟩, ?_⟩, ?_⟩, ?_⟩
  · have hk : Know pr s w c fl tv env (rank .work_xz_tilde) := hk
    have e := conv_arrF (off := 0) (hk (.val .work_xz_tilde) (by decide) rfl (by decide)) (Nat.zero_le _)
    simp only [object, layout, initAll, e, Option.bind_some, Option.map_some]; rfl
  · have hk : Know pr s w c fl tv env (rank .work_xtilde_view) := hk
    have e := conv_arrF (off := 0) (hk (.val .work_xz_tilde) (by decide) rfl (by decide)) (Nat.zero_le _)
    simp only [object, layout, initAll, e, Option.bind_some, Option.map_some]; rfl
  · have hk : Know pr s w c fl tv env (rank .work_ztilde_view) := hk
    have e := conv_arrF (off := s.n) (hk (.val .work_xz_tilde) (by decide) rfl (by decide)) (by simp)
    simp only [object, layout, initAll, e, Option.bind_some, Option.map_some]; rfl
  · exact good_scratch _ hn rfl rfl (by decide) rfl (by decide)
  · exact good_scratchB _ _ hm hm0 rfl rfl (by decide) (fun h => h) (by decide)
  · exact good_scratchB _ _ hm hm0 rfl rfl (by decide) (fun h => h) (by decide)
  · exact good_scratch _ hn rfl rfl (by decide) rfl (by decide)
  · exact good_scratch _ hn rfl rfl (by decide) rfl (by decide)
  · exact good_scratchB _ _ hm hm0 rfl rfl (by decide) (fun h => h) (by decide)
  · exact good_scratch _ hn rfl rfl (by decide) rfl (by decide)
  · exact good_scratch _ hn rfl rfl (by decide) rfl (by decide)
  · exact good_scratch _ hn rfl rfl (by decide) rfl (by decide)
  · exact good_scratchB _ _ hm hm0 rfl rfl (by decide) (fun h => h) (by decide)
  · cases hM : fl.mats
    · simp
    · simp only [if_true, List.forall_mem_append]
      exact ⟨⟨good_scratch _ hn rfl rfl (by decide) hM (by decide), good_scratch _ hn rfl rfl (by decide) hM (by decide)⟩,
        good_scratchB _ _ hm hm0 rfl rfl (by decide) (fun h => by simp [present, h, hM]) (by decide)⟩

theorem good_scal : ∀ d ∈ (if fl.scal then scalDecls pr c else []), Good pr s w c fl tv cf d := by
  cases hs : fl.scal
  · simp
  · obtain ⟨h1, h2, h3, h4, h5, h6⟩ := F.scals hs
    simp only [if_true, scalDecls, List.forall_mem_append, List.forall_mem_cons, List.not_mem_nil, false_imp_iff, implies_true, and_true]
    refine ⟨⟨⟨⟨good_v _ _ h3 rfl rfl (by decide) hs (by decide), good_v _ _ h4 rfl rfl (by decide) hs (by decide)⟩,
      good_v _ _ h5 rfl rfl (by decide) hs (by decide)⟩, good_v _ _ h6 rfl rfl (by decide) hs (by decide)⟩, fun env hk => ?_⟩
    have hk : Know pr s w c fl tv env (rank .scaling) := hk
    have e1 := conv_addr (hk .scaling_D (by decide) hs (by decide))
    have e2 := conv_addr (hk .scaling_E (by decide) hs (by decide))
    have e3 := conv_addr (hk .scaling_Dinv (by decide) hs (by decide))
    have e4 := conv_addr (hk .scaling_Einv (by decide) hs (by decide))
    simp only [object, layout, initAll, e1, e2, e3, e4, conv_dec h1, conv_dec h2, Option.bind_some, Option.map_some]
    rfl

theorem head_ok {env : Env Nm} (hk : Know pr s w c fl tv env (rank .work)) :
    initAll env (headLayout fl.mats) (headInits fl.mats fl.rho fl.scal (pr s.rho_inv)) =
      some (headVals fl.mats fl.rho fl.scal (dig pr s.rho_inv)) := by
  obtain ⟨-, -, -, -, -, -, -, -, -, -, -, -, -, hi, -⟩ := F.scalars
  have d1 := conv_addr (hk .data (by decide) rfl (by decide))
  have d2 := conv_lin (hk .linsys (by decide) rfl (by decide))
  have v1 := conv_addr (hk .work_x (by decide) rfl (by decide))
  have v2 := conv_addr (hk .work_y (by decide) rfl (by decide))
  have v3 := conv_addr (hk .work_z (by decide) rfl (by decide))
  have v4 := conv_addr (hk .work_xz_tilde (by decide) rfl (by decide))
  have v5 := conv_addr (hk .work_xtilde_view (by decide) rfl (by decide))
  have v6 := conv_addr (hk .work_ztilde_view (by decide) rfl (by decide))
  have v7 := conv_addr (hk .work_x_prev (by decide) rfl (by decide))
  have v8 := conv_addr (hk .work_z_prev (by decide) rfl (by decide))
  have v9 := conv_addr (hk .work_Ax (by decide) rfl (by decide))
  have v10 := conv_addr (hk .work_Px (by decide) rfl (by decide))
  have v11 := conv_addr (hk .work_Aty (by decide) rfl (by decide))
  have v12 := conv_addr (hk .work_delta_y (by decide) rfl (by decide))
  have v13 := conv_addr (hk .work_Atdelta_y (by decide) rfl (by decide))
  have v14 := conv_addr (hk .work_delta_x (by decide) rfl (by decide))
  have v15 := conv_addr (hk .work_Pdelta_x (by decide) rfl (by decide))
  have v16 := conv_addr (hk .work_Adelta_x (by decide) rfl (by decide))
  have en : ∀ z t, conv env t (.int z) = convInt z t := fun z t => rfl
  have e0 : conv env .float dec0 = some (.flt 0) := rfl
  -- optional members, as one list of initialisers for each value of the flags
  have r1 : ∀ b, fl.rho = b → conv env (.pS .vectorf) (if b then .addr .work_rho_vec else .int 0) = some (opt b .work_rho_vec) := by
    intro b hb; cases b
    · rfl
    · exact conv_addr (hk .work_rho_vec (by decide) hb (by decide))
  have r2 : ∀ b, fl.rho = b → conv env (.pS .vectorf) (if b then .addr .work_rho_inv_vec else .int 0) = some (opt b .work_rho_inv_vec) := by
    intro b hb; cases b
    · rfl
    · exact conv_addr (hk .work_rho_inv_vec (by decide) hb (by decide))
  have r3 : ∀ b, fl.rho = b → fl.mats = true →
      conv env (.pS .vectori) (if b then .addr .work_constr_type else .int 0) = some (opt b .work_constr_type) := by
    intro b hb hm; cases b
    · rfl
    · exact conv_addr (hk .work_constr_type (by decide) (by simp [present, hb, hm]) (by decide))
  have s1 : ∀ b, fl.scal = b → conv env (.pS .scaling) (if b then .addr .scaling else .int 0) = some (opt b .scaling) := by
    intro b hb; cases b
    · rfl
    · exact conv_addr (hk .scaling (by decide) hb (by decide))
  have t1 : ∀ b, fl.mats = true → conv env (.pS .vectorf) (if b then .addr .work_D_temp else .int 0) = some (opt b .work_D_temp) := by
    intro b hb; cases b
    · rfl
    · exact conv_addr (hk .work_D_temp (by decide) hb (by decide))
  have t2 : ∀ b, fl.mats = true → conv env (.pS .vectorf) (if b then .addr .work_D_temp_A else .int 0) = some (opt b .work_D_temp_A) := by
    intro b hb; cases b
    · rfl
    · exact conv_addr (hk .work_D_temp_A (by decide) hb (by decide))
  have t3 : ∀ b, fl.mats = true → conv env (.pS .vectorf) (if b then .addr .work_E_temp else .int 0) = some (opt b .work_E_temp) := by
    intro b hb; cases b
    · rfl
    · exact conv_addr (hk .work_E_temp (by decide) hb (by decide))
  have key : headInits fl.mats fl.rho fl.scal (pr s.rho_inv) =
      [.addr .data, .addrLin .linsys, if fl.rho then .addr .work_rho_vec else .int 0, if fl.rho then .addr .work_rho_inv_vec else .int 0] ++
      (if fl.mats then [if fl.rho then .addr .work_constr_type else .int 0] else []) ++
      [.addr .work_x, .addr .work_y, .addr .work_z, .addr .work_xz_tilde, .addr .work_xtilde_view, .addr .work_ztilde_view,
       .addr .work_x_prev, .addr .work_z_prev, .addr .work_Ax, .addr .work_Px, .addr .work_Aty, dec0, dec0, dec0, dec0,
       .addr .work_delta_y, .addr .work_Atdelta_y, .addr .work_delta_x, .addr .work_Pdelta_x, .addr .work_Adelta_x] ++
      (if fl.mats then [if fl.scal then .addr .work_D_temp else .int 0, if fl.scal then .addr .work_D_temp_A else .int 0,
        if fl.scal then .addr .work_E_temp else .int 0] else []) ++
      [if fl.scal then .addr .scaling else .int 0, dec0, dec0, .dec (pr s.rho_inv)] := by
    cases fl.mats <;> cases fl.rho <;> cases fl.scal <;> rfl
  rw [key]
  generalize hr : fl.rho = b at *
  generalize hc : fl.scal = b' at *
  cases hm : fl.mats
  · simp only [headLayout, headVals, hm, Bool.false_eq_true, if_false, List.append_nil, List.cons_append, List.nil_append, initAll, d1, d2, v1,
      v2, v3, v4, v5, v6, v7, v8, v9, v10, v11, v12, v13, v14, v15, v16, e0, r1 _ rfl, r2 _ rfl, s1 _ rfl, conv_dec hi,
      Option.bind_some, Option.map_some]
  · simp only [headLayout, headVals, hm, if_true, List.append_nil, List.cons_append, List.nil_append, initAll, d1, d2, v1,
      v2, v3, v4, v5, v6, v7, v8, v9, v10, v11, v12, v13, v14, v15, v16, e0, r1 _ rfl, r2 _ rfl, r3 _ rfl hm, t1 _ hm, t2 _ hm, t3 _ hm,
      s1 _ rfl, conv_dec hi, Option.bind_some, Option.map_some]

theorem good_work : ∀ d ∈ workDecls pr s fl, Good pr s w c fl tv cf d := by
  simp only [workDecls, List.forall_mem_cons, List.not_mem_nil, false_imp_iff, implies_true, and_true]
  intro env hk
  have h1 := head_ok F hk
  have hlen : (headLayout fl.mats).length = (headInits fl.mats fl.rho fl.scal (pr s.rho_inv)).length := by
    cases fl.mats <;> cases fl.rho <;> cases fl.scal <;> rfl
  have h2 := initAll_append _ _ hlen _ _ h1 (F.tail env)
  have hf : (headInits fl.mats fl.rho fl.scal (pr s.rho_inv) ++ tailInits pr s).all (fnDeclared cf) = true := by
    cases fl.mats <;> cases fl.rho <;> cases fl.scal <;> rfl
  show object cf env (.struct .workspace _) = some (.struct .workspace _)
  simp only [object, hf, if_true, layout_work, ← F.mats, h2, Option.map_some]

/-- The written file compiles. -/
theorem compile_ok : compile cf [] (file pr s w c fl) = some ((file pr s w c fl).map fun d => (d.nm, obj pr s w c fl tv d.nm)) := by
  refine compile_sorted (rk := rank) _ ?_ ?_
  · rw [file_names]; exact names_sorted.filter _
  · intro d hd env he
    have hk : Know pr s w c fl tv env (rank d.nm) := by
      intro nm hm hp hr
      exact he nm (by rw [file_names, List.mem_filter]; exact ⟨hm, hp⟩) hr
    revert d
    suffices H : ∀ d ∈ file pr s w c fl, Good pr s w c fl tv cf d from fun d hd _ hk => H d hd env hk
    obtain ⟨-, -, -, -, -, -, -, -, -, -, -, hx, hy, hz⟩ := F.vecs
    simp only [file, List.forall_mem_append, List.forall_mem_cons, List.not_mem_nil, false_imp_iff, implies_true, and_true]
    refine ⟨⟨⟨⟨good_settings F, good_sol F⟩, good_info F⟩, ⟨⟨⟨⟨⟨⟨⟨⟨good_data F, good_lin F⟩, good_rho F⟩,
      good_v _ _ hx rfl rfl (by decide) rfl (by decide)⟩, good_v _ _ hy rfl rfl (by decide) rfl (by decide)⟩,
      good_v _ _ hz rfl rfl (by decide) rfl (by decide)⟩, good_scratchDecls F⟩, good_scal F⟩, good_work F⟩⟩, fun env hk => ?_⟩
    have hk : Know pr s w c fl tv env (rank .solver) := hk
    have e1 := conv_addr (hk .settings (by decide) rfl (by decide))
    have e2 := conv_addr (hk .sol (by decide) rfl (by decide))
    have e3 := conv_addr (hk .info (by decide) rfl (by decide))
    have e4 := conv_addr (hk .work (by decide) rfl (by decide))
    simp only [object, layout, initAll, e1, e2, e3, e4, Option.bind_some, Option.map_some]
    rfl

/-- The objects of the compiled file. -/
theorem lookup_ok {nm : Nm} (hm : nm ∈ names) (hp : present fl nm = true) :
    ((file pr s w c fl).map fun d => (d.nm, obj pr s w c fl tv d.nm)).lookup nm = some (obj pr s w c fl tv nm) := by
  rw [lookup_map_eq, if_pos]
  rw [file_names, List.mem_filter]
  exact ⟨hm, hp⟩

end Osqp.Gen
