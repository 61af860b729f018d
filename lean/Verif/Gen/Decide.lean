import Verif.Gen.Round

/-!
# When the file is accepted
-/

set_option linter.unusedSectionVars false
namespace Osqp.Gen
variable {K : Type} [Field K] [LinearOrder K]
variable {pr : K → Lit} {s : Src K} {w : Upd K} {c : Scal K} {fl : Fl} {tv : List (Val Nm)} {cf : Macros} {E : Env Nm}

/-! ## The last members of the workspace -/

theorem tail_env (env env' : Env Nm) : initAll env (tailLayout cf) (tailInits pr s) = initAll env' (tailLayout cf) (tailInits pr s) := by
  have h : ∀ (l : List (Fld × Ty)) (is : List (Ini Nm)), (∀ i ∈ is, (∃ z, i = .int z) ∨ ∃ d, i = .dec d) →
      initAll env l is = initAll env' l is := by
    intro l
    induction l with
    | nil => intro is _; cases is <;> rfl
    | cons a l ih =>
      intro is hi
      obtain ⟨f, t⟩ := a
      cases is with
      | nil => simp only [initAll]; rw [ih [] (by simp)]
      | cons i is =>
        have hc : conv env t i = conv env' t i := by
          rcases hi i (by simp) with ⟨z, rfl⟩ | ⟨d, rfl⟩ <;> rfl
        simp only [initAll, hc]
        rw [ih is fun j hj => hi j (by simp [hj])]
  refine h _ _ ?_
  simp [tailInits]

theorem tail_iff (env : Env Nm) : (initAll env (tailLayout cf) (tailInits pr s)).isSome ↔ TailFits cf s.rho_updated (pr s.last_rel_kkt) := by
  obtain ⟨ma, pf, pt, dv⟩ := cf
  cases hl : pr s.last_rel_kkt with
  | none =>
    cases pf <;> cases pt <;> cases dv <;>
      simp [tailLayout, tailInits, TailFits, IntLit, hl, initAll, conv, convInt]
  | some k =>
    cases pf <;> cases pt <;> cases dv <;>
      by_cases h0 : s.rho_updated = 0 <;> by_cases hk : inInt (k.tdiv 100000000000000000000) = true <;>
      simp [tailLayout, tailInits, TailFits, IntLit, hl, initAll, conv, convInt, h0, hk]

theorem tail_values {env : Env Nm} (h : initAll env (tailLayout cf) (tailInits pr s) = some tv) :
    ∃ ru lk, (((tailLayout cf).map Prod.fst).zip tv).lookup .rho_updated = some (.int ru) ∧
      (((tailLayout cf).map Prod.fst).zip tv).lookup .last_rel_kkt = some (.flt lk) ∧
      (cf.profiling = false → cf.printing = false → cf.derivatives = false → ru = s.rho_updated ∧ lk = dig pr s.last_rel_kkt) ∧
      ((cf.profiling = true ∨ cf.printing = true ∨ cf.derivatives = true) → lk = 0) ∧
      (cf.profiling = true → ru = 0 ∧ (((tailLayout cf).map Prod.fst).zip tv).lookup .timer = some .null) := by
  have hf := (tail_iff env).1 (by rw [h]; rfl)
  obtain ⟨ma, pf, pt, dv⟩ := cf
  cases hl : pr s.last_rel_kkt with
  | none =>
    rw [hl] at hf
    cases pf <;> cases pt <;> cases dv <;> simp [TailFits, IntLit] at hf
  | some k =>
    rw [hl] at hf
    cases pf <;> cases pt <;> cases dv <;> simp [TailFits, IntLit] at hf <;>
      simp [tailLayout, tailInits, hl, initAll, conv, convInt, hf, zero] at h <;> subst h <;>
      exact ⟨_, _, rfl, rfl, by simp [dig, hl], by simp, by simp [tailLayout]⟩

/-! ## Acceptance implies printable numbers -/

theorem compile_each {ds : List (Decl Nm)} {env E : Env Nm} (h : compile cf env ds = some E) :
    ∀ d ∈ ds, ∃ env', (object cf env' d.body).isSome := by
  induction ds generalizing env with
  | nil => simp
  | cons d ds ih =>
    rw [compile] at h
    split at h
    · simp at h
    · cases ho : object cf env d.body with
      | none => simp [ho] at h
      | some o =>
        rw [ho, Option.bind_some] at h
        intro d' hd
        rcases List.mem_cons.1 hd with rfl | hd
        · exact ⟨env, by rw [ho]; rfl⟩
        · exact ih h d' hd

/-- The literals of a declaration. -/
def lits : Body Nm → List Lit
  | .arrF vals => vals
  | .struct _ inits => inits.filterMap fun | .dec l => some l | _ => none
  | _ => []

theorem mapM_isSome {vals : List Lit} (h : (vals.mapM id).isSome) : ∀ l ∈ vals, l.isSome := by
  induction vals with
  | nil => simp
  | cons a vals ih =>
    rw [List.mapM_cons] at h
    cases a with
    | none => simp at h
    | some k =>
      have : (vals.mapM id).isSome := by
        cases hm : vals.mapM id with
        | none => rw [hm] at h; simp at h
        | some _ => rfl
      intro l hl
      rcases List.mem_cons.1 hl with rfl | hl
      · rfl
      · exact ih this l hl

theorem initAll_lits {env : Env Nm} {ly : List (Fld × Ty)} {is : List (Ini Nm)} (h : (initAll env ly is).isSome) :
    ∀ l, Ini.dec l ∈ is → l.isSome := by
  induction ly generalizing is with
  | nil =>
    cases is with
    | nil => simp
    | cons _ _ => simp [initAll] at h
  | cons a ly ih =>
    obtain ⟨f, t⟩ := a
    cases is with
    | nil => simp
    | cons i is =>
      simp only [initAll] at h
      cases hc : conv env t i with
      | none => simp [hc] at h
      | some v =>
        rw [hc, Option.bind_some, Option.isSome_map] at h
        intro l hl
        rcases List.mem_cons.1 hl with rfl | hl
        · cases l with
          | none => simp [conv] at hc
          | some _ => rfl
        · exact ih h l hl

theorem object_lits {env : Env Nm} {b : Body Nm} (h : (object cf env b).isSome) : ∀ l ∈ lits b, l.isSome := by
  cases b with
  | arrF vals =>
    simp only [object] at h
    split at h
    · simp at h
    · rw [Option.isSome_map] at h; exact mapM_isSome h
  | struct t inits =>
    simp only [object] at h
    split at h
    · rw [Option.isSome_map] at h
      intro l hl
      simp only [lits, List.mem_filterMap] at hl
      obtain ⟨i, hi, he⟩ := hl
      refine initAll_lits h l ?_
      cases i <;> simp at he
      subst he; exact hi
    · simp at h
  | _ => simp [lits]

theorem mem_lits {t : CTy} {l : Lit} {inits : List (Ini Nm)} (h : Ini.dec l ∈ inits) : l ∈ lits (.struct t inits) :=
  List.mem_filterMap.2 ⟨_, h, rfl⟩

theorem lits_f {xs : List K} (h : ∀ l ∈ lits (fBody pr xs), l.isSome) : ∀ x ∈ xs, Pr pr x := by
  intro x hx
  have hn : xs ≠ [] := List.ne_nil_of_mem hx
  refine h (pr x) ?_
  simp only [fBody, if_neg hn, lits]
  exact List.mem_map_of_mem hx

theorem prints_of (hz : Sized s) (hw : s.upd = some w) (hc : fl.scal = true → s.scaling = some c)
    (hrho : fl.rho = decide (s.settings.rho_is_vec ≠ 0)) (hscal : fl.scal = decide (s.settings.scaling ≠ 0))
    (hrinv : fl.rinv = s.lin.rho_inv_vec.isSome)
    (h : ∀ d ∈ file pr s w c fl, ∀ l ∈ lits d.body, l.isSome) : ∀ x ∈ s.nums fl.mats, Pr pr x := by
  simp only [file, List.forall_mem_append] at h
  obtain ⟨⟨⟨⟨hset, -⟩, hinfo⟩, ⟨⟨⟨⟨⟨⟨⟨hdata, hlinD⟩, hrh⟩, hx⟩, hy⟩, hz'⟩, -⟩, hsc⟩, hwk⟩, -⟩ := h
  simp only [settingsDecls, infoDecls, vDecls, workDecls, List.forall_mem_cons, List.not_mem_nil, false_imp_iff, implies_true, and_true]
    at hset hinfo hx hy hz' hwk
  simp only [dataDecls, matDecls, cscDecls, vDecls, List.forall_mem_append, List.forall_mem_cons, List.not_mem_nil, false_imp_iff, implies_true,
    and_true] at hdata
  obtain ⟨⟨⟨⟨⟨⟨⟨-, -, hP, -⟩, -⟩, ⟨-, -, hA, -⟩, -⟩, hq, -⟩, hl, -⟩, hu, -⟩, -⟩ := hdata
  simp only [linDecls, cscDecls, List.forall_mem_append, List.forall_mem_cons, List.not_mem_nil, false_imp_iff, implies_true,
    and_true] at hlinD
  obtain ⟨⟨⟨⟨⟨-, -, hL, -⟩, hDi, -⟩, hri⟩, hup⟩, hlin⟩ := hlinD
  replace hx := hx.1
  replace hy := hy.1
  replace hz' := hz'.1
  have sc : ∀ x ∈ [s.settings.rho, s.settings.sigma, s.settings.alpha, s.settings.cg_tol_fraction, s.settings.adaptive_rho_fraction,
      s.settings.adaptive_rho_tolerance, s.settings.eps_abs, s.settings.eps_rel, s.settings.eps_prim_inf, s.settings.eps_dual_inf,
      s.settings.time_limit, s.settings.delta], Pr pr x := by
    simp only [lits, List.filterMap_cons, List.filterMap_nil] at hset
    intro x hx
    refine hset (pr x) ?_
    simp only [List.mem_cons, List.not_mem_nil, or_false] at hx ⊢
    rcases hx with rfl | rfl | rfl | rfl | rfl | rfl | rfl | rfl | rfl | rfl | rfl | rfl <;> simp
  have e : Pr pr s.rho_estimate := hinfo _ (by simp [lits])
  have r : Pr pr s.rho_inv ∧ Pr pr s.last_rel_kkt := by
    constructor <;> refine hwk _ (mem_lits ?_) <;> simp [headInits, tailInits]
  have g : Pr pr s.lin.sigma ∧ Pr pr s.lin.rho_inv := by
    constructor <;> refine hlin _ (mem_lits ?_) <;> simp [linInits]
  have hr : ∀ x ∈ s.lin.rho_inv_vec.getD [], Pr pr x := by
    cases hv : s.lin.rho_inv_vec with
    | none => simp
    | some xs =>
      rw [hv] at hrinv
      simp only [hrinv, Option.isSome_some, if_true, List.forall_mem_cons, List.not_mem_nil, false_imp_iff, implies_true, and_true] at hri
      rw [hv] at hri
      exact lits_f hri
  have hk : fl.mats = true → (∀ x ∈ w.KKT.x, Pr pr x) ∧ (∀ x ∈ w.D, Pr pr x) := by
    intro hm
    simp only [hm, if_true, updDecls, cscDecls, List.forall_mem_append, List.forall_mem_cons, List.not_mem_nil, false_imp_iff, implies_true,
      and_true] at hup
    exact ⟨lits_f hup.1.2.2.1, lits_f hup.2.2.2.2.1⟩
  have hrv : (∀ x ∈ s.rho_vec.getD [], Pr pr x) ∧ ∀ x ∈ s.rho_inv_vec.getD [], Pr pr x := by
    by_cases h0 : s.settings.rho_is_vec = 0
    · obtain ⟨h1, h2, -⟩ := hz.rho_vec.1 h0
      simp [h1, h2]
    · have ht : fl.rho = true := by simp [hrho, h0]
      simp only [rhoDecls, ht, if_true, vDecls, List.forall_mem_append, List.forall_mem_cons, List.not_mem_nil, false_imp_iff, implies_true,
        and_true] at hrh
      exact ⟨lits_f hrh.1.1.1, lits_f hrh.1.2.1⟩
  have hs : ∀ x ∈ s.scaling.elim [] fun c => [c.c, c.cinv] ++ c.D ++ c.E ++ c.Dinv ++ c.Einv, Pr pr x := by
    by_cases h0 : s.settings.scaling = 0
    · rw [hz.scaling.1 h0]; simp
    · have ht : fl.scal = true := by simp [hscal, h0]
      simp only [ht, if_true, scalDecls, vDecls, List.forall_mem_append, List.forall_mem_cons, List.not_mem_nil, false_imp_iff, implies_true,
        and_true] at hsc
      obtain ⟨⟨⟨⟨⟨d1, -⟩, d2, -⟩, d3, -⟩, d4, -⟩, d5⟩ := hsc
      rw [hc ht]
      simp only [Option.elim_some, List.forall_mem_append, List.forall_mem_cons, List.not_mem_nil, false_imp_iff, implies_true, and_true]
      exact ⟨⟨⟨⟨⟨d5 _ (by simp [lits]), d5 _ (by simp [lits])⟩, lits_f d1⟩, lits_f d2⟩, lits_f d3⟩, lits_f d4⟩
  have hkk : ∀ x ∈ (if fl.mats then s.upd.elim [] fun w => w.KKT.x ++ w.D else []), Pr pr x := by
    split
    · rename_i hm
      rw [hw]
      simp only [Option.elim_some, List.forall_mem_append]
      exact hk hm
    · simp
  simp only [List.forall_mem_cons, List.not_mem_nil, false_imp_iff, implies_true, and_true] at sc
  simp only [Src.nums, List.forall_mem_append, List.forall_mem_cons, List.not_mem_nil, false_imp_iff, implies_true, and_true]
  obtain ⟨c1, c2, c3, c4, c5, c6, c7, c8, c9, c10, c11, c12⟩ := sc
  exact ⟨⟨⟨⟨⟨⟨⟨⟨⟨⟨⟨⟨⟨⟨⟨⟨c1, c2, c3, c4, c5, c6, c7, c8, c9, c10, c11, c12, e, r.1, r.2, g.1, g.2⟩, lits_f hP⟩, lits_f hA⟩, lits_f hq⟩, lits_f hl⟩,
    lits_f hu⟩, lits_f hL⟩, lits_f hDi⟩, hr⟩, hkk⟩, hrv.1⟩, hrv.2⟩, lits_f hx⟩, lits_f hy⟩, lits_f hz'⟩, hs⟩

theorem initAll_append_right {env : Env Nm} (l1 : List (Fld × Ty)) (i1 : List (Ini Nm)) (hl : l1.length = i1.length) (l2 : List (Fld × Ty))
    (i2 : List (Ini Nm)) (h : (initAll env (l1 ++ l2) (i1 ++ i2)).isSome) : (initAll env l2 i2).isSome := by
  induction l1 generalizing i1 with
  | nil =>
    cases i1 with
    | nil => simpa using h
    | cons _ _ => simp at hl
  | cons a l1 ih =>
    cases i1 with
    | nil => simp at hl
    | cons b i1 =>
      obtain ⟨f, t⟩ := a
      simp only [List.cons_append, initAll] at h
      cases hc : conv env t b with
      | none => simp [hc] at h
      | some v =>
        rw [hc, Option.bind_some, Option.isSome_map] at h
        exact ih i1 (by simpa using hl) h

/-- A compiled file fits. -/
theorem fit_of_compile (hz : Sized s) (hw : s.upd = some w) (hc : fl.scal = true → s.scaling = some c)
    (hrho : fl.rho = decide (s.settings.rho_is_vec ≠ 0)) (hscal : fl.scal = decide (s.settings.scaling ≠ 0))
    (hrinv : fl.rinv = s.lin.rho_inv_vec.isSome) (hm : fl.mats = cf.mats) (hmp : fl.mpos = decide (s.m > 0))
    (h : compile cf [] (file pr s w c fl) = some E) : ∃ tv, Fit pr s w c fl tv cf := by
  have he := compile_each h
  have hp := prints_of hz hw hc hrho hscal hrinv fun d hd => (he d hd).elim fun _ ho => object_lits ho
  obtain ⟨env, ho⟩ := he ⟨.work, .struct .workspace (headInits fl.mats fl.rho fl.scal (pr s.rho_inv) ++ tailInits pr s)⟩ (by
    simp only [file, List.mem_append]
    exact .inl (.inr (.inr (by simp [workDecls]))))
  have ht : (initAll env (tailLayout cf) (tailInits pr s)).isSome := by
    simp only [object] at ho
    split at ho
    · rw [Option.isSome_map, layout_work] at ho
      refine initAll_append_right (headLayout cf.mats) (headInits fl.mats fl.rho fl.scal (pr s.rho_inv)) ?_ _ _ ho
      rw [hm]
      cases cf.mats <;> cases fl.rho <;> cases fl.scal <;> rfl
    · simp at ho
  obtain ⟨tv, htv⟩ := Option.isSome_iff_exists.1 ht
  exact ⟨tv, hz, hw, hc, hp, hm, hmp, hrinv, fun env' => (tail_env env' env).trans htv⟩

end Osqp.Gen
