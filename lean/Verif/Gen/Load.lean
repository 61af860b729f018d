import Verif.Gen.Accept

/-!
# What a program reads from the compiled file
-/

set_option linter.unusedSectionVars false
namespace Osqp.Gen
variable {K : Type} [Field K] [LinearOrder K]
variable {pr : K → Lit} {s : Src K} {w : Upd K} {c : Scal K} {fl : Fl} {tv : List (Val Nm)} {cf : Macros} {E : Env Nm}

/-- The rounded number. -/
def rnd (pr : K → Lit) (x : K) : K := num (dig pr x)

def rSparse (pr : K → Lit) (M : Sparse K) : Sparse K := { M with x := M.x.map (rnd pr) }

/-! ## Generic readers -/

theorem member_of {nm : Nm} {t : CTy} {vals : List (Val Nm)} {f : Fld} {v : Val Nm} (h : E.lookup nm = some (.struct t vals))
    (hl : (((layout cf t).map Prod.fst).zip vals).lookup f = some v) : member cf E t f (.ptr nm 0) = some v := by
  simp [member, h, hl]

theorem int_of {t : CTy} {f : Fld} {v : Val Nm} {z : ℤ} (h : member cf E t f v = some (.int z)) : int cf E t f v = some z := by
  simp [int, h]

theorem size_of {t : CTy} {f : Fld} {v : Val Nm} {z : ℕ} (h : member cf E t f v = some (.int z)) : size cf E t f v = some z := by
  simp [size, int_of h]

theorem flt_of {t : CTy} {f : Fld} {v : Val Nm} {k : ℤ} (h : member cf E t f v = some (.flt k)) :
    flt cf E t f v = some (num k : K) := by
  simp [flt, h]

theorem readF_of {nm : Nm} {xs : List K} {len : ℕ} (h : E.lookup nm = some (fObj pr xs)) (hl : xs.length = len) :
    readF E len (ptr0 xs.length nm) = some (xs.map (dig pr)) := by
  subst hl
  by_cases hx : xs = []
  · simp [hx, ptr0, readF]
  · have : xs.length ≠ 0 := by simpa using hx
    simp [ptr0, readF, h, fObj, hx, List.take_of_length_le]

theorem readI_of {nm : Nm} {xs : List ℤ} {len : ℕ} (h : E.lookup nm = some (iObj xs)) (hl : xs.length = len) :
    readI E len (ptr0 xs.length nm) = some xs := by
  subst hl
  by_cases hx : xs = []
  · simp [hx, ptr0, readI]
  · have : xs.length ≠ 0 := by simpa using hx
    simp [ptr0, readI, h, iObj, hx, List.take_of_length_le]

theorem arrF_of {t : CTy} {f : Fld} {v : Val Nm} {nm : Nm} {xs : List K} {len : ℕ}
    (hm : member cf E t f v = some (ptr0 xs.length nm)) (h : E.lookup nm = some (fObj pr xs)) (hl : xs.length = len) :
    arrF cf E t f len v = some (xs.map (rnd pr)) := by
  simp only [arrF, hm, Option.bind_some, readF_of h hl, Option.map_some, List.map_map]
  rfl

theorem arrI_of {t : CTy} {f : Fld} {v : Val Nm} {nm : Nm} {xs : List ℤ} {len : ℕ}
    (hm : member cf E t f v = some (ptr0 xs.length nm)) (h : E.lookup nm = some (iObj xs)) (hl : xs.length = len) :
    arrI cf E t f len v = some xs := by
  simp only [arrI, hm, Option.bind_some, readI_of h hl]

theorem loadVecf_of {nm : Nm} {xs : List K} (hv : E.lookup nm = some (vObj nm xs.length)) (h : E.lookup (.val nm) = some (fObj pr xs)) :
    loadVecf cf E (.ptr nm 0) = some (xs.map (rnd pr)) := by
  rw [loadVecf, size_of (member_of hv rfl), Option.bind_some]
  exact arrF_of (member_of hv rfl) h rfl

theorem loadVeci_of {nm : Nm} {xs : List ℤ} (hv : E.lookup nm = some (viObj nm xs.length)) (h : E.lookup (.val nm) = some (iObj xs)) :
    loadVeci cf E (.ptr nm 0) = some xs := by
  rw [loadVeci, size_of (member_of hv rfl), Option.bind_some]
  exact arrI_of (member_of hv rfl) h rfl

theorem vecf_of {t : CTy} {f : Fld} {v : Val Nm} {nm : Nm} {xs : List K} (hm : member cf E t f v = some (.ptr nm 0))
    (hv : E.lookup nm = some (vObj nm xs.length)) (h : E.lookup (.val nm) = some (fObj pr xs)) :
    vecf cf E t f v = some (xs.map (rnd pr)) := by
  rw [vecf, hm, Option.bind_some, loadVecf_of hv h]

theorem loadCsc_of {nm : Nm} {M : Sparse K} (hM : SparseOk M) (h : E.lookup nm = some (cObj nm M)) (hp : E.lookup (.p nm) = some (iObj M.p))
    (hi : E.lookup (.i nm) = some (iObj M.i)) (hx : E.lookup (.x nm) = some (fObj pr M.x)) :
    loadCsc cf E (.ptr nm 0) = some (rSparse pr M) := by
  simp only [loadCsc, size_of (member_of h rfl : member cf E .csc .m (.ptr nm 0) = some (.int M.m)),
    size_of (member_of h rfl : member cf E .csc .n (.ptr nm 0) = some (.int M.n)),
    size_of (member_of h rfl : member cf E .csc .nzmax (.ptr nm 0) = some (.int M.nzmax)),
    int_of (member_of h rfl : member cf E .csc .nz (.ptr nm 0) = some (.int M.nz)),
    arrI_of (member_of h rfl : member cf E .csc .p (.ptr nm 0) = some (ptr0 M.p.length (.p nm))) hp hM.p,
    arrI_of (member_of h rfl : member cf E .csc .i (.ptr nm 0) = some (ptr0 M.i.length (.i nm))) hi hM.i,
    arrF_of (member_of h rfl : member cf E .csc .x (.ptr nm 0) = some (ptr0 M.x.length (.x nm))) hx hM.x,
    Option.bind_eq_bind, Option.bind_some]
  rfl

def rMat (pr : K → Lit) (M : Mat K) : Mat K := ⟨rSparse pr M.csc, M.symmetry⟩

theorem loadMat_of {nm : Nm} {M : Mat K} (hM : SparseOk M.csc) (h : E.lookup nm = some (mObj nm M))
    (h0 : E.lookup (.csc nm) = some (cObj (.csc nm) M.csc)) (hp : E.lookup (.p (.csc nm)) = some (iObj M.csc.p))
    (hi : E.lookup (.i (.csc nm)) = some (iObj M.csc.i)) (hx : E.lookup (.x (.csc nm)) = some (fObj pr M.csc.x)) :
    loadMat cf E (.ptr nm 0) = some (rMat pr M) := by
  simp only [loadMat, (member_of h rfl : member cf E .matrix .csc (.ptr nm 0) = some (.ptr (.csc nm) 0)),
    int_of (member_of h rfl : member cf E .matrix .symmetry (.ptr nm 0) = some (.int M.symmetry)), loadCsc_of hM h0 hp hi hx,
    Option.bind_eq_bind, Option.bind_some]
  rfl

/-! ## The objects of this file -/

/-- The environment is that of the file. -/
def Has (pr : K → Lit) (s : Src K) (w : Upd K) (c : Scal K) (fl : Fl) (tv : List (Val Nm)) (E : Env Nm) : Prop :=
  ∀ nm, nm ∈ names → present fl nm = true → E.lookup nm = some (obj pr s w c fl tv nm)

def rSettings (pr : K → Lit) (s : Settings K) : Settings K :=
  { s with
    device := 0, linsys_solver := 1, allocate_solution := 1, verbose := 0, profiler_level := 0, polishing := 0
    rho := rnd pr s.rho, sigma := rnd pr s.sigma, alpha := rnd pr s.alpha, cg_tol_fraction := rnd pr s.cg_tol_fraction
    adaptive_rho_fraction := rnd pr s.adaptive_rho_fraction, adaptive_rho_tolerance := rnd pr s.adaptive_rho_tolerance
    eps_abs := rnd pr s.eps_abs, eps_rel := rnd pr s.eps_rel, eps_prim_inf := rnd pr s.eps_prim_inf
    eps_dual_inf := rnd pr s.eps_dual_inf, time_limit := rnd pr s.time_limit, delta := rnd pr s.delta }

theorem loadSettings_of {v : Settings K} (h : E.lookup .settings = some (.struct .settings (settingsVals pr v))) :
    loadSettings cf E (.ptr .settings 0) = some (rSettings pr v) := by
  have hz : ∀ {f z}, (((layout cf .settings).map Prod.fst).zip (settingsVals pr v)).lookup f = some (.int z) →
      int cf E .settings f (.ptr .settings 0) = some z := fun hl => int_of (member_of h hl)
  have hr : ∀ {f k}, (((layout cf .settings).map Prod.fst).zip (settingsVals pr v)).lookup f = some (.flt k) →
      flt cf E .settings f (.ptr .settings 0) = some (num k : K) := fun hl => flt_of (member_of h hl)
  simp only [loadSettings,
    hz (f := .device) (z := 0) rfl, hz (f := .linsys_solver) (z := 1) rfl, hz (f := .allocate_solution) (z := 1) rfl,
    hz (f := .verbose) (z := 0) rfl, hz (f := .profiler_level) (z := 0) rfl, hz (f := .warm_starting) (z := v.warm_starting) rfl,
    hz (f := .scaling) (z := v.scaling) rfl, hz (f := .polishing) (z := 0) rfl, hr (f := .rho) (k := dig pr v.rho) rfl,
    hz (f := .rho_is_vec) (z := v.rho_is_vec) rfl, hr (f := .sigma) (k := dig pr v.sigma) rfl,
    hr (f := .alpha) (k := dig pr v.alpha) rfl, hz (f := .cg_max_iter) (z := v.cg_max_iter) rfl,
    hz (f := .cg_tol_reduction) (z := v.cg_tol_reduction) rfl, hr (f := .cg_tol_fraction) (k := dig pr v.cg_tol_fraction) rfl,
    hz (f := .cg_precond) (z := v.cg_precond) rfl, hz (f := .adaptive_rho) (z := v.adaptive_rho) rfl,
    hz (f := .adaptive_rho_interval) (z := v.adaptive_rho_interval) rfl,
    hr (f := .adaptive_rho_fraction) (k := dig pr v.adaptive_rho_fraction) rfl,
    hr (f := .adaptive_rho_tolerance) (k := dig pr v.adaptive_rho_tolerance) rfl, hz (f := .max_iter) (z := v.max_iter) rfl,
    hr (f := .eps_abs) (k := dig pr v.eps_abs) rfl, hr (f := .eps_rel) (k := dig pr v.eps_rel) rfl,
    hr (f := .eps_prim_inf) (k := dig pr v.eps_prim_inf) rfl, hr (f := .eps_dual_inf) (k := dig pr v.eps_dual_inf) rfl,
    hz (f := .scaled_termination) (z := v.scaled_termination) rfl, hz (f := .check_termination) (z := v.check_termination) rfl,
    hz (f := .check_dualgap) (z := v.check_dualgap) rfl, hr (f := .time_limit) (k := dig pr v.time_limit) rfl,
    hr (f := .delta) (k := dig pr v.delta) rfl, hz (f := .polish_refine_iter) (z := v.polish_refine_iter) rfl,
    Option.bind_eq_bind, Option.bind_some]
  rfl

def rScal (pr : K → Lit) (c : Scal K) : Scal K :=
  ⟨rnd pr c.c, c.D.map (rnd pr), c.E.map (rnd pr), rnd pr c.cinv, c.Dinv.map (rnd pr), c.Einv.map (rnd pr)⟩

variable (H : Has pr s w c fl tv E)
include H

theorem loadScaling_of (hs : fl.scal = true) : loadScaling cf E (.ptr .scaling 0) = some (rScal pr c) := by
  have h := H .scaling (by decide) hs
  simp only [loadScaling, flt_of (member_of h rfl : member cf E .scaling .c (.ptr .scaling 0) = some (.flt (dig pr c.c))),
    flt_of (member_of h rfl : member cf E .scaling .cinv (.ptr .scaling 0) = some (.flt (dig pr c.cinv))),
    vecf_of (member_of h rfl : member cf E .scaling .D (.ptr .scaling 0) = some (.ptr .scaling_D 0)) (H _ (by decide) hs) (H _ (by decide) hs),
    vecf_of (member_of h rfl : member cf E .scaling .E (.ptr .scaling 0) = some (.ptr .scaling_E 0)) (H _ (by decide) hs) (H _ (by decide) hs),
    vecf_of (member_of h rfl : member cf E .scaling .Dinv (.ptr .scaling 0) = some (.ptr .scaling_Dinv 0)) (H _ (by decide) hs) (H _ (by decide) hs),
    vecf_of (member_of h rfl : member cf E .scaling .Einv (.ptr .scaling 0) = some (.ptr .scaling_Einv 0)) (H _ (by decide) hs) (H _ (by decide) hs),
    Option.bind_eq_bind, Option.bind_some]
  rfl

def rLin (pr : K → Lit) (v : Lin K) : Lin K :=
  { v with
    L := rSparse pr v.L, Dinv := v.Dinv.map (rnd pr), sigma := rnd pr v.sigma, rho_inv := rnd pr v.rho_inv
    rho_inv_vec := if v.m = 0 then none else v.rho_inv_vec.map (List.map (rnd pr)) }

omit H in
theorem lin_member {f : Fld} {v : Val Nm} (hl : E.lookup .linsys = some (.struct .qdldl (linVals pr s.lin w fl.mats fl.rinv)))
    (hm : fl.mats = cf.mats)
    (h : ∀ mats rinv, mats = fl.mats → rinv = fl.rinv → (((layout { cf with mats := mats } .qdldl).map Prod.fst).zip
      (linVals pr s.lin w mats rinv)).lookup f = some v) : member cf E .qdldl f (.ptr .linsys 0) = some v := by
  refine member_of hl ?_
  have := h fl.mats fl.rinv rfl rfl
  rw [hm] at this ⊢
  exact this

theorem loadLin_of (hm : fl.mats = cf.mats) (hz : Sized s) (hr : fl.rinv = s.lin.rho_inv_vec.isSome) :
    loadLin cf E (.ptr .linsys 0) = some (rLin pr s.lin) := by
  have h := H .linsys (by decide) rfl
  have M : ∀ {f : Fld} {v : Val Nm}, (∀ mats rinv, mats = fl.mats → rinv = fl.rinv → (((layout { cf with mats := mats } .qdldl).map Prod.fst).zip
      (linVals pr s.lin w mats rinv)).lookup f = some v) → member cf E .qdldl f (.ptr .linsys 0) = some v :=
    fun h' => lin_member h hm h'
  have m1 := size_of (cf := cf) (M (f := .n) (v := .int s.lin.n) (by rintro ⟨⟩ b - - <;> rfl))
  have m2 := size_of (cf := cf) (M (f := .m) (v := .int s.lin.m) (by rintro ⟨⟩ b - - <;> rfl))
  have m3 := M (f := .L) (v := .ptr .linsys_L 0) (by rintro ⟨⟩ b - - <;> rfl)
  have m4 := int_of (cf := cf) (M (f := .type) (v := .int s.lin.type) (by rintro ⟨⟩ b - - <;> rfl))
  have m5 := int_of (cf := cf) (M (f := .nthreads) (v := .int s.lin.nthreads) (by rintro ⟨⟩ b - - <;> rfl))
  have m6 := loadCsc_of (cf := cf) hz.L (H .linsys_L (by decide) rfl) (H _ (by decide) rfl) (H _ (by decide) rfl) (H _ (by decide) rfl)
  have m7 := arrF_of (cf := cf) (M (f := .Dinv) (v := ptr0 s.lin.Dinv.length .linsys_Dinv) (by rintro ⟨⟩ b - - <;> rfl))
    (H _ (by decide) rfl) (hz.Dinv.trans (by rw [hz.lin_n, hz.lin_m]) : _ = s.lin.n + s.lin.m)
  have m8 := arrI_of (cf := cf) (M (f := .P) (v := ptr0 s.lin.P.length .linsys_P) (by rintro ⟨⟩ b - - <;> rfl))
    (H _ (by decide) rfl) (hz.perm.trans (by rw [hz.lin_n, hz.lin_m]) : _ = s.lin.n + s.lin.m)
  have m9 := flt_of (K := K) (cf := cf) (M (f := .sigma) (v := .flt (dig pr s.lin.sigma)) (by rintro ⟨⟩ b - - <;> rfl))
  have m10 := flt_of (K := K) (cf := cf) (M (f := .rho_inv) (v := .flt (dig pr s.lin.rho_inv)) (by rintro ⟨⟩ b - - <;> rfl))
  have m11 := M (f := .rho_inv_vec)
    (v := if fl.rinv then ptr0 (s.lin.rho_inv_vec.getD []).length .linsys_rho_inv_vec else .null) (by rintro ⟨⟩ b - rfl <;> rfl)
  have m12 : orNull cf E .qdldl .rho_inv_vec (fun a => (readF E s.lin.m a).map (List.map num)) (.ptr .linsys 0) =
      some (if s.lin.m = 0 then none else s.lin.rho_inv_vec.map (List.map (rnd pr))) := by
    rw [orNull, m11, Option.bind_some]
    cases hv : s.lin.rho_inv_vec with
    | none => simp [hr, hv]
    | some xs =>
      have hx := hz.lin_rho xs hv
      have hp : fl.rinv = true := by rw [hr, hv]; rfl
      have hl : E.lookup .linsys_rho_inv_vec = some (fObj pr xs) := by
        have h1 : E.lookup .linsys_rho_inv_vec = some (fObj pr (s.lin.rho_inv_vec.getD [])) := H .linsys_rho_inv_vec (by decide) hp
        rw [h1, hv]; rfl
      have hrd := readF_of hl (hx.trans hz.lin_m.symm)
      simp only [hp, if_true, Option.getD_some]
      by_cases h0 : s.lin.m = 0
      · have : xs.length = 0 := by rw [hx, ← hz.lin_m, h0]
        simp [ptr0, this, h0]
      · have : xs.length ≠ 0 := by rw [hx, ← hz.lin_m]; exact h0
        have hq : ptr0 xs.length .linsys_rho_inv_vec = Val.ptr Nm.linsys_rho_inv_vec 0 := by simp [ptr0, this]
        rw [hq] at hrd ⊢
        rw [if_neg (by simp), hrd, if_neg h0]
        simp [rnd, Function.comp_def]
  simp only [loadLin, m1, m2, m3, m4, m5, m6, m7, m8, m9, m10, m12, Option.bind_eq_bind, Option.bind_some]
  rfl

def rUpd (pr : K → Lit) (w : Upd K) : Upd K := { w with KKT := rSparse pr w.KKT, D := w.D.map (rnd pr) }

theorem loadUpd_of (hm : fl.mats = cf.mats) (ht : fl.mats = true) (hz : Sized s) (hw : SparseOk w.KKT) (h3 : w.rhotoKKT.length = s.m)
    (h4 : w.D.length = s.n + s.m) (h5 : w.etree.length = s.n + s.m) (h6 : w.Lnz.length = s.n + s.m) :
    loadUpd cf E w.PtoKKT.length w.AtoKKT.length (.ptr .linsys 0) = some (rUpd pr w) := by
  have h := H .linsys (by decide) rfl
  rw [← hz.lin_n, ← hz.lin_m] at h4 h5 h6
  rw [← hz.lin_m] at h3
  have M : ∀ {f : Fld} {v : Val Nm}, (∀ rinv, rinv = fl.rinv → (((layout { cf with mats := true } .qdldl).map Prod.fst).zip
      (linVals pr s.lin w true rinv)).lookup f = some v) → member cf E .qdldl f (.ptr .linsys 0) = some v :=
    fun h' => lin_member h hm fun b r hb hr => by subst hb; rw [ht]; exact h' r hr
  have m1 := size_of (cf := cf) (M (f := .n) (v := .int s.lin.n) fun _ _ => rfl)
  have m2 := size_of (cf := cf) (M (f := .m) (v := .int s.lin.m) fun _ _ => rfl)
  have m3 := M (f := .KKT) (v := .ptr .linsys_KKT 0) fun _ _ => rfl
  have m4 := loadCsc_of (cf := cf) hw (H .linsys_KKT (by decide) ht) (H _ (by decide) ht) (H _ (by decide) ht) (H _ (by decide) ht)
  have m5 := arrI_of (cf := cf) (M (f := .PtoKKT) (v := ptr0 w.PtoKKT.length .linsys_PtoKKT) fun _ _ => rfl) (H _ (by decide) ht) rfl
  have m6 := arrI_of (cf := cf) (M (f := .AtoKKT) (v := ptr0 w.AtoKKT.length .linsys_AtoKKT) fun _ _ => rfl) (H _ (by decide) ht) rfl
  have m7 := arrI_of (cf := cf) (M (f := .rhotoKKT) (v := ptr0 w.rhotoKKT.length .linsys_rhotoKKT) fun _ _ => rfl) (H _ (by decide) ht) h3
  have m8 := arrF_of (cf := cf) (M (f := .D) (v := ptr0 w.D.length .linsys_D) fun _ _ => rfl) (H _ (by decide) ht) h4
  have m9 := arrI_of (cf := cf) (M (f := .etree) (v := ptr0 w.etree.length .linsys_etree) fun _ _ => rfl) (H _ (by decide) ht) h5
  have m10 := arrI_of (cf := cf) (M (f := .Lnz) (v := ptr0 w.Lnz.length .linsys_Lnz) fun _ _ => rfl) (H _ (by decide) ht) h6
  simp only [loadUpd, m1, m2, m3, m4, m5, m6, m7, m8, m9, m10, Option.bind_eq_bind, Option.bind_some]
  rfl

/-! ## The workspace -/

omit H in
theorem work_member {f : Fld} {v : Val Nm}
    (hl : E.lookup .work = some (.struct .workspace (headVals fl.mats fl.rho fl.scal (dig pr s.rho_inv) ++ tv)))
    (hm : fl.mats = cf.mats)
    (h : ∀ mats, mats = fl.mats → (((headLayout mats).map Prod.fst).zip (headVals mats fl.rho fl.scal (dig pr s.rho_inv))).lookup f = some v) :
    member cf E .workspace f (.ptr .work 0) = some v := by
  refine member_of hl ?_
  have h1 := h fl.mats rfl
  rw [layout_work, ← hm, List.map_append, List.zip_append (by cases fl.mats <;> rfl), List.lookup_append, h1]
  rfl

omit H in
theorem work_member_tail {f : Fld} {v : Val Nm}
    (hl : E.lookup .work = some (.struct .workspace (headVals fl.mats fl.rho fl.scal (dig pr s.rho_inv) ++ tv)))
    (hm : fl.mats = cf.mats)
    (h0 : ∀ mats, mats = fl.mats → (((headLayout mats).map Prod.fst).zip (headVals mats fl.rho fl.scal (dig pr s.rho_inv))).lookup f = none)
    (h : (((tailLayout cf).map Prod.fst).zip tv).lookup f = some v) :
    member cf E .workspace f (.ptr .work 0) = some v := by
  refine member_of hl ?_
  have h1 := h0 fl.mats rfl
  rw [layout_work, ← hm, List.map_append, List.zip_append (by cases fl.mats <;> rfl), List.lookup_append, h1, h]
  rfl

/-- What is read from the compiled file. -/
def rSrc (pr : K → Lit) (mats : Bool) (s : Src K) (ru : ℤ) (lk : K) : Src K where
  settings := rSettings pr s.settings
  rho_estimate := rnd pr s.rho_estimate
  n := s.n
  m := s.m
  P := rMat pr s.P
  A := rMat pr s.A
  q := s.q.map (rnd pr)
  l := s.l.map (rnd pr)
  u := s.u.map (rnd pr)
  lin := rLin pr s.lin
  upd := if mats then s.upd.map (rUpd pr) else none
  rho_vec := s.rho_vec.map (List.map (rnd pr))
  rho_inv_vec := s.rho_inv_vec.map (List.map (rnd pr))
  constr_type := if mats then s.constr_type else none
  x := s.x.map (rnd pr)
  y := s.y.map (rnd pr)
  z := s.z.map (rnd pr)
  scaling := s.scaling.map (rScal pr)
  rho_inv := rnd pr s.rho_inv
  rho_updated := ru
  last_rel_kkt := lk

omit H in
theorem stp {α β : Type} {x : Option α} {f : α → Option β} {a : α} {b : β} (h : x = some a) (h2 : f a = some b) : (x >>= f) = some b := by
  rw [h]; exact h2

omit H in
theorem orNull_opt {α : Type} {t : CTy} {f : Fld} {read : Val Nm → Option α} {v : Val Nm} {b : Bool} {nm : Nm} {o : Option α}
    (hm : member cf E t f v = some (opt b nm)) (h0 : b = false → o = none) (h1 : b = true → ∃ a, o = some a ∧ read (.ptr nm 0) = some a) :
    orNull cf E t f read v = some o := by
  rw [orNull, hm, Option.bind_some]
  cases b
  · simp [opt, h0 rfl]
  · obtain ⟨a, ha, hr⟩ := h1 rfl
    simp [opt, hr, ha]

theorem loadSrc_of (F : Fit pr s w c fl tv cf) (hrho : fl.rho = decide (s.settings.rho_is_vec ≠ 0))
    (hscal : fl.scal = decide (s.settings.scaling ≠ 0)) {ru lk : ℤ}
    (t1 : (((tailLayout cf).map Prod.fst).zip tv).lookup .rho_updated = some (.int ru))
    (t2 : (((tailLayout cf).map Prod.fst).zip tv).lookup .last_rel_kkt = some (.flt lk)) :
    loadSrc cf E (.ptr .solver 0) = some (rSrc pr cf.mats s ru (num lk)) := by
  have hz := F.sized
  have hm := F.mats
  have hs := H .solver (by decide) rfl
  have hd := H .data (by decide) rfl
  have hi := H .info (by decide) rfl
  have hw := H .work (by decide) rfl
  have M : ∀ {f : Fld} {v : Val Nm}, (∀ mats, mats = fl.mats → (((headLayout mats).map Prod.fst).zip
      (headVals mats fl.rho fl.scal (dig pr s.rho_inv))).lookup f = some v) → member cf E .workspace f (.ptr .work 0) = some v :=
    fun h' => work_member hw hm h'
  have a1 : member cf E .solver .settings (.ptr .solver 0) = some (.ptr .settings 0) := member_of hs rfl
  have a2 : member cf E .solver .info (.ptr .solver 0) = some (.ptr .info 0) := member_of hs rfl
  have a3 : member cf E .solver .work (.ptr .solver 0) = some (.ptr .work 0) := member_of hs rfl
  have a4 := M (f := .data) (v := .ptr .data 0) (by rintro ⟨⟩ - <;> rfl)
  have a5 := M (f := .linsys_solver) (v := .ptr .linsys 0) (by rintro ⟨⟩ - <;> rfl)
  have b1 : member cf E .data .P (.ptr .data 0) = some (.ptr .data_P 0) := member_of hd rfl
  have b2 : member cf E .data .A (.ptr .data 0) = some (.ptr .data_A 0) := member_of hd rfl
  have b3 := loadMat_of (cf := cf) hz.P (H .data_P (by decide) rfl) (H _ (by decide) rfl) (H _ (by decide) rfl) (H _ (by decide) rfl)
    (H _ (by decide) rfl)
  have b4 := loadMat_of (cf := cf) hz.A (H .data_A (by decide) rfl) (H _ (by decide) rfl) (H _ (by decide) rfl) (H _ (by decide) rfl)
    (H _ (by decide) rfl)
  have b5 : size cf E .data .n (.ptr .data 0) = some s.n := size_of (member_of hd rfl)
  have b6 : size cf E .data .m (.ptr .data 0) = some s.m := size_of (member_of hd rfl)
  have b7 := vecf_of (member_of hd rfl : member cf E .data .q (.ptr .data 0) = some (.ptr .data_q 0)) (H .data_q (by decide) rfl)
    (H (.val .data_q) (by decide) rfl)
  have b8 := vecf_of (member_of hd rfl : member cf E .data .l (.ptr .data 0) = some (.ptr .data_l 0)) (H .data_l (by decide) rfl)
    (H (.val .data_l) (by decide) rfl)
  have b9 := vecf_of (member_of hd rfl : member cf E .data .u (.ptr .data 0) = some (.ptr .data_u 0)) (H .data_u (by decide) rfl)
    (H (.val .data_u) (by decide) rfl)
  have c1 := loadSettings_of (cf := cf) (H .settings (by decide) rfl)
  have c2 : flt cf E .info .rho_estimate (.ptr .info 0) = some (rnd pr s.rho_estimate) := flt_of (member_of hi rfl)
  have c3 := loadLin_of H hm hz F.rinv
  obtain ⟨w', hw', hk, hp, ha, g3, g4, g5, g6⟩ := hz.upd
  obtain rfl : w' = w := by rw [F.upd] at hw'; exact (Option.some.inj hw').symm
  have n1 : (rMat pr s.P).csc.nnz (rMat pr s.P).csc.n = some w'.PtoKKT.length := by rw [← hp, ← hz.P_n]; rfl
  have n2 : (rMat pr s.A).csc.nnz (rMat pr s.A).csc.n = some w'.AtoKKT.length := by rw [← ha, ← hz.A_n]; rfl
  have c4 : ifExists cf.mats ((loadUpd cf E w'.PtoKKT.length w'.AtoKKT.length (.ptr .linsys 0)).map some) =
      some (if cf.mats = true then s.upd.map (rUpd pr) else none) := by
    unfold ifExists; split
    · rename_i h1
      rw [loadUpd_of H hm (hm.trans h1) hz hk g3 g4 g5 g6, hw']; rfl
    · rfl
  have d1 : orNull cf E .workspace .rho_vec (loadVecf cf E) (.ptr .work 0) = some (s.rho_vec.map (List.map (rnd pr))) := by
    refine orNull_opt (M (v := opt fl.rho .work_rho_vec) (by rintro ⟨⟩ - <;> rfl)) (fun h => ?_) fun h => ?_
    · rw [(hz.rho_vec.1 (by simpa [hrho] using h)).1]; rfl
    · have := loadVecf_of (cf := cf) (H .work_rho_vec (by decide) h) (H (.val .work_rho_vec) (by decide) h)
      obtain ⟨v, hv⟩ := Option.isSome_iff_exists.1 (hz.rho_vec.2 (by simpa [hrho] using h)).1
      rw [hv] at this ⊢
      exact ⟨_, rfl, this⟩
  have d2 : orNull cf E .workspace .rho_inv_vec (loadVecf cf E) (.ptr .work 0) = some (s.rho_inv_vec.map (List.map (rnd pr))) := by
    refine orNull_opt (M (v := opt fl.rho .work_rho_inv_vec) (by rintro ⟨⟩ - <;> rfl)) (fun h => ?_) fun h => ?_
    · rw [(hz.rho_vec.1 (by simpa [hrho] using h)).2.1]; rfl
    · have := loadVecf_of (cf := cf) (H .work_rho_inv_vec (by decide) h) (H (.val .work_rho_inv_vec) (by decide) h)
      obtain ⟨v, hv⟩ := Option.isSome_iff_exists.1 (hz.rho_vec.2 (by simpa [hrho] using h)).2.1
      rw [hv] at this ⊢
      exact ⟨_, rfl, this⟩
  have d3 : ifExists cf.mats (orNull cf E .workspace .constr_type (loadVeci cf E) (.ptr .work 0)) =
      some (if cf.mats = true then s.constr_type else none) := by
    unfold ifExists; split
    · rename_i h1
      have ht := hm.trans h1
      refine orNull_opt (M (v := opt fl.rho .work_constr_type) (by rw [ht]; rintro _ rfl; rfl)) (fun h => ?_) fun h => ?_
      · exact (hz.rho_vec.1 (by simpa [hrho] using h)).2.2
      · have := loadVeci_of (cf := cf) (H .work_constr_type (by decide) (by simp [present, h, ht]))
          (H (.val .work_constr_type) (by decide) (by simp [present, h, ht]))
        obtain ⟨v, hv⟩ := Option.isSome_iff_exists.1 (hz.rho_vec.2 (by simpa [hrho] using h)).2.2
        rw [hv] at this ⊢
        exact ⟨_, rfl, this⟩
    · rfl
  have e1 := vecf_of (M (f := .x) (v := .ptr .work_x 0) (by rintro ⟨⟩ - <;> rfl)) (H .work_x (by decide) rfl) (H (.val .work_x) (by decide) rfl)
  have e2 := vecf_of (M (f := .y) (v := .ptr .work_y 0) (by rintro ⟨⟩ - <;> rfl)) (H .work_y (by decide) rfl) (H (.val .work_y) (by decide) rfl)
  have e3 := vecf_of (M (f := .z) (v := .ptr .work_z 0) (by rintro ⟨⟩ - <;> rfl)) (H .work_z (by decide) rfl) (H (.val .work_z) (by decide) rfl)
  have e4 : orNull cf E .workspace .scaling (loadScaling cf E) (.ptr .work 0) = some (s.scaling.map (rScal pr)) := by
    refine orNull_opt (M (v := opt fl.scal .scaling) (by rintro ⟨⟩ - <;> rfl)) (fun h => ?_) fun h => ?_
    · rw [hz.scaling.1 (by simpa [hscal] using h)]; rfl
    · rw [F.scal h]; exact ⟨_, rfl, loadScaling_of H h⟩
  have f1 : flt cf E .workspace .rho_inv (.ptr .work 0) = some (rnd pr s.rho_inv) := flt_of (M (by rintro ⟨⟩ - <;> rfl))
  have f2 : int cf E .workspace .rho_updated (.ptr .work 0) = some ru :=
    int_of (work_member_tail hw hm (by rintro ⟨⟩ - <;> rfl) t1)
  have f3 : flt cf E .workspace .last_rel_kkt (.ptr .work 0) = some (num lk : K) :=
    flt_of (work_member_tail hw hm (by rintro ⟨⟩ - <;> rfl) t2)
  refine stp a1 (stp a2 (stp a3 (stp a4 (stp a5 (stp b1 (stp b3 (stp b2 (stp b4 (stp n1 (stp n2 (stp c1 (stp c2 (stp b5 (stp b6 (stp b7
    (stp b8 (stp b9 (stp c3 (stp c4 (stp d1 (stp d2 (stp d3 (stp e1 (stp e2 (stp e3 (stp e4 (stp f1 (stp f2 (stp f3 ?_)))))))))))))))))))))))))))))
  rfl

end Osqp.Gen
