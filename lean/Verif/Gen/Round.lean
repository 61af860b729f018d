import Verif.Gen.Load

/-!
# What is read is what was written; when the file is accepted
-/

set_option linter.unusedSectionVars false
namespace Osqp.Gen
variable {K : Type} [Field K] [LinearOrder K]
variable {pr : K → Lit} {s : Src K} {w : Upd K} {c : Scal K} {fl : Fl} {tv : List (Val Nm)} {cf : Macros} {E : Env Nm}

/-! ## Room -/

theorem roomAt_v {work v : Val Nm} {f : Fld} {nm : Nm} {xs : List K} {len : ℕ} (hm : member cf E .workspace f work = some (.ptr nm 0))
    (hv : E.lookup nm = some (vObj nm xs.length)) (h : E.lookup (.val nm) = some (fObj pr xs)) (hl : xs.length = len) :
    RoomAt cf E work f len ⟨.val nm, 0⟩ := by
  subst hl
  refine ⟨_, _, hm, size_of (member_of hv rfl), member_of hv rfl, ?_⟩
  have h1 := readF_of h rfl
  by_cases h0 : xs.length = 0
  · exact .inl ⟨h0, by simp [ptr0, h0]⟩
  · refine .inr ⟨by simp [ptr0, h0], by rw [h1]; rfl⟩

theorem readF_zero {nm : Nm} {len k off : ℕ} (h : E.lookup nm = some (.arrF (List.replicate k 0))) (hk : off + len ≤ k) :
    (readF E len (.ptr nm off)).isSome := by
  simp [readF, h, hk]

theorem roomAt_b {work : Val Nm} {f : Fld} {nm : Nm} {b : Bool} {len : ℕ} (hm : member cf E .workspace f work = some (.ptr nm 0))
    (hv : E.lookup nm = some (bObj b nm len)) (h1 : b = true → E.lookup (.val nm) = some (.arrF (List.replicate len 0)))
    (h0 : b = false → len = 0) : RoomAt cf E work f len ⟨.val nm, 0⟩ := by
  refine ⟨_, _, hm, size_of (member_of hv rfl), member_of hv rfl, ?_⟩
  cases b
  · exact .inl ⟨h0 rfl, rfl⟩
  · exact .inr ⟨rfl, readF_zero (h1 rfl) (by omega)⟩

/-- The arrays of the workspace vectors. -/
def workArr : Fld → Nm
  | .x => .val .work_x | .y => .val .work_y | .z => .val .work_z | .xz_tilde => .val .work_xz_tilde | .x_prev => .val .work_x_prev
  | .z_prev => .val .work_z_prev | .Ax => .val .work_Ax | .Px => .val .work_Px | .Aty => .val .work_Aty | .delta_y => .val .work_delta_y
  | .Atdelta_y => .val .work_Atdelta_y | .delta_x => .val .work_delta_x | .Pdelta_x => .val .work_Pdelta_x
  | .Adelta_x => .val .work_Adelta_x | .D_temp => .val .work_D_temp | .D_temp_A => .val .work_D_temp_A | .E_temp => .val .work_E_temp
  | _ => .solver

def workFlds : List Fld :=
  [.x, .y, .z, .xz_tilde, .x_prev, .z_prev, .Ax, .Px, .Aty, .delta_y, .Atdelta_y, .delta_x, .Pdelta_x, .Adelta_x, .D_temp, .D_temp_A, .E_temp]

theorem workArr_inj : ∀ a ∈ workFlds, ∀ b ∈ workFlds, workArr a = workArr b → a = b := by decide

theorem vectors_flds {temps : Bool} {n m : ℕ} {f : Fld × ℕ} (h : f ∈ vectors temps n m) : f.1 ∈ workFlds := by
  have : f.1 ∈ (vectors temps n m).map Prod.fst := List.mem_map_of_mem h
  cases temps
  · have e : (vectors false n m).map Prod.fst =
      [.x, .y, .z, .xz_tilde, .x_prev, .z_prev, .Ax, .Px, .Aty, .delta_y, .Atdelta_y, .delta_x, .Pdelta_x, .Adelta_x] := rfl
    rw [e] at this
    revert this
    generalize f.1 = a
    cases a <;> decide
  · exact this

def solArr : Fld → Nm
  | .x => .sol_x | .y => .sol_y | .prim_inf_cert => .sol_prim_inf_cert | .dual_inf_cert => .sol_dual_inf_cert | _ => .solver

variable (H : Has pr s w c fl tv E)
include H

theorem results_of (F : Fit pr s w c fl tv cf) : Results cf E s.n s.m (.ptr .sol 0) := by
  have hm0 : fl.mpos = false → s.m = 0 := by rw [F.mpos]; intro h; simp only [decide_eq_false_iff_not] at h; omega
  have h := H .sol (by decide) rfl
  refine ⟨solArr, by decide, ?_⟩
  simp only [List.forall_mem_cons, List.not_mem_nil, false_imp_iff, implies_true, and_true]
  refine ⟨⟨_, member_of h rfl, .inr ⟨rfl, ?_⟩⟩, ⟨_, member_of h rfl, ?_⟩, ⟨_, member_of h rfl, ?_⟩, ⟨_, member_of h rfl, .inr ⟨rfl, ?_⟩⟩⟩
  · exact readF_zero (H .sol_x (by decide) rfl) (by omega)
  · have hy : E.lookup .sol_y = some (zObj fl.mpos s.m) := H .sol_y (by decide) rfl
    cases hp : fl.mpos
    · exact .inl ⟨hm0 hp, rfl⟩
    · refine .inr ⟨rfl, readF_zero (k := s.m) ?_ (by omega)⟩
      rw [hy, hp]; rfl
  · have hy : E.lookup .sol_prim_inf_cert = some (zObj fl.mpos s.m) := H .sol_prim_inf_cert (by decide) rfl
    cases hp : fl.mpos
    · exact .inl ⟨hm0 hp, rfl⟩
    · refine .inr ⟨rfl, readF_zero (k := s.m) ?_ (by omega)⟩
      rw [hy, hp]; rfl
  · exact readF_zero (H .sol_dual_inf_cert (by decide) rfl) (by omega)

theorem rooms_of (F : Fit pr s w c fl tv cf) : Rooms cf E (cf.mats && fl.scal) s.n s.m (.ptr .work 0) := by
  have hm := F.mats
  have hm0 : fl.mpos = false → s.m = 0 := by rw [F.mpos]; intro h; simp only [decide_eq_false_iff_not] at h; omega
  have hw := H .work (by decide) rfl
  have M : ∀ {f : Fld} {v : Val Nm}, (∀ mats, mats = fl.mats → (((headLayout mats).map Prod.fst).zip
      (headVals mats fl.rho fl.scal (dig pr s.rho_inv))).lookup f = some v) → member cf E .workspace f (.ptr .work 0) = some v :=
    fun h' => work_member hw hm h'
  refine ⟨workArr, fun f hf g hg => workArr_inj _ (vectors_flds hf) _ (vectors_flds hg), ?_, ?_, ?_⟩
  · rw [vectors]
    simp only [List.forall_mem_append, List.forall_mem_cons, List.not_mem_nil, false_imp_iff, implies_true, and_true]
    refine ⟨⟨?_, ?_, ?_, ?_, ?_, ?_, ?_, ?_, ?_, ?_, ?_, ?_, ?_, ?_⟩, ?_⟩
    · exact roomAt_v (v := .null) (M (v := .ptr .work_x 0) (by rintro ⟨⟩ - <;> rfl)) (H _ (by decide) rfl) (H (.val .work_x) (by decide) rfl) F.sized.x
    · exact roomAt_v (v := .null) (M (v := .ptr .work_y 0) (by rintro ⟨⟩ - <;> rfl)) (H _ (by decide) rfl) (H (.val .work_y) (by decide) rfl) F.sized.y
    · exact roomAt_v (v := .null) (M (v := .ptr .work_z 0) (by rintro ⟨⟩ - <;> rfl)) (H _ (by decide) rfl) (H (.val .work_z) (by decide) rfl) F.sized.z
    · exact roomAt_b (b := true) (M (v := .ptr .work_xz_tilde 0) (by rintro ⟨⟩ - <;> rfl)) (H .work_xz_tilde (by decide) rfl)
        (fun _ => H (.val .work_xz_tilde) (by decide) rfl) (by simp)
    · exact roomAt_b (b := true) (M (v := .ptr .work_x_prev 0) (by rintro ⟨⟩ - <;> rfl)) (H .work_x_prev (by decide) rfl)
        (fun _ => H (.val .work_x_prev) (by decide) rfl) (by simp)
    · exact roomAt_b (M (v := .ptr .work_z_prev 0) (by rintro ⟨⟩ - <;> rfl)) (H .work_z_prev (by decide) rfl)
        (fun h => H (.val .work_z_prev) (by decide) h) hm0
    · exact roomAt_b (M (v := .ptr .work_Ax 0) (by rintro ⟨⟩ - <;> rfl)) (H .work_Ax (by decide) rfl)
        (fun h => H (.val .work_Ax) (by decide) h) hm0
    · exact roomAt_b (b := true) (M (v := .ptr .work_Px 0) (by rintro ⟨⟩ - <;> rfl)) (H .work_Px (by decide) rfl)
        (fun _ => H (.val .work_Px) (by decide) rfl) (by simp)
    · exact roomAt_b (b := true) (M (v := .ptr .work_Aty 0) (by rintro ⟨⟩ - <;> rfl)) (H .work_Aty (by decide) rfl)
        (fun _ => H (.val .work_Aty) (by decide) rfl) (by simp)
    · exact roomAt_b (M (v := .ptr .work_delta_y 0) (by rintro ⟨⟩ - <;> rfl)) (H .work_delta_y (by decide) rfl)
        (fun h => H (.val .work_delta_y) (by decide) h) hm0
    · exact roomAt_b (b := true) (M (v := .ptr .work_Atdelta_y 0) (by rintro ⟨⟩ - <;> rfl)) (H .work_Atdelta_y (by decide) rfl)
        (fun _ => H (.val .work_Atdelta_y) (by decide) rfl) (by simp)
    · exact roomAt_b (b := true) (M (v := .ptr .work_delta_x 0) (by rintro ⟨⟩ - <;> rfl)) (H .work_delta_x (by decide) rfl)
        (fun _ => H (.val .work_delta_x) (by decide) rfl) (by simp)
    · exact roomAt_b (b := true) (M (v := .ptr .work_Pdelta_x 0) (by rintro ⟨⟩ - <;> rfl)) (H .work_Pdelta_x (by decide) rfl)
        (fun _ => H (.val .work_Pdelta_x) (by decide) rfl) (by simp)
    · exact roomAt_b (M (v := .ptr .work_Adelta_x 0) (by rintro ⟨⟩ - <;> rfl)) (H .work_Adelta_x (by decide) rfl)
        (fun h => H (.val .work_Adelta_x) (by decide) h) hm0
    · cases ht : (cf.mats && fl.scal)
      · simp
      · simp only [Bool.and_eq_true] at ht
        have h1 : fl.mats = true := hm.trans ht.1
        simp only [if_true, List.forall_mem_cons, List.not_mem_nil, false_imp_iff, implies_true, and_true]
        refine ⟨?_, ?_, ?_⟩
        · exact roomAt_b (b := true) (M (v := .ptr .work_D_temp 0) (by rw [h1, ht.2]; rintro _ rfl; rfl)) (H .work_D_temp (by decide) h1)
            (fun _ => H (.val .work_D_temp) (by decide) h1) (by simp)
        · exact roomAt_b (b := true) (M (v := .ptr .work_D_temp_A 0) (by rw [h1, ht.2]; rintro _ rfl; rfl)) (H .work_D_temp_A (by decide) h1)
            (fun _ => H (.val .work_D_temp_A) (by decide) h1) (by simp)
        · exact roomAt_b (M (v := .ptr .work_E_temp 0) (by rw [h1, ht.2]; rintro _ rfl; rfl)) (H .work_E_temp (by decide) h1)
            (fun h => H (.val .work_E_temp) (by decide) (by simp [present, h, h1])) hm0
  · have hv := H .work_xtilde_view (by decide) rfl
    exact ⟨_, _, M (v := .ptr .work_xtilde_view 0) (by rintro ⟨⟩ - <;> rfl), size_of (member_of hv rfl), member_of hv rfl,
      .inr ⟨rfl, readF_zero (H (.val .work_xz_tilde) (by decide) rfl) (by omega)⟩⟩
  · have hv := H .work_ztilde_view (by decide) rfl
    exact ⟨_, _, M (v := .ptr .work_ztilde_view 0) (by rintro ⟨⟩ - <;> rfl), size_of (member_of hv rfl), member_of hv rfl,
      .inr ⟨rfl, readF_zero (H (.val .work_xz_tilde) (by decide) rfl) (by omega)⟩⟩

theorem linReady_of (F : Fit pr s w c fl tv cf) : LinReady cf E cf.mats (s.n + s.m) (.ptr .linsys 0) := by
  have hm := F.mats
  have h := H .linsys (by decide) rfl
  have M : ∀ {f : Fld} {v : Val Nm}, (∀ mats rinv, mats = fl.mats → rinv = fl.rinv → (((layout { cf with mats := mats } .qdldl).map Prod.fst).zip
      (linVals pr s.lin w mats rinv)).lookup f = some v) → member cf E .qdldl f (.ptr .linsys 0) = some v :=
    fun h' => lin_member h hm h'
  have hN : s.lin.n + s.lin.m = s.n + s.m := by rw [F.sized.lin_n, F.sized.lin_m]
  refine ⟨M (by rintro ⟨⟩ b - - <;> rfl), M (by rintro ⟨⟩ b - - <;> rfl), M (by rintro ⟨⟩ b - - <;> rfl),
    M (by rintro ⟨⟩ b - - <;> rfl), ?_, fun ht => ?_⟩
  · simp only [List.forall_mem_cons, List.not_mem_nil, false_imp_iff, implies_true, and_true]
    constructor
    · rw [M (v := .ptr .linsys_bp 0) (by rintro ⟨⟩ b - - <;> rfl), Option.bind_some]
      exact readF_zero (H .linsys_bp (by decide) rfl) (by omega)
    · rw [M (v := .ptr .linsys_sol 0) (by rintro ⟨⟩ b - - <;> rfl), Option.bind_some]
      exact readF_zero (H .linsys_sol (by decide) rfl) (by omega)
  · have h1 : fl.mats = true := hm.trans ht
    have M' : ∀ {f : Fld} {v : Val Nm}, (∀ rinv, rinv = fl.rinv → (((layout { cf with mats := true } .qdldl).map Prod.fst).zip
        (linVals pr s.lin w true rinv)).lookup f = some v) → member cf E .qdldl f (.ptr .linsys 0) = some v :=
      fun h' => lin_member h hm fun b r hb hr => by subst hb; rw [h1]; exact h' r hr
    refine ⟨M' fun _ _ => rfl, M' fun _ _ => rfl, ?_, ?_, .linsys_bwork, M' fun _ _ => rfl, ?_⟩
    · rw [M' (v := .ptr .linsys_iwork 0) fun _ _ => rfl, Option.bind_some]
      have h3 : E.lookup .linsys_iwork = some (.arrI (List.replicate (3 * (s.lin.n + s.lin.m)) 0)) := H .linsys_iwork (by decide) h1
      simp [readI, h3, hN]
    · rw [M' (v := .ptr .linsys_fwork 0) fun _ _ => rfl, Option.bind_some]
      exact readF_zero (H .linsys_fwork (by decide) h1) (by omega)
    · have h3 : E.lookup .linsys_bwork = some (.arrB (s.lin.n + s.lin.m)) := H .linsys_bwork (by decide) h1
      rw [h3, hN]

theorem fresh_of (F : Fit pr s w c fl tv cf) : Fresh cf E cf.mats fl.scal s.n s.m (.ptr .solver 0) := by
  have hs := H .solver (by decide) rfl
  have hi := H .info (by decide) rfl
  have hw := H .work (by decide) rfl
  exact ⟨_, _, _, _, member_of hs rfl, member_of hs rfl, member_of hs rfl, work_member hw F.mats (by rintro ⟨⟩ - <;> rfl),
    member_of hi rfl, int_of (member_of hi rfl), int_of (member_of hi rfl), int_of (member_of hi rfl), results_of H F, rooms_of H F,
    linReady_of H F⟩

omit H

/-! ## Rounding -/

variable (hr : Rounds pr)
include hr

theorem near_of {x : K} (h : Pr pr x) : Near x (rnd pr x) := hr x _ h.eq

theorem nearL_of {xs : List K} (h : ∀ x ∈ xs, Pr pr x) : NearL xs (xs.map (rnd pr)) := by
  induction xs with
  | nil => exact .nil
  | cons x xs ih => exact .cons (near_of hr (h x (by simp))) (ih fun y hy => h y (by simp [hy]))

theorem sameSparse_of {M : Sparse K} (h : ∀ x ∈ M.x, Pr pr x) : SameSparse M (rSparse pr M) :=
  ⟨rfl, rfl, rfl, rfl, nearL_of hr h, rfl, rfl⟩

theorem relL_of {o : Option (List K)} (h : ∀ x ∈ o.getD [], Pr pr x) : Option.Rel NearL o (o.map (List.map (rnd pr))) := by
  cases o with
  | none => exact .none
  | some xs => exact .some (nearL_of hr h)

theorem sameBody_of (F : Fit pr s w c fl tv cf) (hscal : fl.scal = decide (s.settings.scaling ≠ 0)) (ru : ℤ) (lk : K) :
    SameBody cf.mats s (rSrc pr cf.mats s ru lk) := by
  obtain ⟨g1, g2, g3, g4, g5, g6, g7, g8, g9, g10, g11, g12, g13, g14, -, g16, g17⟩ := F.scalars
  obtain ⟨v1, v2, v3, v4, v5, v6, v7, v8, v9, v10, v11, v12, v13, v14⟩ := F.vecs
  constructor
  · constructor <;> first | rfl | exact near_of hr (by assumption)
  · exact near_of hr g13
  · rfl
  · rfl
  · exact ⟨sameSparse_of hr v1, rfl⟩
  · exact ⟨sameSparse_of hr v2, rfl⟩
  · exact nearL_of hr v3
  · exact nearL_of hr v4
  · exact nearL_of hr v5
  · refine ⟨rfl, rfl, sameSparse_of hr v6, nearL_of hr v7, rfl, ?_, near_of hr g16, near_of hr g17, rfl, rfl⟩
    by_cases h0 : s.lin.m = 0
    · exact .inl ⟨h0, by simp [rSrc, rLin, h0]⟩
    · refine .inr ?_
      simp only [rSrc, rLin, if_neg h0]
      exact relL_of hr v8
  · intro hm
    obtain ⟨hK, hD⟩ := v9 (F.mats.trans hm)
    simp only [rSrc, hm, if_true, F.upd]
    exact .some ⟨sameSparse_of hr hK, rfl, rfl, rfl, nearL_of hr hD, rfl, rfl⟩
  · exact relL_of hr v10
  · exact relL_of hr v11
  · intro hm; simp only [rSrc, hm, if_true]
  · exact nearL_of hr v12
  · exact nearL_of hr v13
  · exact nearL_of hr v14
  · simp only [rSrc]
    by_cases h0 : s.settings.scaling = 0
    · rw [F.sized.scaling.1 h0]; exact .none
    · have hs : fl.scal = true := by simp [hscal, h0]
      obtain ⟨c1, c2, c3, c4, c5, c6⟩ := F.scals hs
      rw [F.scal hs]
      exact .some ⟨near_of hr c1, nearL_of hr c3, nearL_of hr c4, near_of hr c2, nearL_of hr c5, nearL_of hr c6⟩
  · exact near_of hr g14

end Osqp.Gen
