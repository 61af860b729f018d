import Verif.Vm.SolveSpec
import Verif.Vm.AdmmLemmas
import Verif.Lemmas.Sync

/-!
# `osqp_solve` on memory computes `osqp_solve` of the solver layer: one function at a time
-/

set_option linter.unusedSectionVars false
namespace Osqp.Vm
open Csc
variable {L K : Type*} [Field K] [LinearOrder K] {d : Dims}

/-- Invariant of a call: the memory shows `s`, with `c` in the work vectors, and differs from `M0` only where it may. -/
structure Sh (F : Fix L K) (R : LinSys d K → L → Prop) (M0 : Mach L K) (s : Solver d K) (c : Scr d K) (M : Mach L K) : Prop where
  lay : Layout d.n d.m M.W F.xz
  size : F.xz.len ≤ (M.σ F.xz.blk).size
  mem : Mem M.σ M.W (vals s c)
  types : s.settings.rho_is_vec ≠ 0 → d.m ≤ M.ct.size ∧ ∀ i : Fin d.m, M.ct.cell i = some (s.work.constr_type i)
  lin : R s.work.linsys M.lin
  own : s.work.linsys.rho_inv_vec.isSome → s.settings.rho_is_vec ≠ 0
  g : M.g = scal s
  P : Stores F.P d.P s.work.data.P
  A : Stores F.A d.A s.work.data.A
  sol : F.hasSol = s.solution.isSome
  room : ∀ k : Name, k.pol = true → Room M.σ (M.W k) (k.dim d.n d.m)
  ptrs : M.W = M0.W ∨ M.W = fun k => M0.W (mate k)
  ct : M.ct = M0.ct
  kept : ∀ b, b ≠ F.xz.blk → (∀ k : Name, k.mut = true ∨ k.pol = true → b ≠ (M0.W k).blk) → M.σ b = M0.σ b

variable {F : Fix L K} {R : LinSys d K → L → Prop} {M0 M : Mach L K} {s s' : Solver d K} {c c' : Scr d K}

theorem Shows.sh (h : Shows F R s M) : ∃ c, Sh F R M s c M := by
  obtain ⟨hs, c, hm⟩ := h.mem
  exact ⟨c, h.lay, hs, hm, h.types, h.lin, h.own, h.g, h.P, h.A, h.sol, h.room, .inl rfl, rfl, fun _ _ _ => rfl⟩

theorem Sh.shows (h : Sh F R M0 s c M) : Shows F R s M ∧ Kept F.xz M0 M := by
  refine ⟨⟨h.lay, ⟨h.size, c, h.mem⟩, h.types, h.lin, h.own, h.g, h.P, h.A, h.sol, h.room⟩, ⟨?_, h.ct, h.kept⟩⟩
  refine h.ptrs.imp id fun e => ⟨by rw [e]; rfl, by rw [e]; rfl, by rw [e]; rfl, by rw [e]; rfl, fun k h1 h2 h3 h4 => ?_⟩
  rw [e]
  cases k <;> first | rfl | exact absurd rfl h1 | exact absurd rfl h2 | exact absurd rfl h3 | exact absurd rfl h4

theorem mut_mate (k : Name) : (mate k).mut = k.mut := by cases k <;> rfl
theorem pol_mate (k : Name) : (mate k).pol = k.pol := by cases k <;> rfl

/-- The arrays of the polishing are none of those a solve writes to. -/
theorem pol_apart {n m : ℕ} {W : Ptrs} {xz : Ref} (lay : Layout n m W xz) {k : Name} (hk : k.pol = true) :
    (W k).blk ≠ xz.blk ∧ ∀ j : Name, j.mut = true → (W k).blk ≠ (W j).blk := by
  have h1 : ∀ j : Name, j.pol = false → (W k).blk ≠ (W j).blk := fun j hj =>
    lay.own k j (fun e => by rw [e] at hk; simp [hk] at hj) (fun e => by rw [e.1] at hk; cases hk) fun e => by rw [e.1] at hk; cases hk
  refine ⟨?_, fun j hj => h1 j (by cases j <;> first | rfl | cases hj)⟩
  obtain ⟨x1, x2, x3⟩ := lay.len_xt
  rw [← x3]; exact h1 .xt rfl

/-- Everything but vectors and scalars is the same. -/
structure Rest (s s' : Solver d K) : Prop where
  ct : s'.work.constr_type = s.work.constr_type
  lin : s'.work.linsys = s.work.linsys
  P : s'.work.data.P = s.work.data.P
  A : s'.work.data.A = s.work.data.A
  sol : s'.solution.isSome = s.solution.isSome

/-- The general step. -/
theorem Sh.move (h : Sh F R M0 s c M) {σ' : Store K} {g' : Scal K} (hm : Mem σ' M.W (vals s' c')) (hz : F.xz.len ≤ (σ' F.xz.blk).size)
    (hk : ∀ b, b ≠ F.xz.blk → (∀ k : Name, k.mut = true → b ≠ (M.W k).blk) → σ' b = M.σ b) (hg : g' = scal s')
    (hr : Rest s s') (hv : s'.settings.rho_is_vec = s.settings.rho_is_vec) : Sh F R M0 s' c' { M with σ := σ', g := g' } := by
  refine ⟨h.lay, hz, hm, by rw [hv, hr.ct]; exact h.types, by rw [hr.lin]; exact h.lin, by rw [hr.lin, hv]; exact h.own, hg, by rw [hr.P]; exact h.P,
    by rw [hr.A]; exact h.A, by rw [hr.sol]; exact h.sol, fun k hk' => ⟨(h.room k hk').1, ?_⟩, h.ptrs, h.ct, fun b hb hb' => ?_⟩
  · obtain ⟨a1, a2⟩ := pol_apart h.lay hk'
    show _ ≤ (σ' _).size
    rw [hk _ a1 a2]; exact (h.room k hk').2
  show σ' b = _
  rw [hk b hb fun k hk' => ?_, h.kept b hb hb']
  rcases h.ptrs with e | e
  · rw [e]; exact hb' k (.inl hk')
  · rw [e]; exact hb' (mate k) (.inl (by rw [mut_mate]; exact hk'))

/-- The computation succeeds with a result such that `Q`. -/
def Ok {α : Type*} (r : Option α) (Q : α → Prop) : Prop := ∃ a, r = some a ∧ Q a

theorem Ok.bind {α β : Type*} {r : Option α} {P : α → Prop} {f : α → Option β} {Q : β → Prop} (h : Ok r P) (h' : ∀ a, P a → Ok (f a) Q) :
    Ok (r.bind f) Q := by
  obtain ⟨a, e, ha⟩ := h
  rw [e]; exact h' a ha

theorem Ok.val {α β : Type*} {r : Option α} {v : α} {f : α → Option β} {Q : β → Prop} (e : r = some v) (h' : Ok (f v) Q) :
    Ok (r.bind f) Q := by
  rw [e]; exact h'

theorem Ok.pure {α : Type*} {a : α} {Q : α → Prop} (h : Q a) : Ok (some a) Q := ⟨a, rfl, h⟩

theorem Ok.ite {α : Type*} {p : Prop} [Decidable p] {a b : Option α} {Q : α → Prop} (h : p → Ok a Q) (h' : ¬ p → Ok b Q) :
    Ok (if p then a else b) Q := by
  split_ifs with c
  · exact h c
  · exact h' c

theorem Ok.mono {α : Type*} {r : Option α} {P Q : α → Prop} (h : Ok r P) (h' : ∀ a, P a → Q a) : Ok r Q := by
  obtain ⟨a, e, ha⟩ := h
  exact ⟨a, e, h' a ha⟩

/-- A vector is assigned. -/
theorem Sh.put (h : Sh F R M0 s c M) {k : Name} (hk : k.mut = true) {f : Vec K (k.dim d.n d.m)} {op : Ptrs → Store K → Option (Store K)}
    (ho : ∃ σ', op M.W M.σ = some σ' ∧ Has σ' (M.W k) (k.dim d.n d.m) f ∧ OnlyAt (M.W k) M.σ σ')
    (hV : Function.update (vals s c) k (some f) = vals s' c') (hg : scal s' = scal s) (hr : Rest s s') :
    Ok (M.vec op) (Sh F R M0 s' c') := by
  obtain ⟨σ', e, h1, h2⟩ := ho
  refine ⟨{ M with σ := σ' }, by unfold Mach.vec; rw [e]; rfl, ?_⟩
  refine h.move (g' := M.g) (by rw [← hV]; exact h.mem.put h.lay h1 h2) (by rw [h2.1]; exact h.size) (fun b _ hb => h2.same (hb k hk))
    (by rw [hg]; exact h.g) hr (congrArg (fun t => t.st.rho_is_vec) hg)

/-- Scalars are assigned. -/
theorem Sh.upd (h : Sh F R M0 s c M) {f : Scal K → Scal K} (hg : f (scal s) = scal s') (hV : vals s c = vals s' c') (hr : Rest s s')
    (hv : s'.settings.rho_is_vec = s.settings.rho_is_vec) : Sh F R M0 s' c' (M.upd f) :=
  h.move (σ' := M.σ) (g' := f M.g) (by rw [← hV]; exact h.mem) h.size (fun _ _ _ => rfl) (by rw [h.g]; exact hg) hr hv

theorem Sh.rest : Rest s s := ⟨rfl, rfl, rfl, rfl, rfl⟩

/-! ## Products -/

theorem Has.arr {σ : Store K} {v : Ref} {n : ℕ} {f : Vec K n} (h : Has σ v n f) (h0 : v.off = 0) : Arr (σ v.blk) f :=
  ⟨by have := h.room; omega, fun k => by have := h.val k; rw [h0, Nat.zero_add] at this; exact this⟩

/-- A product is assigned. -/
theorem Sh.mul (h : Sh F R M0 s c M) {a k : Name} (hk : k.mut = true) (ha : a ≠ .zt) (hz : k ≠ .zt) (hx : k ≠ .xt) (hak : a ≠ k)
    {fa : Vec K (a.dim d.n d.m)} (hfa : vals s c a = some fa) {fk f : Vec K (k.dim d.n d.m)} (hfk : vals s c k = some fk)
    {op : Buf K → Buf K → Option (Buf K)}
    (ho : ∀ x y : Buf K, Arr x fa → k.dim d.n d.m ≤ y.size → ∃ y', op x y = some y' ∧ Arr y' f)
    (hV : Function.update (vals s c) k (some f) = vals s' c') (hg : scal s' = scal s) (hr : Rest s s') :
    Ok (M.vec (fun W => product op (W a) (W k))) (Sh F R M0 s' c') := by
  have h1 := h.mem a fa hfa
  have h2 := h.mem k fk hfk
  have oa := h.lay.start a ha
  have ok := h.lay.start k hz
  have hb : (M.W a).blk ≠ (M.W k).blk := h.lay.own a k hak (fun e => hz e.2) fun e => ha e.1
  obtain ⟨y', e, hy⟩ := ho _ _ (h1.arr oa) (by have := h2.room; omega : _ ≤ (M.σ (M.W k).blk).size)
  have hne : ∀ j, j ≠ k → (M.W k).blk ≠ (M.W j).blk := fun j hj =>
    h.lay.own k j (Ne.symm hj) (fun e => hx e.1) fun e => hz e.1
  refine ⟨{ M with σ := Function.update M.σ (M.W k).blk y' }, by unfold Mach.vec product; dsimp only; rw [if_pos ⟨oa, ok, hb⟩, e]; rfl, ?_⟩
  refine h.move (g' := M.g) (fun j g hj => ?_) ?_ (fun b _ hb => Function.update_of_ne (hb k hk) _ _)
    (by rw [hg]; exact h.g) hr (congrArg (fun t => t.st.rho_is_vec) hg)
  · rw [← hV] at hj
    by_cases ej : j = k
    · subst ej
      rw [Function.update_self] at hj
      rw [← Option.some.inj hj]
      refine ⟨h2.len, by rw [ok, Function.update_self]; have := hy.1; omega, fun i => ?_⟩
      rw [ok, Function.update_self, Nat.zero_add]; exact hy.2 i
    · rw [Function.update_of_ne ej] at hj
      have hj' := h.mem j g hj
      have := (hne j ej).symm
      exact ⟨hj'.len, by rw [Function.update_of_ne this]; exact hj'.room, fun i => by rw [Function.update_of_ne this]; exact hj'.val i⟩
  · obtain ⟨x1, x2, x3⟩ := h.lay.len_xt
    have : F.xz.blk ≠ (M.W k).blk := by rw [← x3]; exact (hne .xt (Ne.symm hx)).symm
    show _ ≤ (Function.update M.σ (M.W k).blk y' F.xz.blk).size
    rw [Function.update_of_ne this]; exact h.size

/-! ## Reading -/

theorem Sh.norm (h : Sh F R M0 s c M) {k : Name} {f : Vec K (k.dim d.n d.m)} (hk : vals s c k = some f) : normOf M k = some (vNormInf f) :=
  normInf_holds (h.mem k f hk)

theorem Sh.snorm (h : Sh F R M0 s c M) {a k : Name} (hd : a.dim d.n d.m = k.dim d.n d.m) {fa : Vec K (a.dim d.n d.m)} {f : Vec K (k.dim d.n d.m)}
    (ha : vals s c a = some fa) (hk : vals s c k = some f) : scaledNormOf M a k = some (vScaledNormInf (fun i => fa (Fin.cast hd.symm i)) f) := by
  have h1 := h.mem a fa ha
  refine scaledNormInf_holds ⟨by rw [← hd]; exact h1.len, by rw [← hd]; exact h1.room, fun i => ?_⟩ (h.mem k f hk)
  exact h1.val (Fin.cast hd.symm i)

/-! States with one vector replaced. -/

abbrev _root_.Osqp.Solver.zp (s : Solver d K) (v : Vec K d.m) : Solver d K := { s with work := { s.work with z_prev := v } }
abbrev _root_.Osqp.Solver.xp (s : Solver d K) (v : Vec K d.n) : Solver d K := { s with work := { s.work with x_prev := v } }
abbrev _root_.Osqp.Solver.Ax (s : Solver d K) (v : Vec K d.m) : Solver d K := { s with work := { s.work with Ax := v } }
abbrev _root_.Osqp.Solver.Px (s : Solver d K) (v : Vec K d.n) : Solver d K := { s with work := { s.work with Px := v } }
abbrev _root_.Osqp.Solver.Aty (s : Solver d K) (v : Vec K d.n) : Solver d K := { s with work := { s.work with Aty := v } }
abbrev _root_.Osqp.Solver.dx (s : Solver d K) (v : Vec K d.n) : Solver d K := { s with work := { s.work with delta_x := v } }
abbrev _root_.Osqp.Solver.dy (s : Solver d K) (v : Vec K d.m) : Solver d K := { s with work := { s.work with delta_y := v } }
abbrev _root_.Osqp.Solver.xx (s : Solver d K) (v : Vec K d.n) : Solver d K := { s with work := { s.work with x := v } }
abbrev _root_.Osqp.Solver.yy (s : Solver d K) (v : Vec K d.m) : Solver d K := { s with work := { s.work with y := v } }
abbrev _root_.Osqp.Solver.zz (s : Solver d K) (v : Vec K d.m) : Solver d K := { s with work := { s.work with z := v } }

variable [IsStrictOrderedRing K]

theorem dotPos_holds {σ : Store K} {a b : Ref} {n : ℕ} {fa fb : Vec K n} (ha : Has σ a n fa) (hb : Has σ b n fb) : dotSigned a b 1 σ = some (vDotPos fa fb) := by
  rw [dotSigned_holds ha hb, if_pos rfl]

theorem dotNeg_holds {σ : Store K} {a b : Ref} {n : ℕ} {fa fb : Vec K n} (ha : Has σ a n fa) (hb : Has σ b n fb) : dotSigned a b (-1) σ = some (vDotNeg fa fb) := by
  rw [dotSigned_holds ha hb, if_neg (by decide), if_pos rfl]

scoped macro "vv" : term => `(by funext k; cases k <;> rfl)
scoped macro "rr" : term => `(⟨rfl, rfl, rfl, rfl, rfl⟩)

/-! ## Objective, residuals, tolerances -/

theorem computeObj_fst (s : Solver d K) (x : Vec K d.n) (y : Vec K d.m) : (Osqp.computeObj s x y).1 =
    { s with work := { s.work with
      z_prev := vRoundToZero (vProjectPolar y s.work.data.l s.work.data.u (Const.infval K)) (Const.zeroDeadzone K)
      scaled_dual_gap := vDot s.work.Px x + vDot s.work.data.q x +
        (vDotPos s.work.data.u (vRoundToZero (vProjectPolar y s.work.data.l s.work.data.u (Const.infval K)) (Const.zeroDeadzone K)) +
          vDotNeg s.work.data.l (vRoundToZero (vProjectPolar y s.work.data.l s.work.data.u (Const.infval K)) (Const.zeroDeadzone K)))
      xtPx := vDot s.work.Px x
      qtx := vDot s.work.data.q x
      SC := vDotPos s.work.data.u (vRoundToZero (vProjectPolar y s.work.data.l s.work.data.u (Const.infval K)) (Const.zeroDeadzone K)) +
          vDotNeg s.work.data.l (vRoundToZero (vProjectPolar y s.work.data.l s.work.data.u (Const.infval K)) (Const.zeroDeadzone K)) } } := by
  unfold Osqp.computeObj
  by_cases hs : s.settings.scaling ≠ 0
  · simp only [if_pos hs]
  · simp only [if_neg hs]

theorem computeObj_ok (h : Sh F R M0 s c M) :
    Ok (computeObj M) fun r => Sh F R M0 (Osqp.computeObj s s.work.x s.work.y).1 c r.1 ∧ r.2 = (Osqp.computeObj s s.work.x s.work.y).2 := by
  refine .val (dotProd_holds (h.mem .Px _ rfl) (h.mem .x _ rfl)) (.val (dotProd_holds (h.mem .q _ rfl) (h.mem .x _ rfl)) ?_)
  refine .bind (h.put (k := .zPrev) rfl (s' := s.zp s.work.y) (c' := c)
    (copy_holds (h.mem .zPrev _ rfl).toRoom (h.mem .y _ rfl) (h.lay.use _ _)) vv rfl rr) fun M h => ?_
  refine .bind (h.put (k := .zPrev) rfl (s' := s.zp (vProjectPolar s.work.y s.work.data.l s.work.data.u (Const.infval K))) (c' := c)
    (projectPolar_holds (h.mem .zPrev _ rfl) (h.mem .l _ rfl) (h.lay.apart (by decide)) (h.mem .u _ rfl) (h.lay.apart (by decide)) _) vv rfl rr) fun M h => ?_
  refine .bind (h.put (k := .zPrev) rfl (c' := c)
    (s' := s.zp (vRoundToZero (vProjectPolar s.work.y s.work.data.l s.work.data.u (Const.infval K)) (Const.zeroDeadzone K)))
    (roundToZero_holds (h.mem .zPrev _ rfl) _) vv rfl rr) fun M h => ?_
  refine .val (dotPos_holds (h.mem .u _ rfl) (h.mem .zPrev _ rfl)) (.val (dotNeg_holds (h.mem .l _ rfl) (h.mem .zPrev _ rfl)) ?_)
  extract_lets sup obj dobj sgap M4
  have h2 : Sh F R M0 (Osqp.computeObj s s.work.x s.work.y).1 c M4 := h.upd (by rw [computeObj_fst]; rfl) (by rw [computeObj_fst]; funext k; cases k <;> rfl)
    (by rw [computeObj_fst]; exact rr) (by rw [computeObj_fst])
  clear_value M4
  rw [h2.g]
  rw [computeObj_fst] at h2 ⊢
  by_cases hs : s.settings.scaling ≠ 0
  · rw [if_pos hs]
    refine .val (if_pos hs) (.pure ⟨h2, ?_⟩)
    unfold Osqp.computeObj; simp only [if_pos hs]; rfl
  · rw [if_neg hs]
    refine .pure ⟨h2, ?_⟩
    unfold Osqp.computeObj; simp only [if_neg hs]; rfl

theorem gapTol_ok (h : Sh F R M0 s c M) (ea er : K) : gapTol M ea er = some (Osqp.gapTol s ea er) := by
  unfold gapTol Osqp.gapTol
  rw [h.g]
  by_cases hu : s.settings.unscaledTerm
  · simp only [if_pos hu, if_pos hu.1, Option.bind_some]
  · simp only [if_neg hu]

theorem computePrimRes_ok (h : Sh F R M0 s c M) :
    Ok (computePrimRes F M) fun r => Sh F R M0 (Osqp.computePrimRes s s.work.x s.work.z).1 c r.1 ∧ r.2 = (Osqp.computePrimRes s s.work.x s.work.z).2 := by
  refine .bind (h.mul (a := .x) (k := .Ax) rfl (by decide) (by decide) (by decide) (by decide) rfl rfl
    (s' := s.Ax (spMul d.A s.work.data.A s.work.x)) (c' := c) (fun x y hx hy => refine_axpy h.A hx hy) vv rfl rr) fun M h => ?_
  refine .bind (h.put (k := .zPrev) rfl (s' := (s.Ax (spMul d.A s.work.data.A s.work.x)).zp (vMinus (spMul d.A s.work.data.A s.work.x) s.work.z)) (c' := c)
    (minus_holds (h.mem .zPrev _ rfl).toRoom (h.mem .Ax _ rfl) (h.lay.fits _ _) (h.mem .z _ rfl) (h.lay.use _ _)) vv rfl rr) fun M h => ?_
  refine .val (h.norm (k := .zPrev) rfl) ?_
  extract_lets M4
  have h2 : Sh F R M0 (Osqp.computePrimRes s s.work.x s.work.z).1 c M4 := h.upd rfl vv rr rfl
  clear_value M4
  rw [h2.g]
  unfold Osqp.computePrimRes
  by_cases hu : s.settings.unscaledTerm
  · simp only [if_pos hu]
    exact .val (h2.snorm (a := .Einv) (k := .zPrev) rfl (if_pos hu.1) rfl) (.pure ⟨h2, rfl⟩)
  · simp only [if_neg hu]
    exact .pure ⟨h2, rfl⟩

theorem primTol_ok (h : Sh F R M0 s c M) (ea er : K) : primTol M ea er = some (Osqp.primTol s ea er) := by
  unfold primTol Osqp.primTol
  by_cases hu : s.settings.unscaledTerm
  · rw [h.snorm (a := .Einv) (k := .z) rfl (if_pos hu.1) rfl, h.snorm (a := .Einv) (k := .Ax) rfl (if_pos hu.1) rfl, h.g]
    simp only [if_pos hu]; rfl
  · rw [h.norm (k := .z) rfl, h.norm (k := .Ax) rfl, h.g]
    simp only [if_neg hu]; rfl

theorem computeDualRes_ok (hm : F.m = d.m) (h : Sh F R M0 s c M) :
    Ok (computeDualRes F M) fun r => Sh F R M0 (Osqp.computeDualRes s s.work.x s.work.y).1 c r.1 ∧ r.2 = (Osqp.computeDualRes s s.work.x s.work.y).2 := by
  refine .bind (h.put (k := .xPrev) rfl (s' := s.xp s.work.data.q) (c' := c)
    (copy_holds (h.mem .xPrev _ rfl).toRoom (h.mem .q _ rfl) (h.lay.use _ _)) vv rfl rr) fun M h => ?_
  refine .bind (h.mul (a := .x) (k := .Px) rfl (by decide) (by decide) (by decide) (by decide) rfl rfl
    (s' := (s.xp s.work.data.q).Px (symMul d.P s.work.data.P s.work.x)) (c' := c) (fun x y hx hy => refine_axpy_sym h.P hx hy) vv rfl rr) fun M h => ?_
  refine .bind (h.put (k := .xPrev) rfl
    (s' := (s.Px (symMul d.P s.work.data.P s.work.x)).xp (vPlus s.work.data.q (symMul d.P s.work.data.P s.work.x))) (c' := c)
    (plus_holds (h.mem .xPrev _ rfl).toRoom (h.mem .xPrev _ rfl) (h.lay.fits _ _) (h.mem .Px _ rfl) (h.lay.use _ _)) vv rfl rr) fun M h => ?_
  set s3 := (s.Px (symMul d.P s.work.data.P s.work.x)).xp (vPlus s.work.data.q (symMul d.P s.work.data.P s.work.x)) with hs3
  set s4 := if d.m ≠ 0 then (s3.Aty (spMulT d.A s.work.data.A s.work.y)).xp (vPlus s3.work.x_prev (spMulT d.A s.work.data.A s.work.y)) else s3 with hs4
  refine .bind (P := Sh F R M0 s4 c) ?_ fun M h => ?_
  · by_cases c0 : d.m ≠ 0
    · have c1 : F.m ≠ 0 := by rw [hm]; exact_mod_cast c0
      rw [if_pos c1, hs4, if_pos c0]
      refine .bind (h.mul (a := .y) (k := .Aty) rfl (by decide) (by decide) (by decide) (by decide) rfl rfl
        (s' := s3.Aty (spMulT d.A s.work.data.A s.work.y)) (c' := c) (fun x y hx hy => refine_atxpy h.A hx hy) vv rfl rr) fun M h => ?_
      exact h.put (k := .xPrev) rfl
        (plus_holds (h.mem .xPrev _ rfl).toRoom (h.mem .xPrev _ rfl) (h.lay.fits _ _) (h.mem .Aty _ rfl) (h.lay.use _ _)) vv rfl rr
    · have c1 : ¬ F.m ≠ 0 := by rw [hm]; exact_mod_cast c0
      rw [if_neg c1, hs4, if_neg c0]
      exact .pure h
  refine .val (h.norm (k := .xPrev) rfl) ?_
  have eq : (Osqp.computeDualRes s s.work.x s.work.y).1 = { s4 with work := { s4.work with scaled_dual_res := vNormInf s4.work.x_prev } } := by
    rw [hs4]
    unfold Osqp.computeDualRes
    by_cases c0 : d.m ≠ 0
    · simp only [if_pos c0]; rfl
    · simp only [if_neg c0]; rfl
  have eq2 : (Osqp.computeDualRes s s.work.x s.work.y).2 = if s4.settings.unscaledTerm then s4.work.scaling.cinv * vScaledNormInf s4.work.scaling.Dinv s4.work.x_prev
      else vNormInf s4.work.x_prev := by
    rw [hs4]
    unfold Osqp.computeDualRes
    by_cases c0 : d.m ≠ 0
    · simp only [if_pos c0]; rfl
    · simp only [if_neg c0]; rfl
  rw [eq, eq2]
  clear_value s4
  extract_lets M4
  have h2 : Sh F R M0 { s4 with work := { s4.work with scaled_dual_res := vNormInf s4.work.x_prev } } c M4 := h.upd rfl vv rr rfl
  clear_value M4
  rw [h2.g]
  by_cases hu : s4.settings.unscaledTerm
  · rw [if_pos hu, if_pos hu]
    exact .val (if_pos hu.1) (.val (h2.snorm (a := .Dinv) (k := .xPrev) rfl (if_pos hu.1) rfl) (.pure ⟨h2, rfl⟩))
  · rw [if_neg hu, if_neg hu]
    exact .pure ⟨h2, rfl⟩

theorem dualTol_ok (h : Sh F R M0 s c M) (ea er : K) : dualTol M ea er = some (Osqp.dualTol s ea er) := by
  unfold dualTol Osqp.dualTol
  by_cases hu : s.settings.unscaledTerm
  · rw [h.snorm (a := .Dinv) (k := .q) rfl (if_pos hu.1) rfl, h.snorm (a := .Dinv) (k := .Aty) rfl (if_pos hu.1) rfl,
      h.snorm (a := .Dinv) (k := .Px) rfl (if_pos hu.1) rfl, h.g]
    simp only [if_pos hu, if_pos hu.1]; rfl
  · rw [h.norm (k := .q) rfl, h.norm (k := .Aty) rfl, h.norm (k := .Px) rfl, h.g]
    simp only [if_neg hu]; rfl

theorem Sh.toc (h : Sh F R M0 s c M) {env : Env d K} (hc : F.clk = env.clk) :
    (M.toc F).1 = (Osqp.toc env s).1 ∧ Sh F R M0 (Osqp.toc env s).2 c (M.toc F).2 := by
  refine ⟨?_, h.upd (s' := (Osqp.toc env s).2) (f := fun g => { g with ticks := g.ticks + 1 }) rfl vv rr rfl⟩
  show F.clk M.g.ticks = env.clk s.ticks
  rw [h.g, hc]

/-- The info record is updated. -/
abbrev Solver.inf (s : Solver d K) (f : Info K → Info K) : Solver d K := { s with info := f s.info }

/-- `update_info` of the solver layer in the order of the program. -/
theorem updateInfo_eq (cfg : Cfg) (env : Env d K) (iter : ℤ) (s : Solver d K) : Osqp.updateInfo cfg env iter s =
    (let s := Solver.inf s fun i => { i with iter := iter }
     let r := if d.m = 0 then (s, 0) else Osqp.computePrimRes s s.work.x s.work.z
     let s := Solver.inf r.1 fun i => { i with prim_res := r.2 }
     let r := Osqp.computeDualRes s s.work.x s.work.y
     let s := Solver.inf r.1 fun i => { i with dual_res := r.2 }
     let r := Osqp.computeObj s s.work.x s.work.y
     let s := Solver.inf r.1 fun i => { i with obj_val := r.2.1, dual_obj_val := r.2.2.1, duality_gap := r.2.2.2 }
     let s := Solver.inf s fun i => { i with primdual_int := i.primdual_int + cAbs i.duality_gap }
     let s := if cfg.profiling then Solver.inf (Osqp.toc env s).2 fun i => { i with solve_time := (Osqp.toc env s).1 } else s
     Solver.inf s fun i => { i with rel_kkt_error := cMax (cMax i.dual_res i.prim_res) i.duality_gap }) := by
  dsimp only
  unfold Osqp.updateInfo Osqp.computeReport Osqp.computeObj Osqp.computeDualRes Osqp.computePrimRes relKkt Osqp.toc
  by_cases h1 : d.m = 0
  · simp only [if_pos h1]
    by_cases h2 : s.settings.scaling ≠ 0 <;> cases cfg.profiling <;> simp [h1, h2]
  · simp only [if_neg h1]
    by_cases h2 : s.settings.scaling ≠ 0 <;> cases cfg.profiling <;> simp [h1, h2]

theorem updateInfo_ok {cfg : Cfg} {env : Env d K} (hF : FixIs cfg env F) (iter : ℤ) (h : Sh F R M0 s c M) :
    Ok (updateInfo F iter M) (Sh F R M0 (Osqp.updateInfo cfg env iter s) c) := by
  rw [updateInfo_eq]
  unfold updateInfo
  extract_lets M1 s1 r1 s2 r2 s3 r3 s4 s5 s6
  have h1 : Sh F R M0 s1 c M1 := h.upd rfl vv rr rfl
  clear_value M1
  refine .bind (P := fun r => Sh F R M0 r1.1 c r.1 ∧ r.2 = r1.2) ?_ fun q hq => ?_
  · by_cases c0 : d.m = 0
    · rw [if_pos (by rw [hF.m, c0]; rfl)]
      simp only [r1, if_pos c0]
      exact .pure ⟨h1, rfl⟩
    · rw [if_neg (by rw [hF.m]; exact_mod_cast c0)]
      simp only [r1, if_neg c0]
      exact computePrimRes_ok h1
  obtain ⟨h1, eq⟩ := hq
  extract_lets M2
  have h2 : Sh F R M0 s2 c M2 := h1.upd (by simp only [eq, s2]) vv rr rfl
  clear_value M2
  refine .bind (computeDualRes_ok hF.m h2) fun q hq => ?_
  obtain ⟨h2, eq⟩ := hq
  extract_lets M3
  have h3 : Sh F R M0 s3 c M3 := h2.upd (by simp only [eq, s3, r2]) vv rr rfl
  clear_value M3
  refine .bind (computeObj_ok h3) fun q hq => ?_
  obtain ⟨h3, eq⟩ := hq
  extract_lets M4 M5 t M6
  have h4 : Sh F R M0 s4 c M4 := h3.upd (by simp only [eq, s4, r3]) vv rr rfl
  have h5 : Sh F R M0 s5 c M5 := h4.upd rfl vv rr rfl
  have h6 : Sh F R M0 s6 c M6 := by
    simp only [M6, s6, hF.cfg]
    split_ifs
    · obtain ⟨e, h⟩ := h5.toc hF.clk
      exact h.upd (by simp only [t, e]) vv rr rfl
    · exact h5
  clear_value M6
  exact .pure (h6.upd rfl vv rr rfl)

/-! ## Infeasibility detection and termination -/

theorem isPrimalInfeasible_ok (eps : K) (h : Sh F R M0 s c M) :
    Ok (isPrimalInfeasible F eps M) fun r => (∃ c', Sh F R M0 (Osqp.isPrimalInfeasible s eps).1 c' r.1) ∧ r.2 = (Osqp.isPrimalInfeasible s eps).2 := by
  set dy := vProjectPolar s.work.delta_y s.work.data.l s.work.data.u (Const.infval K) with hdy
  refine .bind (h.put (k := .dy) rfl (s' := s.dy dy) (c' := c)
    (projectPolar_holds (h.mem .dy _ rfl) (h.mem .l _ rfl) (h.lay.apart (by decide)) (h.mem .u _ rfl) (h.lay.apart (by decide)) _) vv rfl rr) fun M h => ?_
  have e1 : (Osqp.isPrimalInfeasible s eps).1 = s.dy dy := by
    unfold Osqp.isPrimalInfeasible; dsimp only; split_ifs <;> rfl
  rw [e1]
  have hg := h.g
  set nrm := if s.settings.unscaledTerm then vNormInf (vEwProd s.work.scaling.E dy) else vNormInf dy with hn
  refine .bind (P := fun r => (∃ c', Sh F R M0 (s.dy dy) c' r.1) ∧ r.2 = nrm) ?_ fun q hq => ?_
  · rw [hg]
    by_cases hu : s.settings.unscaledTerm
    · rw [if_pos hu, hn, if_pos hu]
      refine .bind (h.put (k := .Adx) rfl (s' := s.dy dy) (c' := { c with Adx := vEwProd s.work.scaling.E dy })
        (ewProd_holds (h.mem .Adx _ rfl).toRoom (h.mem .E _ (if_pos hu.1)) (h.lay.fits _ _) (h.mem .dy _ rfl) (h.lay.use _ _)) vv rfl rr) fun M h => ?_
      exact .val (h.norm (k := .Adx) rfl) (.pure ⟨⟨_, h⟩, rfl⟩)
    · rw [if_neg hu, hn, if_neg hu]
      exact .val (h.norm (k := .dy) rfl) (.pure ⟨⟨_, h⟩, rfl⟩)
  obtain ⟨⟨c, h⟩, eq⟩ := hq
  obtain ⟨M, q⟩ := q
  subst eq
  have e2 : (Osqp.isPrimalInfeasible s eps).2 = if nrm > Const.divisionTol K then if vDotPos s.work.data.u dy + vDotNeg s.work.data.l dy < 0 then
      decide (vNormInf (if s.settings.unscaledTerm then vEwProd (spMulT d.A s.work.data.A dy) s.work.scaling.Dinv else spMulT d.A s.work.data.A dy) < eps * nrm)
      else false else false := by
    rw [hn]; unfold Osqp.isPrimalInfeasible; dsimp only; split_ifs <;> rfl
  rw [e2]
  clear_value nrm
  dsimp only at h ⊢
  by_cases c1 : nrm > Const.divisionTol K
  · rw [if_pos c1, if_pos c1]
    refine .val (dotPos_holds (h.mem .u _ rfl) (h.mem .dy _ rfl)) (.val (dotNeg_holds (h.mem .l _ rfl) (h.mem .dy _ rfl)) ?_)
    refine .ite (fun c2 => ?_) fun c2 => ?_
    · rw [if_pos (show vDotPos s.work.data.u dy + vDotNeg s.work.data.l dy < 0 from c2)]
      refine .bind (h.mul (a := .dy) (k := .Atdy) rfl (by decide) (by decide) (by decide) (by decide) rfl rfl
        (s' := s.dy dy) (c' := { c with Atdy := spMulT d.A s.work.data.A dy }) (fun x y hx hy => refine_atxpy h.A hx hy) vv rfl rr) fun M h => ?_
      set Atdy := if s.settings.unscaledTerm then vEwProd (spMulT d.A s.work.data.A dy) s.work.scaling.Dinv else spMulT d.A s.work.data.A dy with hP
      refine .bind (P := Sh F R M0 (s.dy dy) { c with Atdy := Atdy }) ?_ fun M h => ?_
      · by_cases hu : s.settings.unscaledTerm
        · rw [if_pos (show M.g.st.unscaledTerm by rw [h.g]; exact hu), hP, if_pos hu]
          exact h.put (k := .Atdy) rfl
            (ewProd_holds (h.mem .Atdy _ rfl).toRoom (h.mem .Atdy _ rfl) (h.lay.fits _ _) (h.mem .Dinv _ (if_pos hu.1)) (h.lay.use _ _)) vv rfl rr
        · rw [if_neg (show ¬ M.g.st.unscaledTerm by rw [h.g]; exact hu), hP, if_neg hu]
          exact .pure h
      exact .val (h.norm (k := .Atdy) rfl) (.pure ⟨⟨_, h⟩, rfl⟩)
    · rw [if_neg (show ¬ vDotPos s.work.data.u dy + vDotNeg s.work.data.l dy < 0 from c2)]
      exact .pure ⟨⟨_, h⟩, rfl⟩
  · rw [if_neg c1, if_neg c1]
    exact .pure ⟨⟨_, h⟩, rfl⟩

theorem isDualInfeasible_ok (eps : K) (h : Sh F R M0 s c M) :
    Ok (isDualInfeasible F eps M) fun r => (∃ c', Sh F R M0 s c' r.1) ∧ r.2 = Osqp.isDualInfeasible s eps := by
  set nrm := if s.settings.unscaledTerm then vScaledNormInf s.work.scaling.D s.work.delta_x else vNormInf s.work.delta_x with hn
  set cs := if s.settings.unscaledTerm then s.work.scaling.c else 1 with hcs
  refine .bind (P := fun r => r = (nrm, cs)) ?_ fun q hq => ?_
  · rw [h.g]
    by_cases hu : s.settings.unscaledTerm
    · rw [if_pos hu, hn, hcs, if_pos hu, if_pos hu]
      exact .val (h.snorm (a := .D) (k := .dx) rfl (if_pos hu.1) rfl) (.val (if_pos hu.1) (.pure rfl))
    · rw [if_neg hu, hn, hcs, if_neg hu, if_neg hu]
      exact .val (h.norm (k := .dx) rfl) (.pure rfl)
  subst hq
  unfold Osqp.isDualInfeasible
  dsimp only
  rw [← hn, ← hcs]
  by_cases c1 : nrm > Const.divisionTol K
  · rw [if_pos c1, if_pos c1]
    refine .val (dotProd_holds (h.mem .q _ rfl) (h.mem .dx _ rfl)) ?_
    refine .ite (fun c2 => ?_) fun c2 => ?_
    · rw [if_pos (show vDot s.work.data.q s.work.delta_x < 0 from c2)]
      refine .bind (h.mul (a := .dx) (k := .Pdx) rfl (by decide) (by decide) (by decide) (by decide) rfl rfl
        (s' := s) (c' := { c with Pdx := symMul d.P s.work.data.P s.work.delta_x }) (fun x y hx hy => refine_axpy_sym h.P hx hy) vv rfl rr) fun M h => ?_
      set Pdx := if s.settings.unscaledTerm then vEwProd (symMul d.P s.work.data.P s.work.delta_x) s.work.scaling.Dinv else symMul d.P s.work.data.P s.work.delta_x with hP
      refine .bind (P := Sh F R M0 s { c with Pdx := Pdx }) ?_ fun M h => ?_
      · by_cases hu : s.settings.unscaledTerm
        · rw [if_pos (show M.g.st.unscaledTerm by rw [h.g]; exact hu), hP, if_pos hu]
          exact h.put (k := .Pdx) rfl
            (ewProd_holds (h.mem .Pdx _ rfl).toRoom (h.mem .Pdx _ rfl) (h.lay.fits _ _) (h.mem .Dinv _ (if_pos hu.1)) (h.lay.use _ _)) vv rfl rr
        · rw [if_neg (show ¬ M.g.st.unscaledTerm by rw [h.g]; exact hu), hP, if_neg hu]
          exact .pure h
      clear_value Pdx
      refine .val (h.norm (k := .Pdx) rfl) ?_
      refine .ite (fun c3 => ?_) fun c3 => ?_
      · rw [if_pos (show vNormInf Pdx < cs * eps * nrm from c3)]
        refine .bind (h.mul (a := .dx) (k := .Adx) rfl (by decide) (by decide) (by decide) (by decide) rfl rfl
          (s' := s) (c' := { c with Pdx := Pdx, Adx := spMul d.A s.work.data.A s.work.delta_x }) (fun x y hx hy => refine_axpy h.A hx hy) vv rfl rr) fun M h => ?_
        set Adx := if s.settings.unscaledTerm then vEwProd (spMul d.A s.work.data.A s.work.delta_x) s.work.scaling.Einv else spMul d.A s.work.data.A s.work.delta_x with hA
        refine .bind (P := Sh F R M0 s { c with Pdx := Pdx, Adx := Adx }) ?_ fun M h => ?_
        · by_cases hu : s.settings.unscaledTerm
          · rw [if_pos (show M.g.st.unscaledTerm by rw [h.g]; exact hu), hA, if_pos hu]
            exact h.put (k := .Adx) rfl
              (ewProd_holds (h.mem .Adx _ rfl).toRoom (h.mem .Adx _ rfl) (h.lay.fits _ _) (h.mem .Einv _ (if_pos hu.1)) (h.lay.use _ _)) vv rfl rr
          · rw [if_neg (show ¬ M.g.st.unscaledTerm by rw [h.g]; exact hu), hA, if_neg hu]
            exact .pure h
        clear_value Adx
        exact .val (inReccone_holds (h.mem .Adx _ rfl) (h.mem .l _ rfl) (h.mem .u _ rfl) _ _) (.pure ⟨⟨_, h⟩, rfl⟩)
      · rw [if_neg (show ¬ vNormInf Pdx < cs * eps * nrm from c3)]
        exact .pure ⟨⟨_, h⟩, rfl⟩
    · rw [if_neg (show ¬ vDot s.work.data.q s.work.delta_x < 0 from c2)]
      exact .pure ⟨⟨_, h⟩, rfl⟩
  · rw [if_neg c1, if_neg c1]
    exact .pure ⟨⟨_, h⟩, rfl⟩

/-- The last part of `check_termination`. -/
def ctTail (approx : Bool) (st : Settings K) (s : Solver d K) (ok primInf dualInf : Bool) : Solver d K × Bool :=
  if ok then (setStatus s (if approx then St.solvedInacc else St.solved), true)
  else if primInf then
    let s := setStatus s (if approx then St.primInfInacc else St.primInf)
    let s := if st.unscaledTerm then s.dy (vEwProd s.work.delta_y s.work.scaling.E) else s
    (Solver.inf s fun i => { i with obj_val := Const.infty K }, true)
  else if dualInf then
    let s := setStatus s (if approx then St.dualInfInacc else St.dualInf)
    let s := if st.unscaledTerm then s.dx (vEwProd s.work.delta_x s.work.scaling.D) else s
    (Solver.inf s fun i => { i with obj_val := -Const.infty K }, true)
  else (s, false)

theorem isPrimalInfeasible_settings (s : Solver d K) (eps : K) : (Osqp.isPrimalInfeasible s eps).1.settings = s.settings := by
  unfold Osqp.isPrimalInfeasible; dsimp only; split_ifs <;> rfl

theorem checkTermination_eq (approx : Bool) (s : Solver d K) (h : ¬ (s.info.prim_res > Const.infty K ∨ s.info.dual_res > Const.infty K)) :
    Osqp.checkTermination approx s =
    (let k : K := if approx then 10 else 1
     let primOk : Bool := d.m = 0 || decide (s.info.prim_res < Osqp.primTol s (s.settings.eps_abs * k) (s.settings.eps_rel * k))
     let r := if primOk then (s, false) else Osqp.isPrimalInfeasible s (s.settings.eps_prim_inf * k)
     let s1 := r.1
     let dualOk : Bool := decide (s1.info.dual_res < Osqp.dualTol s1 (s.settings.eps_abs * k) (s.settings.eps_rel * k))
     let dualInf : Bool := if dualOk then false else Osqp.isDualInfeasible s1 (s.settings.eps_dual_inf * k)
     let gapOk : Bool := if s.settings.check_dualgap ≠ 0 then
         if s.settings.unscaledTerm then decide (cAbs s1.info.duality_gap < Osqp.gapTol s1 (s.settings.eps_abs * k) (s.settings.eps_rel * k))
         else decide (cAbs s1.work.scaled_dual_gap < Osqp.gapTol s1 (s.settings.eps_abs * k) (s.settings.eps_rel * k))
       else true
     ctTail approx s.settings s1 (primOk && dualOk && gapOk) r.2 dualInf) := by
  unfold Osqp.checkTermination ctTail
  rw [if_neg h]

theorem Sh.status (h : Sh F R M0 s c M) (v : ℤ) : Sh F R M0 (setStatus s v) c (M.status v) := h.upd rfl vv rr rfl

theorem Sh.ret {β : Type*} {b : β} (h : Sh F R M0 s c M) {f : Scal K → Scal K} (hg : f (scal s) = scal s') (hv : vals s c = vals s' c')
    (hr : Rest s s') (hvec : s'.settings.rho_is_vec = s.settings.rho_is_vec) :
    Ok (some (M.upd f, b)) fun r => Sh F R M0 s' c' r.1 ∧ r.2 = b := .pure ⟨h.upd hg hv hr hvec, rfl⟩

theorem ctTail_ok (approx ok primInf dualInf : Bool) {st : Settings K} (es : s.settings = st) (h : Sh F R M0 s c M) :
    Ok (if ok then some (M.status (if approx then St.solvedInacc else St.solved), true)
      else if primInf then
        ((if st.unscaledTerm then (M.status (if approx then St.primInfInacc else St.primInf)).vec fun W => ewProd (W .dy) (W .dy) (W .E)
          else some (M.status (if approx then St.primInfInacc else St.primInf))).bind fun M =>
        some ((M.upd fun g => { g with info := { g.info with obj_val := Const.infty K } }), true))
      else if dualInf then
        ((if st.unscaledTerm then (M.status (if approx then St.dualInfInacc else St.dualInf)).vec fun W => ewProd (W .dx) (W .dx) (W .D)
          else some (M.status (if approx then St.dualInfInacc else St.dualInf))).bind fun M =>
        some ((M.upd fun g => { g with info := { g.info with obj_val := -Const.infty K } }), true))
      else some (M, false))
      fun r => Sh F R M0 (ctTail approx st s ok primInf dualInf).1 c r.1 ∧ r.2 = (ctTail approx st s ok primInf dualInf).2 := by
  unfold ctTail
  cases ok
  · cases primInf
    · cases dualInf
      · exact .pure ⟨h, rfl⟩
      · generalize (if approx then St.dualInfInacc else St.dualInf) = v
        simp only [Bool.false_eq_true, if_false, if_true]
        have h := h.status v
        by_cases hu : st.unscaledTerm
        · have hu' := hu.1
          rw [← es] at hu'
          simp only [if_pos hu]
          refine .bind (h.put (k := .dx) rfl (s' := (setStatus s v).dx (vEwProd s.work.delta_x s.work.scaling.D)) (c' := c)
            (ewProd_holds (h.mem .dx _ rfl).toRoom (h.mem .dx _ rfl) (h.lay.fits _ _) (h.mem .D _ (if_pos hu')) (h.lay.use _ _)) vv rfl rr) fun M h => ?_
          exact h.ret rfl vv rr rfl
        · simp only [if_neg hu]
          exact h.ret rfl vv rr rfl
    · generalize (if approx then St.primInfInacc else St.primInf) = v
      simp only [Bool.false_eq_true, if_false, if_true]
      have h := h.status v
      by_cases hu : st.unscaledTerm
      · have hu' := hu.1
        rw [← es] at hu'
        simp only [if_pos hu]
        refine .bind (h.put (k := .dy) rfl (s' := (setStatus s v).dy (vEwProd s.work.delta_y s.work.scaling.E)) (c' := c)
          (ewProd_holds (h.mem .dy _ rfl).toRoom (h.mem .dy _ rfl) (h.lay.fits _ _) (h.mem .E _ (if_pos hu')) (h.lay.use _ _)) vv rfl rr) fun M h => ?_
        exact h.ret rfl vv rr rfl
      · simp only [if_neg hu]
        exact h.ret rfl vv rr rfl
  · exact .pure ⟨h.status _, rfl⟩

theorem checkTermination_ok {cfg : Cfg} {env : Env d K} (hF : FixIs cfg env F) (approx : Bool) (h : Sh F R M0 s c M) :
    Ok (checkTermination F approx M) fun r => (∃ c', Sh F R M0 (Osqp.checkTermination approx s).1 c' r.1) ∧ r.2 = (Osqp.checkTermination approx s).2 := by
  unfold checkTermination
  dsimp only
  refine .ite (fun c0 => ?_) fun c0 => ?_
  · rw [h.g] at c0
    unfold Osqp.checkTermination
    simp only [if_pos (show s.info.prim_res > Const.infty K ∨ s.info.dual_res > Const.infty K from c0)]
    refine .pure ⟨⟨c, ?_⟩, rfl⟩
    dsimp only
    exact h.upd rfl vv rr rfl
  · rw [h.g] at c0
    rw [checkTermination_eq approx s c0, h.g]
    clear c0
    extract_lets k primOk r s1 dualOk dualInf gapOk
    refine .bind (P := fun q => (∃ c', Sh F R M0 s1 c' q.1) ∧ q.2 = (primOk, r.2)) ?_ fun q hq => ?_
    · by_cases hm : d.m = 0
      · rw [if_pos (by rw [hF.m, hm]; rfl)]
        have e : primOk = true := by simp [primOk, hm]
        simp only [s1, r, e]
        exact .pure ⟨⟨_, h⟩, rfl⟩
      · rw [if_neg (by rw [hF.m]; exact_mod_cast hm)]
        refine .val (primTol_ok h _ _) (.ite (fun c1 => ?_) fun c1 => ?_)
        · have c1' : s.info.prim_res < Osqp.primTol s (s.settings.eps_abs * k) (s.settings.eps_rel * k) := c1
          have e : primOk = true := by simp only [primOk, decide_eq_true c1', Bool.or_true]
          simp only [s1, r, e]
          exact .pure ⟨⟨_, h⟩, rfl⟩
        · have c1' : ¬ s.info.prim_res < Osqp.primTol s (s.settings.eps_abs * k) (s.settings.eps_rel * k) := c1
          have e : primOk = false := by simp only [primOk, decide_eq_false c1', decide_eq_false hm, Bool.or_false]
          simp only [s1, r, e]
          refine .bind (isPrimalInfeasible_ok _ h) fun q hq => .pure ⟨hq.1, by rw [hq.2]; rfl⟩
    have es : s1.settings = s.settings := by
      simp only [s1, r]; split_ifs
      · rfl
      · exact isPrimalInfeasible_settings _ _
    obtain ⟨⟨c, h⟩, eq⟩ := hq
    obtain ⟨M, q⟩ := q
    subst eq
    dsimp only at h ⊢
    clear_value s1 primOk
    refine .val (dualTol_ok h _ _) ?_
    refine .bind (P := fun q => (∃ c', Sh F R M0 s1 c' q.1) ∧ q.2 = (dualOk, dualInf)) ?_ fun q hq => ?_
    · rw [h.g]
      refine .ite (fun c1 => ?_) fun c1 => ?_
      · have e : dualOk = true := decide_eq_true c1
        simp only [dualInf, e]
        exact .pure ⟨⟨_, h⟩, rfl⟩
      · have e : dualOk = false := decide_eq_false c1
        simp only [dualInf, e]
        refine .bind (isDualInfeasible_ok _ h) fun q hq => .pure ⟨hq.1, by rw [hq.2]; rfl⟩
    obtain ⟨⟨c, h⟩, eq⟩ := hq
    obtain ⟨M, q⟩ := q
    subst eq
    dsimp only at h ⊢
    refine .bind (P := fun b => b = gapOk) ?_ fun b hb => ?_
    · refine .ite (fun c1 => ?_) fun c1 => ?_
      · refine .val (gapTol_ok h _ _) (.ite (fun c2 => ?_) fun c2 => ?_)
        · simp only [gapOk, if_pos c1, if_pos c2]
          rw [h.g]; exact .pure rfl
        · simp only [gapOk, if_pos c1, if_neg c2]
          rw [h.g]; exact .pure rfl
      · simp only [gapOk, if_neg c1]
        exact .pure rfl
    subst hb
    exact (ctTail_ok approx (primOk && dualOk && gapOk) r.2 dualInf es h).mono fun q hq => ⟨⟨_, hq.1⟩, hq.2⟩

/-! ## Storing the solution -/

theorem coldStart_ok (h : Sh F R M0 s c M) : Ok (coldStart M) (Sh F R M0 (Osqp.coldStart s) c) := by
  refine .bind (h.put (k := .x) rfl (s' := s.xx (vSet 0)) (c' := c) (setScalar_holds (h.mem .x _ rfl).toRoom _) vv rfl rr) fun M h => ?_
  refine .bind (h.put (k := .z) rfl (s' := (s.xx (vSet 0)).zz (vSet 0)) (c' := c) (setScalar_holds (h.mem .z _ rfl).toRoom _) vv rfl rr) fun M h => ?_
  exact h.put (k := .y) rfl (s' := Osqp.coldStart s) (c' := c) (setScalar_holds (h.mem .y _ rfl).toRoom _) vv rfl rr

end Osqp.Vm
