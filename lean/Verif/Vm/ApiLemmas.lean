import Verif.Vm.ApiSpec
import Verif.Vm.SolveRun

/-!
# The API functions on memory compute those of the solver layer: functions that leave the matrices alone
-/

set_option linter.unusedSectionVars false
namespace Osqp.Vm
open Csc
variable {L K : Type*} [Field K] [LinearOrder K] {d : Dims}
variable {F : Fix L K} {R : LinSys d K → L → Prop} {M0 M : Mach L K} {s s' : Solver d K} {c c' : Scr d K} {G : ℕ → Prop}

variable [IsStrictOrderedRing K]

theorem Sh.self (h : Sh F R M0 s c M) : Sh F R M s c M :=
  ⟨h.lay, h.size, h.mem, h.types, h.lin, h.own, h.g, h.P, h.A, h.sol, h.room, .inl rfl, rfl, fun _ _ _ => rfl⟩

/-- Array `b` is none of the solver's, or belongs to `solver->solution`. -/
def Free (M : Mach L K) (b : ℕ) : Prop := ∀ k : Name, k.sol = false → (M.W k).blk ≠ b

/-- Invariant of a call: the memory shows `s`; the arrays `G` are as in `M0`. -/
structure Lv (F : Fix L K) (R : LinSys d K → L → Prop) (G : ℕ → Prop) (M0 : Mach L K) (s : Solver d K) (c : Scr d K) (M : Mach L K) : Prop where
  sh : Sh F R M s c M
  free : ∀ b, Free M b ↔ Free M0 b
  sol : ∀ k : Name, k.sol = true → M.W k = M0.W k
  out : ∀ b, G b → Free M0 b
  kept : ∀ b, G b → M.σ b = M0.σ b

theorem Sh.lv (h : Sh F R M0 s c M) (hG : ∀ b, G b → Free M b) : Lv F R G M s c M := ⟨h.self, fun _ => .rfl, fun _ _ => rfl, hG, fun _ _ => rfl⟩

theorem Lv.mem (h : Lv F R G M0 s c M) : Mem M.σ M.W (vals s c) := h.sh.mem
theorem Lv.lay (h : Lv F R G M0 s c M) : Layout d.n d.m M.W F.xz := h.sh.lay
theorem Lv.g (h : Lv F R G M0 s c M) : M.g = scal s := h.sh.g

/-- The general step: one array changes. -/
theorem Lv.putBlk (h : Lv F R G M0 s c M) {k : Name} (hk : k.sol = false) (hx : k ≠ .xt) (hz : k ≠ .zt) (hp : k.pol = false) {f : Vec K (k.dim d.n d.m)}
    {op : Ptrs → Store K → Option (Store K)} (ho : ∃ σ', op M.W M.σ = some σ' ∧ Has σ' (M.W k) (k.dim d.n d.m) f ∧ ∀ b, b ≠ (M.W k).blk → σ' b = M.σ b)
    (hV : Function.update (vals s c) k (some f) = vals s' c') (hg : scal s' = scal s) (hr : Rest s s') : Ok (M.vec op) (Lv F R G M0 s' c') := by
  obtain ⟨σ', e, h1, h2⟩ := ho
  have hv : s'.settings.rho_is_vec = s.settings.rho_is_vec := congrArg (fun t => t.st.rho_is_vec) hg
  have hne : ∀ j, j ≠ k → (M.W j).blk ≠ (M.W k).blk := fun j hj => h.lay.own j k hj (fun e => hz e.2) fun e => hx e.2
  have S := h.sh
  refine ⟨{ M with σ := σ' }, by unfold Mach.vec; rw [e]; rfl, ⟨⟨S.lay, ?_, fun j g hj => ?_, by rw [hv, hr.ct]; exact S.types, by rw [hr.lin]; exact S.lin,
    by rw [hr.lin, hv]; exact S.own, by rw [hg]; exact S.g, by rw [hr.P]; exact S.P, by rw [hr.A]; exact S.A, by rw [hr.sol]; exact S.sol, fun j hj => ⟨(S.room j hj).1, ?_⟩,
    .inl rfl, rfl, fun _ _ _ => rfl⟩, h.free, h.sol, h.out, fun b hb => ?_⟩⟩
  · obtain ⟨x1, x2, x3⟩ := S.lay.len_xt
    have := hne .xt (Ne.symm hx)
    rw [x3] at this
    show _ ≤ (σ' _).size
    rw [h2 _ this]; exact S.size
  · rw [← hV] at hj
    by_cases ej : j = k
    · subst ej
      rw [Function.update_self] at hj
      rw [← Option.some.inj hj]
      exact h1
    · rw [Function.update_of_ne ej] at hj
      have hj' := S.mem j g hj
      have e := h2 _ (hne j ej)
      exact ⟨hj'.len, by show _ ≤ (σ' _).size; rw [e]; exact hj'.room, fun i => by show (σ' _).cell _ = _; rw [e]; exact hj'.val i⟩
  · show _ ≤ (σ' _).size
    rw [h2 _ (hne j (by rintro rfl; rw [hp] at hj; cases hj))]; exact (S.room j hj).2
  · show σ' b = _
    rw [h2 _ (Ne.symm ((h.free b).2 (h.out b hb) k hk)), h.kept b hb]

/-- A vector is assigned. -/
theorem Lv.put (h : Lv F R G M0 s c M) {k : Name} (hk : k.sol = false) (hx : k ≠ .xt) (hz : k ≠ .zt) (hp : k.pol = false) {f : Vec K (k.dim d.n d.m)}
    {op : Ptrs → Store K → Option (Store K)} (ho : ∃ σ', op M.W M.σ = some σ' ∧ Has σ' (M.W k) (k.dim d.n d.m) f ∧ OnlyAt (M.W k) M.σ σ')
    (hV : Function.update (vals s c) k (some f) = vals s' c') (hg : scal s' = scal s) (hr : Rest s s') : Ok (M.vec op) (Lv F R G M0 s' c') := by
  obtain ⟨σ', e, h1, h2⟩ := ho
  exact h.putBlk hk hx hz hp ⟨σ', e, h1, fun b hb => h2.same hb⟩ hV hg hr

/-- Scalars are assigned. -/
theorem Lv.upd (h : Lv F R G M0 s c M) {f : Scal K → Scal K} (hg : f (scal s) = scal s') (hV : vals s c = vals s' c') (hr : Rest s s')
    (hv : s'.settings.rho_is_vec = s.settings.rho_is_vec) : Lv F R G M0 s' c' (M.upd f) :=
  ⟨(h.sh.upd hg hV hr hv).self, h.free, h.sol, h.out, h.kept⟩

theorem Lv.toc (h : Lv F R G M0 s c M) {env : Env d K} (hc : F.clk = env.clk) :
    (M.toc F).1 = (Osqp.toc env s).1 ∧ Lv F R G M0 (Osqp.toc env s).2 c (M.toc F).2 :=
  ⟨(h.sh.toc hc).1, (h.sh.toc hc).2.self, h.free, h.sol, h.out, h.kept⟩

scoped macro "lset" h:term : tactic => `(tactic| ((try dsimp only); exact Lv.upd $h rfl vv rr rfl))

/-- Two pointers are exchanged. -/
theorem Lv.swap (h : Lv F R G M0 s c M) {a b : Name} (ha : a.sol = false) (hb : b.sol = false) (ax : a ≠ .xt) (az : a ≠ .zt) (bx : b ≠ .xt) (bz : b ≠ .zt)
    (ap : a.pol = false) (bp : b.pol = false) (hm : Mem M.σ (Vm.swap a b M.W) (vals s' c')) (hg : scal s' = scal s) (hr : Rest s s') :
    Lv F R G M0 s' c' { M with W := Vm.swap a b M.W } := by
  have hv : s'.settings.rho_is_vec = s.settings.rho_is_vec := congrArg (fun t => t.st.rho_is_vec) hg
  have S := h.sh
  set f : Name → Name := fun k => if k = a then b else if k = b then a else k with hf
  have e : Vm.swap a b M.W = fun k => M.W (f k) := by
    funext k; unfold Vm.swap; simp only [hf]; split_ifs <;> rfl
  have fi : Function.Injective f := by
    intro j k hjk
    simp only [hf] at hjk
    split_ifs at hjk <;> simp_all
  have ff : ∀ k, f (f k) = k := by
    intro k; simp only [hf]; split_ifs <;> simp_all
  have fs : ∀ k, (f k).sol = k.sol := by intro k; simp only [hf]; split_ifs <;> simp_all
  have fp : ∀ k : Name, k.pol = true → f k = k := by
    intro k hk
    simp only [hf]
    rw [if_neg (by rintro rfl; rw [ap] at hk; cases hk), if_neg (by rintro rfl; rw [bp] at hk; cases hk)]
  have fsol : ∀ k : Name, k.sol = true → f k = k := by
    intro k hk
    simp only [hf]
    rw [if_neg (by rintro rfl; rw [ha] at hk; cases hk), if_neg (by rintro rfl; rw [hb] at hk; cases hk)]
  refine ⟨⟨?_, S.size, hm, by rw [hv, hr.ct]; exact S.types, by rw [hr.lin]; exact S.lin,
    by rw [hr.lin, hv]; exact S.own, by rw [hg]; exact S.g, by rw [hr.P]; exact S.P, by rw [hr.A]; exact S.A, by rw [hr.sol]; exact S.sol, fun j hj => ?_,
    .inl rfl, rfl, fun _ _ _ => rfl⟩, fun t => ?_, fun k hk => ?_, h.out, h.kept⟩
  · show Layout _ _ (Vm.swap a b M.W) _
    rw [e]
    exact S.lay.perm f fi (by simp only [hf]; rw [if_neg (Ne.symm ax), if_neg (Ne.symm bx)]) (by simp only [hf]; rw [if_neg (Ne.symm az), if_neg (Ne.symm bz)])
  · show Room _ (Vm.swap a b M.W j) _
    rw [e]; dsimp only; rw [fp j hj]; exact S.room j hj
  · rw [← h.free t]
    unfold Free
    show (∀ k : Name, k.sol = false → (Vm.swap a b M.W k).blk ≠ t) ↔ _
    rw [e]
    refine ⟨fun g k hk => ?_, fun g k hk => g (f k) (by rw [fs]; exact hk)⟩
    have := g (f k) (by rw [fs]; exact hk)
    dsimp only at this; rw [ff] at this; exact this
  · show Vm.swap a b M.W k = _
    rw [e]; dsimp only; rw [fsol k hk]; exact h.sol k hk

/-- The linear-system solver is replaced. -/
theorem Lv.newLin {env : Env d K} (hI : Impl env F R) (h : Lv F R G M0 s c M) (hp : s.settings.rho ≠ 0) (hv : s.settings.rho_is_vec ≠ 0 → ∀ i, s.work.rho_vec i ≠ 0) :
    Ok (F.updRho M.lin (if M.g.st.rho_is_vec ≠ 0 then some (M.σ (M.W .rho).blk) else none) M.g.st.rho) fun r =>
      Lv F R G M0 (s.ls (linsysUpdateRho env s.work.linsys s.work.rho_vec s.settings.rho).1) c { M with lin := r.1 } ∧
      r.2 = (linsysUpdateRho env s.work.linsys s.work.rho_vec s.settings.rho).2 :=
  (h.sh.newLin hI hp hv).mono fun _ hr => ⟨⟨hr.1.self, h.free, h.sol, h.out, h.kept⟩, hr.2⟩

/-- An argument of the caller. -/
theorem Lv.arg (h : Lv F R G M0 s c M) {a : Ref} {n : ℕ} {v : Vec K n} (ha : Has M0.σ a n v) (hf : G a.blk) :
    Has M.σ a n v ∧ ∀ k : Name, k.sol = false → Apart (M.W k) a :=
  ⟨⟨ha.len, by rw [h.kept _ hf]; exact ha.room, fun i => by rw [h.kept _ hf]; exact ha.val i⟩, fun k hk => .inl ((h.free _).2 (h.out _ hf) k hk)⟩

abbrev _root_.Osqp.Solver.qq (s : Solver d K) (v : Vec K d.n) : Solver d K := { s with work := { s.work with data := { s.work.data with q := v } } }
abbrev _root_.Osqp.Solver.lo (s : Solver d K) (v : Vec K d.m) : Solver d K := { s with work := { s.work with data := { s.work.data with l := v } } }
abbrev _root_.Osqp.Solver.up (s : Solver d K) (v : Vec K d.m) : Solver d K := { s with work := { s.work with data := { s.work.data with u := v } } }

/-! ## Timers and information -/

theorem clearTime_ok {cfg : Cfg} {env : Env d K} (hF : FixIs cfg env F) (h : Lv F R G M0 s c M) :
    Lv F R G M0 (if cfg.profiling then clearUpdateTime s else s) c (clearTime F M) := by
  unfold clearTime clearUpdateTime
  rw [hF.cfg, h.g]
  split_ifs
  · lset h
  · exact h
  · exact h

theorem endUpdate_ok {cfg : Cfg} {env : Env d K} (hF : FixIs cfg env F) (h : Lv F R G M0 s c M) :
    let s1 : Solver d K := { s with info := resetInfo cfg s.info }
    Lv F R G M0 (if cfg.profiling then addUpdateTime env s1 else s1) c (endUpdate F M) := by
  intro s1
  unfold endUpdate
  extract_lets M1 t
  have h1 : Lv F R G M0 s1 c M1 := h.upd (by rw [hF.cfg]) vv rr rfl
  clear_value M1
  rw [hF.cfg]
  obtain ⟨e, h2⟩ := h1.toc hF.clk
  by_cases hp : cfg.profiling = true
  · rw [if_pos hp, if_pos hp]
    refine h2.upd ?_ vv rr rfl
    show _ = scal (addUpdateTime env s1)
    rw [show t.1 = (Osqp.toc env s1).1 from e]
    rfl
  · rw [if_neg hp, if_neg hp]; exact h1

/-! ## Bounds and step sizes -/

abbrev _root_.Osqp.Solver.cty (s : Solver d K) (v : Fin d.m → ℤ) : Solver d K := { s with work := { s.work with constr_type := v } }

theorem setRhoVec_ok {cfg : Cfg} {env : Env d K} (hF : FixIs cfg env F) (hv : s.settings.rho_is_vec ≠ 0) (h : Lv F R G M0 s c M) :
    Ok (setRhoVec F M) fun r => Lv F R G M0 (Osqp.setRhoVec s).1 c r.1 ∧ r.2 = (Osqp.setRhoVec s).2 := by
  unfold setRhoVec
  have hp : (0 : K) < clampRho s.settings.rho := rhoMin_pos.trans_le (clampRho_lo _)
  extract_lets M1
  set r := clampRho s.settings.rho with hr
  have h1 : Lv F R G M0 (s.rhoIs r) c M1 := h.upd rfl vv rr rfl
  clear_value M1
  set ct := vBoundsType s.work.data.l s.work.data.u (Const.rhoTol K) (Const.infval K) with hct
  obtain ⟨q', e, e1, e2, e3⟩ := boundsType_holds (h1.sh.types hv) (h1.mem .l _ rfl) (h1.mem .u _ rfl) (Const.rhoTol K) (Const.infval K)
  refine .val (v := (q', vTypeChanged s.work.constr_type ct)) (by rw [hF.m]; exact e) ?_
  dsimp only
  have S := h1.sh
  have h2 : Lv F R G M0 ((s.rhoIs r).cty ct) c { M1 with ct := q' } :=
    ⟨⟨S.lay, S.size, by rw [show vals ((s.rhoIs r).cty ct) c = vals (s.rhoIs r) c from vv]; exact S.mem, fun _ => ⟨by rw [e1]; exact (S.types hv).1, e2⟩, S.lin, S.own, S.g,
      S.P, S.A, S.sol, S.room, .inl rfl, rfl, fun _ _ _ => rfl⟩, h1.free, h1.sol, h1.out, h1.kept⟩
  clear S e e1 e2 e3
  set s2 := (s.rhoIs r).cty ct
  have vv1 : ∀ (w : Vec K d.m), Function.update (vals s2 c) .rho (some w) = vals (s2.rv w) c := by
    intro w; funext k; cases k
    case rho => exact (if_pos hv).symm
    all_goals rfl
  have vv2 : ∀ (w : Vec K d.m), Function.update (vals (s2.rv (rhoVecOf ct r)) c) .rhoInv (some w) = vals ((s2.rv (rhoVecOf ct r)).rvi w) c := by
    intro w; funext k; cases k
    case rhoInv => exact (if_pos hv).symm
    all_goals rfl
  refine .bind (h2.put (k := .rho) rfl (by decide) (by decide) rfl (s' := s2.rv (rhoVecOf ct r)) (c' := c) ?_ (vv1 _) rfl rr) fun M h => ?_
  · have := setCond_holds (h2.mem .rho _ (if_pos hv)).toRoom (h2.sh.types hv) (Const.rhoMin K) M1.g.st.rho (Const.rhoEqOverIneq K * M1.g.st.rho)
    have er : M1.g.st.rho = r := by rw [h1.g]
    rw [er] at this
    dsimp only at this ⊢
    rw [er]
    exact this
  refine .bind (h.put (k := .rhoInv) rfl (by decide) (by decide) rfl (s' := (s2.rv (rhoVecOf ct r)).rvi (vRecip (rhoVecOf ct r))) (c' := c)
      (reciprocal_holds (h.mem .rhoInv _ (if_pos hv)).toRoom (h.mem .rho _ (if_pos hv)) (h.lay.use _ _) (rhoVec_ne _ hp)) (vv2 _) rfl rr) fun M h => ?_
  exact .pure ⟨h, rfl⟩

theorem updateRhoVec_ok {cfg : Cfg} {env : Env d K} (hF : FixIs cfg env F) (hI : Impl env F R) (hv : s.settings.rho_is_vec ≠ 0) (h : Lv F R G M0 s c M) :
    Ok (updateRhoVec F M) fun r => Lv F R G M0 (Osqp.updateRhoVec env s).1 c r.1 ∧ r.2 = (Osqp.updateRhoVec env s).2 := by
  unfold updateRhoVec Osqp.updateRhoVec
  refine .bind (setRhoVec_ok hF hv h) fun r ⟨h, e⟩ => ?_
  dsimp only
  rw [e]
  have hp : (0 : K) < clampRho s.settings.rho := rhoMin_pos.trans_le (clampRho_lo _)
  by_cases hc : (Osqp.setRhoVec s).2 = true
  · rw [if_pos hc, if_pos hc]
    refine .bind (h.newLin hI (by exact hp.ne') fun _ => rhoVec_ne _ hp) fun t ht => .pure ht
  · rw [if_neg hc, if_neg hc]
    exact .pure ⟨h, rfl⟩

/-! ## Arguments -/

/-- A pointer argument and its vector. -/
def ArgOf (G : ℕ → Prop) (M0 : Mach L K) {n : ℕ} : Option Ref → Option (Vec K n) → Prop
  | none, none => True
  | some a, some v => Has M0.σ a n v ∧ G a.blk
  | _, _ => False

theorem Lv.copyArg (h : Lv F R G M0 s c M) {k : Name} (hk : k.sol = false) (hx : k ≠ .xt) (hz : k ≠ .zt) (hp : k.pol = false) {f v : Vec K (k.dim d.n d.m)}
    (hf : vals s c k = some f) {a : Ref} (ha : Has M0.σ a (k.dim d.n d.m) v ∧ G a.blk)
    (hV : Function.update (vals s c) k (some v) = vals s' c') (hg : scal s' = scal s) (hr : Rest s s') :
    Ok (M.vec fun W => copy (W k) a) (Lv F R G M0 s' c') := by
  obtain ⟨h1, h2⟩ := h.arg ha.1 ha.2
  exact h.put hk hx hz hp (copy_holds (h.mem k f hf).toRoom h1 (.inl (h2 k hk))) hV hg hr

abbrev _root_.Osqp.Solver.zpo (s : Solver d K) (o : Option (Vec K d.m)) : Solver d K := { s with work := { s.work with z_prev := o.getD s.work.z_prev } }
abbrev _root_.Osqp.Solver.dyo (s : Solver d K) (o : Option (Vec K d.m)) : Solver d K := { s with work := { s.work with delta_y := o.getD s.work.delta_y } }

/-- The scaled bound. -/
abbrev _root_.Osqp.Solver.scE (s : Solver d K) (v : Vec K d.m) : Vec K d.m := if s.settings.scaling ≠ 0 then vEwProd v s.work.scaling.E else v

theorem copyL_ok {l : Option Ref} {l' : Option (Vec K d.m)} (hl : ArgOf G M0 l l') (h : Lv F R G M0 s c M) :
    Ok (ifArg l (fun a W => copy (W .zPrev) a) M) (Lv F R G M0 (s.zpo l') c) := by
  rcases l with _ | a <;> rcases l' with _ | v
  · exact .pure h
  · exact False.elim hl
  · exact False.elim hl
  · exact h.copyArg (k := .zPrev) rfl (by decide) (by decide) rfl rfl hl vv rfl rr

theorem copyU_ok {l : Option Ref} {l' : Option (Vec K d.m)} (hl : ArgOf G M0 l l') (h : Lv F R G M0 s c M) :
    Ok (ifArg l (fun a W => copy (W .dy) a) M) (Lv F R G M0 (s.dyo l') c) := by
  rcases l with _ | a <;> rcases l' with _ | v
  · exact .pure h
  · exact False.elim hl
  · exact False.elim hl
  · exact h.copyArg (k := .dy) rfl (by decide) (by decide) rfl rfl hl vv rfl rr

theorem scaleL_ok {l : Option Ref} {l' : Option (Vec K d.m)} (hl : ArgOf G M0 l l') (hs : s.settings.scaling ≠ 0) (h : Lv F R G M0 (s.zpo l') c M) :
    Ok (ifArg l (fun _ W => ewProd (W .zPrev) (W .zPrev) (W .E)) M) (Lv F R G M0 (s.zpo (l'.map s.scE)) c) := by
  rcases l with _ | a <;> rcases l' with _ | v
  · exact .pure h
  · exact False.elim hl
  · exact False.elim hl
  · rw [show (some v).map s.scE = some (vEwProd v s.work.scaling.E) from congrArg some (if_pos hs)]
    show Ok (M.vec fun W => ewProd (W .zPrev) (W .zPrev) (W .E)) _
    exact h.put (k := .zPrev) rfl (by decide) (by decide) rfl (s' := s.zp (vEwProd v s.work.scaling.E)) (c' := c)
      (ewProd_holds (h.mem .zPrev _ rfl).toRoom (h.mem .zPrev _ rfl) (h.lay.fits _ _) (h.mem .E _ (if_pos hs)) (h.lay.use _ _)) vv rfl rr

theorem scaleU_ok {l : Option Ref} {l' : Option (Vec K d.m)} (hl : ArgOf G M0 l l') (hs : s.settings.scaling ≠ 0) (h : Lv F R G M0 (s.dyo l') c M) :
    Ok (ifArg l (fun _ W => ewProd (W .dy) (W .dy) (W .E)) M) (Lv F R G M0 (s.dyo (l'.map s.scE)) c) := by
  rcases l with _ | a <;> rcases l' with _ | v
  · exact .pure h
  · exact False.elim hl
  · exact False.elim hl
  · rw [show (some v).map s.scE = some (vEwProd v s.work.scaling.E) from congrArg some (if_pos hs)]
    show Ok (M.vec fun W => ewProd (W .dy) (W .dy) (W .E)) _
    exact h.put (k := .dy) rfl (by decide) (by decide) rfl (s' := s.dy (vEwProd v s.work.scaling.E)) (c' := c)
      (ewProd_holds (h.mem .dy _ rfl).toRoom (h.mem .dy _ rfl) (h.lay.fits _ _) (h.mem .E _ (if_pos hs)) (h.lay.use _ _)) vv rfl rr

/-- The comparison of the new bounds. -/
def _root_.Osqp.Solver.boundsOk (s : Solver d K) (l u : Option (Vec K d.m)) : Bool :=
  match l, u with
  | some _, some _ => vAllLeq s.work.z_prev s.work.delta_y
  | some _, none => vAllLeq s.work.z_prev s.work.data.u
  | none, _ => vAllLeq s.work.data.l s.work.delta_y

theorem newBounds_ok {l u : Option Ref} {l' u' : Option (Vec K d.m)} (hl : ArgOf G M0 l l') (hu : ArgOf G M0 u u') (h : Lv F R G M0 s c M) :
    Ok (newBounds l u M) fun r => Lv F R G M0 ((s.zpo (l'.map s.scE)).dyo (u'.map s.scE)) c r.1 ∧
      r.2 = ((s.zpo (l'.map s.scE)).dyo (u'.map s.scE)).boundsOk l' u' := by
  unfold newBounds
  refine .bind (copyL_ok hl h) fun M h => .bind (copyU_ok hu h) fun M h => ?_
  refine .bind (P := Lv F R G M0 ((s.zpo (l'.map s.scE)).dyo (u'.map s.scE)) c) ?_ fun M h => ?_
  · rw [h.g]
    by_cases hs : s.settings.scaling ≠ 0
    · rw [if_pos hs]
      refine .bind (scaleL_ok (s := s.dyo u') hl hs h) fun M h => ?_
      exact scaleU_ok (s := s.zpo (l'.map s.scE)) hu hs h
    · rw [if_neg hs]
      refine .pure ?_
      have e : s.scE = id := by funext v; exact if_neg hs
      rw [e, Option.map_id]
      exact h
  · rcases l with _ | a <;> rcases l' with _ | v
    any_goals first | exact False.elim hl | skip
    · exact .val (allLeq_holds (h.mem .l _ rfl) (h.mem .dy _ rfl)) (.pure ⟨h, rfl⟩)
    · rcases u with _ | b <;> rcases u' with _ | w
      any_goals first | exact False.elim hu | skip
      · exact .val (allLeq_holds (h.mem .zPrev _ rfl) (h.mem .u _ rfl)) (.pure ⟨h, rfl⟩)
      · exact .val (allLeq_holds (h.mem .zPrev _ rfl) (h.mem .dy _ rfl)) (.pure ⟨h, rfl⟩)

abbrev _root_.Osqp.Solver.swL (s : Solver d K) (l : Option (Vec K d.m)) : Solver d K := match l with
  | some _ => { s with work := { s.work with z_prev := s.work.data.l, data := { s.work.data with l := s.work.z_prev } } }
  | none => s
abbrev _root_.Osqp.Solver.swU (s : Solver d K) (u : Option (Vec K d.m)) : Solver d K := match u with
  | some _ => { s with work := { s.work with delta_y := s.work.data.u, data := { s.work.data with u := s.work.delta_y } } }
  | none => s

theorem swapL_ok {l : Option Ref} {l' : Option (Vec K d.m)} (hl : ArgOf G M0 l l') (h : Lv F R G M0 s c M) :
    Lv F R G M0 (s.swL l') c (if l.isSome then { M with W := swap .zPrev .l M.W } else M) := by
  rcases l with _ | a <;> rcases l' with _ | v
  any_goals first | exact False.elim hl | skip
  · exact h
  · refine h.swap (a := .zPrev) (b := .l) rfl rfl (by decide) (by decide) (by decide) (by decide) rfl rfl (fun k g hk => ?_) rfl rr
    cases k
    case zPrev => exact h.mem .l g hk
    case l => exact h.mem .zPrev g hk
    all_goals exact h.mem _ g hk

theorem swapU_ok {l : Option Ref} {l' : Option (Vec K d.m)} (hl : ArgOf G M0 l l') (h : Lv F R G M0 s c M) :
    Lv F R G M0 (s.swU l') c (if l.isSome then { M with W := swap .dy .u M.W } else M) := by
  rcases l with _ | a <;> rcases l' with _ | v
  any_goals first | exact False.elim hl | skip
  · exact h
  · refine h.swap (a := .dy) (b := .u) rfl rfl (by decide) (by decide) (by decide) (by decide) rfl rfl (fun k g hk => ?_) rfl rr
    cases k
    case dy => exact h.mem .u g hk
    case u => exact h.mem .dy g hk
    all_goals exact h.mem _ g hk

theorem ArgOf.some {n : ℕ} {a : Option Ref} {v : Option (Vec K n)} (h : ArgOf G M0 a v) : a.isSome = v.isSome := by
  rcases a with _ | a <;> rcases v with _ | v
  any_goals first | exact False.elim h | skip
  all_goals rfl

/-- The bounds of the solver layer. -/
def specBounds (env : Env d K) (s : Solver d K) (l u : Option (Vec K d.m)) : Solver d K × ℤ × Bool :=
  if l.isSome || u.isSome then
    let s := (s.zpo (l.map s.scE)).dyo (u.map s.scE)
    if s.boundsOk l u then
      let s := (s.swL l).swU u
      if s.settings.rho_is_vec ≠ 0 then ((Osqp.updateRhoVec env s).1, (Osqp.updateRhoVec env s).2, false) else (s, 0, false)
    else (s, Err.dataValidation, true)
  else (s, 0, false)

theorem setBounds_ok {cfg : Cfg} {env : Env d K} (hF : FixIs cfg env F) (hI : Impl env F R) {l u : Option Ref} {l' u' : Option (Vec K d.m)}
    (hl : ArgOf G M0 l l') (hu : ArgOf G M0 u u') (h : Lv F R G M0 s c M) :
    Ok (setBounds F l u M) fun r => Lv F R G M0 (specBounds env s l' u').1 c r.1 ∧ r.2 = (specBounds env s l' u').2 := by
  unfold setBounds specBounds
  rw [hl.some, hu.some]
  by_cases hn : (l'.isSome || u'.isSome) = true
  · rw [if_pos hn, if_pos hn]
    refine .bind (newBounds_ok hl hu h) fun r ⟨h, e⟩ => ?_
    dsimp only
    rw [e]
    by_cases hb : ((s.zpo (l'.map s.scE)).dyo (u'.map s.scE)).boundsOk l' u' = true
    · rw [if_pos hb, if_pos hb]
      have h := swapU_ok hu (swapL_ok hl h)
      rw [hl.some, hu.some] at h
      generalize ((((s.zpo (l'.map s.scE)).dyo (u'.map s.scE)).swL l').swU u') = s2 at h ⊢
      have eg := h.g
      generalize (ite (u'.isSome = true) _ _ : Mach L K) = M2 at h eg ⊢
      rw [eg]
      by_cases hv : s2.settings.rho_is_vec ≠ 0
      · rw [if_pos hv, if_pos hv]
        exact .bind (updateRhoVec_ok hF hI hv h) fun t ht => .pure ⟨ht.1, by rw [ht.2]⟩
      · rw [if_neg hv, if_neg hv]
        exact .pure ⟨h, rfl⟩
    · rw [if_neg hb, if_neg hb]
      exact .pure ⟨h, rfl⟩
  · rw [if_neg hn, if_neg hn]
    exact .pure ⟨h, rfl⟩

/-- The linear cost of the solver layer. -/
def specCost (s : Solver d K) (q : Option (Vec K d.n)) : Solver d K := match q with
  | some q => s.qq (if s.settings.scaling ≠ 0 then vScale (vEwProd q s.work.scaling.D) s.work.scaling.c else q)
  | none => s

theorem setCost_ok {q : Option Ref} {q' : Option (Vec K d.n)} (hq : ArgOf G M0 q q') (h : Lv F R G M0 s c M) :
    Ok (setCost q M) (Lv F R G M0 (specCost s q') c) := by
  unfold setCost specCost
  rcases q with _ | a <;> rcases q' with _ | v
  any_goals first | exact False.elim hq | skip
  · exact .pure h
  · refine .bind (h.copyArg (k := .q) (s' := s.qq v) (c' := c) rfl (by decide) (by decide) rfl rfl hq vv rfl rr) fun M h => ?_
    rw [h.g]
    by_cases hs : s.settings.scaling ≠ 0
    · rw [if_pos (by simpa using hs)]
      dsimp only
      rw [if_pos hs]
      refine .bind (h.put (k := .q) rfl (by decide) (by decide) rfl (s' := s.qq (vEwProd v s.work.scaling.D)) (c' := c)
        (ewProd_holds (h.mem .q _ rfl).toRoom (h.mem .q _ rfl) (h.lay.fits _ _) (h.mem .D _ (if_pos hs)) (h.lay.use _ _)) vv rfl rr) fun M h => ?_
      refine .val (v := (s.work.scaling.c, s.work.scaling.cinv)) (by rw [h.g]; exact if_pos hs) ?_
      exact h.put (k := .q) rfl (by decide) (by decide) rfl (multScalar_holds (h.mem .q _ rfl) _) vv rfl rr
    · rw [if_neg (by simpa using hs)]
      dsimp only
      rw [if_neg hs]
      exact .pure h

/-- `osqp_update_data_vec` after the timers. -/
def vecBody (cfg : Cfg) (env : Env d K) (s : Solver d K) (q_new : Option (Vec K d.n)) (l_new u : Option (Vec K d.m)) : Solver d K × ℤ :=
  let sc (v : Vec K d.m) : Vec K d.m := if s.settings.scaling ≠ 0 then vEwProd v s.work.scaling.E else v
  -- copy to scratch
  let s := match l_new with
    | some l => { s with work := { s.work with z_prev := sc l } }
    | none => s
  let s := match u with
    | some u => { s with work := { s.work with delta_y := sc u } }
    | none => s
  let bad := match l_new, u with
    | some _, some _ => !vAllLeq s.work.z_prev s.work.delta_y
    | some _, none => !vAllLeq s.work.z_prev s.work.data.u
    | none, some _ => !vAllLeq s.work.data.l s.work.delta_y
    | none, none => false
  if bad then (s, Err.dataValidation)
  else
    -- swap into place
    let s := match l_new with
      | some _ => { s with work := { s.work with
          z_prev := s.work.data.l, data := { s.work.data with l := s.work.z_prev } } }
      | none => s
    let s := match u with
      | some _ => { s with work := { s.work with
          delta_y := s.work.data.u, data := { s.work.data with u := s.work.delta_y } } }
      | none => s
    let r := if (l_new.isSome || u.isSome) && decide (s.settings.rho_is_vec ≠ 0)
      then Osqp.updateRhoVec env s else (s, 0)
    let s := r.1
    let ef := r.2
    let s := match q_new with
      | some q =>
        let q' := if s.settings.scaling ≠ 0 then vScale (vEwProd q s.work.scaling.D) s.work.scaling.c else q
        { s with work := { s.work with data := { s.work.data with q := q' } } }
      | none => s
    let s := { s with info := resetInfo cfg s.info }
    let s := if cfg.profiling then addUpdateTime env s else s
    (s, ef)

/-- The end of `osqp_update_data_vec`. -/
def vecEnd (cfg : Cfg) (env : Env d K) (s : Solver d K) : Solver d K :=
  let s1 : Solver d K := { s with info := resetInfo cfg s.info }
  if cfg.profiling then addUpdateTime env s1 else s1

abbrev vecSpec (cfg : Cfg) (env : Env d K) (s : Solver d K) (q : Option (Vec K d.n)) (l u : Option (Vec K d.m)) : Solver d K × ℤ :=
  let r := specBounds env s l u
  if r.2.2 then (r.1, r.2.1) else (vecEnd cfg env (specCost r.1 q), r.2.1)

/-- `vecBody` with new bounds, after they are accepted. -/
def vecRest (cfg : Cfg) (env : Env d K) (q : Option (Vec K d.n)) (s : Solver d K) : Solver d K × ℤ :=
  let r := if s.settings.rho_is_vec ≠ 0 then Osqp.updateRhoVec env s else (s, 0)
  (vecEnd cfg env (specCost r.1 q), r.2)

theorem vecRest_eq (cfg : Cfg) (env : Env d K) (q : Option (Vec K d.n)) (s : Solver d K) : vecRest cfg env q s =
    let r : Solver d K × ℤ × Bool := if s.settings.rho_is_vec ≠ 0 then ((Osqp.updateRhoVec env s).1, (Osqp.updateRhoVec env s).2, false) else (s, 0, false)
    if r.2.2 then (r.1, r.2.1) else (vecEnd cfg env (specCost r.1 q), r.2.1) := by
  unfold vecRest
  split_ifs <;> rfl

theorem vecRest_eq' (cfg : Cfg) (env : Env d K) (q : Option (Vec K d.n)) (s : Solver d K) : vecRest cfg env q s =
    let r := if true && decide (s.settings.rho_is_vec ≠ 0) then Osqp.updateRhoVec env s else (s, 0)
    let s := r.1
    let ef := r.2
    let s := match q with
      | some q =>
        let q' := if s.settings.scaling ≠ 0 then vScale (vEwProd q s.work.scaling.D) s.work.scaling.c else q
        { s with work := { s.work with data := { s.work.data with q := q' } } }
      | none => s
    let s := { s with info := resetInfo cfg s.info }
    let s := if cfg.profiling then addUpdateTime env s else s
    (s, ef) := by
  unfold vecRest vecEnd specCost
  have e : (true && decide (s.settings.rho_is_vec ≠ 0) : Bool) = true ↔ s.settings.rho_is_vec ≠ 0 := by simp
  simp only [e]

theorem vec_some (cfg : Cfg) (env : Env d K) (s : Solver d K) (q : Option (Vec K d.n)) (l u : Option (Vec K d.m)) (hn : (l.isSome || u.isSome) = true) :
    vecSpec cfg env s q l u = if ((s.zpo (l.map s.scE)).dyo (u.map s.scE)).boundsOk l u = true then
      vecRest cfg env q ((((s.zpo (l.map s.scE)).dyo (u.map s.scE)).swL l).swU u) else ((s.zpo (l.map s.scE)).dyo (u.map s.scE), Err.dataValidation) := by
  unfold vecSpec specBounds
  rw [if_pos hn]
  dsimp only
  by_cases hb : ((s.zpo (l.map s.scE)).dyo (u.map s.scE)).boundsOk l u = true
  · rw [if_pos hb, if_pos hb, vecRest_eq]
  · rw [if_neg hb, if_neg hb]; rfl

theorem vec_none (cfg : Cfg) (env : Env d K) (s : Solver d K) (q : Option (Vec K d.n)) : vecBody cfg env s q none none = vecSpec cfg env s q none none := by
  rcases q with _ | q <;> rfl

theorem ite_bnot {α : Type*} (b : Bool) (x y : α) : (if (!b) = true then x else y) = if b = true then y else x := by cases b <;> rfl

theorem vec_lu (cfg : Cfg) (env : Env d K) (s : Solver d K) (q : Option (Vec K d.n)) (l u : Vec K d.m) :
    vecBody cfg env s q (some l) (some u) = vecSpec cfg env s q (some l) (some u) := by
  rw [vec_some _ _ _ _ _ _ rfl, ← ite_bnot, vecRest_eq']
  rfl

theorem vec_l (cfg : Cfg) (env : Env d K) (s : Solver d K) (q : Option (Vec K d.n)) (l : Vec K d.m) :
    vecBody cfg env s q (some l) none = vecSpec cfg env s q (some l) none := by
  rw [vec_some _ _ _ _ _ _ rfl, ← ite_bnot, vecRest_eq']
  rfl

theorem vec_u (cfg : Cfg) (env : Env d K) (s : Solver d K) (q : Option (Vec K d.n)) (u : Vec K d.m) :
    vecBody cfg env s q none (some u) = vecSpec cfg env s q none (some u) := by
  rw [vec_some _ _ _ _ _ _ rfl, ← ite_bnot, vecRest_eq']
  rfl

theorem specBody (cfg : Cfg) (env : Env d K) (s : Solver d K) (q : Option (Vec K d.n)) (l u : Option (Vec K d.m)) :
    vecBody cfg env s q l u = vecSpec cfg env s q l u := by
  rcases l with _ | l <;> rcases u with _ | u
  · exact vec_none ..
  · exact vec_u ..
  · exact vec_l ..
  · exact vec_lu ..

theorem specVec (cfg : Cfg) (env : Env d K) (s : Solver d K) (q : Option (Vec K d.n)) (l u : Option (Vec K d.m)) :
    osqpUpdateDataVec cfg env s q l u = vecBody cfg env (if cfg.profiling then clearUpdateTime s else s) q l u := rfl

theorem updateDataVec_ok {cfg : Cfg} {env : Env d K} (hF : FixIs cfg env F) (hI : Impl env F R) {q l u : Option Ref} {q' : Option (Vec K d.n)}
    {l' u' : Option (Vec K d.m)} (hq : ArgOf G M0 q q') (hl : ArgOf G M0 l l') (hu : ArgOf G M0 u u') (h : Lv F R G M0 s c M) :
    Ok (updateDataVec F q l u M) fun r => Lv F R G M0 (osqpUpdateDataVec cfg env s q' l' u').1 c r.1 ∧ r.2 = (osqpUpdateDataVec cfg env s q' l' u').2 := by
  rw [specVec, specBody]
  unfold updateDataVec vecSpec
  refine .bind (setBounds_ok hF hI hl hu (clearTime_ok hF h)) fun r ⟨h, e⟩ => ?_
  dsimp only
  rw [e]
  generalize specBounds env (if cfg.profiling = true then clearUpdateTime s else s) l' u' = t at h ⊢
  by_cases hb : t.2.2 = true
  · rw [if_pos hb, if_pos hb]
    exact .pure ⟨h, rfl⟩
  · rw [if_neg hb, if_neg hb]
    exact .bind (setCost_ok hq h) fun M h => .pure ⟨endUpdate_ok hF h, rfl⟩

/-! ## Warm start -/

theorem Lv.mul (h : Lv F R G M0 s c M) {a k : Name} (hk : k.sol = false) (hp : k.pol = false) (ha : a ≠ .zt) (hz : k ≠ .zt) (hx : k ≠ .xt) (hak : a ≠ k)
    {fa : Vec K (a.dim d.n d.m)} (hfa : vals s c a = some fa) {fk f : Vec K (k.dim d.n d.m)} (hfk : vals s c k = some fk)
    {op : Buf K → Buf K → Option (Buf K)}
    (ho : ∀ x y : Buf K, Arr x fa → k.dim d.n d.m ≤ y.size → ∃ y', op x y = some y' ∧ Arr y' f)
    (hV : Function.update (vals s c) k (some f) = vals s' c') (hg : scal s' = scal s) (hr : Rest s s') :
    Ok (M.vec (fun W => product op (W a) (W k))) (Lv F R G M0 s' c') := by
  have h1 := h.mem a fa hfa
  have h2 := h.mem k fk hfk
  have oa := h.lay.start a ha
  have ok := h.lay.start k hz
  have hb : (M.W a).blk ≠ (M.W k).blk := h.lay.own a k hak (fun e => hz e.2) fun e => ha e.1
  obtain ⟨y', e, hy⟩ := ho _ _ (h1.arr oa) (by have := h2.room; omega : _ ≤ (M.σ (M.W k).blk).size)
  refine h.putBlk hk hx hz hp (f := f) ⟨Function.update M.σ (M.W k).blk y', by unfold product; rw [if_pos ⟨oa, ok, hb⟩, e]; rfl, ?_,
    fun b hb => Function.update_of_ne hb _ _⟩ hV hg hr
  refine ⟨h2.len, by rw [ok, Function.update_self]; have := hy.1; omega, fun i => ?_⟩
  rw [ok, Function.update_self, Nat.zero_add]; exact hy.2 i

theorem Lv.coldStart (h : Lv F R G M0 s c M) : Ok (coldStart M) (Lv F R G M0 (Osqp.coldStart s) c) := by
  refine .bind (h.put (k := .x) rfl (by decide) (by decide) rfl (s' := s.xx (vSet 0)) (c' := c) (setScalar_holds (h.mem .x _ rfl).toRoom _) vv rfl rr) fun M h => ?_
  refine .bind (h.put (k := .z) rfl (by decide) (by decide) rfl (s' := (s.xx (vSet 0)).zz (vSet 0)) (c' := c) (setScalar_holds (h.mem .z _ rfl).toRoom _) vv rfl rr) fun M h => ?_
  exact h.put (k := .y) rfl (by decide) (by decide) rfl (s' := Osqp.coldStart s) (c' := c) (setScalar_holds (h.mem .y _ rfl).toRoom _) vv rfl rr

abbrev _root_.Osqp.Solver.xxo (s : Solver d K) (o : Option (Vec K d.n)) : Solver d K := { s with work := { s.work with x := o.getD s.work.x } }
abbrev _root_.Osqp.Solver.yyo (s : Solver d K) (o : Option (Vec K d.m)) : Solver d K := { s with work := { s.work with y := o.getD s.work.y } }
abbrev _root_.Osqp.Solver.scX (s : Solver d K) (v : Vec K d.n) : Vec K d.n := if s.settings.scaling ≠ 0 then vEwProd v s.work.scaling.Dinv else v
abbrev _root_.Osqp.Solver.scY (s : Solver d K) (v : Vec K d.m) : Vec K d.m :=
  if s.settings.scaling ≠ 0 then vScale (vEwProd v s.work.scaling.Einv) s.work.scaling.c else v

theorem copyX_ok {x : Option Ref} {x' : Option (Vec K d.n)} (hx : ArgOf G M0 x x') (h : Lv F R G M0 s c M) :
    Ok (ifArg x (fun a W => copy (W .x) a) M) (Lv F R G M0 (s.xxo x') c) := by
  rcases x with _ | a <;> rcases x' with _ | v
  any_goals first | exact False.elim hx | skip
  · exact .pure h
  · exact h.copyArg (k := .x) rfl (by decide) (by decide) rfl rfl hx vv rfl rr

theorem copyY_ok {y : Option Ref} {y' : Option (Vec K d.m)} (hy : ArgOf G M0 y y') (h : Lv F R G M0 s c M) :
    Ok (ifArg y (fun a W => copy (W .y) a) M) (Lv F R G M0 (s.yyo y') c) := by
  rcases y with _ | a <;> rcases y' with _ | v
  any_goals first | exact False.elim hy | skip
  · exact .pure h
  · exact h.copyArg (k := .y) rfl (by decide) (by decide) rfl rfl hy vv rfl rr

theorem scaleX_ok {x : Option Ref} {x' : Option (Vec K d.n)} (hx : ArgOf G M0 x x') (hs : s.settings.scaling ≠ 0) (h : Lv F R G M0 (s.xxo x') c M) :
    Ok (ifArg x (fun _ W => ewProd (W .x) (W .x) (W .Dinv)) M) (Lv F R G M0 (s.xxo (x'.map s.scX)) c) := by
  rcases x with _ | a <;> rcases x' with _ | v
  any_goals first | exact False.elim hx | skip
  · exact .pure h
  · rw [show (some v).map s.scX = some (vEwProd v s.work.scaling.Dinv) from congrArg some (if_pos hs)]
    show Ok (M.vec fun W => ewProd (W .x) (W .x) (W .Dinv)) _
    exact h.put (k := .x) rfl (by decide) (by decide) rfl (s' := s.xx (vEwProd v s.work.scaling.Dinv)) (c' := c)
      (ewProd_holds (h.mem .x _ rfl).toRoom (h.mem .x _ rfl) (h.lay.fits _ _) (h.mem .Dinv _ (if_pos hs)) (h.lay.use _ _)) vv rfl rr

theorem scaleY_ok {y : Option Ref} {y' : Option (Vec K d.m)} (hy : ArgOf G M0 y y') (hs : s.settings.scaling ≠ 0) (h : Lv F R G M0 (s.yyo y') c M) :
    Ok ((ifArg y (fun _ W => ewProd (W .y) (W .y) (W .Einv)) M).bind fun M =>
      if y.isSome then M.g.scl.bind fun c => M.vec fun W => multScalar (W .y) c.1 else some M) (Lv F R G M0 (s.yyo (y'.map s.scY)) c) := by
  rcases y with _ | a <;> rcases y' with _ | v
  any_goals first | exact False.elim hy | skip
  · exact .pure h
  · rw [show (some v).map s.scY = some (vScale (vEwProd v s.work.scaling.Einv) s.work.scaling.c) from congrArg some (if_pos hs)]
    show Ok ((M.vec fun W => ewProd (W .y) (W .y) (W .Einv)).bind _) _
    refine .bind (h.put (k := .y) rfl (by decide) (by decide) rfl (s' := s.yy (vEwProd v s.work.scaling.Einv)) (c' := c)
      (ewProd_holds (h.mem .y _ rfl).toRoom (h.mem .y _ rfl) (h.lay.fits _ _) (h.mem .Einv _ (if_pos hs)) (h.lay.use _ _)) vv rfl rr) fun M h => ?_
    rw [if_pos (show (some a).isSome = true from rfl)]
    refine .val (v := (s.work.scaling.c, s.work.scaling.cinv)) (by rw [h.g]; exact if_pos hs) ?_
    exact h.put (k := .y) rfl (by decide) (by decide) rfl (multScalar_holds (h.mem .y _ rfl) _) vv rfl rr

/-- The warm start of the solver layer, after the settings. -/
def specWarm (s : Solver d K) (x : Option (Vec K d.n)) (y : Option (Vec K d.m)) : Solver d K :=
  let s := (s.xxo (x.map s.scX)).yyo (y.map s.scY)
  match x with
  | some _ => s.zz (spMul d.A s.work.data.A s.work.x)
  | none => s

theorem specWarm_eq (s : Solver d K) (x : Option (Vec K d.n)) (y : Option (Vec K d.m)) : osqpWarmStart s x y =
    (specWarm (if s.settings.warm_starting = 0 then { s with settings := { s.settings with warm_starting := 1 } } else s) x y, 0) := by
  rcases x with _ | x <;> rcases y with _ | y <;> rfl

theorem warmStart_ok {x y : Option Ref} {x' : Option (Vec K d.n)} {y' : Option (Vec K d.m)} (hx : ArgOf G M0 x x') (hy : ArgOf G M0 y y')
    (h : Lv F R G M0 s c M) :
    Ok (warmStart F x y M) fun r => Lv F R G M0 (osqpWarmStart s x' y').1 c r.1 ∧ r.2 = (osqpWarmStart s x' y').2 := by
  rw [specWarm_eq]
  unfold warmStart
  extract_lets M1
  have h1 : Lv F R G M0 (if s.settings.warm_starting = 0 then { s with settings := { s.settings with warm_starting := 1 } } else s) c M1 := by
    simp only [M1, h.g]
    split_ifs
    · lset h
    · exact h
  clear_value M1
  generalize (if s.settings.warm_starting = 0 then ({ s with settings := { s.settings with warm_starting := 1 } } : Solver d K) else s) = s1 at h1 ⊢
  clear h
  rename' h1 => h
  refine .bind (copyX_ok hx h) fun M h => .bind (copyY_ok hy h) fun M h => ?_
  refine .bind (P := Lv F R G M0 ((s1.xxo (x'.map s1.scX)).yyo (y'.map s1.scY)) c) ?_ fun M h => ?_
  · rw [h.g]
    by_cases hs : s1.settings.scaling ≠ 0
    · rw [if_pos hs]
      refine .bind (scaleX_ok (s := s1.yyo y') hx hs h) fun M h => ?_
      exact scaleY_ok (s := s1.xxo (x'.map s1.scX)) hy hs h
    · rw [if_neg hs]
      have e : s1.scX = id := by funext v; exact if_neg hs
      have e' : s1.scY = id := by funext v; exact if_neg hs
      rw [e, e', Option.map_id, Option.map_id]
      exact .pure h
  · unfold specWarm
    rcases x with _ | a <;> rcases x' with _ | v
    any_goals first | exact False.elim hx | skip
    · exact .pure ⟨h, rfl⟩
    · refine .bind (P := Lv F R G M0 _ c) ?_ fun M h => .pure ⟨h, rfl⟩
      show Ok (mulA F .x .z M) _
      exact h.mul (a := .x) (k := .z) rfl rfl (by decide) (by decide) (by decide) (by decide) rfl rfl
        (c' := c) (fun x y hx hy => refine_axpy h.sh.A hx hy) vv rfl rr

theorem updateSettings_ok {cfg : Cfg} {env : Env d K} (hF : FixIs cfg env F) (new : Option (Settings K)) (h : Lv F R G M0 s c M) :
    Lv F R G M0 (osqpUpdateSettings cfg s new).1 c (updateSettings F new M).1 ∧ (updateSettings F new M).2 = (osqpUpdateSettings cfg s new).2 := by
  unfold updateSettings osqpUpdateSettings
  rcases new with _ | n
  · exact ⟨h, rfl⟩
  dsimp only
  rw [hF.cfg]
  by_cases hb : validateSettings cfg n false = true
  · rw [if_pos hb, if_pos hb]; exact ⟨h, rfl⟩
  · rw [if_neg hb, if_neg hb]
    refine ⟨?_, rfl⟩
    lset h

/-! ## The solution for the caller -/

/-- The arrays of an `OSQPSolution`. -/
inductive Slot
  | x | y | pc | dc
  deriving DecidableEq

def Slot.dim (n m : ℕ) : Slot → ℕ
  | .x | .dc => n
  | .y | .pc => m

def Dst.at (S : Dst) : Slot → Ref
  | .x => S.x
  | .y => S.y
  | .pc => S.pc
  | .dc => S.dc

/-- The caller's arrays are apart from each other and from the solver's. -/
structure DstOk (W : Ptrs) (G : ℕ → Prop) (S : Dst) : Prop where
  apart : ∀ t t', t ≠ t' → Apart (S.at t) (S.at t')
  own : ∀ (k : Name) t, (W k).blk ≠ (S.at t).blk
  out : ∀ t, ¬ G (S.at t).blk

/-- Invariant of `osqp_get_solution`: in addition the caller's arrays hold `V`. -/
structure Ld (F : Fix L K) (R : LinSys d K → L → Prop) (G : ℕ → Prop) (M0 : Mach L K) (S : Dst) (s : Solver d K) (c : Scr d K)
    (V : (t : Slot) → Option (Vec K (t.dim d.n d.m))) (M : Mach L K) : Prop where
  lv : Lv F R G M0 s c M
  ptrs : M.W = M0.W
  ok : DstOk M0.W G S
  room : ∀ t, Room M.σ (S.at t) (t.dim d.n d.m)
  val : ∀ t f, V t = some f → Has M.σ (S.at t) (t.dim d.n d.m) f

variable {S : Dst} {V V' : (t : Slot) → Option (Vec K (t.dim d.n d.m))}

/-- A vector of the solver is assigned. -/
theorem Ld.put (h : Ld F R G M0 S s c V M) {k : Name} (hk : k.sol = false) (hx : k ≠ .xt) (hz : k ≠ .zt) (hp : k.pol = false) {f : Vec K (k.dim d.n d.m)}
    {op : Ptrs → Store K → Option (Store K)} (ho : ∃ σ', op M.W M.σ = some σ' ∧ Has σ' (M.W k) (k.dim d.n d.m) f ∧ OnlyAt (M.W k) M.σ σ')
    (hV : Function.update (vals s c) k (some f) = vals s' c') (hg : scal s' = scal s) (hr : Rest s s') : Ok (M.vec op) (Ld F R G M0 S s' c' V) := by
  obtain ⟨σ', e, h1, h2⟩ := ho
  obtain ⟨M', e', h'⟩ := h.lv.put hk hx hz hp ⟨σ', e, h1, h2⟩ hV hg hr
  refine ⟨M', e', ?_⟩
  have em : { M with σ := σ' } = M' := by unfold Mach.vec at e'; rw [e] at e'; exact Option.some.inj e'
  subst em
  have hs : ∀ t, σ' (S.at t).blk = M.σ (S.at t).blk := fun t => h2.same (by rw [h.ptrs]; exact (h.ok.own k t).symm)
  refine ⟨h', h.ptrs, h.ok, fun t => ⟨(h.room t).len, ?_⟩, fun t f hf => ⟨(h.room t).len, ?_, fun i => ?_⟩⟩
  · show _ ≤ (σ' _).size
    rw [hs]; exact (h.room t).room
  · show _ ≤ (σ' _).size
    rw [hs]; exact (h.room t).room
  · show (σ' _).cell _ = _
    rw [hs]; exact (h.val t f hf).val i

/-- An array of the caller is assigned. -/
theorem Ld.give (h : Ld F R G M0 S s c V M) (t : Slot) {f : Vec K (t.dim d.n d.m)} {op : Ptrs → Store K → Option (Store K)}
    (ho : ∃ σ', op M.W M.σ = some σ' ∧ Has σ' (S.at t) (t.dim d.n d.m) f ∧ OnlyAt (S.at t) M.σ σ') (hV : Function.update V t (some f) = V') :
    Ok (M.vec op) (Ld F R G M0 S s c V') := by
  obtain ⟨σ', e, h1, h2⟩ := ho
  have A := h.lv.sh
  have hs : ∀ k : Name, σ' (M.W k).blk = M.σ (M.W k).blk := fun k => h2.same (by rw [h.ptrs]; exact h.ok.own k t)
  refine ⟨{ M with σ := σ' }, by unfold Mach.vec; rw [e]; rfl, ⟨⟨A.lay, ?_, fun j g hj => ⟨(A.mem j g hj).len, ?_, fun i => ?_⟩, A.types, A.lin, A.own, A.g, A.P, A.A, A.sol,
    fun j hj => ⟨(A.room j hj).len, ?_⟩, .inl rfl, rfl, fun _ _ _ => rfl⟩, h.lv.free, h.lv.sol, h.lv.out, fun b hb => ?_⟩, h.ptrs, h.ok, fun u => h2.room (h.room u), fun u g hg => ?_⟩
  · obtain ⟨x1, x2, x3⟩ := A.lay.len_xt
    show _ ≤ (σ' _).size
    rw [← x3, hs, x3]; exact A.size
  · show _ ≤ (σ' _).size
    rw [hs]; exact (A.mem j g hj).room
  · show (σ' _).cell _ = _
    rw [hs]; exact (A.mem j g hj).val i
  · show _ ≤ (σ' _).size
    rw [hs]; exact (A.room j hj).room
  · show σ' b = _
    rw [h2.same (fun e => h.ok.out t (by rw [← e]; exact hb))]; exact h.lv.kept b hb
  · rw [← hV] at hg
    by_cases eu : u = t
    · subst eu
      rw [Function.update_self] at hg
      rw [← Option.some.inj hg]; exact h1
    · rw [Function.update_of_ne eu] at hg
      exact h2.has (h.val u g hg) (h.ok.apart t u (Ne.symm eu))

/-- The contents of the caller's arrays. -/
abbrev slots (x : Option (Vec K d.n)) (y : Option (Vec K d.m)) (pc : Option (Vec K d.m)) (dc : Option (Vec K d.n)) : (t : Slot) → Option (Vec K (t.dim d.n d.m))
  | .x => x
  | .y => y
  | .pc => pc
  | .dc => dc

theorem Ld.m (h : Ld F R G M0 S s c V M) : Mem M.σ M.W (vals s c) := h.lv.mem
theorem Ld.away (h : Ld F R G M0 S s c V M) (t : Slot) (k : Name) : Apart (S.at t) (M.W k) := .inl (by rw [h.ptrs]; exact (h.ok.own k t).symm)

scoped macro "uu" : term => `(by funext t; cases t <;> rfl)

variable {px : Option (Vec K d.n)} {py ppc : Option (Vec K d.m)} {pdc : Option (Vec K d.n)}

theorem giveUnscaled_ok (hc : s.settings.scaling ≠ 0) (h : Ld F R G M0 S s c (slots px py ppc pdc) M) :
    Ok ((M.vec fun W => ewProd (W .xPrev) (W .x) (W .D)).bind fun M =>
      (M.vec fun W => ewProd (W .zPrev) (W .y) (W .E)).bind fun M =>
      M.g.scl.bind fun c =>
      (M.vec fun W => multScalar (W .zPrev) c.2).bind fun M =>
      (M.vec fun W => toRaw S.x (W .xPrev)).bind fun M =>
      M.vec fun W => toRaw S.y (W .zPrev))
    (Ld F R G M0 S ((s.xp (unscaleSolution s.work.scaling s.work.x s.work.y).1).zp (unscaleSolution s.work.scaling s.work.x s.work.y).2) c
      (slots (some (unscaleSolution s.work.scaling s.work.x s.work.y).1) (some (unscaleSolution s.work.scaling s.work.x s.work.y).2) ppc pdc)) := by
  set x1 := vEwProd s.work.x s.work.scaling.D with hx1
  set y1 := vEwProd s.work.y s.work.scaling.E with hy1
  refine .bind (h.put (k := .xPrev) rfl (by decide) (by decide) rfl (s' := s.xp x1) (c' := c)
    (ewProd_holds (h.m .xPrev _ rfl).toRoom (h.m .x _ rfl) (h.lv.lay.fits _ _) (h.m .D _ (if_pos hc)) (h.lv.lay.use _ _)) vv rfl rr) fun M h => ?_
  refine .bind (h.put (k := .zPrev) rfl (by decide) (by decide) rfl (s' := (s.xp x1).zp y1) (c' := c)
    (ewProd_holds (h.m .zPrev _ rfl).toRoom (h.m .y _ rfl) (h.lv.lay.fits _ _) (h.m .E _ (if_pos hc)) (h.lv.lay.use _ _)) vv rfl rr) fun M h => ?_
  refine .val (v := (s.work.scaling.c, s.work.scaling.cinv)) (by rw [h.lv.g]; exact if_pos hc) ?_
  refine .bind (h.put (k := .zPrev) rfl (by decide) (by decide) rfl (s' := (s.xp x1).zp (vScale y1 s.work.scaling.cinv)) (c' := c)
    (multScalar_holds (h.m .zPrev _ rfl) _) vv rfl rr) fun M h => ?_
  refine .bind (h.give .x (toRaw_holds (h.room .x) (h.m .xPrev _ rfl) (.inl (h.away .x _))) (V' := slots (some x1) py ppc pdc) uu) fun M h => ?_
  exact h.give .y (toRaw_holds (h.room .y) (h.m .zPrev _ rfl) (.inl (h.away .y _))) uu

theorem giveXY_ok (h : Ld F R G M0 S s c (slots px py ppc pdc) M) :
    Ok ((M.vec fun W => toRaw S.x (W .x)).bind fun M => M.vec fun W => toRaw S.y (W .y))
    (Ld F R G M0 S s c (slots (some s.work.x) (some s.work.y) ppc pdc)) := by
  refine .bind (h.give .x (toRaw_holds (h.room .x) (h.m .x _ rfl) (.inl (h.away .x _))) (V' := slots (some s.work.x) py ppc pdc) uu) fun M h => ?_
  exact h.give .y (toRaw_holds (h.room .y) (h.m .y _ rfl) (.inl (h.away .y _))) uu

theorem giveNan_ok (h : Ld F R G M0 S s c (slots px py ppc pdc) M) :
    Ok ((M.vec fun W => setScalar (W .dy) (Const.nan K)).bind fun M =>
      (M.vec fun W => setScalar (W .dx) (Const.nan K)).bind fun M =>
      (M.vec fun W => toRaw S.pc (W .dy)).bind fun M =>
      M.vec fun W => toRaw S.dc (W .dx))
    (Ld F R G M0 S ((s.dy (vSet (Const.nan K))).dx (vSet (Const.nan K))) c (slots px py (some (vSet (Const.nan K))) (some (vSet (Const.nan K))))) := by
  refine .bind (h.put (k := .dy) rfl (by decide) (by decide) rfl (s' := s.dy (vSet (Const.nan K))) (c' := c) (setScalar_holds (h.m .dy _ rfl).toRoom _) vv rfl rr) fun M h => ?_
  refine .bind (h.put (k := .dx) rfl (by decide) (by decide) rfl (s' := (s.dy (vSet (Const.nan K))).dx (vSet (Const.nan K))) (c' := c)
    (setScalar_holds (h.m .dx _ rfl).toRoom _) vv rfl rr) fun M h => ?_
  refine .bind (h.give .pc (toRaw_holds (h.room .pc) (h.m .dy _ rfl) (.inl (h.away .pc _))) (V' := slots px py (some (vSet (Const.nan K))) pdc) uu) fun M h => ?_
  exact h.give .dc (toRaw_holds (h.room .dc) (h.m .dx _ rfl) (.inl (h.away .dc _))) uu

theorem givePrim_ok (h : Ld F R G M0 S s c (slots px py ppc pdc) M) :
    Ok ((normOf M .dy).bind fun r =>
      (M.vec fun W => multScalar (W .dy) (1 / r)).bind fun M =>
      (M.vec fun W => toRaw S.pc (W .dy)).bind fun M =>
      (M.vec fun W => setScalar (W .dx) (Const.nan K)).bind fun M =>
      M.vec fun W => toRaw S.dc (W .dx))
    (Ld F R G M0 S ((s.dy (vScale s.work.delta_y (1 / vNormInf s.work.delta_y))).dx (vSet (Const.nan K))) c
      (slots px py (some (vScale s.work.delta_y (1 / vNormInf s.work.delta_y))) (some (vSet (Const.nan K))))) := by
  refine .val (h.lv.sh.norm (k := .dy) rfl) ?_
  set v := vScale s.work.delta_y (1 / vNormInf s.work.delta_y)
  refine .bind (h.put (k := .dy) rfl (by decide) (by decide) rfl (s' := s.dy v) (c' := c) (multScalar_holds (h.m .dy _ rfl) _) vv rfl rr) fun M h => ?_
  refine .bind (h.give .pc (toRaw_holds (h.room .pc) (h.m .dy _ rfl) (.inl (h.away .pc _))) (V' := slots px py (some v) pdc) uu) fun M h => ?_
  refine .bind (h.put (k := .dx) rfl (by decide) (by decide) rfl (s' := (s.dy v).dx (vSet (Const.nan K))) (c' := c)
    (setScalar_holds (h.m .dx _ rfl).toRoom _) vv rfl rr) fun M h => ?_
  exact h.give .dc (toRaw_holds (h.room .dc) (h.m .dx _ rfl) (.inl (h.away .dc _))) uu

theorem giveDual_ok (h : Ld F R G M0 S s c (slots px py ppc pdc) M) :
    Ok ((normOf M .dx).bind fun r =>
      (M.vec fun W => multScalar (W .dx) (1 / r)).bind fun M =>
      (M.vec fun W => toRaw S.dc (W .dx)).bind fun M =>
      (M.vec fun W => setScalar (W .dy) (Const.nan K)).bind fun M =>
      M.vec fun W => toRaw S.pc (W .dy))
    (Ld F R G M0 S ((s.dx (vScale s.work.delta_x (1 / vNormInf s.work.delta_x))).dy (vSet (Const.nan K))) c
      (slots px py (some (vSet (Const.nan K))) (some (vScale s.work.delta_x (1 / vNormInf s.work.delta_x))))) := by
  refine .val (h.lv.sh.norm (k := .dx) rfl) ?_
  set v := vScale s.work.delta_x (1 / vNormInf s.work.delta_x)
  refine .bind (h.put (k := .dx) rfl (by decide) (by decide) rfl (s' := s.dx v) (c' := c) (multScalar_holds (h.m .dx _ rfl) _) vv rfl rr) fun M h => ?_
  refine .bind (h.give .dc (toRaw_holds (h.room .dc) (h.m .dx _ rfl) (.inl (h.away .dc _))) (V' := slots px py ppc (some v)) uu) fun M h => ?_
  refine .bind (h.put (k := .dy) rfl (by decide) (by decide) rfl (s' := (s.dx v).dy (vSet (Const.nan K))) (c' := c)
    (setScalar_holds (h.m .dy _ rfl).toRoom _) vv rfl rr) fun M h => ?_
  exact h.give .pc (toRaw_holds (h.room .pc) (h.m .dy _ rfl) (.inl (h.away .pc _))) uu

theorem getSolution_ok (sol : Solution d K) (h : Ld F R G M0 S s c (slots px py ppc pdc) M) :
    Ok (getSolution S M) fun r => (∃ c pc dc, Ld F R G M0 S (osqpGetSolution s sol).1 c
      (slots (some (osqpGetSolution s sol).2.1.x) (some (osqpGetSolution s sol).2.1.y) pc dc) r.1 ∧
      (CertsOut s.info ∨ ppc = some sol.prim_inf_cert → pc = some (osqpGetSolution s sol).2.1.prim_inf_cert) ∧
      (CertsOut s.info ∨ pdc = some sol.dual_inf_cert → dc = some (osqpGetSolution s sol).2.1.dual_inf_cert)) ∧ r.2 = 0 := by
  unfold getSolution osqpGetSolution Osqp.storeSolution
  rw [h.lv.g]
  dsimp only
  by_cases c1 : hasSolution s.info = true
  · rw [if_pos c1, if_pos c1]
    by_cases c2 : s.settings.scaling ≠ 0
    · rw [if_pos c2, if_pos c2]
      refine .bind (.bind (giveUnscaled_ok c2 h) fun M h => giveNan_ok h) fun M h => .pure ⟨⟨c, _, _, h, fun _ => rfl, fun _ => rfl⟩, rfl⟩
    · rw [if_neg c2, if_neg c2]
      refine .bind (.bind (giveXY_ok h) fun M h => giveNan_ok h) fun M h => .pure ⟨⟨c, _, _, h, fun _ => rfl, fun _ => rfl⟩, rfl⟩
  · rw [if_neg c1, if_neg c1]
    set nan := Const.nan K
    refine .bind (P := fun M => ∃ c pc dc, Ld F R G M0 S _ c (slots (some _) (some _) pc dc) M ∧ (_ → pc = some _) ∧ (_ → dc = some _)) ?_ fun M h => .pure ⟨h, rfl⟩
    refine .bind (h.put (k := .x) rfl (by decide) (by decide) rfl (s' := s.xx (vSet nan)) (c' := c) (setScalar_holds (h.m .x _ rfl).toRoom _) vv rfl rr) fun M h => ?_
    refine .bind (h.put (k := .y) rfl (by decide) (by decide) rfl (s' := (s.xx (vSet nan)).yy (vSet nan)) (c' := c) (setScalar_holds (h.m .y _ rfl).toRoom _) vv rfl rr) fun M h => ?_
    rw [← Option.bind_assoc]
    refine .bind (giveXY_ok h) fun M h => ?_
    refine .bind (P := Ld F R G M0 S (Osqp.coldStart s) c (slots (some (vSet nan)) (some (vSet nan)) ppc pdc)) ?_ fun M h => ?_
    · refine .bind (h.put (k := .x) rfl (by decide) (by decide) rfl (s' := (s.xx (vSet 0)).yy (vSet nan)) (c' := c) (setScalar_holds (h.m .x _ rfl).toRoom _) vv rfl rr) fun M h => ?_
      refine .bind (h.put (k := .z) rfl (by decide) (by decide) rfl (s' := ((s.xx (vSet 0)).yy (vSet nan)).zz (vSet 0)) (c' := c) (setScalar_holds (h.m .z _ rfl).toRoom _) vv rfl rr) fun M h => ?_
      exact h.put (k := .y) rfl (by decide) (by decide) rfl (s' := Osqp.coldStart s) (c' := c) (setScalar_holds (h.m .y _ rfl).toRoom _) vv rfl rr
    have ev : M.g.info.status_val = s.info.status_val := by rw [h.lv.g]; rfl
    rw [show (Osqp.coldStart s).info.status_val = s.info.status_val from rfl]
    by_cases c3 : s.info.status_val = St.primInf ∨ s.info.status_val = St.primInfInacc
    · have c4 : ¬ (s.info.status_val = St.dualInf ∨ s.info.status_val = St.dualInfInacc) := by
        rcases c3 with c3 | c3 <;> rw [c3] <;> decide
      rw [if_pos c3, if_neg c4, if_pos (by rw [ev]; exact c3)]
      refine .bind (givePrim_ok h) fun M h => ?_
      rw [if_neg (by rw [h.lv.g]; exact c4)]
      exact .pure ⟨c, _, _, h, fun _ => rfl, fun _ => rfl⟩
    · rw [if_neg c3, if_neg (by rw [ev]; exact c3)]
      refine .val rfl ?_
      by_cases c4 : s.info.status_val = St.dualInf ∨ s.info.status_val = St.dualInfInacc
      · rw [if_pos c4, if_pos (by rw [h.lv.g]; exact c4)]
        exact (giveDual_ok h).mono fun M h => ⟨c, _, _, h, fun _ => rfl, fun _ => rfl⟩
      · rw [if_neg c4, if_neg (by rw [h.lv.g]; exact c4)]
        have no : ¬ CertsOut s.info := by rintro (g | g | g); exacts [c1 g, c3 g, c4 g]
        exact .pure ⟨c, _, _, h, fun e => e.resolve_left no, fun e => e.resolve_left no⟩

end Osqp.Vm
