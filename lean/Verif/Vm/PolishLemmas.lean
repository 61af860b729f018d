import Verif.Vm.PolishArr

/-!
# `polish` on memory computes `polish` of the solver layer
-/

set_option linter.unusedSectionVars false
namespace Osqp.Vm
open Csc Spec
variable {L L' K : Type*} [Field K] [LinearOrder K] [IsStrictOrderedRing K] {d : Dims}
variable {F : Fix L K} {R : LinSys d K → L → Prop} {M0 M : Mach L K} {s s' : Solver d K} {c c' : Scr d K}

/-! ## Writing to the vectors of the polishing -/

/-- A step that writes to vectors of the polishing. -/
theorem Sh.movePol (h : Sh F R M0 s c M) {σ' : Store K} (hm : Mem σ' M.W (vals s c')) (hz : F.xz.len ≤ (σ' F.xz.blk).size)
    (hk : ∀ b, (∀ k : Name, k.pol = true → b ≠ (M.W k).blk) → σ' b = M.σ b)
    (hr : ∀ k : Name, k.pol = true → Room σ' (M.W k) (k.dim d.n d.m)) : Sh F R M0 s c' { M with σ := σ' } := by
  refine ⟨h.lay, hz, hm, h.types, h.lin, h.own, h.g, h.P, h.A, h.sol, hr, h.ptrs, h.ct, fun b hb hb' => ?_⟩
  show σ' b = _
  rw [hk b fun k hk' => ?_, h.kept b hb hb']
  rcases h.ptrs with e | e
  · rw [e]; exact hb' k (.inr hk')
  · rw [e]; exact hb' (mate k) (.inr (by rw [pol_mate]; exact hk'))

theorem Sh.putPol (h : Sh F R M0 s c M) {k : Name} (hk : k.pol = true) {f : Vec K (k.dim d.n d.m)} {op : Ptrs → Store K → Option (Store K)}
    (ho : ∃ σ', op M.W M.σ = some σ' ∧ Has σ' (M.W k) (k.dim d.n d.m) f ∧ OnlyAt (M.W k) M.σ σ')
    (hV : Function.update (vals s c) k (some f) = vals s c') : Ok (M.vec op) (Sh F R M0 s c') := by
  obtain ⟨σ', e, h1, h2⟩ := ho
  refine ⟨{ M with σ := σ' }, by unfold Mach.vec; rw [e]; rfl, ?_⟩
  exact h.movePol (by rw [← hV]; exact h.mem.put h.lay h1 h2) (by rw [h2.1]; exact h.size) (fun b hb => h2.same (hb k hk))
    fun j hj => ⟨(h.room j hj).1, by rw [h2.1]; exact (h.room j hj).2⟩

theorem Sh.mulPol (h : Sh F R M0 s c M) {a k : Name} (hk : k.pol = true) (ha : a ≠ .zt) (hak : a ≠ k)
    {fa : Vec K (a.dim d.n d.m)} (hfa : vals s c a = some fa) {f : Vec K (k.dim d.n d.m)} {op : Buf K → Buf K → Option (Buf K)}
    (ho : ∀ x y : Buf K, Arr x fa → k.dim d.n d.m ≤ y.size → ∃ y', op x y = some y' ∧ Arr y' f)
    (hV : Function.update (vals s c) k (some f) = vals s c') : Ok (M.vec (fun W => product op (W a) (W k))) (Sh F R M0 s c') := by
  have h1 := h.mem a fa hfa
  have h2 := h.room k hk
  have hz : k ≠ .zt := by rintro rfl; cases hk
  have hx : k ≠ .xt := by rintro rfl; cases hk
  have oa := h.lay.start a ha
  have ok := h.lay.start k hz
  have hb : (M.W a).blk ≠ (M.W k).blk := h.lay.own a k hak (fun e => hz e.2) fun e => ha e.1
  obtain ⟨y', e, hy⟩ := ho _ _ (h1.arr oa) (by have := h2.room; omega : _ ≤ (M.σ (M.W k).blk).size)
  have hne : ∀ j, j ≠ k → (M.W k).blk ≠ (M.W j).blk := fun j hj =>
    h.lay.own k j (Ne.symm hj) (fun e => hx e.1) fun e => hz e.1
  refine ⟨{ M with σ := Function.update M.σ (M.W k).blk y' }, by unfold Mach.vec product; dsimp only; rw [if_pos ⟨oa, ok, hb⟩, e]; rfl, ?_⟩
  refine h.movePol (fun j g hj => ?_) ?_ (fun b hb => Function.update_of_ne (hb k hk) _ _) fun j hj => ⟨(h.room j hj).1, ?_⟩
  · rw [← hV] at hj
    by_cases ej : j = k
    · subst ej
      rw [Function.update_self] at hj
      rw [← Option.some.inj hj]
      refine ⟨h2.len, by rw [ok, Function.update_self]; have := hy.1; omega, fun i => ?_⟩
      rw [ok, Function.update_self, Nat.zero_add]; exact hy.2 i
    · rw [Function.update_of_ne ej] at hj
      have hj' := h.mem j g hj
      have := (hne j ej).symm
      exact ⟨hj'.len, by rw [Function.update_of_ne this]; exact hj'.room, fun i => by rw [Function.update_of_ne this]; exact hj'.val i⟩
  · obtain ⟨x1, x2, x3⟩ := h.lay.len_xt
    have : F.xz.blk ≠ (M.W k).blk := by rw [← x3]; exact (hne .xt (Ne.symm hx)).symm
    rw [Function.update_of_ne this]; exact h.size
  · by_cases ej : j = k
    · subst ej
      rw [Function.update_self, ok]; have := hy.1; omega
    · rw [Function.update_of_ne (hne j ej).symm]; exact (h.room j hj).2

/-! ## The vectors of the polishing in the place of `x`, `z`, `y` -/

theorem asPol_asPol (k : Name) : asPol (asPol k) = k := by cases k <;> rfl

theorem asPol_inj : Function.Injective asPol := fun a b h => by rw [← asPol_asPol a, h, asPol_asPol]

theorem touched_asPol (k : Name) : ((asPol k).mut = true ∨ (asPol k).pol = true) ↔ (k.mut = true ∨ k.pol = true) := by
  cases k <;> simp [asPol, Name.mut, Name.pol]

/-- State `s` with another point. -/
abbrev _root_.Osqp.Solver.pt (s : Solver d K) (x : Vec K d.n) (z y : Vec K d.m) : Solver d K := { s with work := { s.work with x := x, z := z, y := y } }
abbrev Scr.pt (c : Scr d K) (x : Vec K d.n) (z y : Vec K d.m) : Scr d K := { c with pX := some x, pZ := some z, pY := some y }

/-- Exchange the two points. -/
theorem Sh.flip {x : Vec K d.n} {z y : Vec K d.m} (h : Sh F R M0 s (c.pt x z y) M) :
    Sh F R { M with W := fun k => M.W (asPol k) } (s.pt x z y) (c.pt s.work.x s.work.z s.work.y) { M with W := fun k => M.W (asPol k) } := by
  refine ⟨h.lay.perm asPol asPol_inj rfl rfl, h.size, fun k f hk => ?_, h.types, h.lin, h.own, h.g, h.P, h.A, h.sol, fun k hk => ?_, .inl rfl, rfl, fun _ _ _ => rfl⟩
  · cases k
    case x => exact h.mem .pX f hk
    case z => exact h.mem .pZ f hk
    case y => exact h.mem .pY f hk
    case pX => exact h.mem .x f hk
    case pZ => exact h.mem .z f hk
    case pY => exact h.mem .y f hk
    all_goals exact h.mem _ f hk
  · cases k <;> first | cases hk | skip
    · exact (h.mem .x _ rfl).toRoom
    · exact (h.mem .z _ rfl).toRoom
    · exact (h.mem .y _ rfl).toRoom

/-- And back. -/
theorem Sh.unflip {x : Vec K d.n} {z y : Vec K d.m} (h : Sh F R M0 s c M) {t : Solver d K} {c₁ : Scr d K} {N : Mach L K} (hx : t.work.x = x) (hz : t.work.z = z) (hy : t.work.y = y)
    (g : Sh F R { M with W := fun k => M.W (asPol k) } t (c₁.pt s.work.x s.work.z s.work.y) N) (hW : N.W = fun k => M.W (asPol k)) :
    Sh F R M0 (t.pt s.work.x s.work.z s.work.y) (c₁.pt x z y) { N with W := M.W } := by
  have hW' : M.W = fun k => N.W (asPol k) := by funext k; rw [hW]; simp only [asPol_asPol]
  refine ⟨h.lay, g.size, fun k f hk => ?_, g.types, g.lin, g.own, g.g, g.P, g.A, g.sol, fun k hk => ?_, h.ptrs, g.ct.trans h.ct, fun b hb hb' => ?_⟩
  · show Has N.σ (M.W k) _ _
    rw [hW']
    cases k
    case x => exact g.mem .pX f hk
    case z => exact g.mem .pZ f hk
    case y => exact g.mem .pY f hk
    case pX => exact g.mem .x f ((congrArg some hx).trans hk)
    case pZ => exact g.mem .z f ((congrArg some hz).trans hk)
    case pY => exact g.mem .y f ((congrArg some hy).trans hk)
    all_goals exact g.mem _ f hk
  · show Room N.σ (M.W k) _
    rw [hW']
    cases k <;> first | cases hk | skip
    · exact (g.mem .x _ rfl).toRoom
    · exact (g.mem .z _ rfl).toRoom
    · exact (g.mem .y _ rfl).toRoom
  · show N.σ b = _
    have hkeep : ∀ k : Name, k.mut = true ∨ k.pol = true → b ≠ (M.W k).blk := fun k hk => by
      rcases h.ptrs with e | e
      · rw [e]; exact hb' k hk
      · rw [e]; exact hb' (mate k) (by rw [mut_mate, pol_mate]; exact hk)
    rw [g.kept b hb fun k hk => hkeep (asPol k) ((touched_asPol k).2 hk)]
    exact h.kept b hb hb'

theorem computePrimRes_W {r : Mach L K × K} (e : computePrimRes F M = some r) : r.1.W = M.W := by
  unfold computePrimRes at e
  obtain ⟨M1, e1, e⟩ := Option.bind_eq_some_iff.1 e
  obtain ⟨M2, e2, e⟩ := Option.bind_eq_some_iff.1 e
  obtain ⟨x, -, e⟩ := Option.bind_eq_some_iff.1 e
  have hW := (vec_W e2).trans (vec_W e1)
  dsimp only at e
  split_ifs at e
  · obtain ⟨y, -, e⟩ := Option.bind_eq_some_iff.1 e
    cases e; exact hW
  · cases e; exact hW

theorem computeDualRes_W {r : Mach L K × K} (e : computeDualRes F M = some r) : r.1.W = M.W := by
  unfold computeDualRes at e
  obtain ⟨M1, e1, e⟩ := Option.bind_eq_some_iff.1 e
  obtain ⟨M2, e2, e⟩ := Option.bind_eq_some_iff.1 e
  obtain ⟨M3, e3, e⟩ := Option.bind_eq_some_iff.1 e
  obtain ⟨M4, e4, e⟩ := Option.bind_eq_some_iff.1 e
  obtain ⟨x, -, e⟩ := Option.bind_eq_some_iff.1 e
  have h4 : M4.W = M3.W := by
    split_ifs at e4
    · obtain ⟨M5, e5, e6⟩ := Option.bind_eq_some_iff.1 e4
      exact (vec_W e6).trans (vec_W e5)
    · cases e4; rfl
  have hW := h4.trans ((vec_W e3).trans ((vec_W e2).trans (vec_W e1)))
  dsimp only at e
  split_ifs at e
  · obtain ⟨y, -, e⟩ := Option.bind_eq_some_iff.1 e
    obtain ⟨w, -, e⟩ := Option.bind_eq_some_iff.1 e
    cases e; exact hW
  · cases e; exact hW

theorem computeObj_W {r : Mach L K × K × K × K} (e : computeObj M = some r) : r.1.W = M.W := by
  unfold computeObj at e
  obtain ⟨_, -, e⟩ := Option.bind_eq_some_iff.1 e
  obtain ⟨_, -, e⟩ := Option.bind_eq_some_iff.1 e
  obtain ⟨M1, e1, e⟩ := Option.bind_eq_some_iff.1 e
  obtain ⟨M2, e2, e⟩ := Option.bind_eq_some_iff.1 e
  obtain ⟨M3, e3, e⟩ := Option.bind_eq_some_iff.1 e
  obtain ⟨_, -, e⟩ := Option.bind_eq_some_iff.1 e
  obtain ⟨_, -, e⟩ := Option.bind_eq_some_iff.1 e
  have hW := (vec_W e3).trans ((vec_W e2).trans (vec_W e1))
  dsimp only at e
  split_ifs at e
  · obtain ⟨y, -, e⟩ := Option.bind_eq_some_iff.1 e
    cases e; exact hW
  · cases e; exact hW

theorem report_W {r : Mach L K × Report K} (e : report F M = some r) : r.1.W = M.W := by
  unfold report at e
  obtain ⟨a, e1, e⟩ := Option.bind_eq_some_iff.1 e
  obtain ⟨b, e2, e⟩ := Option.bind_eq_some_iff.1 e
  obtain ⟨w, e3, e⟩ := Option.map_eq_some_iff.1 e
  subst e
  have h1 : a.1.W = M.W := by
    split_ifs at e1
    · cases e1; rfl
    · exact computePrimRes_W e1
  exact (computeObj_W e3).trans ((computeDualRes_W e2).trans h1)

theorem primRes_pt (s : Solver d K) : (Osqp.computePrimRes s s.work.x s.work.z).1.work.x = s.work.x ∧
    (Osqp.computePrimRes s s.work.x s.work.z).1.work.z = s.work.z ∧ (Osqp.computePrimRes s s.work.x s.work.z).1.work.y = s.work.y := ⟨rfl, rfl, rfl⟩

theorem report_ok (hm : F.m = d.m) (h : Sh F R M0 s c M) :
    Ok (report F M) fun r => Sh F R M0 (computeReport s s.work.x s.work.z s.work.y).1 c r.1 ∧ r.2 = (computeReport s s.work.x s.work.z s.work.y).2 := by
  unfold report computeReport
  set p := if d.m = 0 then (s, (0 : K)) else Osqp.computePrimRes s s.work.x s.work.z with hp
  have hp1 : p.1.work.x = s.work.x ∧ p.1.work.y = s.work.y := by
    rw [hp]; split_ifs <;> exact ⟨rfl, rfl⟩
  refine .bind (P := fun r => Sh F R M0 p.1 c r.1 ∧ r.2 = p.2) ?_ fun r hr => ?_
  · by_cases c0 : d.m = 0
    · have c1 : F.m = 0 := by rw [hm]; exact_mod_cast c0
      rw [if_pos c1, hp, if_pos c0]
      exact .pure ⟨h, rfl⟩
    · have c1 : ¬ F.m = 0 := by rw [hm]; exact_mod_cast c0
      rw [if_neg c1, hp, if_neg c0]
      exact computePrimRes_ok h
  obtain ⟨h, e1⟩ := hr
  dsimp only
  rw [e1]
  clear_value p
  rw [← hp1.1, ← hp1.2]
  have hq1 : (Osqp.computeDualRes p.1 p.1.work.x p.1.work.y).1.work.x = p.1.work.x ∧ (Osqp.computeDualRes p.1 p.1.work.x p.1.work.y).1.work.y = p.1.work.y := by
    unfold Osqp.computeDualRes
    split_ifs <;> exact ⟨rfl, rfl⟩
  refine .bind (computeDualRes_ok hm h) fun r hr => ?_
  obtain ⟨h, e2⟩ := hr
  rw [e2]
  generalize Osqp.computeDualRes p.1 p.1.work.x p.1.work.y = q at h hq1 ⊢
  rw [← hq1.1, ← hq1.2]
  obtain ⟨w, e3, h, e4⟩ := computeObj_ok h
  exact ⟨_, by rw [e3]; rfl, h, by dsimp only; rw [e4]⟩

/-- The point does not matter. -/
theorem report_pt (s : Solver d K) (a : Vec K d.n) (b e : Vec K d.m) (x : Vec K d.n) (z y : Vec K d.m) :
    (computeReport (s.pt a b e) x z y).1 = (computeReport s x z y).1.pt a b e ∧ (computeReport (s.pt a b e) x z y).2 = (computeReport s x z y).2 := by
  unfold computeReport Osqp.computePrimRes Osqp.computeDualRes Osqp.computeObj
  by_cases h0 : d.m = 0
  · by_cases h1 : s.settings.scaling ≠ 0 <;> by_cases h2 : s.settings.unscaledTerm <;> simp [h0, h1, h2]
  · by_cases h1 : s.settings.scaling ≠ 0 <;> by_cases h2 : s.settings.unscaledTerm <;> simp [h0, h1, h2]

theorem report_keeps (s : Solver d K) (x : Vec K d.n) (z y : Vec K d.m) :
    (computeReport s x z y).1.work.x = s.work.x ∧ (computeReport s x z y).1.work.z = s.work.z ∧ (computeReport s x z y).1.work.y = s.work.y ∧
      (computeReport s x z y).1.settings = s.settings ∧ (computeReport s x z y).1.info = s.info := by
  unfold computeReport Osqp.computePrimRes Osqp.computeDualRes
  rw [computeObj_fst]
  split_ifs <;> exact ⟨rfl, rfl, rfl, rfl, rfl⟩

/-- `update_info(solver, 0, 1)` without the bookkeeping. -/
theorem withPol_ok (hm : F.m = d.m) {x : Vec K d.n} {z y : Vec K d.m} (h : Sh F R M0 s (c.pt x z y) M) :
    Ok (withPol (report F) M) fun r => Sh F R M0 (computeReport s x z y).1 (c.pt x z y) r.1 ∧ r.2 = (computeReport s x z y).2 := by
  obtain ⟨r, e, g, e2⟩ := report_ok hm h.flip
  have hW := report_W e
  refine ⟨({ r.1 with W := M.W }, r.2), by unfold withPol; rw [e]; rfl, ?_, ?_⟩
  · have hk := report_keeps (s.pt x z y) x z y
    have := h.unflip (x := x) (z := z) (y := y) (t := (computeReport (s.pt x z y) x z y).1) (c₁ := c) hk.1 hk.2.1 hk.2.2.1 g hW
    have e3 : ((computeReport (s.pt x z y) x z y).1.pt s.work.x s.work.z s.work.y) = (computeReport s x z y).1 := by
      rw [(report_pt s x z y x z y).1]
      have hk := report_keeps s x z y
      generalize (computeReport s x z y).1 = t at hk ⊢
      rw [← hk.1, ← hk.2.1, ← hk.2.2.1]
    rw [e3] at this
    exact this
  · show r.2 = _
    rw [e2]; exact (report_pt s x z y x z y).2

end Osqp.Vm
