import Verif.Vm.ApiLemmas
import Verif.Vm.ScaleLemmas

/-!
# The API functions on memory compute those of the solver layer: new matrices
-/

set_option linter.unusedSectionVars false
namespace Osqp.Vm
open Csc Spec
variable {L K : Type*} [Field K] [LinearOrder K] [IsStrictOrderedRing K] {d : Dims}
variable {F : Fix L K} {R : LinSys d K → L → Prop} {M0 M : Mach L K} {s s' : Solver d K} {c c' : Scr d K} {G : ℕ → Prop}

/-! ## New values -/

/-- A C loop follows a fold that succeeds. -/
theorem forGo_follow {S T : Type*} (Q : S → T → Prop) {f : ℤ → S → Option S} {g : T → ℕ → Option T}
    (step : ∀ (i : ℕ) s t t', Q s t → g t i = some t' → ∃ s', f i s = some s' ∧ Q s' t') :
    ∀ (c lo : ℕ) s t t', Q s t → (List.range' lo c).foldlM g t = some t' → ∃ s', forGo f c lo s = some s' ∧ Q s' t' := by
  intro c
  induction c with
  | zero => intro lo s t t' h e; exact ⟨s, rfl, by simpa using (Option.some.inj e) ▸ h⟩
  | succ c ih =>
    intro lo s t t' h e
    rw [List.range'_succ] at e
    simp only [List.foldlM_cons, Option.bind_eq_bind] at e
    obtain ⟨t1, e1, e2⟩ := Option.bind_eq_some_iff.1 e
    obtain ⟨s1, e3, h1⟩ := step lo s t t1 h e1
    obtain ⟨s2, e4, h2⟩ := ih (lo + 1) s1 t1 t' h1 e2
    refine ⟨s2, ?_, h2⟩
    simp only [forGo, e3, Option.bind_some]
    exact_mod_cast e4

theorem wr_follow {q : ℕ} {x : Buf K} {v v' : Vec K q} (hx : Arr x v) (k : ℤ) (a : K) (e : writeAt v k a = some v') :
    ∃ x', x.wr k a = some x' ∧ Arr x' v' := by
  unfold writeAt at e
  unfold Buf.wr
  by_cases h : 0 ≤ k ∧ k.toNat < q
  · have h' : 0 ≤ k ∧ k < (x.size : ℤ) := ⟨h.1, by have := hx.1; omega⟩
    rw [dif_pos h] at e
    rw [if_pos h']
    refine ⟨_, rfl, ⟨by simpa using hx.1, fun t => ?_⟩⟩
    rw [← Option.some.inj e, Buf.set_cell]
    by_cases ht : (t : ℕ) = k.toNat
    · have : t = ⟨k.toNat, h.2⟩ := Fin.ext ht
      rw [if_pos ht, this]; simp
    · have : t ≠ ⟨k.toNat, h.2⟩ := fun e => ht (congrArg Fin.val e)
      rw [if_neg ht, hx.2 t, Function.update_of_ne this]
  · rw [dif_neg h] at e; cases e

theorem list_rd {α : Type*} {z : α} {l : List α} {b : Buf α} (h : Holds b l.length fun j => l.getD j z) {i : ℕ} {a : α} (e : l[i]? = some a) : b.rd (i : ℤ) = some a := by
  obtain ⟨hi, e⟩ := List.getElem?_eq_some_iff.1 e
  rw [h.rd hi]
  simp [hi, e]

theorem newValues_ok {q : ℕ} {x : Buf K} {v v' : Vec K q} (hx : Arr x v) {new : List K} {nb : Buf K} (hn : Holds nb new.length fun j => new.getD j 0)
    {idx : Option (List ℤ)} {ib : Option (Buf ℤ)} (hi : IdxArr idx ib) {cnt : ℕ} (e : Osqp.updateValues v new idx cnt = some v') :
    ∃ x', Csc.updateValues x nb ib cnt = some x' ∧ Arr x' v' := by
  unfold Osqp.updateValues at e
  unfold Csc.updateValues
  rw [List.range_eq_range'] at e
  rcases idx with _ | l <;> rcases ib with _ | b
  any_goals first | exact False.elim hi | skip
  · simp only [forI, sub_zero, Int.toNat_natCast]
    refine forGo_follow (fun (x : Buf K) (v : Vec K q) => Arr x v) (fun i x v v' h e => ?_) cnt 0 x v v' hx e
    simp only [idxAt] at e
    rcases ha : new[i]? with _ | a
    · rw [ha] at e; cases e
    · rw [ha] at e
      rw [list_rd hn ha]
      exact wr_follow h i a e
  · simp only [forI, sub_zero, Int.toNat_natCast]
    refine forGo_follow (fun (x : Buf K) (v : Vec K q) => Arr x v) (fun i x v v' h e => ?_) cnt 0 x v v' hx e
    simp only [idxAt] at e
    rcases hk : l[i]? with _ | k
    · rw [hk] at e; cases e
    · rcases ha : new[i]? with _ | a
      · rw [hk, ha] at e; cases e
      · rw [hk, ha] at e
        rw [list_rd hi hk, list_rd hn ha]
        exact wr_follow h k a e

theorem bad_eq {p : MatArg K} {p' : MatUpd K} (h : MatIs p p') (nnz : ℕ) : p.bad nnz = matUpdBad nnz p' := by
  unfold MatArg.bad matUpdBad
  have : p.idx.isNone = p'.idx.isNone := by
    have := h.idx
    rcases e : p.idx with _ | a <;> rcases e' : p'.idx with _ | b <;> rw [e, e'] at this
    any_goals first | exact False.elim this | skip
    all_goals rfl
  rw [this, h.cnt]

theorem count_eq {p : MatArg K} {p' : MatUpd K} (h : MatIs p p') {nnz : ℕ} (hb : matUpdBad nnz p' = false) : p.count nnz = (matUpdCnt nnz p' : ℤ) := by
  unfold MatArg.count matUpdCnt
  unfold matUpdBad at hb
  simp only [Bool.or_eq_false_iff, decide_eq_false_iff_not, not_lt] at hb
  rw [h.cnt]
  split_ifs
  · rfl
  · have := hb.1.2; omega

theorem apply_ok {a b : ℕ} {pt : Pat a b} {X : Csc K} {v v' : Vec K pt.nnz} (hX : Stores X pt v) {p : MatArg K} {p' : MatUpd K} (h : MatIs p p')
    (hb : matUpdBad pt.nnz p' = false) (e : matUpdApply v p' = some v') : ∃ Y, p.apply pt.nnz X = some Y ∧ Stores Y pt v' := by
  unfold matUpdApply at e
  unfold MatArg.apply
  have hx := h.x
  have hc := count_eq h hb
  rcases hq : p.x with _ | nb <;> rcases hp : p'.x with _ | new <;> rw [hp] at e <;> rw [hp, hq] at hx
  any_goals first | exact False.elim hx | skip
  · exact ⟨X, rfl, (Option.some.inj e) ▸ hX⟩
  · obtain ⟨V, hR, hm, hn, hz, he⟩ := hX
    have hA : Arr X.x v := Holds.arr (f := V.x) (hz ▸ hR.x) fun k => (he k).2.2
    obtain ⟨x', e1, h1⟩ := newValues_ok hA hx h.idx e
    rw [← hc] at e1
    refine ⟨{ X with x := x' }, by simp only [e1, Option.map_some], ?_⟩
    exact Stores.withX hR hm hn hz he (X := ext v') (by rw [hz]; exact h1.holds) fun k => ext_val _ _

theorem Stores.nnz_rd {a b : ℕ} {pt : Pat a b} {X : Csc K} {v : Vec K pt.nnz} (hX : Stores X pt v) : X.p.rd X.n = some (pt.nnz : ℤ) := by
  obtain ⟨V, hR, hm, hn, hz, he⟩ := hX
  rw [hR.rdNnz, hz]

/-! ## The call -/

theorem scl_of_sol {k j : Name} (h : k.scl = true) (hj : j.scl = false) : k ≠ j := by rintro rfl; rw [h] at hj; cases hj

/-- Matrices, scaling and linear-system solver are replaced. -/
theorem Lv.newMat (h : Lv F R G M0 s c M) {F' : Fix L K} (hx : F'.xz = F.xz) (hs : F'.hasSol = F.hasSol) {σ' : Store K} {lin' : L} {g' : Scal K}
    (hm : Mem σ' M.W (vals s' c')) (hk : ∀ b, (∀ k : Name, k.scl = true → b ≠ (M.W k).blk) → σ' b = M.σ b) (hg : g' = scal s') (hl : R s'.work.linsys lin')
    (hP : Stores F'.P d.P s'.work.data.P) (hA : Stores F'.A d.A s'.work.data.A) (ht : s'.work.constr_type = s.work.constr_type)
    (hv : s'.settings.rho_is_vec = s.settings.rho_is_vec) (ho : s'.work.linsys.rho_inv_vec.isSome = s.work.linsys.rho_inv_vec.isSome)
    (hsol : s'.solution = s.solution) : Lv F' R G M0 s' c' { M with σ := σ', lin := lin', g := g' } := by
  have S := h.sh
  have hne : ∀ (j k : Name), k.scl = true → j.scl = false → (M.W j).blk ≠ (M.W k).blk := fun j k hk hj =>
    S.lay.own j k (scl_of_sol hk hj).symm (fun e => by rw [e.2] at hk; cases hk) fun e => by rw [e.2] at hk; cases hk
  refine ⟨⟨by rw [hx]; exact S.lay, ?_, hm, by rw [hv, ht]; exact S.types, hl, by rw [ho, hv]; exact S.own, hg, hP, hA, by rw [hs, hsol]; exact S.sol,
    fun j hj => ⟨(S.room j hj).len, ?_⟩, .inl rfl, rfl, fun _ _ _ => rfl⟩, h.free, h.sol, h.out, fun b hb => ?_⟩
  · obtain ⟨x1, x2, x3⟩ := S.lay.len_xt
    rw [hx]
    show _ ≤ (σ' _).size
    rw [hk _ fun k hk' => by rw [← x3]; exact hne .xt k hk' rfl]
    exact S.size
  · show _ ≤ (σ' _).size
    rw [hk _ fun k hk' => hne j k hk' (by cases j <;> first | rfl | cases hj)]
    exact (S.room j hj).room
  · show σ' b = _
    rw [hk _ fun k hk' => ((h.free b).2 (h.out b hb) k (by cases k <;> first | rfl | cases hk')).symm]
    exact h.kept b hb

/-- The vectors of the scaling in state `s`. -/
abbrev svOf (s : Solver d K) (c : Scr d K) : Sv d K where
  q := s.work.data.q
  l := s.work.data.l
  u := s.work.data.u
  D := s.work.scaling.D
  Dinv := s.work.scaling.Dinv
  E := s.work.scaling.E
  Einv := s.work.scaling.Einv
  Dt := c.Dt
  DtA := c.DtA
  Et := c.Et

theorem vals_setV (hs : s.settings.scaling ≠ 0) : vals s c = setV (vals s c) (svOf s c) := by
  funext k
  cases k
  case D => exact if_pos hs
  case Dinv => exact if_pos hs
  case E => exact if_pos hs
  case Einv => exact if_pos hs
  case Dt => exact if_pos hs
  case DtA => exact if_pos hs
  case Et => exact if_pos hs
  all_goals rfl

/-- The state with new data, scaling and linear system. -/
abbrev _root_.Osqp.Solver.mats (s : Solver d K) (D : Data d K) (sc : Scaling d K) (ls : LinSys d K) : Solver d K :=
  { s with work := { s.work with data := D, scaling := sc, linsys := ls } }

theorem setV_vals (hs : s.settings.scaling ≠ 0) {t : Sv d K} {D : Data d K} {sc : Scaling d K} {ls : LinSys d K}
    (h1 : t.q = D.q) (h2 : t.l = D.l) (h3 : t.u = D.u) (h4 : t.D = sc.D) (h5 : t.Dinv = sc.Dinv) (h6 : t.E = sc.E) (h7 : t.Einv = sc.Einv) :
    setV (vals s c) t = vals (s.mats D sc ls) { c with Dt := t.Dt, DtA := t.DtA, Et := t.Et } := by
  funext k
  cases k
  case q => exact congrArg some h1
  case l => exact congrArg some h2
  case u => exact congrArg some h3
  case D => exact (congrArg some h4).trans (if_pos hs).symm
  case Dinv => exact (congrArg some h5).trans (if_pos hs).symm
  case E => exact (congrArg some h6).trans (if_pos hs).symm
  case Einv => exact (congrArg some h7).trans (if_pos hs).symm
  case Dt => exact (if_pos hs).symm
  case DtA => exact (if_pos hs).symm
  case Et => exact (if_pos hs).symm
  all_goals rfl

theorem linsysUpdateMat_own {env : Env d K} {ls ls' : LinSys d K} {D : Data d K} {pi ai : Option (List ℤ)} {pn an : ℕ} {ef : ℤ}
    (h : linsysUpdateMat env ls D pi pn ai an = some (ls', ef)) : ls'.rho_inv_vec = ls.rho_inv_vec := by
  unfold linsysUpdateMat at h
  split at h
  · have : _ = ls' := congrArg Prod.fst (Option.some.inj h)
    rw [← this]
  · cases h

/-- The data and the scaling after new values for the matrices. -/
def newData (env : Env d K) (s : Solver d K) (P : Vec K d.P.nnz) (A : Vec K d.A.nnz) : Data d K × Scaling d K :=
  if s.settings.scaling ≠ 0 then Osqp.scaleData env s.settings.scaling { Osqp.unscaleData s.work.scaling s.work.data with P := P, A := A }
  else ({ s.work.data with P := P, A := A }, s.work.scaling)

theorem mat_inv {cfg : Cfg} {env : Env d K} {p a : MatUpd K} {ef : ℤ} (h : osqpUpdateDataMat cfg env s p a = some (s', ef))
    (hp : matUpdBad d.P.nnz p = false) (ha : matUpdBad d.A.nnz a = false) (s1 : Solver d K) (h1 : s1 = if cfg.profiling then clearUpdateTime s else s) :
    ∃ P A ls, matUpdApply (if s1.settings.scaling ≠ 0 then Osqp.unscaleData s1.work.scaling s1.work.data else s1.work.data).P p = some P ∧
      matUpdApply (if s1.settings.scaling ≠ 0 then Osqp.unscaleData s1.work.scaling s1.work.data else s1.work.data).A a = some A ∧
      (if s1.settings.scaling ≠ 0 then linsysUpdateMat env s1.work.linsys (newData env s1 P A).1 none d.P.nnz none d.A.nnz
        else linsysUpdateMat env s1.work.linsys (newData env s1 P A).1 p.idx (matUpdCnt d.P.nnz p) a.idx (matUpdCnt d.A.nnz a)) = some (ls, ef) ∧
      s' = vecEnd cfg env (s1.mats (newData env s1 P A).1 (newData env s1 P A).2 ls) := by
  unfold osqpUpdateDataMat at h
  rw [← h1] at h
  dsimp only at h
  rw [hp, ha] at h
  simp only [Bool.false_eq_true, if_false] at h
  split at h
  case h_2 => cases h
  case h_1 P A e1 e2 =>
  split at h
  case h_2 => cases h
  case h_1 ls ef' e3 =>
  have e4 : ({ (if s1.settings.scaling ≠ 0 then Osqp.unscaleData s1.work.scaling s1.work.data else s1.work.data) with P := P, A := A } : Data d K) =
      if s1.settings.scaling ≠ 0 then { Osqp.unscaleData s1.work.scaling s1.work.data with P := P, A := A } else { s1.work.data with P := P, A := A } := by
    split_ifs <;> rfl
  have e5 : (if s1.settings.scaling ≠ 0 then Osqp.scaleData env s1.settings.scaling
      { (if s1.settings.scaling ≠ 0 then Osqp.unscaleData s1.work.scaling s1.work.data else s1.work.data) with P := P, A := A }
      else ({ (if s1.settings.scaling ≠ 0 then Osqp.unscaleData s1.work.scaling s1.work.data else s1.work.data) with P := P, A := A }, s1.work.scaling)) =
      newData env s1 P A := by
    rw [e4]; unfold newData; split_ifs <;> rfl
  rw [e5] at h e3
  injection h with h
  injection h with h2 h3
  subst h3
  exact ⟨P, A, ls, e1, e2, e3, h2.symm⟩

/-- What a call leaves: the object shows the new state, and the caller's memory is as before. -/
abbrev Done (E : Lib L K) (R : LinSys d K → L → Prop) (G : ℕ → Prop) (M0 : Mach L K) (s : Solver d K) (o : Obj L K) : Prop :=
  o.n = d.n ∧ o.m = d.m ∧ ∃ c, Lv (E.fix o) R G M0 s c o.M

theorem onP_some {b : Prob K} {f : Csc K → Option (Csc K)} {X : Csc K} (e : f b.P = some X) : b.onP f = some ⟨X, b.A, b.σ, b.scl⟩ := by
  unfold Prob.onP; rw [e]; rfl

theorem onA_some {b : Prob K} {f : Csc K → Option (Csc K)} {X : Csc K} (e : f b.A = some X) : b.onA f = some ⟨b.P, X, b.σ, b.scl⟩ := by
  unfold Prob.onA; rw [e]; rfl

theorem updateDataMat_ok {cfg : Cfg} {env : Env d K} {E : Lib L K} (hE : LibIs cfg env E R) (hs : SqrtPos env) {o : Obj L K} {p a : MatArg K}
    {p' a' : MatUpd K} (hp : MatIs p p') (ha : MatIs a a') (hn : o.n = d.n) (hm : o.m = d.m) (h : Lv (E.fix o) R G M0 s c o.M) {ef : ℤ}
    (e : osqpUpdateDataMat cfg env s p' a' = some (s', ef)) : Ok (updateDataMat E p a o) fun r => Done E R G M0 s' r.1 ∧ r.2 = ef := by
  have hF : FixIs cfg env (E.fix o) := ⟨hE.cfg, hm, hE.sqrt, hE.clk, hE.intr⟩
  have h1 := clearTime_ok hF h
  unfold updateDataMat
  dsimp only
  generalize clearTime (E.fix o) o.M = M at h1 ⊢
  refine .val (Stores.nnz_rd h.sh.P) ?_
  refine .val (Stores.nnz_rd h.sh.A) ?_
  rw [bad_eq hp, bad_eq ha]
  generalize h2 : (if cfg.profiling then clearUpdateTime s else s) = s1 at h1
  rcases hpb : matUpdBad d.P.nnz p' with _ | _
  swap
  · unfold osqpUpdateDataMat at e
    dsimp only at e
    rw [h2, hpb] at e
    simp only [if_true] at e
    injection e with e
    injection e with e1 e2
    subst e1
    exact ⟨_, rfl, ⟨hn, hm, c, h1⟩, e2⟩
  rcases hab : matUpdBad d.A.nnz a' with _ | _
  swap
  · unfold osqpUpdateDataMat at e
    dsimp only at e
    rw [h2, hpb, hab] at e
    simp only [if_true, Bool.false_eq_true, if_false] at e
    injection e with e
    injection e with e1 e2
    subst e1
    exact ⟨_, rfl, ⟨hn, hm, c, h1⟩, e2⟩
  simp only [Bool.false_eq_true, if_false]
  obtain ⟨P, A, ls, e1, e2, e3, rfl⟩ := mat_inv e hpb hab s1 h2.symm
  clear e h2
  obtain ⟨W, σ, ct, l0, g⟩ := M
  obtain rfl : g = scal s1 := h1.g
  dsimp only
  by_cases hsc : s1.settings.scaling = 0
  · simp only [hsc, ne_eq, not_true_eq_false, if_false] at e1 e2 e3 ⊢
    refine .val rfl ?_
    obtain ⟨X, x1, x2⟩ := apply_ok h1.sh.P hp hpb e1
    obtain ⟨Y, y1, y2⟩ := apply_ok h1.sh.A ha hab e2
    refine .val (onP_some x1) ?_
    refine .val (onA_some y1) ?_
    refine .val rfl ?_
    have hD : newData env s1 P A = (⟨P, A, s1.work.data.q, s1.work.data.l, s1.work.data.u⟩, s1.work.scaling) := if_neg (not_not.2 hsc)
    have hD1 := congrArg Prod.fst hD
    have hD2 := congrArg Prod.snd hD
    dsimp only at hD1 hD2
    rw [hD1] at e3
    rw [hD1, hD2]
    obtain ⟨lin, l1, l2⟩ := hE.updMat h1.sh.lin e3 x2 y2 hp.idx ha.idx
    rw [count_eq hp hpb, count_eq ha hab]
    refine .val l1 ?_
    refine ⟨_, rfl, ⟨hn, hm, c, ?_⟩, rfl⟩
    have hV : vals (s1.mats ⟨P, A, s1.work.data.q, s1.work.data.l, s1.work.data.u⟩ s1.work.scaling ls) c = vals s1 c := by
      funext k; cases k <;> rfl
    have h3 := h1.newMat (F' := E.fix { o with P := X, A := Y }) (s' := s1.mats ⟨P, A, s1.work.data.q, s1.work.data.l, s1.work.data.u⟩ s1.work.scaling ls)
      (c' := c) (g' := { scal s1 with scl := none }) (lin' := lin) (σ' := σ) rfl rfl (by rw [hV]; exact h1.mem) (fun _ _ => rfl)
      (by unfold scal; simp only [Solver.mats, ne_eq, hsc, not_true_eq_false, if_false]) l2 x2 y2 rfl rfl (by rw [linsysUpdateMat_own e3]) rfl
    exact endUpdate_ok (F := E.fix { o with P := X, A := Y }) ⟨hE.cfg, hm, hE.sqrt, hE.clk, hE.intr⟩ h3
  · simp only [hsc, ne_eq, not_false_eq_true, if_true] at e1 e2 e3 ⊢
    have g0 : Sc W σ (vals s1 c) s1.work.data.P s1.work.data.A (some (s1.work.scaling.c, s1.work.scaling.cinv)) (svOf s1 c)
        ⟨o.P, o.A, σ, some (s1.work.scaling.c, s1.work.scaling.cinv)⟩ :=
      ⟨by rw [← vals_setV hsc]; exact h1.mem, h1.sh.P, h1.sh.A, rfl, fun _ _ => rfl⟩
    refine .bind (unscaleData_ok h1.lay (t := svOf s1 c) g0) fun b g1 => ?_
    obtain ⟨X, x1, x2⟩ := apply_ok g1.P hp hpb e1
    obtain ⟨Y, y1, y2⟩ := apply_ok g1.A ha hab e2
    refine .val (onP_some x1) ?_
    refine .val (onA_some y1) ?_
    have hD : newData env s1 P A = Osqp.scaleData env s1.settings.scaling { Osqp.unscaleData s1.work.scaling s1.work.data with P := P, A := A } := if_pos hsc
    rw [hE.sqrt, hn]
    refine .bind (scaleData_ok h1.lay hs s1.settings.scaling (D := { Osqp.unscaleData s1.work.scaling s1.work.data with P := P, A := A })
      (t := { svOf s1 c with Dinv := s1.work.scaling.Dinv, Einv := s1.work.scaling.Einv }) ⟨g1.mem, x2, y2, g1.scl, g1.kept⟩) fun b' g2 => ?_
    rw [← hD] at g2
    obtain ⟨t, g2, t1, t2, t3, t4, t5, t6, t7⟩ := g2
    obtain ⟨lin, l1, l2⟩ := hE.updMat h1.sh.lin e3 g2.P g2.A (pb := none) (ab := none) trivial trivial
    refine .val l1 ?_
    refine ⟨_, rfl, ⟨rfl, hm, { c with Dt := t.Dt, DtA := t.DtA, Et := t.Et }, ?_⟩, rfl⟩
    have h3 := h1.newMat (F' := E.fix { o with P := b'.P, A := b'.A, n := d.n }) (s' := s1.mats (newData env s1 P A).1 (newData env s1 P A).2 ls)
      (c' := { c with Dt := t.Dt, DtA := t.DtA, Et := t.Et }) (g' := { scal s1 with scl := b'.scl }) (lin' := lin) (σ' := b'.σ)
      rfl rfl (by rw [← setV_vals hsc t1 t2 t3 t4 t5 t6 t7]; exact g2.mem) g2.kept
      (by rw [g2.scl]; unfold scal; simp only [Solver.mats, ne_eq, hsc, not_false_eq_true, if_true]) l2 g2.P g2.A rfl rfl (by rw [linsysUpdateMat_own e3]) rfl
    exact endUpdate_ok (F := E.fix { o with P := b'.P, A := b'.A, n := d.n }) ⟨hE.cfg, hm, hE.sqrt, hE.clk, hE.intr⟩ h3

end Osqp.Vm
