import Verif.Amd.Restore

/-!
# One round
-/

namespace Osqp.Amd
open Csc Finset
set_option linter.unusedSectionVars false

variable {n iwlen L0 lemax pfree me nel pme1 pme2 degme wflg dmin bnd nvpiv : ℤ} {M M0 : Mem} {D U S R : Finset ℤ}

/-- The degree of the new element is set. -/
theorem Mid.setDeg (h : Mid n iwlen L0 lemax pfree me pme1 pme2 dmin bnd degme nvpiv nel M D U) {lemax' : ℤ} (hl : lemax ≤ lemax') (v : ℤ) :
    Mid n iwlen L0 lemax' pfree me pme1 pme2 dmin bnd degme nvpiv nel { M with Degree := upd M.Degree me v } D U := by
  have C := h.core
  have E := h.elt
  have hne : ∀ x, x ≠ me → upd M.Degree me v x = M.Degree x := fun x hx => upd_ne _ E.r.1 hx
  have hv : ∀ x, isVar n M x → x ≠ me := fun x hx => by rintro rfl; have := E.elen; have := hx.2.2; omega
  refine ⟨⟨C.fP, C.fL, C.fNv, C.fE, C.fW, C.fD.upd _ _, C.fI, C.sI, C.pf, C.rng, C.len, C.le, C.disj, C.bud, C.iw, fun x hx => ?_, C.knv, fun x x0 x1 hx xm => ?_, C.kgone, C.eE, C.nodup, C.eMe, C.eLive, C.vV, C.vD, C.s1, C.s2, C.lL, C.i4, fun e he em => ?_, C.spare, C.cnt⟩,
    ⟨E.r, E.elen, E.nv, E.pe, E.p0, E.len, E.w, E.seg, E.sep, E.uvar, E.dvar, E.first, E.deg⟩, h.trees, h.fN, h.fL, h.fH, h.wlt, fun x hx => ?_, h.nv, h.nel⟩
  · have := C.kvar x hx
    exact ⟨this.1, this.2.1, this.2.2.1, this.2.2.2.1, by dsimp only; rw [hne x (hv x hx)]; exact this.2.2.2.2⟩
  · have := C.kelt x x0 x1 hx xm
    dsimp only
    rw [hne x xm]
    refine ⟨this.1, this.2.imp (fun q => ⟨q.1, q.2.1, q.2.2.1, by omega⟩) id⟩
  · dsimp only
    rw [hne e em]; exact C.i5 e he em
  · dsimp only
    rw [hne x (hv x hx)]; exact h.dmin x hx

/-- While not all variables are eliminated, there is a variable. -/
theorem Core.exists_var (C : Core n iwlen L0 lemax pfree me nel M D U) (h : nel < n) : ∃ x, isVar n M x := by
  by_contra q
  push Not at q
  have := C.cnt
  have e : wsum n (isVar n M) (fun x => av (M.Nv x)) = 0 := by
    classical
    unfold wsum
    exact sum_eq_zero fun x _ => if_neg (q x)
  omega

/-- A round keeps the invariant, and eliminates at least one variable. -/
theorem eliminate_ok {s : Main} (h : Inv n iwlen L0 s) (hn : s.nel < n) (wbig lim : ℤ) : Ens (eliminate n iwlen wbig lim s) (fun s' => Inv n iwlen L0 s' ∧ s.nel < s'.nel) := by
  obtain ⟨x0, hx0⟩ := h.core.exists_var hn
  have n0 : 0 ≤ n := by have := hx0.1; have := hx0.2.1; omega
  unfold eliminate
  refine Ens.bind (choose_ok h.lists h.mindeg.1 h.mindeg.2 hx0) ?_
  rintro ⟨Mc, g, me⟩ ⟨hr, hl, hme, g0, g1, hmin⟩
  dsimp only at *
  have C := h.core.rest hr
  have var : ∀ x, isVar n Mc x ↔ isVar n s.M x := fun x => by unfold isVar; rw [hr.Elen]
  have hme' := (var me).mpr hme
  obtain ⟨m0, m1, m2⟩ := hme'
  have hme' : isVar n Mc me := ⟨m0, m1, m2⟩
  have nvp : 0 < Mc.Nv me := by
    have h1 := (C.kvar me hme').1
    have h2 := (C.knv me hme').not.mpr (by simp)
    omega
  have lC : Lists n Mc (fun x => isVar n Mc x ∧ x ≠ me) := hl.congr rfl rfl rfl rfl (fun x => by rw [var])
  have tC : Trees n Mc (-1) 0 := by
    have := h.trees
    unfold Trees at this ⊢
    rw [hr.Pe, hr.Elen, hr.Nv]; exact this
  have sN := C.fNv.1
  refine Ens.rd C.fE m0 m1 (Ens.rd C.fNv m0 m1 (Ens.wNv m0 (by omega) (Ens.bind (construct_ok (C.pre hme' lC)) ?_)))
  rintro b ⟨S, hb, hpf⟩
  refine Ens.bind (header_ok C hme' tC rfl hb) ?_
  rintro M1 ⟨C1, E1, T1, l1, w1, d1⟩
  have wlt1 : ∀ x, 0 ≤ x → x < n → M1.W x < s.wflg := fun x x0 x1 => by
    rcases w1 x with q | q
    · rw [q, hr.W]; exact h.wlt x x0 x1
    · rw [q]; exact h.wf
  refine Ens.bind (clearFlag_ok C1.fW n0 wlt1 wbig) ?_
  rintro ⟨wf, M2⟩ ⟨k2, wf2, wlt2⟩
  dsimp only at *
  have C2 := C1.keepW k2
  have E2 := E1.keepW k2
  have hend : b.pme2 + 1 ≤ b.pfree := hb.pme.2
  refine Ens.bind (scan1_ok C2 E2 hend wlt2 wf2 h.lemax) ?_
  rintro M3 ⟨k3, dn⟩
  have k13 := k2.trans k3
  have z : M3 = { M1 with W := M3.W } := k13.eq
  have zE : M3.Elen = M1.Elen := by rw [z]
  have zN : M3.Nv = M1.Nv := by rw [z]
  have zD : M3.Degree = M1.Degree := by rw [z]
  have zP : M3.Pe = M1.Pe := by rw [z]
  have z1 : M3.Next = M1.Next := by rw [z]
  have z2 : M3.Last = M1.Last := by rw [z]
  have z3 : M3.Head = M1.Head := by rw [z]
  have var3 : ∀ x, isVar n M3 x ↔ isVar n M1 x := fun x => by unfold isVar; rw [zE]
  have mid3 : Mid n iwlen L0 s.lemax b.pfree me b.pme1 b.pme2 g (wf + s.lemax) b.degme (Mc.Nv me) (s.nel + Mc.Nv me) M3 ∅ S := by
    refine ⟨C1.keepW k13, E1.keepW k13, ?_, by rw [z1]; exact l1.fN, by rw [z2]; exact l1.fL, by rw [z3]; exact l1.fH, dn.wlt, fun x hx _ _ => ?_, nvp, by have := h.nel; omega⟩
    · unfold Trees at T1 ⊢
      rw [zP, zE, zN]; exact T1
    · have hx1 := (var3 x).mp hx
      have xm : x ≠ me := by rintro rfl; have := E1.elen; have := hx1.2.2; omega
      rw [zD, (d1 x xm).1, hr.Degree]
      refine hmin x ((var x).mp ⟨hx.1, hx.2.1, ?_⟩)
      rw [← (d1 x xm).2]; exact hx1.2.2
  have key3 : Key n me wf M3 ∅ S := ⟨fun i hi e x h1 h2 h3 h4 h5 => .inr (dn.key i hi e x h1 h2 h3 h4 h5), fun x e _ q => absurd q (notMem_empty _)⟩
  have l3 : Lists n M3 (lkd n M3) := l1.congr z1 z2 z3 zD (fun x => by unfold lkd; rw [var3, zN])
  have hl0 := h.lemax
  refine Ens.bind (scan2_ok (s := { M := M3, degme := b.degme, nvpiv := Mc.Nv me, nel := s.nel + Mc.Nv me }) mid3 key3 wf2 (by omega) l3 lim) ?_
  rintro r ⟨rn, rm, bl, rh⟩
  dsimp only at rn
  refine Ens.wDegree m0 (by have := rm.core.fD.1; omega) ?_
  have m4 := rm.setDeg (le_max_left s.lemax r.degme) r.degme
  have h4 : Hash n r.M.Next r.M.Last r.M.Head (upd r.M.Degree me r.degme) (lkd n r.M) (inB n r.M S) bl :=
    rh.congr (fun _ => Iff.rfl) (fun _ => Iff.rfl) (fun x hx => upd_ne _ m0 (by rintro rfl; have := rm.elt.elen; have := hx.1.2.2; omega))
  refine Ens.bind (clearFlag_ok (wflg := wf + max s.lemax r.degme) m4.core.fW n0 (fun x x0 x1 => by have := rm.wlt x x0 x1; have := le_max_left s.lemax r.degme; dsimp only; omega) wbig) ?_
  rintro ⟨wf', M5⟩ ⟨k5, wf5, wlt5⟩
  dsimp only at *
  have m5 := m4.keepW k5 wlt5
  have y := k5.eq
  have h5 : Hash n M5.Next M5.Last M5.Head M5.Degree (lkd n M5) (inB n M5 S) bl := by rw [y]; exact h4
  refine Ens.bind (detect_ok m5 wf5 h5) ?_
  rintro ⟨M6, wf6⟩ ⟨d6, m6, l6, g6⟩
  dsimp only at *
  refine Ens.bind (restore_ok m6 l6 g0) ?_
  rintro ⟨M7, q, md⟩ ⟨R, r7⟩
  dsimp only at *
  refine Ens.bind (close_ok (nvpiv := r.nvpiv) (pme1 := b.pme1) (q := q) m0 m1 r7.fNv (by rw [r7.len]; exact m6.core.fL) (by rw [r7.pe]; exact m6.core.fP) (by rw [r7.w]; exact m6.core.fW)) ?_
  intro M8 c8
  refine Ens.pure ⟨closed_inv m6 r7 c8 ?_ (le_max_right _ _) (by omega) ?_, ?_⟩
  · rw [g6, y]; exact upd_same _ m0
  · by_cases w : Mc.Elen me = 0
    · rw [if_neg (by omega)]; exact .inl rfl
    · rw [if_pos w]; exact .inr ⟨rfl, hpf w⟩
  · dsimp only; omega

end Osqp.Amd
