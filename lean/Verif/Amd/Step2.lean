import Verif.Amd.Scan2b

/-!
# The second scan: the quotient graph after the update of one variable
-/

namespace Osqp.Amd
open Csc Finset
set_option linter.unusedSectionVars false

variable {n iwlen L0 lemax pfree me nel pme1 pme2 degme wflg : ℤ} {M M0 : Mem} {D U S : Finset ℤ}

/-- Outside the list of `i` only the absorbed elements change. -/
structure Com (n iwlen pfree me wflg i : ℤ) (M0 M : Mem) : Prop where
  fP : Full M.Pe n
  fL : Full M.Len n
  fNv : Full M.Nv n
  fE : Full M.Elen n
  fW : Full M.W n
  fD : Full M.Degree n
  fI : Full M.Iw pfree
  sI : (M.Iw.size : ℤ) = iwlen
  rng : ∀ p, 0 ≤ p → p < pfree → 0 ≤ M.Iw p ∧ M.Iw p < n
  iw : ∀ q, q < M0.Pe i ∨ M0.Pe i + M0.Len i ≤ q → M.Iw q = M0.Iw q
  dead : ∀ y, Kill wflg i M0 y → M.Pe y = flip me ∧ M.W y = 0
  live : ∀ y, y ≠ i → ¬ Kill wflg i M0 y → M.Pe y = M0.Pe y ∧ M.W y = M0.W y
  nv : ∀ x, x ≠ i → M.Nv x = M0.Nv x
  elen : ∀ x, x ≠ i → M.Elen x = M0.Elen x
  len : ∀ x, x ≠ i → M.Len x = M0.Len x
  deg : ∀ x, x ≠ i → M.Degree x = M0.Degree x

/-- `i` remains a variable. -/
structure Stays (me wflg i : ℤ) (M0 M : Mem) : Prop where
  nv : M.Nv i = M0.Nv i
  pe : M.Pe i = M0.Pe i
  w : M.W i = M0.W i
  el : 0 < M.Elen i ∧ M.Elen i ≤ M.Len i ∧ M.Len i ≤ M0.Len i
  d0 : 0 ≤ M.Degree i
  first : ent M i 0 = me
  inE' : ∀ y, inE M i y ↔ y = me ∨ (inE M0 i y ∧ wflg < M0.W y)
  nodup : ∀ k l, 0 ≤ k → k < M.Elen i → 0 ≤ l → l < M.Elen i → ent M i k = ent M i l → k = l
  inV' : ∀ y, inV M i y ↔ inV M0 i y ∧ 0 < M0.Nv y

/-- `i` is eliminated together with the pivot. -/
structure Goes (me wflg i : ℤ) (M0 M : Mem) : Prop where
  nv : M.Nv i = 0
  elen : M.Elen i = -1
  pe : M.Pe i = flip me
  none : ∀ e, inE M0 i e → ¬ wflg < M0.W e

/-- What the first scan has left to the second. -/
structure Key (n me wflg : ℤ) (M : Mem) (D U : Finset ℤ) : Prop where
  key : ∀ i ∈ U, ∀ e x, inE M i e → isVar n M x → inE M x e → M.W e ≠ 0 → M.W e ≤ wflg → x ∈ D ∨ x ∈ U
  big : ∀ x e, isVar n M x → x ∈ D → inE M x e → e ≠ me → wflg < M.W e

theorem step2_ok (C : Core n iwlen L0 lemax pfree me nel M0 D U) (E : Me n me pme1 pme2 degme M0 D U) (K : Key n me wflg M0 D U) {nvpiv : ℤ} (T : Trees n M0 me nvpiv) (hw : 2 ≤ wflg) {i δ : ℤ} (hi : i ∈ U)
    (c : Com n iwlen pfree me wflg i M0 M) (h : (Stays me wflg i M0 M ∧ δ = 0) ∨ (Goes me wflg i M0 M ∧ δ = -M0.Nv i)) :
    Core n iwlen L0 lemax pfree me (nel + δ) M (insert i D) (U.erase i) ∧ Me n me pme1 pme2 (degme - δ) M (insert i D) (U.erase i) ∧ Key n me wflg M (insert i D) (U.erase i) ∧ Trees n M me (nvpiv + δ) := by
  have iv := E.uvar i hi
  obtain ⟨i0, i1, i2⟩ := iv
  have iv : isVar n M0 i := ⟨i0, i1, i2⟩
  have ki := C.kvar i iv
  have iD : i ∉ D := fun q => (disjoint_left.mp E.sep) q hi
  have inv : M0.Nv i < 0 := (C.knv i iv).mpr (.inr hi)
  obtain ⟨m0, m1⟩ := E.r
  have im : i ≠ me := by rintro rfl; have := E.elen; omega
  have hmE : ¬ inE M0 i me := fun q => iD ((C.eMe i iv).mp q)
  have kill : ∀ y, Kill wflg i M0 y → isElt n M0 y ∧ y ≠ me ∧ y ≠ i := fun y q => by
    have a := C.eE i y iv q.1
    have ym : y ≠ me := by rintro rfl; exact hmE q.1
    rcases (C.kelt y a.1 a.2.1 a.2.2 ym).2 with w | w
    · exact ⟨⟨a.1, a.2.1, a.2.2, w.1⟩, ym, by rintro rfl; omega⟩
    · exact absurd w.2 q.2.1
  have fl : flip me < 0 := by unfold flip; omega
  -- the sets
  have hDU : ∀ x, (x ∈ insert i D ∨ x ∈ U.erase i) ↔ (x ∈ D ∨ x ∈ U) := fun x => by
    rw [mem_insert, mem_erase]
    by_cases q : x = i
    · subst q; simp [hi]
    · simp [q]
  have hDUn : ∀ x, (x ∉ insert i D ∧ x ∉ U.erase i) ↔ (x ∉ D ∧ x ∉ U) := fun x => by
    have := (hDU x).not; rw [not_or, not_or] at this; exact this
  have hU : ∀ x, x ∈ U.erase i ↔ x ≠ i ∧ x ∈ U := fun x => mem_erase
  -- nodes
  have hpe : M.Pe i = M0.Pe i ∨ M.Pe i = flip me := by
    rcases h with ⟨h, _⟩ | ⟨h, _⟩
    · exact .inl h.pe
    · exact .inr h.pe
  have var : ∀ x, isVar n M x → isVar n M0 x := fun x hx => by
    by_cases q : x = i
    · subst q; exact iv
    · unfold isVar at hx ⊢; rw [c.elen x q] at hx; exact hx
  have var' : ∀ x, x ≠ i → isVar n M0 x → isVar n M x := fun x q hx => by
    unfold isVar at hx ⊢; rw [c.elen x q]; exact hx
  have stay : isVar n M i → Stays me wflg i M0 M ∧ δ = 0 := fun q => by
    rcases h with h | h
    · exact h
    · have := h.1.elen; have := q.2.2; omega
  have alive : ∀ j, 0 ≤ M.Pe j → ¬ Kill wflg i M0 j ∧ M.Pe j = M0.Pe j ∧ (j ≠ i → M.W j = M0.W j) := fun j jp => by
    have hk : ¬ Kill wflg i M0 j := fun q => by have := (c.dead j q).1; omega
    by_cases q : j = i
    · subst q; exact ⟨hk, by rcases hpe with w | w <;> omega, fun w => absurd rfl w⟩
    · exact ⟨hk, (c.live j q hk).1, fun _ => (c.live j q hk).2⟩
  have hLi : 0 ≤ M.Pe i → M.Len i ≤ M0.Len i ∧ 1 ≤ M.Len i := fun q => by
    rcases h with ⟨h, _⟩ | ⟨h, _⟩
    · have := h.el; omega
    · have := h.pe; omega
  have hLe : ∀ j, 0 ≤ M.Pe j → M.Len j ≤ M0.Len j := fun j jp => by
    by_cases q : j = i
    · subst q; exact (hLi jp).1
    · rw [c.len j q]
  have hent : ∀ x, 0 ≤ x → x < n → x ≠ i → 0 ≤ M0.Pe x → M.Pe x = M0.Pe x → ∀ t, 0 ≤ t → t < M0.Len x → ent M x t = ent M0 x t := fun x x0 x1 xi xp xe t t0 t1 => by
    unfold ent
    rw [xe]
    have := C.disj x i x0 x1 i0 i1 xi xp ki.2.1
    exact c.iw _ (by omega)
  have vent : ∀ x, isVar n M0 x → x ≠ i → M.Pe x = M0.Pe x ∧ M.W x = M0.W x ∧ ∀ t, 0 ≤ t → t < M0.Len x → ent M x t = ent M0 x t := fun x hx xi => by
    have hk : ¬ Kill wflg i M0 x := fun q => by have := (kill x q).1.2.2.1; have := hx.2.2; omega
    have a := c.live x xi hk
    exact ⟨a.1, a.2, hent x hx.1 hx.2.1 xi (C.kvar x hx).2.1 a.1⟩
  have hinE : ∀ x, isVar n M0 x → x ≠ i → ∀ y, inE M x y ↔ inE M0 x y := fun x hx xi y => by
    have a := (vent x hx xi).2.2
    have l := (C.kvar x hx).2.2.2.1
    unfold inE
    rw [c.elen x xi]
    constructor
    · rintro ⟨k, k0, k1, q⟩; exact ⟨k, k0, k1, by rw [← a k k0 (by omega)]; exact q⟩
    · rintro ⟨k, k0, k1, q⟩; exact ⟨k, k0, k1, by rw [a k k0 (by omega)]; exact q⟩
  have hinV : ∀ x, isVar n M0 x → x ≠ i → ∀ y, inV M x y ↔ inV M0 x y := fun x hx xi y => by
    have a := (vent x hx xi).2.2
    have l := hx.2.2
    unfold inV
    rw [c.elen x xi, c.len x xi]
    constructor
    · rintro ⟨k, k0, k1, q⟩; exact ⟨k, k0, k1, by rw [← a k (by omega) k1]; exact q⟩
    · rintro ⟨k, k0, k1, q⟩; exact ⟨k, k0, k1, by rw [a k (by omega) k1]; exact q⟩
  have elt : ∀ e, isElt n M e → isElt n M0 e ∧ ¬ Kill wflg i M0 e ∧ e ≠ i := fun e he => by
    obtain ⟨e0, e1, e2, e3⟩ := he
    have ei : e ≠ i := by
      rintro rfl
      rcases h with ⟨h, _⟩ | ⟨h, _⟩
      · have := h.el; omega
      · have := h.elen; omega
    obtain ⟨a, b, _⟩ := alive e e3
    exact ⟨⟨e0, e1, by rw [← c.elen e ei]; exact e2, by rw [← b]; exact e3⟩, a, ei⟩
  have hinL : ∀ e, isElt n M e → ∀ y, inL M e y ↔ inL M0 e y := fun e he y => by
    obtain ⟨a, hk, ei⟩ := elt e he
    have q := hent e a.1 a.2.1 ei a.2.2.2 (c.live e ei hk).1
    unfold inL
    rw [c.len e ei]
    constructor
    · rintro ⟨t, t0, t1, w⟩; exact ⟨t, t0, t1, by rw [← q t t0 t1]; exact w⟩
    · rintro ⟨t, t0, t1, w⟩; exact ⟨t, t0, t1, by rw [q t t0 t1]; exact w⟩
  -- a live element of `i` is kept
  have keepE : ∀ e, isElt n M e → e ≠ me → inE M0 i e → wflg < M0.W e := fun e he em hie => by
    obtain ⟨a, hk, _⟩ := elt e he
    have : M0.W e ≠ 0 := by
      rcases (C.kelt e a.1 a.2.1 a.2.2.1 em).2 with w | w
      · exact w.2.1
      · have := a.2.2.2; omega
    by_contra q
    exact hk ⟨hie, this, by omega⟩
  have elen_ge : ∀ y, -1 ≤ M0.Elen y → -1 ≤ M.Elen y := fun y hy => by
    by_cases q : y = i
    · subst q
      rcases h with ⟨h, _⟩ | ⟨h, _⟩
      · have := h.el; omega
      · rw [h.elen]
    · rw [c.elen y q]; exact hy
  have avN : ∀ x, isVar n M x → av (M.Nv x) = av (M0.Nv x) := fun x hx => by
    by_cases q : x = i
    · subst q; rw [(stay hx).1.nv]
    · rw [c.nv x q]
  have notKillOut : ∀ x e, isVar n M0 x → x ∉ U → inE M0 x e → ¬ Kill wflg i M0 e := fun x e hx hxU hxe q => by
    rcases K.key i hi e x q.1 hx hxe q.2.1 q.2.2 with w | w
    · have := K.big x e hx w hxe (kill e q).2.1
      have := q.2.2; omega
    · exact hxU w
  refine ⟨⟨c.fP, c.fL, c.fNv, c.fE, c.fW, c.fD, c.fI, c.sI, C.pf, c.rng, fun j j0 j1 jp jm => ?_, fun j j0 j1 jp => ?_, fun j k j0 j1 k0 k1 hjk jp kp => ?_, ?_, C.iw, fun x hx => ?_, fun x hx => ?_, fun x x0 x1 hx xm => ?_,
      fun x x0 x1 hx => ?_, fun x e hx he => ?_, fun x hx k l k0 k1 l0 l1 q => ?_, fun x hx => ?_, fun x e hx hS he => ?_, fun x y hx hy => ?_, fun x y hx hxD hxy => ?_, fun x y hx hy hS hxy => ?_,
      fun x e hx he em => ?_, fun e y he em hy => ?_, fun e he em => ?_, fun e he em => ?_, fun x hx hS => ?_, ?_⟩, ?_, ?_, ?_⟩
  · obtain ⟨_, b, _⟩ := alive j jp
    by_cases q : j = i
    · subst q; exact (hLi jp).2
    · rw [c.len j q]; exact C.len j j0 j1 (by omega) jm
  · obtain ⟨_, b, _⟩ := alive j jp
    have := C.le j j0 j1 (by omega)
    have := hLe j jp
    omega
  · obtain ⟨_, b, _⟩ := alive j jp
    obtain ⟨_, b', _⟩ := alive k kp
    have := C.disj j k j0 j1 k0 k1 hjk (by omega) (by omega)
    have := hLe j jp
    have := hLe k kp
    omega
  · refine le_trans ?_ C.bud
    unfold room
    refine sum_le_sum fun j hj => ?_
    rw [mem_Ico] at hj
    by_cases q : 0 ≤ M.Pe j
    · obtain ⟨_, b, _⟩ := alive j q
      rw [if_pos q, if_pos (by omega)]; exact hLe j q
    · rw [if_neg q]
      split_ifs with w
      · by_cases jm : j = me
        · subst jm
          have := E.seg.card; rw [E.len]; omega
        · have := C.len j hj.1 hj.2 w jm; omega
      · exact le_rfl
  · have hx0 := var x hx
    by_cases q : x = i
    · subst q
      have s := (stay hx).1
      exact ⟨by rw [s.nv]; exact ki.1, by rw [s.pe]; exact ki.2.1, by rw [s.w]; exact ki.2.2.1, s.el.2.1, s.d0⟩
    · have a := C.kvar x hx0
      have b := vent x hx0 q
      rw [c.nv x q, b.1, b.2.1, c.elen x q, c.len x q, c.deg x q]; exact a
  · rw [hDU, ← C.knv x (var x hx)]
    by_cases q : x = i
    · subst q; rw [(stay hx).1.nv]
    · rw [c.nv x q]
  · have xi : x ≠ i := by
      rintro rfl
      rcases h with ⟨h, _⟩ | ⟨h, _⟩
      · have := h.el; omega
      · have := h.elen; omega
    rw [c.elen x xi] at hx
    have a := C.kelt x x0 x1 hx xm
    rw [c.nv x xi, c.deg x xi]
    refine ⟨a.1, ?_⟩
    by_cases hk : Kill wflg i M0 x
    · have := c.dead x hk; exact .inr ⟨by omega, this.2⟩
    · have := c.live x xi hk; rw [this.1, this.2]; exact a.2
  · by_cases xi : x = i
    · subst xi
      rcases h with ⟨h, _⟩ | ⟨h, _⟩
      · have := h.el; omega
      · exact ⟨h.nv, by rw [h.pe]; exact fl⟩
    · rw [c.elen x xi] at hx
      have a := C.kgone x x0 x1 hx
      have hk : ¬ Kill wflg i M0 x := fun q => by have := (kill x q).1.2.2.1; omega
      rw [c.nv x xi, (c.live x xi hk).1]; exact a
  · have hx0 := var x hx
    have : 0 ≤ e ∧ e < n ∧ M0.Elen e < -1 := by
      by_cases q : x = i
      · subst q
        rcases ((stay hx).1.inE' e).mp he with rfl | w
        · exact ⟨m0, m1, E.elen⟩
        · exact C.eE x e iv w.1
      · exact C.eE x e hx0 ((hinE x hx0 q e).mp he)
    refine ⟨this.1, this.2.1, ?_⟩
    rw [c.elen e (by rintro rfl; omega)]; exact this.2.2
  · have hx0 := var x hx
    by_cases w : x = i
    · subst w; exact (stay hx).1.nodup k l k0 k1 l0 l1 q
    · have a := (vent x hx0 w).2.2
      have := (C.kvar x hx0).2.2.2.1
      rw [c.elen x w] at k1 l1
      rw [a k k0 (by omega), a l l0 (by omega)] at q
      exact C.nodup x hx0 k l k0 k1 l0 l1 q
  · have hx0 := var x hx
    by_cases w : x = i
    · subst w; rw [(stay hx).1.inE']; simp
    · rw [hinE x hx0 w, C.eMe x hx0, mem_insert]; simp [w]
  · have hx0 := var x hx
    by_cases w : x = i
    · subst w
      rcases ((stay hx).1.inE' e).mp he with rfl | q
      · rw [(c.live e (Ne.symm im) (fun q => (kill e q).2.1 rfl)).1, E.pe]; exact E.p0
      · have a := C.eE x e iv q.1
        have hk : ¬ Kill wflg x M0 e := fun r => by have := r.2.2; omega
        have em : e ≠ me := by rintro rfl; exact hmE q.1
        rw [(c.live e (by rintro rfl; omega) hk).1]
        rcases (C.kelt e a.1 a.2.1 a.2.2 em).2 with r | r
        · exact r.1
        · omega
    · have hxU : x ∉ U := fun q => hS ((hU x).mpr ⟨w, q⟩)
      have he' := (hinE x hx0 w e).mp he
      have hk := notKillOut x e hx0 hxU he'
      have a := C.eE x e hx0 he'
      rw [(c.live e (by rintro rfl; omega) hk).1]
      exact C.eLive x e hx0 hxU he'
  · have hx0 := var x hx
    by_cases w : x = i
    · subst w
      obtain ⟨q, r⟩ := ((stay hx).1.inV' y).mp hy
      rcases C.vV x y iv q with s | s
      · exact .inl (elen_ge y s)
      · rw [s.2] at r; have := E.nv; omega
    · rcases C.vV x y hx0 ((hinV x hx0 w y).mp hy) with s | s
      · exact .inl (elen_ge y s)
      · exact .inr ⟨(hU x).mpr ⟨w, s.1⟩, s.2⟩
  · have hx0 := var x hx
    have : isVar n M0 y ∧ 0 < M0.Nv y := by
      by_cases w : x = i
      · subst w
        obtain ⟨q, r⟩ := ((stay hx).1.inV' y).mp hxy
        refine ⟨?_, r⟩
        have s : -1 ≤ M0.Elen y := by
          rcases C.vV x y iv q with s | s
          · exact s
          · rw [s.2] at r; have := E.nv; omega
        obtain ⟨k, k0, k1, e⟩ := q
        have yr := C.ent_rng i0 i1 ki.2.1 (by omega) k1
        rw [e] at yr
        refine ⟨yr.1, yr.2, ?_⟩
        by_contra t
        have := (C.kgone y yr.1 yr.2 (by omega)).1
        omega
      · rw [mem_insert] at hxD
        exact C.vD x y hx0 (hxD.resolve_left w) ((hinV x hx0 w y).mp hxy)
    have yi : y ≠ i := by rintro rfl; omega
    exact ⟨var' y yi this.1, by rw [c.nv y yi]; exact this.2⟩
  · have hx0 := var x hx
    have hy0 := var y hy
    rw [hDUn, hDUn] at hS
    have base : inV M0 x y := by
      by_cases w : x = i
      · subst w; exact (((stay hx).1.inV' y).mp hxy).1
      · exact (hinV x hx0 w y).mp hxy
    have sym := C.s1 x y hx0 hy0 hS base
    by_cases w : y = i
    · subst w
      rw [(stay hy).1.inV']
      refine ⟨sym, ?_⟩
      have xo : x ∉ D ∧ x ∉ U := hS.resolve_left (fun q => q.2 hi)
      have := (C.knv x hx0).not.mpr (by tauto)
      have := (C.kvar x hx0).1
      omega
    · exact (hinV y hy0 w x).mpr sym
  · have hx0 := var x hx
    have a := (elt e he).1
    rw [hinL e he]
    by_cases w : x = i
    · subst w
      rw [(stay hx).1.inE', ← C.s2 x e iv a em]
      constructor
      · rintro (q | q)
        · exact absurd q em
        · exact q.1
      · intro q; exact .inr ⟨q, keepE e he em q⟩
    · rw [hinE x hx0 w]; exact C.s2 x e hx0 a em
  · exact elen_ge y (C.lL e y (elt e he).1 em ((hinL e he y).mp hy))
  · obtain ⟨x, hx, hxe⟩ := C.i4 e (elt e he).1 em
    by_cases w : x = i
    · subst w
      have big := keepE e he em hxe
      rcases h with ⟨h, _⟩ | ⟨h, _⟩
      · exact ⟨x, ⟨i0, i1, by have := h.el; omega⟩, (h.inE' e).mpr (.inr ⟨hxe, big⟩)⟩
      · exact absurd big (h.none e hxe)
    · exact ⟨x, var' x w hx, (hinE x hx w e).mpr hxe⟩
  · have ei := (elt e he).2.2
    rw [c.deg e ei]
    refine le_trans ?_ (C.i5 e (elt e he).1 em)
    refine wsum_mono (fun x x0 x1 q => ⟨var x q.1, ?_⟩) (fun x _ _ => av_nonneg _) fun x _ _ q => le_of_eq (avN x q.1)
    by_cases w : x = i
    · subst w
      exact ((((stay q.1).1.inE' e).mp q.2).resolve_left em).1
    · exact (hinE x (var x q.1) w e).mp q.2
  · obtain ⟨xi, hxU⟩ := (hU x).mp hS
    have hx0 := var x hx
    have b := (vent x hx0 xi).2.2
    have a := C.kvar x hx0
    rw [c.elen x xi, c.len x xi]
    rcases C.spare x hx0 hxU with ⟨k, k0, k1, q⟩ | ⟨k, k0, k1, q⟩
    · left
      refine ⟨k, k0, k1, ?_⟩
      rw [b k k0 (by omega)]
      have hk : ¬ Kill wflg i M0 (ent M0 x k) := fun r => r.2.1 q
      have := (C.eE x _ hx0 ⟨k, k0, k1, rfl⟩).2.2
      rw [(c.live _ (by intro r; rw [r] at this; omega) hk).2]; exact q
    · right
      refine ⟨k, k0, k1, ?_⟩
      rw [b k (by have := hx0.2.2; omega) k1]
      by_cases w : ent M0 x k = i
      · rw [w]
        rcases h with ⟨h, _⟩ | ⟨h, _⟩
        · rw [h.nv]; omega
        · rw [h.nv]
      · rw [c.nv _ w]; exact q
  · have := C.cnt
    rcases h with ⟨h, hd⟩ | ⟨h, hd⟩
    · rw [hd, add_zero, wsum_congr (p := isVar n M0) (f := fun x => av (M0.Nv x)) (fun x _ _ => ⟨var x, fun q => ?_⟩) (fun x _ _ q => ?_)]
      · exact this
      · by_cases w : x = i
        · subst w; exact ⟨i0, i1, by have := h.el; omega⟩
        · exact var' x w q
      · by_cases w : x = i
        · subst w; rw [h.nv]
        · rw [c.nv x w]
    · have e := wsum_add (p := isVar n M) (p' := isVar n M0) (f := fun x => av (M.Nv x)) (f' := fun x => av (M0.Nv x)) i0 i1 (fun q => by have := q.2.2; have := h.elen; omega) (fun x _ _ => by
        constructor
        · intro q
          by_cases w : x = i
          · exact .inr w
          · exact .inl (var' x w q)
        · rintro (q | q)
          · exact var x q
          · rw [q]; exact iv) (fun x _ _ q => (avN x q).symm)
      have e2 : av (M0.Nv i) = -M0.Nv i := av_neg inv
      rw [e2] at e
      omega
  · have mk : ¬ Kill wflg i M0 me := fun q => (kill me q).2.1 rfl
    have ml := c.live me (Ne.symm im) mk
    have hun : insert i D ∪ U.erase i = D ∪ U := by
      ext x; rw [mem_union, mem_union]; exact hDU x
    refine ⟨E.r, by rw [c.elen me (Ne.symm im)]; exact E.elen, by rw [c.nv me (Ne.symm im)]; exact E.nv, by rw [ml.1]; exact E.pe, E.p0, by rw [c.len me (Ne.symm im)]; exact E.len, by rw [ml.2]; exact E.w, ?_, ?_, fun x hx => ?_, fun x hx => ?_, fun x hx hx' => ?_, ?_⟩
    · rw [hun]
      refine E.seg.move rfl (fun t t0 t1 => ?_)
      have := C.disj me i m0 m1 i0 i1 (Ne.symm im) (by rw [E.pe]; exact E.p0) ki.2.1
      rw [E.pe, E.len] at this
      exact c.iw _ (by omega)
    · rw [disjoint_left]
      intro x hx hx'
      obtain ⟨xi, xU⟩ := (hU x).mp hx'
      exact (disjoint_left.mp E.sep) ((mem_insert.mp hx).resolve_left xi) xU
    · obtain ⟨xi, xU⟩ := (hU x).mp hx
      exact var' x xi (E.uvar x xU)
    · rcases mem_insert.mp hx with rfl | q
      · exact elen_ge x (by omega)
      · exact elen_ge x (E.dvar x q)
    · rcases mem_insert.mp hx with rfl | q
      · exact (stay hx').1.first
      · have w : x ≠ i := by rintro rfl; exact iD q
        have a := C.kvar x (var x hx')
        have b := C.len x hx'.1 hx'.2.1 a.2.1 (by rintro rfl; have := E.elen; have := (var x hx').2.2; omega)
        rw [(vent x (var x hx') w).2.2 0 le_rfl (by omega)]; exact E.first x q (var x hx')
    · have := E.deg
      simp only [hDU]
      rcases h with ⟨h, hd⟩ | ⟨h, hd⟩
      · rw [hd, sub_zero, this]
        refine (wsum_congr (fun x _ _ => ⟨fun q => ⟨var x q.1, q.2⟩, fun q => ⟨?_, q.2⟩⟩) (fun x _ _ q => ?_)).symm
        · by_cases w : x = i
          · subst w; rw [h.nv]
          · rw [c.nv x w]
        · by_cases w : x = i
          · subst w; exact ⟨i0, i1, by have := h.el; omega⟩
          · exact var' x w q.1
      · have e := wsum_add (p := fun x => isVar n M x ∧ (x ∈ D ∨ x ∈ U)) (p' := fun x => isVar n M0 x ∧ (x ∈ D ∨ x ∈ U)) (f := fun x => av (M.Nv x)) (f' := fun x => av (M0.Nv x)) i0 i1
          (fun q => by have := q.1.2.2; have := h.elen; omega) (fun x _ _ => by
          constructor
          · intro q
            by_cases w : x = i
            · exact .inr w
            · exact .inl ⟨var' x w q.1, q.2⟩
          · rintro (q | q)
            · exact ⟨var x q.1, q.2⟩
            · rw [q]; exact ⟨iv, .inr hi⟩) (fun x _ _ q => (avN x q.1).symm)
        have e2 : av (M0.Nv i) = -M0.Nv i := av_neg inv
        rw [e2] at e
        omega
  · refine ⟨fun j hj e x hje hx hxe z hz => ?_, fun x e hx hxD hxe em => ?_⟩
    · rw [hDU]
      obtain ⟨ji, jU⟩ := (hU j).mp hj
      have hj0 := E.uvar j jU
      have hje' := (hinE j hj0 ji e).mp hje
      have hEe := C.eE j e hj0 hje'
      have hk : ¬ Kill wflg i M0 e := fun q => z (c.dead e q).2
      have hwe := (c.live e (by rintro rfl; omega) hk).2
      rw [hwe] at z hz
      by_cases w : x = i
      · subst w; exact .inr hi
      · exact K.key j jU e x hje' (var x hx) ((hinE x (var x hx) w e).mp hxe) z hz
    · have hx0 := var x hx
      by_cases w : x = i
      · subst w
        have q := (((stay hx).1.inE' e).mp hxe).resolve_left em
        have hk : ¬ Kill wflg x M0 e := fun r => by have := r.2.2; omega
        have := (C.eE x e iv q.1).2.2
        rw [(c.live e (by rintro rfl; omega) hk).2]; exact q.2
      · have hxD0 := (mem_insert.mp hxD).resolve_left w
        have he := (hinE x hx0 w e).mp hxe
        have hb := K.big x e hx0 hxD0 he em
        have := (C.eE x e hx0 he).2.2
        have hk : ¬ Kill wflg i M0 e := fun r => by have := r.2.2; omega
        rw [(c.live e (by rintro rfl; omega) hk).2]; exact hb
  · obtain ⟨rep, rank, t, F⟩ := T
    have mk : ¬ Kill wflg i M0 me := fun q => (kill me q).2.1 rfl
    have ml := c.live me (Ne.symm im) mk
    have iK : ¬ Kill wflg i M0 i := fun q => (kill i q).2.2 rfl
    obtain ⟨rank1, t1, F1⟩ := F.kill (Pe' := fun x => if x = i then M0.Pe i else M.Pe x) (Elen' := M0.Elen) (nv' := fun x => if x = me then nvpiv else av (M0.Nv x)) m0 m1
      (by rw [if_neg (Ne.symm im), ml.1, E.pe]; exact E.p0) (Kill wflg i M0) (fun x q => by
        obtain ⟨a, b, d⟩ := kill x q
        exact ⟨b, a.2.2.1, a.2.2.2, by rw [if_neg d]; exact (c.dead x q).1⟩)
      (fun x x0 x1 hk xp => by
        split_ifs with w
        · rw [w]
        · exact (c.live x w hk).1)
      (fun x x0 x1 hk xp => by
        split_ifs with w
        · exact ki.2.1
        · rw [(c.live x w hk).1]; exact xp)
      (fun _ _ _ _ => rfl) ⟨by have := E.elen; omega, E.elen⟩ (fun _ _ _ _ => rfl)
    rcases h with ⟨h, hd⟩ | ⟨h, hd⟩
    · rw [hd, add_zero]
      refine ⟨rep, rank1, t1, F1.congr (fun x x0 x1 q => ?_) (fun x x0 x1 q => ?_) (fun x x0 x1 => ?_) (fun x x0 x1 => ?_) (fun x x0 x1 q => ?_)⟩
      · split_ifs at q ⊢ with w
        · rw [w]; exact h.pe
        · rfl
      · split_ifs at q with w
        · rw [w, h.pe]; exact ki.2.1
        · exact q
      · by_cases w : x = i
        · subst w; have := h.el; constructor <;> intro <;> omega
        · rw [c.elen x w]
      · by_cases w : x = i
        · subst w; have := h.el; constructor <;> intro <;> omega
        · rw [c.elen x w]
      · by_cases w : x = i
        · subst w; rw [h.nv]
        · rw [c.nv x w]
    · obtain ⟨rep2, rank2, t2, F2⟩ := F1.absorb (Pe' := M.Pe) (Elen' := M.Elen) (nv' := fun x => if x = me then nvpiv + δ else av (M.Nv x)) i0 i1 m0 m1 im (by rw [if_neg (Ne.symm im), ml.1, E.pe]; exact E.p0)
        (by have := E.elen; omega) i2 (by rw [if_pos rfl]; exact ki.2.1) h.pe (fun x _ _ w => by rw [if_neg w]) h.elen (fun x _ _ w => c.elen x w)
        (fun x _ _ _ w1 w2 => by rw [if_neg w2, if_neg w2, c.nv x w1]) (by rw [if_pos rfl, if_pos rfl, if_neg im, hd, av_neg inv])
      exact ⟨rep2, rank2, t2, F2⟩

end Osqp.Amd
