import Verif.Amd.Step2

/-!
# The second scan
-/

namespace Osqp.Amd
open Csc Finset
set_option linter.unusedSectionVars false

variable {n iwlen L0 lemax pfree me nel pme1 pme2 degme wflg dmin bnd : ℤ} {M M0 : Mem} {D U S : Finset ℤ}

/-- What holds in the middle of a round. -/
structure Mid (n iwlen L0 lemax pfree me pme1 pme2 dmin bnd degme nvpiv nel : ℤ) (M : Mem) (D U : Finset ℤ) : Prop where
  core : Core n iwlen L0 lemax pfree me nel M D U
  elt : Me n me pme1 pme2 degme M D U
  trees : Trees n M me nvpiv
  fN : Full M.Next n
  fL : Full M.Last n
  fH : Full M.Head n
  wlt : ∀ x, 0 ≤ x → x < n → M.W x < bnd
  dmin : ∀ x, isVar n M x → x ∉ D → x ∉ U → dmin ≤ M.Degree x
  nv : 0 < nvpiv
  nel : 0 ≤ nel

/-- The variables in the degree lists. -/
def lkd (n : ℤ) (M : Mem) (x : ℤ) : Prop := isVar n M x ∧ 0 < M.Nv x

/-- The variables in the hash buckets. -/
def inB (n : ℤ) (M : Mem) (D : Finset ℤ) (x : ℤ) : Prop := x ∈ D ∧ isVar n M x

theorem Mid.end_le {nvpiv : ℤ} (h : Mid n iwlen L0 lemax pfree me pme1 pme2 dmin bnd degme nvpiv nel M D U) : pme1 ≤ pme2 + 1 ∧ pme2 + 1 ≤ pfree := by
  have E := h.elt
  have := h.core.le me E.r.1 E.r.2 (by rw [E.pe]; exact E.p0)
  rw [E.pe, E.len] at this
  have := E.seg.card
  omega

theorem scan2Entry_ok {nvpiv : ℤ} {s : Piv} (h : Mid n iwlen L0 lemax pfree me pme1 pme2 dmin bnd s.degme s.nvpiv s.nel s.M D U) (K : Key n me wflg s.M D U) (hw : 2 ≤ wflg) (hb : 0 < bnd) {bl : ℤ → List ℤ}
    (hh : Hash n s.M.Next s.M.Last s.M.Head s.M.Degree (lkd n s.M) (inB n s.M D) bl) {p : ℤ} (p0 : pme1 ≤ p) (p1 : p < pme2 + 1) (hi : s.M.Iw p ∈ U) (lim : ℤ) :
    Ens (scan2Entry n me wflg lim p s) (fun s' => s.nel ≤ s'.nel ∧ Mid n iwlen L0 lemax pfree me pme1 pme2 dmin bnd s'.degme s'.nvpiv s'.nel s'.M (insert (s.M.Iw p) D) (U.erase (s.M.Iw p)) ∧
      Key n me wflg s'.M (insert (s.M.Iw p) D) (U.erase (s.M.Iw p)) ∧ (∃ bl', Hash n s'.M.Next s'.M.Last s'.M.Head s'.M.Degree (lkd n s'.M) (inB n s'.M (insert (s.M.Iw p) D)) bl') ∧
      ∀ t, pme1 ≤ t → t < pme2 + 1 → s'.M.Iw t = s.M.Iw t) := by
  have C := h.core
  have E := h.elt
  have he := h.end_le
  obtain ⟨i, hid⟩ : ∃ i, i = s.M.Iw p := ⟨_, rfl⟩
  unfold scan2Entry
  refine Ens.rd C.fI (by have := E.p0; omega) (by omega) ?_
  rw [← hid] at hi ⊢
  have iv := E.uvar i hi
  obtain ⟨i0, i1, i2⟩ := iv
  have iv : isVar n s.M i := ⟨i0, i1, i2⟩
  have ki := C.kvar i iv
  have iD : i ∉ D := fun q => (disjoint_left.mp E.sep) q hi
  have inv : s.M.Nv i < 0 := (C.knv i iv).mpr (.inr hi)
  have im : i ≠ me := by rintro rfl; have := E.elen; omega
  have hmE : ¬ inE s.M i me := fun q => iD ((C.eMe i iv).mp q)
  have R := C.row iv
  have hel := R.el
  refine Ens.rd C.fP i0 i1 (Ens.rd C.fE i0 i1 (Ens.bind (scanElems_ok (me := me) R hw lim rfl rfl rfl) ?_))
  rintro r ⟨KE, hE⟩
  have zE : r.M.Elen = s.M.Elen := by rw [hE.eq]
  have zL : r.M.Len = s.M.Len := by rw [hE.eq]
  refine Ens.wElen i0 (by rw [zE]; have := C.fE.1; omega) (Ens.rd (b := r.M.Len) (n := n) (by rw [zL]; exact C.fL) i0 i1 ?_)
  have zLi : r.M.Len i = s.M.Len i := by rw [zL]
  rw [zLi]
  refine Ens.bind (scanVars_ok R lim hE) ?_
  intro r' hV
  have hpn := hV.pn
  have zE' : r'.M.Elen = upd s.M.Elen i (r.pn - s.M.Pe i + 1) := by rw [hV.eq]
  have hEi : r'.M.Elen i = r.pn - s.M.Pe i + 1 := by rw [zE', upd_same _ i0]
  refine Ens.rd (b := r'.M.Elen) (n := n) (by rw [zE']; exact C.fE.upd _ _) i0 i1 ?_
  rw [hEi]
  have iK : ¬ Kill wflg i s.M i := fun q => by have := R.elt i q.1; omega
  have hsegI : ∀ M' : Mem, (∀ q, q < s.M.Pe i ∨ s.M.Pe i + s.M.Len i ≤ q → M'.Iw q = s.M.Iw q) → ∀ t, pme1 ≤ t → t < pme2 + 1 → M'.Iw t = s.M.Iw t := fun M' hM' t t0 t1 => by
    have := C.disj me i E.r.1 E.r.2 i0 i1 (Ne.symm im) (by rw [E.pe]; exact E.p0) ki.2.1
    rw [E.pe, E.len] at this
    exact hM' t (by omega)
  by_cases c : r.pn - s.M.Pe i + 1 = 1 ∧ r.pn = r'.pn
  · rw [if_pos c]
    have zN : r'.M.Nv = s.M.Nv := by rw [hV.eq]
    have zD : r'.M.Degree = s.M.Degree := by rw [hV.eq]
    have zL' : r'.M.Len = s.M.Len := by rw [hV.eq]
    have z1 : r'.M.Next = s.M.Next := by rw [hV.eq]
    have z2 : r'.M.Last = s.M.Last := by rw [hV.eq]
    have z3 : r'.M.Head = s.M.Head := by rw [hV.eq]
    have fNv : Full r'.M.Nv n := by rw [zN]; exact C.fNv
    unfold massElim
    refine Ens.wPe i0 (by have := hV.fP.1; omega) (Ens.rd (b := r'.M.Nv) fNv i0 i1 (Ens.wNv i0 (by have := fNv.1; dsimp only; omega) (Ens.wElen i0 (by dsimp only; rw [zE', upd_size]; have := C.fE.1; omega) (Ens.pure ?_))))
    dsimp only
    obtain ⟨M', hM'⟩ : ∃ M' : Mem, M' = { r'.M with Pe := upd r'.M.Pe i (flip me), Nv := upd r'.M.Nv i 0, Elen := upd r'.M.Elen i (-1) } := ⟨_, rfl⟩
    rw [← hM']
    have com : Com n iwlen pfree me wflg i s.M M' := by
      refine ⟨by rw [hM']; exact hV.fP.upd _ _, by rw [hM']; dsimp only; rw [zL']; exact C.fL, by rw [hM']; exact fNv.upd _ _, by rw [hM']; dsimp only; rw [zE']; exact (C.fE.upd _ _).upd _ _, by rw [hM']; exact hV.fW,
        by rw [hM']; dsimp only; rw [zD]; exact C.fD, by rw [hM']; exact hV.fI, by rw [hM']; exact hV.sI, by rw [hM']; exact hV.rng, by rw [hM']; exact hV.iw, fun y hy => ?_, fun y yi hy => ?_, fun x xi => ?_, fun x xi => ?_,
        fun x xi => by rw [hM']; dsimp only; rw [zL'], fun x xi => by rw [hM']; dsimp only; rw [zD]⟩
      · rw [hM']; dsimp only
        rw [upd_ne _ i0 (by rintro rfl; exact iK hy)]; exact hV.dead y hy
      · rw [hM']; dsimp only
        rw [upd_ne _ i0 yi]; exact hV.live y hy
      · rw [hM']; dsimp only
        rw [upd_ne _ i0 xi, zN]
      · rw [hM']; dsimp only
        rw [upd_ne _ i0 xi, zE', upd_ne _ i0 xi]
    have goes : Goes me wflg i s.M M' := by
      refine ⟨by rw [hM']; exact upd_same _ i0, by rw [hM']; exact upd_same _ i0, by rw [hM']; exact upd_same _ i0, fun e he hwe => ?_⟩
      have := (hV.kept e).mpr ⟨he, hwe⟩
      have hc := hV.seg.card
      have : 0 < KE.card := card_pos.mpr ⟨e, this⟩
      omega
    obtain ⟨C', E', K', T'⟩ := step2_ok C E K h.trees hw hi com (.inr ⟨goes, rfl⟩)
    rw [zN]
    have var : ∀ x, isVar n M' x ↔ isVar n s.M x ∧ x ≠ i := fun x => by
      by_cases w : x = i
      · subst w
        constructor
        · intro q; have := q.2.2; have := goes.elen; omega
        · intro q; exact absurd rfl q.2
      · unfold isVar; rw [com.elen x w]; simp [w]
    refine ⟨by have : s.M.Nv i < 0 := inv; omega, ⟨C', E', T', by rw [hM']; dsimp only; rw [z1]; exact h.fN, by rw [hM']; dsimp only; rw [z2]; exact h.fL, by rw [hM']; dsimp only; rw [z3]; exact h.fH, fun x x0 x1 => ?_, fun x hx hD hU => ?_, ?_, ?_⟩, K', ⟨bl, ?_⟩, by have := hsegI M' com.iw; rw [hM'] at this; exact this⟩
    · by_cases hk : Kill wflg i s.M x
      · rw [(com.dead x hk).2]; exact hb
      · have : M'.W x = s.M.W x := by rw [hM']; exact (hV.live x hk).2
        rw [this]; exact h.wlt x x0 x1
    · obtain ⟨hx0, xi⟩ := (var x).mp hx
      rw [com.deg x xi]
      exact h.dmin x hx0 (fun q => hD (mem_insert_of_mem q)) (fun q => hU (mem_erase.mpr ⟨xi, q⟩))
    · have := h.nv; omega
    · have := h.nel; omega
    · rw [z1, z2, z3, zD]
      refine hh.congr (fun x => ?_) (fun x => ?_) (fun _ _ => rfl)
      · unfold lkd
        rw [var]
        constructor
        · rintro ⟨⟨a, b⟩, d⟩; rw [com.nv x b] at d; exact ⟨a, d⟩
        · rintro ⟨a, d⟩
          have xi : x ≠ i := by rintro rfl; omega
          exact ⟨⟨a, xi⟩, by rw [com.nv x xi]; exact d⟩
      · unfold inB
        rw [var, mem_insert]
        constructor
        · rintro ⟨a, b, d⟩; exact ⟨a.resolve_left d, b⟩
        · rintro ⟨a, b⟩; exact ⟨.inr a, b, by rintro rfl; exact iD a⟩
  · rw [if_neg c]
    have hroom : r'.pn < s.M.Pe i + s.M.Len i := by
      apply hV.drop
      rcases C.spare i iv hi with q | ⟨k, k0, k1, q⟩
      · exact .inl q
      · exact .inr ⟨k, k0, by omega, q⟩
    have nlk : ¬ lkd n s.M i := fun q => by have := q.2; omega
    have nmb : ¬ inB n s.M D i := fun q => iD q.1
    refine Ens.bind (addElem_ok R hV E.r.1 E.r.2 hmE c hroom h.fN h.fL h.fH hh nlk nmb) ?_
    rintro M' ⟨u, f1, f2, f3, bl', hh'⟩
    refine Ens.pure ?_
    dsimp only
    have com : Com n iwlen pfree me wflg i s.M M' := ⟨u.fP, u.fL, by rw [u.nv]; exact C.fNv, u.fE, u.fW, u.fD, u.fI, u.sI, u.rng, u.iw, u.dead, fun y _ => u.live y, fun x _ => by rw [u.nv], u.elen, u.len, u.deg⟩
    have stays : Stays me wflg i s.M M' := ⟨by rw [u.nv], (u.live i iK).1, (u.live i iK).2, u.el, u.d0, u.first, u.inE', u.nodup, u.inV'⟩
    obtain ⟨C', E', K', T'⟩ := step2_ok C E K h.trees hw hi com (.inl ⟨stays, rfl⟩)
    rw [add_zero] at C' T'
    rw [sub_zero] at E'
    have var : ∀ x, isVar n M' x ↔ isVar n s.M x := fun x => by
      by_cases w : x = i
      · subst w
        exact ⟨fun _ => iv, fun _ => ⟨i0, i1, by have := u.el; omega⟩⟩
      · unfold isVar; rw [u.elen x w]
    refine ⟨le_rfl, ⟨C', E', T', f1, f2, f3, fun x x0 x1 => ?_, fun x hx hD hU => ?_, h.nv, h.nel⟩, K', ⟨bl', ?_⟩, hsegI M' u.iw⟩
    · by_cases hk : Kill wflg i s.M x
      · rw [(u.dead x hk).2]; exact hb
      · rw [(u.live x hk).2]; exact h.wlt x x0 x1
    · have xi : x ≠ i := by rintro rfl; exact hD (mem_insert_self _ _)
      rw [u.deg x xi]
      exact h.dmin x ((var x).mp hx) (fun q => hD (mem_insert_of_mem q)) (fun q => hU (mem_erase.mpr ⟨xi, q⟩))
    · refine hh'.congr (fun x => ?_) (fun x => ?_) (fun _ _ => rfl)
      · unfold lkd; rw [var, u.nv]
      · unfold inB
        rw [var, mem_insert]
        constructor
        · rintro ⟨a, b⟩
          rcases a with a | a
          · exact .inr a
          · exact .inl ⟨a, b⟩
        · rintro (a | a)
          · exact ⟨.inr a.1, a.2⟩
          · subst a; exact ⟨.inl rfl, iv⟩

/-- All the variables of the new element. -/
theorem scan2_ok {s : Piv} (h : Mid n iwlen L0 lemax pfree me pme1 pme2 dmin bnd s.degme s.nvpiv s.nel s.M ∅ S) (K : Key n me wflg s.M ∅ S) (hw : 2 ≤ wflg) (hb : 0 < bnd) (hl : Lists n s.M (lkd n s.M)) (lim : ℤ) :
    Ens (forI pme1 (pme2 + 1) (scan2Entry n me wflg lim) s) (fun s' => s.nel ≤ s'.nel ∧ Mid n iwlen L0 lemax pfree me pme1 pme2 dmin bnd s'.degme s'.nvpiv s'.nel s'.M S ∅ ∧
      ∃ bl', Hash n s'.M.Next s'.M.Last s'.M.Head s'.M.Degree (lkd n s'.M) (inB n s'.M S) bl') := by
  have he := h.end_le
  have hs := h.elt.seg
  rw [empty_union] at hs
  refine Ens.imp (Ens.forI (fun p (s' : Piv) => ∃ D U, s.nel ≤ s'.nel ∧ D ∪ U = S ∧ Mid n iwlen L0 lemax pfree me pme1 pme2 dmin bnd s'.degme s'.nvpiv s'.nel s'.M D U ∧ Key n me wflg s'.M D U ∧
    (∃ bl', Hash n s'.M.Next s'.M.Last s'.M.Head s'.M.Degree (lkd n s'.M) (inB n s'.M D) bl') ∧ (∀ t, pme1 ≤ t → t < p → s'.M.Iw t ∈ D) ∧ ∀ t, p ≤ t → t < pme2 + 1 → s'.M.Iw t ∈ U) he.1 ?_ ?_) ?_
  · refine ⟨∅, S, le_rfl, empty_union S, h, K, ⟨fun _ => [], hl.hash.congr (fun _ => Iff.rfl) (fun x => ?_) (fun _ _ => rfl)⟩, fun t t0 t1 => by omega, fun t t0 t1 => hs.mem t t0 t1⟩
    unfold inB; simp
  · rintro p s' p0 p1 ⟨D, U, hn, hDU, h', K', ⟨bl, hh⟩, hD, hU⟩
    refine Ens.imp (scan2Entry_ok (nvpiv := s'.nvpiv) h' K' hw hb hh p0 p1 (hU p le_rfl p1) lim) ?_
    rintro s'' ⟨g0, g1, g2, g3, g4⟩
    refine ⟨_, _, le_trans hn g0, ?_, g1, g2, g3, fun t t0 t1 => ?_, fun t t0 t1 => ?_⟩
    · rw [← hDU]
      ext x
      have := hU p le_rfl p1
      rw [mem_union, mem_union, mem_insert, mem_erase]
      by_cases w : x = s'.M.Iw p
      · subst w; simp [this]
      · simp [w]
    · rw [g4 t t0 (by omega)]
      by_cases w : t = p
      · subst w; exact mem_insert_self _ _
      · exact mem_insert_of_mem (hD t t0 (by omega))
    · rw [g4 t (by omega) t1]
      refine mem_erase.mpr ⟨fun w => ?_, hU t (by omega) t1⟩
      have := h'.elt.seg.inj t p (by omega) t1 p0 p1 w
      omega
  · rintro s' ⟨D, U, hn, hDU, h', K', hh, hD, hU⟩
    have hU0 : U = ∅ := by
      rw [eq_empty_iff_forall_notMem]
      intro x hx
      obtain ⟨t, t0, t1, e⟩ := h'.elt.seg.surj x (mem_union_right _ hx)
      exact (disjoint_left.mp h'.elt.sep) (e ▸ hD t t0 t1) hx
    subst hU0
    rw [union_empty] at hDU
    subst hDU
    exact ⟨hn, h', hh⟩

end Osqp.Amd
