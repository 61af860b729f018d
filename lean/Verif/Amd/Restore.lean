import Verif.Amd.Detect

/-!
# The degree lists are restored, and the new element is closed
-/

namespace Osqp.Amd
open Csc Finset
set_option linter.unusedSectionVars false

variable {n iwlen L0 lemax pfree me nel pme1 pme2 degme wflg dmin bnd nvpiv : ℤ} {M M0 : Mem} {D U S R : Finset ℤ}

/-- The variables `R` have been restored; those are at the front of the element, up to `q`. -/
structure Rst (n pfree pme1 dmin : ℤ) (S : Finset ℤ) (M0 : Mem) (p : ℤ) (R : Finset ℤ) (M : Mem) (q md : ℤ) : Prop where
  pe : M.Pe = M0.Pe
  len : M.Len = M0.Len
  elen : M.Elen = M0.Elen
  w : M.W = M0.W
  fNv : Full M.Nv n
  fI : Full M.Iw pfree
  sI : M.Iw.size = M0.Iw.size
  nv : ∀ x, M.Nv x = if x ∈ R then -M0.Nv x else M0.Nv x
  sub : ∀ x ∈ R, inB n M0 S x ∧ ∃ t, pme1 ≤ t ∧ t < p ∧ M0.Iw t = x
  all : ∀ t, pme1 ≤ t → t < p → M0.Nv (M0.Iw t) < 0 → M0.Iw t ∈ R
  seg : Seg M.Iw pme1 q R
  qp : q ≤ p
  iw : ∀ t, t < pme1 ∨ q ≤ t → M.Iw t = M0.Iw t
  deg : ∀ x, x ∉ R → M.Degree x = M0.Degree x
  md : 0 ≤ md ∧ md ≤ dmin ∧ ∀ x ∈ R, md ≤ M.Degree x
  lists : Lists n M (fun x => lkd n M0 x ∨ x ∈ R)

theorem restore_ok (h : Mid n iwlen L0 lemax pfree me pme1 pme2 dmin bnd degme nvpiv nel M0 S ∅) (hl : Lists n M0 (lkd n M0)) (hm : 0 ≤ dmin) :
    Ens (forI pme1 (pme2 + 1) (restoreEntry (n - nel) degme) (M0, pme1, dmin)) (fun t => ∃ R, Rst n pfree pme1 dmin S M0 (pme2 + 1) R t.1 t.2.1 t.2.2) := by
  have C := h.core
  have E := h.elt
  have he := h.end_le
  have hp0 := E.p0
  refine Ens.forI (fun p (t : Mem × ℤ × ℤ) => ∃ R, Rst n pfree pme1 dmin S M0 p R t.1 t.2.1 t.2.2) he.1 ⟨∅, ?_⟩ ?_
  · dsimp only
    exact ⟨rfl, rfl, rfl, rfl, C.fNv, C.fI, rfl, fun x => by simp, fun x hx => absurd hx (notMem_empty _), fun t t0 t1 => by omega, Seg.nil _ _, le_rfl, fun _ _ => rfl, fun _ _ => rfl,
      ⟨hm, le_rfl, fun x hx => absurd hx (notMem_empty _)⟩, ⟨hl.fN, hl.fL, hl.fH, hl.fD, by simpa using hl.deg, hl.nohash⟩⟩
  · rintro p ⟨M, q, md⟩ p0 p1 ⟨R, r⟩
    dsimp only at r
    unfold restoreEntry
    dsimp only
    refine Ens.rd r.fI (by omega) (by omega) ?_
    have ei : M.Iw p = M0.Iw p := r.iw p (.inr r.qp)
    rw [ei]
    have hi : M0.Iw p ∈ S := by have := E.seg.mem p p0 p1; rw [union_empty] at this; exact this
    have hir := C.rng p (by omega) (by omega)
    obtain ⟨i, hid⟩ : ∃ i, i = M0.Iw p := ⟨_, rfl⟩
    rw [← hid] at hi hir ⊢
    have iR : i ∉ R := fun q => by
      obtain ⟨_, t, t0, t1, t2⟩ := r.sub i q
      have := E.seg.inj t p t0 (by omega) p0 p1 (by rw [t2, hid])
      omega
    have ni : M.Nv i = M0.Nv i := by rw [r.nv, if_neg iR]
    refine Ens.rd r.fNv hir.1 hir.2 ?_
    rw [ni]
    by_cases w : M0.Nv i < 0
    · rw [if_pos (by omega)]
      have iv : isVar n M0 i := by
        refine ⟨hir.1, hir.2, ?_⟩
        by_contra w
        have := E.dvar i hi
        have := C.kgone i hir.1 hir.2 (by omega)
        omega
      have hlk : ¬ (lkd n M0 i ∨ i ∈ R) := by rintro (q | q); exacts [by have := q.2; omega, iR q]
      have d0 : 0 ≤ M.Degree i := by rw [r.deg i iR]; exact (C.kvar i iv).2.2.2.2
      have g1 : -M0.Nv i ≤ degme := by
        have := wsum_single (p := fun x => isVar n M0 x ∧ (x ∈ S ∨ x ∈ (∅ : Finset ℤ))) (f := fun x => av (M0.Nv x)) hir.1 hir.2 ⟨iv, .inl hi⟩ (fun x _ _ => av_nonneg _)
        rw [← E.deg] at this
        rw [av_neg w] at this; exact this
      have g2 : -M0.Nv i ≤ n - nel := by
        have := wsum_single (p := isVar n M0) (f := fun x => av (M0.Nv x)) hir.1 hir.2 iv (fun x _ _ => av_nonneg _)
        rw [av_neg w] at this
        have := C.cnt; omega
      have g3 := h.nel
      obtain ⟨g, hg⟩ : ∃ g, g = min (M.Degree i + degme - -M0.Nv i) (n - nel - -M0.Nv i) := ⟨_, rfl⟩
      have g0 : 0 ≤ g := by omega
      have gn : g < n := by omega
      have sN := r.fNv.1
      have s1 := r.lists.fN.1
      have s2 := r.lists.fL.1
      have s3 := r.lists.fH.1
      have s4 := r.lists.fD.1
      have s5 := C.fI.1
      have s6 := r.sI
      refine Ens.wNv hir.1 (by omega) (Ens.rd (b := M.Degree) r.lists.fD hir.1 hir.2 ?_)
      rw [← hg]
      refine Ens.rd (b := M.Head) r.lists.fH g0 gn ?_
      have hhd := r.lists.nohash.head g0 gn
      obtain ⟨st, dg⟩ := r.lists.deg
      have hq := r.seg.card
      have hqp := r.qp
      have tail : ∀ L1 : Buf ℤ, (∀ x, L1 x = if M.Head g ≠ -1 ∧ x = M.Head g then i else M.Last x) → Full L1 n →
          Ens (({ M with Nv := upd M.Nv i (-M0.Nv i), Last := L1 } : Mem).wNext i (M.Head g) >>= fun M => M.wLast i (-1) >>= fun M => M.wHead g i >>= fun M => M.wDegree i g >>= fun M => M.wIw q i >>= fun M =>
            (pure (M, q + 1, min md g) : Option (Mem × ℤ × ℤ))) (fun t => ∃ R, Rst n pfree pme1 dmin S M0 (p + 1) R t.1 t.2.1 t.2.2) := by
        intro L1 hL1 fL1
        have sL1 := fL1.1
        refine Ens.wNext hir.1 (by dsimp only; omega) (Ens.wLast hir.1 (by dsimp only; omega) (Ens.wHead g0 (by dsimp only; omega) (Ens.wDegree hir.1 (by dsimp only; omega) (Ens.wIw (by omega) (by dsimp only; omega)
          (Ens.pure ⟨insert i R, ?_⟩)))))
        dsimp only
        have sg := r.seg.snoc (Iw' := upd M.Iw q i) iR (upd_same _ (by omega)) (fun t t0 t1 => upd_ne _ (by omega) (by omega))
        have ins : ∃ st', Deg n (upd M.Next i (M.Head g)) (upd L1 i (-1)) (upd M.Head g i) (upd M.Degree i g) (fun x => (lkd n M0 x ∨ x ∈ R) ∨ x = i) st' ∧ NoHash n (upd L1 i (-1)) (upd M.Head g i) :=
          deg_insert dg r.lists.nohash hir.1 hir.2 hlk g0 gn (fun x => upd_at _ hir.1 x) (fun x => by rw [upd_at _ hir.1, hL1]) (fun e => upd_at _ g0 e) (fun x => upd_at _ hir.1 x)
        obtain ⟨st', dg', nh'⟩ := ins
        refine ⟨r.pe, r.len, r.elen, r.w, r.fNv.upd _ _, r.fI.upd _ _, r.sI, fun x => ?_, fun x hx => ?_, fun t t0 t1 ht => ?_, sg, by omega, fun t ht => ?_, fun x hx => ?_, ⟨by have := r.md.1; omega, by have := r.md.2.1; omega, fun x hx => ?_⟩,
          ⟨r.lists.fN.upd _ _, fL1.upd _ _, r.lists.fH.upd _ _, r.lists.fD.upd _ _, ⟨st', dg'.congr (fun x => ?_) (fun _ _ => rfl)⟩, nh'⟩⟩
        · dsimp only
          rw [upd_at _ hir.1]
          by_cases e : x = i
          · rw [e, if_pos rfl, if_pos (mem_insert_self _ _)]
          · rw [if_neg e, r.nv]; simp [e]
        · rcases mem_insert.mp hx with e | e
          · rw [e]; exact ⟨⟨hi, iv⟩, p, p0, by omega, hid.symm⟩
          · obtain ⟨a, t, t0, t1, t2⟩ := r.sub x e
            exact ⟨a, t, t0, by omega, t2⟩
        · by_cases e : t = p
          · rw [e, ← hid]; exact mem_insert_self _ _
          · exact mem_insert_of_mem (r.all t t0 (by omega) ht)
        · dsimp only
          rw [upd_ne _ (by omega) (by omega)]; exact r.iw t (by omega)
        · dsimp only
          rw [mem_insert, not_or] at hx
          rw [upd_ne _ hir.1 hx.1]; exact r.deg x hx.2
        · dsimp only
          rw [upd_at _ hir.1]
          split_ifs with e
          · omega
          · have := r.md.2.2 x (mem_of_mem_insert_of_ne hx e); omega
        · rw [mem_insert]; tauto
      unfold Mem.wLastOf
      by_cases z : M.Head g = -1
      · rw [if_neg (by omega)]
        exact tail M.Last (fun x => by rw [if_neg (by omega)]) r.lists.fL
      · rw [if_pos z]
        have hk := (dg.head g g0 gn).resolve_left (by omega)
        have hr := dg.rng _ hk.1
        refine Ens.wLast hr.1 (by dsimp only; omega) (tail _ (fun x => ?_) (r.lists.fL.upd _ _))
        rw [upd_at _ hr.1]
        by_cases e : x = M.Head g
        · rw [if_pos e, if_pos ⟨z, e⟩]
        · rw [if_neg e, if_neg (fun q => e q.2)]
    · rw [if_neg (by omega)]
      refine Ens.pure ⟨R, r.pe, r.len, r.elen, r.w, r.fNv, r.fI, r.sI, r.nv, fun x hx => ?_, fun t t0 t1 ht => ?_, r.seg, by show q ≤ p + 1; have := r.qp; omega, r.iw, r.deg, r.md, r.lists⟩
      · obtain ⟨a, t, t0, t1, t2⟩ := r.sub x hx
        exact ⟨a, t, t0, by omega, t2⟩
      · by_cases e : t = p
        · rw [e, ← hid] at ht; exact absurd ht w
        · exact r.all t t0 (by omega) ht

/-- The memory at the end of a round. -/
structure Closed (me nvpiv pme1 q : ℤ) (M1 M : Mem) : Prop where
  nv : M.Nv = upd M1.Nv me nvpiv
  len : M.Len = upd M1.Len me (q - pme1)
  pe : M.Pe = if q - pme1 = 0 then upd M1.Pe me (-1) else M1.Pe
  w : M.W = if q - pme1 = 0 then upd M1.W me 0 else M1.W
  iw : M.Iw = M1.Iw
  elen : M.Elen = M1.Elen
  next : M.Next = M1.Next
  last : M.Last = M1.Last
  head : M.Head = M1.Head
  deg : M.Degree = M1.Degree

theorem close_ok {q : ℤ} (m0 : 0 ≤ me) (m1 : me < n) (h1 : Full M.Nv n) (h2 : Full M.Len n) (h3 : Full M.Pe n) (h4 : Full M.W n) : Ens (close me nvpiv pme1 q M) (Closed me nvpiv pme1 q M) := by
  have s1 := h1.1
  have s2 := h2.1
  have s3 := h3.1
  have s4 := h4.1
  unfold close
  refine Ens.wNv m0 (by omega) (Ens.wLen m0 (by dsimp only; omega) (Ens.rd (b := upd M.Len me (q - pme1)) (h2.upd _ _) m0 m1 ?_))
  rw [upd_same _ m0]
  by_cases e : q - pme1 = 0
  · rw [if_pos e]
    refine Ens.wPe m0 (by dsimp only; omega) (Ens.last (Ens.wW m0 (by dsimp only; omega) (Ens.some ⟨rfl, rfl, ?_, ?_, rfl, rfl, rfl, rfl, rfl, rfl⟩)))
    · rw [if_pos e]
    · rw [if_pos e]
  · rw [if_neg e]
    refine Ens.pure ⟨rfl, rfl, ?_, ?_, rfl, rfl, rfl, rfl, rfl, rfl⟩
    · rw [if_neg e]
    · rw [if_neg e]

/-- After the end of the round the invariant holds again. -/
theorem closed_inv {M1 : Mem} {q md pf : ℤ} (h : Mid n iwlen L0 lemax pfree me pme1 pme2 dmin bnd degme nvpiv nel M0 S ∅) (r : Rst n pfree pme1 dmin S M0 (pme2 + 1) R M1 q md) (c : Closed me nvpiv pme1 q M1 M)
    (hd : M0.Degree me = degme) (hdl : degme ≤ lemax) (hb : 0 < bnd) (hpf : pf = pfree ∨ (pf = q ∧ pfree = pme2 + 1)) : Inv n iwlen L0 ⟨M, pf, md, nel, bnd, lemax⟩ := by
  have C := h.core
  have E := h.elt
  have he := h.end_le
  obtain ⟨m0, m1⟩ := E.r
  have hqc := r.seg.card
  have hqp := r.qp
  have q0 : pme1 ≤ q := by omega
  have elen : M.Elen = M0.Elen := by rw [c.elen, r.elen]
  have mR : me ∉ R := fun w => by have := (r.sub me w).1.2.2.2; have := E.elen; omega
  have Rall : ∀ x, x ∈ R ↔ x ∈ S ∧ isVar n M0 x := fun x => by
    refine ⟨fun w => (r.sub x w).1, fun w => ?_⟩
    obtain ⟨t, t0, t1, t2⟩ := E.seg.surj x (mem_union_left _ w.1)
    rw [← t2]
    refine r.all t t0 t1 ?_
    rw [t2]; exact (C.knv x w.2).mpr (.inl w.1)
  have var : ∀ x, isVar n M x ↔ isVar n M0 x := fun x => by unfold isVar; rw [elen]
  have vme : ∀ x, isVar n M0 x → x ≠ me := fun x hx => by rintro rfl; have := E.elen; have := hx.2.2; omega
  have avN : ∀ x, x ≠ me → av (M.Nv x) = av (M0.Nv x) := fun x xm => by
    rw [c.nv, upd_ne _ m0 xm, r.nv]
    split_ifs
    · exact av_flip _
    · rfl
  have nvp : ∀ x, isVar n M0 x → 0 < M.Nv x := fun x hx => by
    rw [c.nv, upd_ne _ m0 (vme x hx), r.nv]
    split_ifs with w
    · have := (C.knv x hx).mpr (.inl ((Rall x).mp w).1); omega
    · have a := (C.knv x hx).not.mpr (by rw [Rall] at w; simp only [notMem_empty, or_false]; tauto)
      have := (C.kvar x hx).1; omega
  have pn : ∀ x, x ≠ me → M.Pe x = M0.Pe x := fun x xm => by
    rw [c.pe]
    split_ifs
    · rw [upd_ne _ m0 xm, r.pe]
    · rw [r.pe]
  have wn : ∀ x, x ≠ me → M.W x = M0.W x := fun x xm => by
    rw [c.w]
    split_ifs
    · rw [upd_ne _ m0 xm, r.w]
    · rw [r.w]
  have ln : ∀ x, x ≠ me → M.Len x = M0.Len x := fun x xm => by rw [c.len, upd_ne _ m0 xm, r.len]
  have lm : M.Len me = q - pme1 := by rw [c.len, upd_same _ m0]
  have pm : M.Pe me = if q - pme1 = 0 then -1 else pme1 := by
    rw [c.pe]
    split_ifs
    · rw [upd_same _ m0]
    · rw [r.pe]; exact E.pe
  have wm : M.W me = if q - pme1 = 0 then 0 else M0.W me := by
    rw [c.w]
    split_ifs
    · rw [upd_same _ m0]
    · rw [r.w]
  have pme0 : 0 ≤ M0.Pe me := by rw [E.pe]; exact E.p0
  have hent : ∀ x, 0 ≤ x → x < n → x ≠ me → 0 ≤ M0.Pe x → ∀ k, 0 ≤ k → k < M0.Len x → ent M x k = ent M0 x k := fun x x0 x1 xm xp k k0 k1 => by
    unfold ent
    rw [pn x xm, c.iw]
    have := C.disj x me x0 x1 m0 m1 xm xp pme0
    rw [E.pe, E.len] at this
    exact r.iw _ (by omega)
  have hinE : ∀ x, isVar n M0 x → ∀ y, inE M x y ↔ inE M0 x y := fun x hx y => by
    have k := C.kvar x hx
    have a := hent x hx.1 hx.2.1 (vme x hx) k.2.1
    unfold inE
    rw [elen]
    constructor
    · rintro ⟨t, t0, t1, e⟩; exact ⟨t, t0, t1, by rw [← a t t0 (by omega)]; exact e⟩
    · rintro ⟨t, t0, t1, e⟩; exact ⟨t, t0, t1, by rw [a t t0 (by omega)]; exact e⟩
  have hinV : ∀ x, isVar n M0 x → ∀ y, inV M x y ↔ inV M0 x y := fun x hx y => by
    have k := C.kvar x hx
    have a := hent x hx.1 hx.2.1 (vme x hx) k.2.1
    have := hx.2.2
    unfold inV
    rw [elen, ln x (vme x hx)]
    constructor
    · rintro ⟨t, t0, t1, e⟩; exact ⟨t, t0, t1, by rw [← a t (by omega) t1]; exact e⟩
    · rintro ⟨t, t0, t1, e⟩; exact ⟨t, t0, t1, by rw [a t (by omega) t1]; exact e⟩
  have elt : ∀ e, e ≠ me → (isElt n M e ↔ isElt n M0 e) := fun e em => by unfold isElt; rw [elen, pn e em]
  have hinL : ∀ e, e ≠ me → isElt n M0 e → ∀ y, inL M e y ↔ inL M0 e y := fun e em he y => by
    have a := hent e he.1 he.2.1 em he.2.2.2
    unfold inL
    rw [ln e em]
    constructor
    · rintro ⟨t, t0, t1, e⟩; exact ⟨t, t0, t1, by rw [← a t t0 t1]; exact e⟩
    · rintro ⟨t, t0, t1, e⟩; exact ⟨t, t0, t1, by rw [a t t0 t1]; exact e⟩
  have live : isElt n M me → q - pme1 ≠ 0 := fun w z => by have := w.2.2.2; rw [pm, if_pos z] at this; omega
  have inLme : q - pme1 ≠ 0 → ∀ x, inL M me x ↔ x ∈ R := fun z x => by
    have hp : M.Pe me = pme1 := by rw [pm, if_neg z]
    unfold inL ent
    rw [lm, hp, c.iw]
    constructor
    · rintro ⟨t, t0, t1, e⟩; rw [← e]; exact r.seg.mem _ (by omega) (by omega)
    · intro w
      obtain ⟨t, t0, t1, t2⟩ := r.seg.surj x w
      exact ⟨t - pme1, by omega, by omega, by rw [show pme1 + (t - pme1) = t by omega]; exact t2⟩
  have nonempty : q - pme1 ≠ 0 → ∃ x, x ∈ R := fun z => by
    by_contra w
    push Not at w
    have : R = ∅ := eq_empty_of_forall_notMem w
    rw [this] at hqc; simp at hqc; exact z hqc
  have Rne : ∀ x, x ∈ R → q - pme1 ≠ 0 := fun x w z => by
    have : 0 < R.card := card_pos.mpr ⟨x, w⟩
    omega
  have hpe : ∀ j, 0 ≤ M.Pe j → M.Pe j = M0.Pe j ∧ 0 ≤ M0.Pe j ∧ M.Len j ≤ M0.Len j ∧ (j = me → M.Len j = q - pme1 ∧ q - pme1 ≠ 0) := fun j jp => by
    by_cases e : j = me
    · rw [e] at jp ⊢
      have z : q - pme1 ≠ 0 := fun z => by rw [pm, if_pos z] at jp; omega
      rw [pm, if_neg z, E.pe, lm, E.len]; exact ⟨rfl, E.p0, by omega, fun _ => ⟨rfl, z⟩⟩
    · rw [pn j e, ln j e]; rw [pn j e] at jp; exact ⟨rfl, jp, le_rfl, fun w => absurd w e⟩
  have pf0 : pf ≤ pfree := by rcases hpf with w | w <;> omega
  have hdeg : ∀ x, isVar n M0 x → 0 ≤ M.Degree x ∧ md ≤ M.Degree x := fun x hx => by
    rw [c.deg]
    by_cases w : x ∈ R
    · have := r.md.2.2 x w; have := r.md.1; omega
    · rw [r.deg x w]
      have a : x ∉ S := fun y => w ((Rall x).mpr ⟨y, hx⟩)
      have := (C.kvar x hx).2.2.2.2
      have := h.dmin x hx a (notMem_empty _)
      have := r.md.2.1
      omega
  have dm : M.Degree me = degme := by rw [c.deg, r.deg me mR]; exact hd
  have dg0 : 0 ≤ degme := by rw [E.deg]; exact wsum_nonneg (fun x _ _ => av_nonneg _)
  refine ⟨⟨?_, ?_, by dsimp only; rw [c.nv]; exact r.fNv.upd _ _, by dsimp only; rw [elen]; exact C.fE, ?_, by dsimp only; rw [c.deg]; exact r.lists.fD, by dsimp only; rw [c.iw]; exact r.fI.mono pf0, by dsimp only; rw [c.iw, r.sI]; exact C.sI, ?_, fun p p0 p1 => ?_,
    fun j j0 j1 jp jm => ?_, fun j j0 j1 jp => ?_, fun j k j0 j1 k0 k1 hjk jp kp => ?_, ?_, C.iw, fun x hx => ?_, fun x hx => ?_, fun x x0 x1 hx xm => ?_, fun x x0 x1 hx => ?_, fun x e hx he => ?_,
    fun x hx k l k0 k1 l0 l1 q => ?_, fun x hx => ?_, fun x e hx hS he => ?_, fun x y hx hy => ?_, fun x y hx hxD => absurd hxD (notMem_empty _), fun x y hx hy hS hxy => ?_, fun x e hx he em => ?_, fun e y he em hy => ?_, fun e he em => ?_, fun e he em => ?_,
    fun x hx hS => absurd hS (notMem_empty _), ?_⟩, ?_, fun x x0 x1 => ?_, hb, by dsimp only; omega, h.nel, ⟨r.md.1, fun x hx => (hdeg x ((var x).mp hx)).2⟩, ?_⟩ <;> dsimp only at *
  · rw [c.pe]
    split_ifs
    · rw [r.pe]; exact C.fP.upd _ _
    · rw [r.pe]; exact C.fP
  · rw [c.len, r.len]; exact C.fL.upd _ _
  · rw [c.w]
    split_ifs
    · rw [r.w]; exact C.fW.upd _ _
    · rw [r.w]; exact C.fW
  · have := C.pf
    have := E.p0
    omega
  · rw [c.iw]
    by_cases w : pme1 ≤ p ∧ p < q
    · have := (r.sub _ (r.seg.mem p w.1 w.2)).1.2; exact ⟨this.1, this.2.1⟩
    · rw [r.iw p (by omega)]; exact C.rng p p0 (by omega)
  · obtain ⟨a, b, d, e⟩ := hpe j jp
    by_cases w : j = me
    · have := e w; omega
    · rw [ln j w]; exact C.len j j0 j1 b w
  · obtain ⟨a, b, d, e⟩ := hpe j jp
    rw [a]
    have h1 := C.le j j0 j1 b
    rcases hpf with w | w
    · omega
    · by_cases z : j = me
      · have := e z; rw [z, E.pe, ← z]; omega
      · have h2 := C.disj j me j0 j1 m0 m1 z b pme0
        have h3 := C.len j j0 j1 b z
        rw [E.pe, E.len] at h2
        omega
  · obtain ⟨a, b, d, _⟩ := hpe j jp
    obtain ⟨a', b', d', _⟩ := hpe k kp
    have := C.disj j k j0 j1 k0 k1 hjk b b'
    omega
  · refine le_trans ?_ C.bud
    unfold room
    refine sum_le_sum fun x hx => ?_
    rw [mem_Ico] at hx
    by_cases z : 0 ≤ M.Pe x
    · obtain ⟨a, b, d, _⟩ := hpe x z
      rw [if_pos z, if_pos b]; exact d
    · rw [if_neg z]
      split_ifs with w
      · by_cases e : x = me
        · rw [e, E.len]; omega
        · have := C.len x hx.1 hx.2 w e; omega
      · exact le_rfl
  · have hx0 := (var x).mp hx
    have k := C.kvar x hx0
    have xm := vme x hx0
    rw [pn x xm, wn x xm, elen, ln x xm]
    exact ⟨by have := nvp x hx0; omega, k.2.1, k.2.2.1, k.2.2.2.1, (hdeg x hx0).1⟩
  · have := nvp x ((var x).mp hx)
    simp only [notMem_empty, or_self, iff_false]; omega
  · rw [elen] at hx
    by_cases e : x = me
    · rw [e, c.nv, upd_same _ m0, dm]
      refine ⟨h.nv, ?_⟩
      rw [pm, wm]
      by_cases z : q - pme1 = 0
      · right; rw [if_pos z, if_pos z]; omega
      · left; rw [if_neg z, if_neg z]; exact ⟨E.p0, E.w, dg0, hdl⟩
    · have xR : x ∉ R := fun w => by have := (r.sub x w).1.2.2.2; omega
      have a := C.kelt x x0 x1 hx e
      rw [c.nv, upd_ne _ m0 e, r.nv, if_neg xR, pn x e, wn x e, c.deg, r.deg x xR]; exact a
  · rw [elen] at hx
    have e : x ≠ me := by rintro rfl; have := E.elen; omega
    have xR : x ∉ R := fun w => by have := (r.sub x w).1.2.2.2; omega
    rw [c.nv, upd_ne _ m0 e, r.nv, if_neg xR, pn x e]; exact C.kgone x x0 x1 hx
  · have hx0 := (var x).mp hx
    rw [elen]; exact C.eE x e hx0 ((hinE x hx0 e).mp he)
  · have hx0 := (var x).mp hx
    have k' := C.kvar x hx0
    have a := hent x hx.1 hx.2.1 (vme x hx0) k'.2.1
    rw [elen] at k1 l1
    rw [a k k0 (by omega), a l l0 (by omega)] at q
    exact C.nodup x hx0 k l k0 k1 l0 l1 q
  · have hx0 := (var x).mp hx
    rw [hinE x hx0]
    simp only [notMem_empty, iff_false]
    intro w
    have := (C.eE x (-1) hx0 w).1
    omega
  · have hx0 := (var x).mp hx
    have he' := (hinE x hx0 e).mp he
    by_cases em : e = me
    · rw [em] at he' ⊢
      have z := Rne x ((Rall x).mpr ⟨(C.eMe x hx0).mp he', hx0⟩)
      rw [pm, if_neg z]; exact E.p0
    · rw [pn e em]; exact C.eLive x e hx0 (notMem_empty _) he'
  · have hx0 := (var x).mp hx
    rw [elen]
    rcases C.vV x y hx0 ((hinV x hx0 y).mp hy) with w | w
    · exact .inl w
    · exact absurd w.1 (notMem_empty _)
  · have hx0 := (var x).mp hx
    have hy0 := (var y).mp hy
    have w := (hinV x hx0 y).mp hxy
    refine (hinV y hy0 x).mpr (C.s1 x y hx0 hy0 ?_ w)
    by_cases xS : x ∈ S
    · left
      have := (C.vD x y hx0 xS w).2
      exact ⟨fun yS => by have := (C.knv y hy0).mpr (.inl yS); omega, notMem_empty _⟩
    · exact .inr ⟨xS, notMem_empty _⟩
  · have hx0 := (var x).mp hx
    rw [hinE x hx0]
    by_cases w : e = me
    · rw [w] at he ⊢
      rw [C.eMe x hx0, inLme (live he), Rall]; tauto
    · have he0 := (elt e w).mp he
      rw [hinL e w he0]; exact C.s2 x e hx0 he0 w
  · rw [elen]
    by_cases w : e = me
    · rw [w] at he hy
      have := (r.sub y ((inLme (live he) y).mp hy)).1.2.2.2
      omega
    · have he0 := (elt e w).mp he
      exact C.lL e y he0 w ((hinL e w he0 y).mp hy)
  · by_cases w : e = me
    · rw [w] at he ⊢
      obtain ⟨x, hx⟩ := nonempty (live he)
      have a := (Rall x).mp hx
      exact ⟨x, (var x).mpr a.2, (hinE x a.2 me).mpr ((C.eMe x a.2).mpr a.1)⟩
    · obtain ⟨x, a, b⟩ := C.i4 e ((elt e w).mp he) w
      exact ⟨x, (var x).mpr a, (hinE x a e).mpr b⟩
  · by_cases w : e = me
    · rw [w, dm, E.deg]
      refine le_of_eq (wsum_congr (fun x x0 x1 => ?_) (fun x x0 x1 hx => avN x (vme x hx.1)))
      rw [var]
      constructor
      · exact fun a => ⟨a.1, .inl ((C.eMe x a.1).mp ((hinE x a.1 me).mp a.2))⟩
      · exact fun a => ⟨a.1, (hinE x a.1 me).mpr ((C.eMe x a.1).mpr (a.2.resolve_right (notMem_empty _)))⟩
    · have he0 := (elt e w).mp he
      have eR : e ∉ R := fun y => by have := (r.sub e y).1.2.2.2; have := he0.2.2.1; omega
      rw [c.deg, r.deg e eR]
      refine le_trans (le_of_eq (wsum_congr (fun x x0 x1 => ?_) (fun x x0 x1 hx => avN x (vme x hx.1)))) (C.i5 e he0 w)
      rw [var]
      exact ⟨fun a => ⟨a.1, (hinE x a.1 e).mp a.2⟩, fun a => ⟨a.1, (hinE x a.1 e).mpr a.2⟩⟩
  · have e := wsum_congr (n := n) (p := isVar n M0) (p' := isVar n M) (f := fun x => av (M0.Nv x)) (f' := fun x => av (M.Nv x)) (fun x x0 x1 => var x) (fun x x0 x1 hx => avN x (vme x hx))
    rw [e]; exact C.cnt
  · refine r.lists.congr c.next c.last c.head c.deg (fun x => ?_)
    rw [var]
    constructor
    · intro hx
      by_cases w : x ∈ S
      · exact .inr ((Rall x).mpr ⟨w, hx⟩)
      · left
        refine ⟨hx, ?_⟩
        have a := (C.knv x hx).not.mpr (by simp only [notMem_empty, or_false]; exact w)
        have := (C.kvar x hx).1; omega
    · rintro (w | w)
      · exact w.1
      · exact ((Rall x).mp w).2
  · by_cases e : x = me
    · rw [e, wm]
      split_ifs
      · exact hb
      · exact h.wlt me m0 m1
    · rw [wn x e]; exact h.wlt x x0 x1
  · obtain ⟨rep, rank, T, F⟩ := h.trees
    have nvx : ∀ x, 0 ≤ x → (if x = -1 then 0 else av (M.Nv x)) = if x = me then nvpiv else av (M0.Nv x) := fun x x0 => by
      rw [if_neg (by omega)]
      split_ifs with e
      · rw [e, c.nv, upd_same _ m0, av_pos (by have := h.nv; omega)]
      · exact avN x e
    have F' : Fo n M0.Pe M0.Elen (fun x => if x = -1 then 0 else av (M.Nv x)) rep rank T := F.congr (fun _ _ _ _ => rfl) (fun _ _ _ w => w) (fun _ _ _ => Iff.rfl) (fun _ _ _ => Iff.rfl) (fun x x0 _ _ => nvx x x0)
    unfold Trees
    rw [elen]
    by_cases z : q - pme1 = 0
    · obtain ⟨rank', T', G⟩ := F'.root (Pe' := M.Pe) m0 m1 pme0 E.elen (by rw [pm, if_pos z]) (fun x _ _ xm => pn x xm)
      exact ⟨rep, rank', T', G⟩
    · refine ⟨rep, rank, T, F'.congr (fun x x0 x1 w => ?_) (fun x x0 x1 w => ?_) (fun _ _ _ => Iff.rfl) (fun _ _ _ => Iff.rfl) (fun _ _ _ _ => rfl)⟩
      · exact pn x (by rintro rfl; omega)
      · by_cases e : x = me
        · rw [e, pm, if_neg z]; exact E.p0
        · rw [pn x e]; exact w

end Osqp.Amd
