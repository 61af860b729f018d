import Verif.Amd.Absorb

/-!
# Supervariable detection
-/

namespace Osqp.Amd
open Csc Finset
set_option linter.unusedSectionVars false

variable {n iwlen L0 lemax pfree me nel pme1 pme2 degme wflg dmin bnd nvpiv : ℤ} {M M0 : Mem} {D U S : Finset ℤ} {bl : ℤ → List ℤ} {g i j : ℤ}

/-- What `i` has marked. -/
structure Mark (n wflg i : ℤ) (M : Mem) : Prop where
  iff : ∀ x, 0 ≤ x → x < n → (M.W x = wflg ↔ ∃ k, 1 ≤ k ∧ k < M.Len i ∧ ent M i k = x)

/-- What the detection does not change. -/
structure KeepID (M0 M : Mem) : Prop where
  iw : M.Iw = M0.Iw
  deg : M.Degree = M0.Degree

/-- In the middle of the detection: `l` is what is left of the bucket `g`. -/
structure Det (n iwlen L0 lemax pfree me pme1 pme2 dmin bnd degme nvpiv nel g : ℤ) (S : Finset ℤ) (bl : ℤ → List ℤ) (l : List ℤ) (M : Mem) : Prop where
  mid : Mid n iwlen L0 lemax pfree me pme1 pme2 dmin bnd degme nvpiv nel M S ∅
  hash : Hash n M.Next M.Last M.Head M.Degree (lkd n M) (inB n M S) bl
  empty : bl g = []
  nodup : l.Nodup
  mem : ∀ x ∈ l, inB n M S x ∧ M.Last x = g

theorem Mid.keepW (h : Mid n iwlen L0 lemax pfree me pme1 pme2 dmin bnd degme nvpiv nel M0 D U) (k : KeepW n M0 M) {bnd' : ℤ} (hw : ∀ x, 0 ≤ x → x < n → M.W x < bnd') :
    Mid n iwlen L0 lemax pfree me pme1 pme2 dmin bnd' degme nvpiv nel M D U := by
  have a := h.core.keepW k
  have b := h.elt.keepW k
  have e := k.eq
  generalize M.W = W at *
  subst e
  exact ⟨a, b, h.trees, h.fN, h.fL, h.fH, hw, h.dmin, h.nv, h.nel⟩

theorem Det.keepW {l : List ℤ} (h : Det n iwlen L0 lemax pfree me pme1 pme2 dmin bnd degme nvpiv nel g S bl l M0) (k : KeepW n M0 M) {bnd' : ℤ} (hw : ∀ x, 0 ≤ x → x < n → M.W x < bnd') :
    Det n iwlen L0 lemax pfree me pme1 pme2 dmin bnd' degme nvpiv nel g S bl l M := by
  have a := h.mid.keepW k hw
  have e := k.eq
  generalize M.W = W at *
  subst e
  exact ⟨a, h.hash, h.empty, h.nodup, h.mem⟩

theorem marks_ok (C : Core n iwlen L0 lemax pfree me nel M0 S ∅) (E : Me n me pme1 pme2 degme M0 S ∅) (iS : i ∈ S) (iv : isVar n M0 i) (hlt : ∀ x, 0 ≤ x → x < n → M0.W x < wflg) (hw : 2 ≤ wflg) :
    Ens (forI (M0.Pe i + 1) (M0.Pe i + M0.Len i) (markList wflg) M0) (fun M => KeepW n M0 M ∧ Mark n wflg i M ∧ ∀ x, 0 ≤ x → x < n → M.W x < wflg + 1) := by
  have ki := C.kvar i iv
  have im : i ≠ me := by rintro rfl; have := E.elen; have := iv.2.2; omega
  have hl := C.len i iv.1 iv.2.1 ki.2.1 im
  have hle := C.le i iv.1 iv.2.1 ki.2.1
  refine Ens.imp (Ens.forI (fun p M => KeepW n M0 M ∧ ∀ x, 0 ≤ x → x < n → M.W x < wflg + 1 ∧ (M.W x = wflg ↔ ∃ k, 1 ≤ k ∧ M0.Pe i + k < p ∧ ent M0 i k = x)) (by omega)
    ⟨KeepW.refl C.fW, fun x x0 x1 => ⟨by have := hlt x x0 x1; omega, ?_⟩⟩ (fun p M p0 p1 hI => ?_)) (fun M hM => ⟨hM.1, ⟨fun x x0 x1 => ?_⟩, fun x x0 x1 => (hM.2 x x0 x1).1⟩)
  · have := hlt x x0 x1
    constructor
    · intro q; omega
    · rintro ⟨k, k0, k1, _⟩; omega
  · obtain ⟨hk, hx⟩ := hI
    have zI : M.Iw = M0.Iw := by rw [hk.eq]
    unfold markList
    refine Ens.rd (b := M.Iw) (n := pfree) (by rw [zI]; exact C.fI) (by omega) (by omega) ?_
    have hr := C.ent_rng iv.1 iv.2.1 ki.2.1 (k := p - M0.Pe i) (by omega) (by omega)
    have he : M.Iw p = ent M0 i (p - M0.Pe i) := by unfold ent; rw [zI]; congr 1; omega
    obtain ⟨y, hy⟩ : ∃ y, y = M.Iw p := ⟨_, rfl⟩
    rw [← hy] at he ⊢
    rw [← he] at hr
    have hz : M0.W y ≠ 0 := by
      by_cases q : p - M0.Pe i < M0.Elen i
      · have a : inE M0 i y := ⟨p - M0.Pe i, by omega, q, he.symm⟩
        by_cases ym : y = me
        · rw [ym]; exact E.w
        · have b := C.eE i y iv a
          rcases (C.kelt y b.1 b.2.1 b.2.2 ym).2 with w | w
          · exact w.2.1
          · have := C.eLive i y iv (notMem_empty _) a; omega
      · exact (C.kvar y (C.vD i y iv iS ⟨p - M0.Pe i, by omega, by omega, he.symm⟩).1).2.2.1
    refine Ens.last (Ens.wW hr.1 (by have := hk.fW.1; omega) (Ens.some ⟨⟨by rw [hk.eq], hk.fW.upd _ _, fun x x0 x1 => ?_⟩, fun x x0 x1 => ?_⟩))
    · dsimp only
      rw [upd_at _ hr.1]
      split_ifs with q
      · rw [q]; constructor
        · intro; omega
        · intro w; exact absurd w hz
      · exact hk.zero x x0 x1
    · dsimp only
      rw [upd_at _ hr.1]
      have a := hx x x0 x1
      split_ifs with q
      · refine ⟨by omega, fun _ => ⟨p - M0.Pe i, by omega, by omega, by rw [q]; exact he.symm⟩, fun _ => rfl⟩
      · refine ⟨a.1, a.2.trans ⟨?_, ?_⟩⟩
        · rintro ⟨k, k0, k1, k2⟩; exact ⟨k, k0, by omega, k2⟩
        · rintro ⟨k, k0, k1, k2⟩
          refine ⟨k, k0, ?_, k2⟩
          by_contra w
          have : k = p - M0.Pe i := by omega
          rw [this] at k2; exact q (k2.symm.trans he.symm)
  · rw [(hM.2 x x0 x1).2]
    have zI : M.Iw = M0.Iw := by rw [hM.1.eq]
    have zP : M.Pe = M0.Pe := by rw [hM.1.eq]
    have zL : M.Len = M0.Len := by rw [hM.1.eq]
    unfold ent
    rw [zI, zP, zL]
    constructor
    · rintro ⟨k, k0, k1, k2⟩; exact ⟨k, k0, by omega, k2⟩
    · rintro ⟨k, k0, k1, k2⟩; exact ⟨k, k0, by omega, k2⟩

theorem same_ok (C : Core n iwlen L0 lemax pfree me nel M S ∅) (E : Me n me pme1 pme2 degme M S ∅) (jv : isVar n M j) (ln eln : ℤ) (hl : 1 ≤ ln) :
    Ens (same ln eln wflg j M) (fun ok => ok = true → M.Len j = ln ∧ M.Elen j = eln ∧ ∀ k, 1 ≤ k → k < ln → M.W (ent M j k) = wflg) := by
  have kj := C.kvar j jv
  unfold same
  refine Ens.rd C.fL jv.1 jv.2.1 (Ens.rd C.fE jv.1 jv.2.1 (Ens.rd C.fP jv.1 jv.2.1 ?_))
  have hle := C.le j jv.1 jv.2.1 kj.2.1
  unfold sameList
  refine Ens.imp (Ens.forI (fun p ok => ok = true → M.Len j = ln ∧ M.Elen j = eln ∧ ∀ k, 1 ≤ k → M.Pe j + k < p → M.W (ent M j k) = wflg) (by omega) (fun h => ?_) (fun p ok p0 p1 hI => ?_)) (fun ok h q => ?_)
  · rw [Bool.and_eq_true, decide_eq_true_eq, decide_eq_true_eq] at h
    exact ⟨h.1, h.2, fun k k0 k1 => by omega⟩
  · by_cases q : ok = true
    · rw [if_pos q]
      obtain ⟨h1, h2, h3⟩ := hI q
      have hr := C.ent_rng jv.1 jv.2.1 kj.2.1 (k := p - M.Pe j) (by omega) (by omega)
      have he : M.Iw p = ent M j (p - M.Pe j) := by unfold ent; congr 1; omega
      rw [← he] at hr
      refine Ens.rd C.fI (by omega) (by omega) (Ens.rd C.fW hr.1 hr.2 (Ens.pure fun w => ⟨h1, h2, fun k k0 k1 => ?_⟩))
      rw [decide_eq_true_eq] at w
      by_cases r : k = p - M.Pe j
      · rw [r, ← he]; exact w
      · exact h3 k k0 (by omega)
    · rw [if_neg q]; exact Ens.pure fun w => absurd w (by decide)
  · obtain ⟨h1, h2, h3⟩ := h q
    exact ⟨h1, h2, fun k k0 k1 => h3 k k0 (by omega)⟩

/-- Then `i` and `j` are in the same elements. -/
theorem same_elts (C : Core n iwlen L0 lemax pfree me nel M S ∅) (E : Me n me pme1 pme2 degme M S ∅) (K : Mark n wflg i M) (iS : i ∈ S) (jS : j ∈ S) (iv : isVar n M i) (jv : isVar n M j)
    (h1 : M.Len j = M.Len i) (h2 : M.Elen j = M.Elen i) (h3 : ∀ k, 1 ≤ k → k < M.Len i → M.W (ent M j k) = wflg) (e : ℤ) : inE M j e ↔ inE M i e := by
  have ki := C.kvar i iv
  have kj := C.kvar j jv
  have sub : ∀ e, inE M j e → inE M i e := fun e he => by
    have a := C.eE j e jv he
    by_cases q : e = me
    · rw [q]; exact (C.eMe i iv).mpr iS
    · obtain ⟨k, k0, k1, k2⟩ := he
      have k3 : k ≠ 0 := by rintro rfl; exact q (k2.symm.trans (E.first j jS jv))
      have w := h3 k (by omega) (by have := kj.2.2.2.1; omega)
      rw [k2] at w
      obtain ⟨t, t0, t1, t2⟩ := (K.iff e a.1 a.2.1).mp w
      refine ⟨t, by omega, ?_, t2⟩
      by_contra r
      have := (C.vD i e iv iS ⟨t, by omega, t1, t2⟩).1.2.2
      omega
  have hm : ∀ x e, e ∈ (Ico (0 : ℤ) (M.Elen x)).image (ent M x) ↔ inE M x e := fun x e => by
    rw [mem_image]
    constructor
    · rintro ⟨k, h, q⟩; rw [mem_Ico] at h; exact ⟨k, h.1, h.2, q⟩
    · rintro ⟨k, k0, k1, q⟩; exact ⟨k, mem_Ico.mpr ⟨k0, k1⟩, q⟩
  have hc : ∀ x, isVar n M x → ((Ico (0 : ℤ) (M.Elen x)).image (ent M x)).card = (M.Elen x).toNat := fun x hx => by
    rw [card_image_of_injOn]
    · simp
    · intro a ha b hb q
      rw [coe_Ico, Set.mem_Ico] at ha hb
      exact C.nodup x hx a b ha.1 ha.2 hb.1 hb.2 q
  have := eq_of_subset_of_card_le (s := (Ico (0 : ℤ) (M.Elen j)).image (ent M j)) (t := (Ico (0 : ℤ) (M.Elen i)).image (ent M i)) (fun x hx => (hm i x).mpr (sub x ((hm j x).mp hx)))
    (by rw [hc i iv, hc j jv, h2])
  rw [← hm j, ← hm i, this]

theorem absorb_ok {A B : List ℤ} (h : Det n iwlen L0 lemax pfree me pme1 pme2 dmin bnd degme nvpiv nel g S bl (i :: A ++ j :: B) M0) (hc : Chain M0.Next i (i :: A ++ j :: B)) (hc' : Chain M0.Next j (j :: B))
    (hs : ∀ e, inE M0 j e ↔ inE M0 i e) :
    Ens (absorb i j (lastOr (i :: A)) M0) (fun r => Det n iwlen L0 lemax pfree me pme1 pme2 dmin bnd degme nvpiv nel g S bl (i :: A ++ B) r.1 ∧ Chain r.1.Next i (i :: A ++ B) ∧ Chain r.1.Next r.2 B ∧ Abs i j M0 r.1) := by
  have C := h.mid.core
  have nd := h.nodup
  have iM := h.mem i (by simp)
  have jM := h.mem j (by simp)
  have tM := h.mem (lastOr (i :: A)) (List.mem_append_left _ (lastOr_mem (by simp)))
  have hij : j ≠ i := by
    rintro rfl
    simp at nd
  have tB : lastOr (i :: A) ∉ j :: B := fun q => (List.nodup_append.mp nd).2.2 _ (lastOr_mem (by simp)) _ q rfl
  have jA : j ∉ i :: A := fun q => (List.nodup_append.mp nd).2.2 _ q _ (by simp) rfl
  obtain ⟨⟨iS, iv⟩, iL⟩ := iM
  obtain ⟨⟨jS, jv⟩, jL⟩ := jM
  obtain ⟨⟨tS, tv⟩, tL⟩ := tM
  have sN := h.mid.fN
  have c1 := C.fP.1
  have c2 := C.fNv.1
  have c3 := C.fE.1
  have c4 := sN.1
  unfold absorb
  refine Ens.wPe jv.1 (by have := jv.2.1; omega) (Ens.rd (b := M0.Nv) C.fNv iv.1 iv.2.1 (Ens.rd (b := M0.Nv) C.fNv jv.1 jv.2.1 (Ens.wNv iv.1 (by dsimp only; have := iv.2.1; omega) (Ens.wNv jv.1 (by dsimp only; rw [upd_size]; have := jv.2.1; omega)
    (Ens.wElen jv.1 (by dsimp only; have := jv.2.1; omega) (Ens.rd (b := M0.Next) sN jv.1 jv.2.1 (Ens.wNext tv.1 (by dsimp only; have := tv.2.1; omega) (Ens.pure ?_))))))))
  dsimp only
  obtain ⟨M, hM⟩ : ∃ M : Mem, M = { M0 with Pe := upd M0.Pe j (flip i), Nv := upd (upd M0.Nv i (M0.Nv i + M0.Nv j)) j 0, Next := upd M0.Next (lastOr (i :: A)) (M0.Next j), Elen := upd M0.Elen j (-1) } := ⟨_, rfl⟩
  rw [← hM]
  have zN : M.Next = upd M0.Next (lastOr (i :: A)) (M0.Next j) := by rw [hM]
  have zL : M.Last = M0.Last := by rw [hM]
  have zH : M.Head = M0.Head := by rw [hM]
  have zD : M.Degree = M0.Degree := by rw [hM]
  have hA : Abs i j M0 M := by rw [hM]; exact ⟨rfl, rfl, rfl, rfl, rfl, rfl, rfl⟩
  obtain ⟨C', E', T'⟩ := absorb_core C h.mid.elt h.mid.trees hij iS jS iv jv hs hA
  have ni : M0.Nv i < 0 := (C.knv i iv).mpr (.inl iS)
  have nj : M0.Nv j < 0 := (C.knv j jv).mpr (.inl jS)
  have var : ∀ x, isVar n M x ↔ isVar n M0 x ∧ x ≠ j := fun x => by
    unfold isVar
    rw [hA.elen]
    by_cases q : x = j
    · rw [q, upd_same _ jv.1]; simp
    · rw [upd_ne _ jv.1 q]; simp [q]
  have lk : ∀ x, lkd n M x ↔ lkd n M0 x := fun x => by
    unfold lkd
    rw [var, hA.nv]
    by_cases q : x = j
    · rw [q]; simp only [ne_eq, not_true_eq_false, and_false, false_and, false_iff]; intro w; omega
    · by_cases r : x = i
      · rw [r, upd_ne _ jv.1 (Ne.symm hij), upd_same _ iv.1]; constructor <;> intro w <;> omega
      · rw [upd_ne _ jv.1 q, upd_ne _ iv.1 r]; simp [q]
  have mb : ∀ x, inB n M S x ↔ inB n M0 S x ∧ x ≠ j := fun x => by unfold inB; rw [var]; tauto
  have bmem : ∀ d, 0 ≤ d → d < n → ∀ x ∈ bl d, d ≠ g ∧ M0.Last x ≠ g := fun d d0 d1 x hx => by
    have a : d ≠ g := by rintro rfl; rw [h.empty] at hx; simp at hx
    rw [(h.hash.mem d d0 d1 x hx).2]; exact ⟨a, a⟩
  have nt : ¬ lkd n M0 (lastOr (i :: A)) := (h.hash.apart _ ⟨tS, tv⟩).1
  have nd' : (i :: A ++ B).Nodup := by
    rw [List.nodup_append] at nd ⊢
    exact ⟨nd.1, (List.nodup_cons.mp nd.2.1).2, fun a ha b hb => nd.2.2 a ha b (by simp [hb])⟩
  refine ⟨⟨⟨C', E', T', by rw [zN]; exact sN.upd _ _, by rw [zL]; exact h.mid.fL, by rw [zH]; exact h.mid.fH, by rw [hA.w]; exact h.mid.wlt, fun x hx xS _ => ?_, h.mid.nv, h.mid.nel⟩, ⟨?_, fun d d0 d1 => ?_, h.hash.nodup, fun d d0 d1 x hx => ?_, fun x hx => ?_⟩, h.empty, nd', fun x hx => ?_⟩, ?_, ?_, hA⟩
  · rw [zD]; exact h.mid.dmin x ((var x).mp hx).1 xS (notMem_empty _)
  · obtain ⟨st, d⟩ := h.hash.deg
    have d' := (d.congr (D' := M.Degree) (lk' := lkd n M) lk (fun x _ => by rw [zD]))
    refine ⟨st, d'.share (fun x hx => ?_) (fun x _ _ => by rw [zL]) (fun e _ _ => by rw [zH]; exact ⟨fun _ => rfl, id⟩)⟩
    rw [zN, upd_ne _ tv.1]
    rintro rfl; exact nt ((lk _).mp hx)
  · have : bh M.Last M.Head d = bh M0.Last M0.Head d := by rw [zL, zH]
    rw [this]
    refine chain_congr (fun x hx => ?_) (h.hash.chain d d0 d1)
    rw [zN, upd_ne _ tv.1]
    rintro rfl; exact (bmem d d0 d1 _ hx).2 tL
  · have a := h.hash.mem d d0 d1 x hx
    rw [zL]
    refine ⟨(mb x).mpr ⟨a.1, ?_⟩, a.2⟩
    rintro rfl; exact (bmem d d0 d1 _ hx).2 jL
  · rw [lk, zL]; exact h.hash.apart x ((mb x).mp hx).1
  · have hx' : x ∈ i :: A ++ j :: B := by
      rw [List.mem_append] at hx ⊢
      rcases hx with q | q
      · exact .inl q
      · exact .inr (by simp [q])
    have a := h.mem x hx'
    rw [zL]
    refine ⟨(mb x).mpr ⟨a.1, ?_⟩, a.2⟩
    rintro rfl
    rw [List.mem_append] at hx
    rcases hx with q | q
    · exact jA q
    · exact (List.nodup_cons.mp (List.nodup_append.mp nd).2.1).1 q
  · exact chain_skip (by simp) nd hc (fun y hy => upd_ne _ tv.1 hy) (upd_same _ tv.1)
  · refine chain_congr (fun x hx => ?_) hc'.2.2
    rw [upd_ne _ tv.1]
    rintro rfl; exact tB (by simp [hx])

theorem Det.sub {l l' : List ℤ} (h : Det n iwlen L0 lemax pfree me pme1 pme2 dmin bnd degme nvpiv nel g S bl l M) (hn : l'.Nodup) (hs : ∀ x ∈ l', x ∈ l) :
    Det n iwlen L0 lemax pfree me pme1 pme2 dmin bnd degme nvpiv nel g S bl l' M := ⟨h.mid, h.hash, h.empty, hn, fun x hx => h.mem x (hs x hx)⟩

theorem absorbLoop_ok {B : List ℤ} (h : Det n iwlen L0 lemax pfree me pme1 pme2 dmin (wflg + 1) degme nvpiv nel g S bl (i :: B) M0) (K : Mark n wflg i M0) (hc : Chain M0.Next i (i :: B)) :
    Ens (loop (absorbLoop i (M0.Len i) (M0.Elen i) wflg) (n.toNat + 1) (M0, i, M0.Next i)) (fun M => ∃ A : List ℤ, A.length ≤ B.length ∧ Det n iwlen L0 lemax pfree me pme1 pme2 dmin (wflg + 1) degme nvpiv nel g S bl (i :: A) M ∧
      Chain M.Next i (i :: A) ∧ KeepID M0 M) := by
  obtain ⟨⟨iS, iv⟩, iL⟩ := h.mem i (by simp)
  have hl : 1 ≤ M0.Len i := h.mid.core.len i iv.1 iv.2.1 (h.mid.core.kvar i iv).2.1 (by rintro rfl; have := h.mid.elt.elen; have := iv.2.2; omega)
  refine Ens.loopG (fun (G : List ℤ × List ℤ) s => G.1.length + G.2.length ≤ B.length ∧ s.2.1 = lastOr (i :: G.1) ∧ Det n iwlen L0 lemax pfree me pme1 pme2 dmin (wflg + 1) degme nvpiv nel g S bl (i :: G.1 ++ G.2) s.1 ∧
    Chain s.1.Next i (i :: G.1 ++ G.2) ∧ Chain s.1.Next s.2.2 G.2 ∧ Mark n wflg i s.1 ∧ s.1.Len i = M0.Len i ∧ s.1.Elen i = M0.Elen i ∧ KeepID M0 s.1) _ (fun G => G.2.length) ?_ _ ([], B) _ ?_ ?_
  · rintro ⟨A, Bs⟩ ⟨M, jl, j⟩ ⟨hN, h1, hd, h2, h3, h4, h5, h6, h7⟩
    dsimp only at hN h1 hd h2 h3 h4 h5 h6 h7 ⊢
    unfold absorbLoop
    dsimp only
    by_cases q : j = -1
    · rw [if_neg (by omega)]
      refine Ens.pure ?_
      dsimp only
      have hb : Bs = [] := by by_contra w; exact (chain_ne h3).mpr w q
      rw [hb, List.append_nil] at hd h2
      exact ⟨A, by omega, hd, h2, h7⟩
    · rw [if_pos q]
      cases Bs with
      | nil => exact absurd ((chain_ne h3).mp q) (by simp)
      | cons b Bs =>
        have hjb : j = b := h3.1
        subst hjb
        obtain ⟨⟨jS, jv⟩, jL⟩ := hd.mem j (by simp)
        obtain ⟨⟨_, iv'⟩, _⟩ := hd.mem i (by simp)
        refine Ens.bind (same_ok hd.mid.core hd.mid.elt jv (M0.Len i) (M0.Elen i) hl) (fun ok hok => ?_)
        by_cases w : ok = true
        · rw [if_pos w]
          obtain ⟨e1, e2, e3⟩ := hok w
          have hs := same_elts hd.mid.core hd.mid.elt h4 iS jS iv' jv (by rw [e1, h5]) (by rw [e2, h6]) (by rw [h5]; exact e3)
          have hij : i ≠ j := by
            rintro rfl
            have := hd.nodup
            simp at this
          rw [h1]
          refine Ens.bind (absorb_ok hd h2 h3 hs) (fun r hr => Ens.pure ?_)
          dsimp only
          obtain ⟨r1, r2, r3, r4⟩ := hr
          have eP : r.1.Pe i = M.Pe i := by rw [r4.pe, upd_ne _ jv.1 hij]
          refine ⟨(A, Bs), ⟨by simp at hN; dsimp only; omega, rfl, r1, r2, r3, ⟨fun x x0 x1 => ?_⟩, by rw [r4.len]; exact h5, by rw [r4.elen, upd_ne _ jv.1 hij]; exact h6, ⟨r4.iw.trans h7.iw, r4.deg.trans h7.deg⟩⟩, by simp⟩
          have := h4.iff x x0 x1
          unfold ent at this ⊢
          rw [r4.w, r4.len, eP, r4.iw]; exact this
        · rw [if_neg w]
          refine Ens.rd hd.mid.fN jv.1 jv.2.1 (Ens.pure ?_)
          dsimp only
          refine ⟨(A ++ [j], Bs), ⟨by simp at hN ⊢; omega, ?_, ?_, ?_, h3.2.2, h4, h5, h6, h7⟩, by simp⟩
          · rw [← List.cons_append, lastOr_concat]
          · have : i :: (A ++ [j]) ++ Bs = i :: A ++ j :: Bs := by simp
            rw [this]; exact hd
          · have : i :: (A ++ [j]) ++ Bs = i :: A ++ j :: Bs := by simp
            rw [this]; exact h2
  · exact ⟨by simp, rfl, h, hc, hc.2.2, K, rfl, rfl, rfl, rfl⟩
  · have := nodup_len h.nodup (fun x hx => ⟨(h.mem x hx).1.2.1, (h.mem x hx).1.2.2.1⟩)
    simp at this ⊢; omega

theorem detectLoop_ok {l : List ℤ} {first : ℤ} (h : Det n iwlen L0 lemax pfree me pme1 pme2 dmin wflg degme nvpiv nel g S bl l M0) (hw : 2 ≤ wflg) (hc : Chain M0.Next first l) :
    Ens (loop (detectLoop n) (n.toNat + 1) (M0, first, wflg)) (fun r => 2 ≤ r.2 ∧ Det n iwlen L0 lemax pfree me pme1 pme2 dmin r.2 degme nvpiv nel g S bl [] r.1 ∧ KeepID M0 r.1) := by
  refine Ens.loopG (fun (l : List ℤ) s => 2 ≤ s.2.2 ∧ Det n iwlen L0 lemax pfree me pme1 pme2 dmin s.2.2 degme nvpiv nel g S bl l s.1 ∧ Chain s.1.Next s.2.1 l ∧ KeepID M0 s.1) _ List.length ?_ _ l _ ⟨hw, h, hc, rfl, rfl⟩ ?_
  · rintro l ⟨M, i, wf⟩ ⟨h1, hd, h2, h3⟩
    dsimp only at h1 hd h2 h3
    unfold detectLoop
    dsimp only
    have stop : 2 ≤ wf ∧ Det n iwlen L0 lemax pfree me pme1 pme2 dmin wf degme nvpiv nel g S bl [] M ∧ KeepID M0 M := ⟨h1, hd.sub List.nodup_nil (by simp), h3⟩
    by_cases q : i = -1
    · rw [if_neg (by omega)]; exact Ens.pure stop
    · rw [if_pos q]
      cases l with
      | nil => exact absurd ((chain_ne h2).mp q) (by simp)
      | cons b B =>
        have e : i = b := h2.1
        subst e
        obtain ⟨⟨iS, iv⟩, iL⟩ := hd.mem i (by simp)
        refine Ens.rd hd.mid.fN iv.1 iv.2.1 ?_
        by_cases w : M.Next i = -1
        · rw [if_neg (by omega)]; exact Ens.pure stop
        · rw [if_pos w]
          have C := hd.mid.core
          refine Ens.rd C.fL iv.1 iv.2.1 (Ens.rd C.fE iv.1 iv.2.1 (Ens.rd C.fP iv.1 iv.2.1 (Ens.bind (marks_ok C hd.mid.elt iS iv hd.mid.wlt h1) ?_)))
          rintro M1 ⟨k1, k2, k3⟩
          have d1 := hd.keepW k1 k3
          have zN : M1.Next = M.Next := by rw [k1.eq]
          have zL : M1.Len = M.Len := by rw [k1.eq]
          have zE : M1.Elen = M.Elen := by rw [k1.eq]
          have zI : M1.Iw = M.Iw := by rw [k1.eq]
          have := absorbLoop_ok d1 k2 (by rw [zN]; exact h2)
          rw [zL, zE, zN] at this
          refine Ens.bind this ?_
          rintro M2 ⟨A, a1, a2, a3, a4⟩
          have iv2 := (a2.mem i (by simp)).1.2
          refine Ens.rd a2.mid.fN iv2.1 iv2.2.1 (Ens.pure ?_)
          dsimp only
          exact ⟨A, ⟨by omega, a2.sub (List.nodup_cons.mp a2.nodup).2 (fun x hx => by simp [hx]), a3.2.2, ⟨by rw [a4.iw, zI]; exact h3.iw, by rw [a4.deg, k1.eq]; exact h3.deg⟩⟩, by simp; omega⟩
  · have := nodup_len h.nodup (fun x hx => ⟨(h.mem x hx).1.2.1, (h.mem x hx).1.2.2.1⟩)
    omega

theorem Mid.rest (h : Mid n iwlen L0 lemax pfree me pme1 pme2 dmin bnd degme nvpiv nel M0 D U) (r : Rest M0 M) (fN : Full M.Next n) (fL : Full M.Last n) (fH : Full M.Head n) :
    Mid n iwlen L0 lemax pfree me pme1 pme2 dmin bnd degme nvpiv nel M D U := by
  have a := h.core.rest r
  obtain ⟨Pe, Iw, Len, Nv, Next, Last, Head, Elen, Degree, W⟩ := M0
  obtain ⟨Pe', Iw', Len', Nv', Next', Last', Head', Elen', Degree', W'⟩ := M
  obtain ⟨h1, h2, h3, h4, h5, h6, h7⟩ := r
  dsimp only at h1 h2 h3 h4 h5 h6 h7
  subst h1 h2 h3 h4 h5 h6 h7
  have e := h.elt
  exact ⟨a, ⟨e.r, e.elen, e.nv, e.pe, e.p0, e.len, e.w, e.seg, e.sep, e.uvar, e.dvar, e.first, e.deg⟩, h.trees, fN, fL, fH, h.wlt, h.dmin, h.nv, h.nel⟩

/-- The detection leaves no bucket, and keeps the invariant. -/
theorem detect_ok (h : Mid n iwlen L0 lemax pfree me pme1 pme2 dmin wflg degme nvpiv nel M0 S ∅) (hw : 2 ≤ wflg) (hh : Hash n M0.Next M0.Last M0.Head M0.Degree (lkd n M0) (inB n M0 S) bl) :
    Ens (forI pme1 (pme2 + 1) (detectEntry n) (M0, wflg)) (fun r => 2 ≤ r.2 ∧ Mid n iwlen L0 lemax pfree me pme1 pme2 dmin r.2 degme nvpiv nel r.1 S ∅ ∧ Lists n r.1 (lkd n r.1) ∧ r.1.Degree = M0.Degree) := by
  have he := h.end_le
  refine Ens.imp (Ens.forI (fun p r => 2 ≤ r.2 ∧ KeepID M0 r.1 ∧ Mid n iwlen L0 lemax pfree me pme1 pme2 dmin r.2 degme nvpiv nel r.1 S ∅ ∧
    ∃ bl, Hash n r.1.Next r.1.Last r.1.Head r.1.Degree (lkd n r.1) (inB n r.1 S) bl ∧ ∀ d, 0 ≤ d → d < n → ∀ x ∈ bl d, ∃ t, p ≤ t ∧ t < pme2 + 1 ∧ M0.Iw t = x) he.1 ⟨hw, ⟨rfl, rfl⟩, h, bl, hh, fun d d0 d1 x hx => ?_⟩ ?_) ?_
  · have a := hh.mem d d0 d1 x hx
    obtain ⟨t, t0, t1, t2⟩ := h.elt.seg.surj x (mem_union_left _ a.1.1)
    exact ⟨t, t0, t1, t2⟩
  · rintro p ⟨M, wf⟩ p0 p1 ⟨h1, h2, h3, bl, h4, h5⟩
    dsimp only at h1 h2 h3 h4
    have C := h3.core
    have E := h3.elt
    unfold detectEntry
    dsimp only
    refine Ens.rd C.fI (by have := E.p0; omega) (by omega) ?_
    have hi : M.Iw p ∈ S := by have := E.seg.mem p p0 p1; rw [union_empty] at this; exact this
    have hir := C.rng p (by have := E.p0; omega) (by omega)
    obtain ⟨i, hid⟩ : ∃ i, i = M.Iw p := ⟨_, rfl⟩
    rw [← hid] at hi hir ⊢
    refine Ens.rd C.fNv hir.1 hir.2 ?_
    by_cases q : M.Nv i < 0
    · rw [if_pos q]
      have iv : isVar n M i := by
        refine ⟨hir.1, hir.2, ?_⟩
        by_contra w
        have := E.dvar i hi
        have := C.kgone i hir.1 hir.2 (by omega)
        omega
      have ap := h4.apart i ⟨hi, iv⟩
      refine Ens.rd h3.fL hir.1 hir.2 (Ens.bind (takeBucket_ok h4 h3.fL h3.fH ap.2.2.2.1 ap.2.2.2.2) ?_)
      rintro r ⟨r1, r2, r3, r4, r5, r6, r7⟩
      have m2 := h3.rest r1 (by rw [r2]; exact h3.fN) r3 r4
      have zI : r.2.Iw = M.Iw := by
        obtain ⟨_, a, _⟩ := r1; exact a
      have zE : r.2.Elen = M.Elen := r1.Elen
      have zN : r.2.Nv = M.Nv := r1.Nv
      have lk : ∀ x, lkd n r.2 x ↔ lkd n M x := fun x => by unfold lkd isVar; rw [zE, zN]
      have mb : ∀ x, inB n r.2 S x ↔ inB n M S x := fun x => by unfold inB isVar; rw [zE]
      have D : Det n iwlen L0 lemax pfree me pme1 pme2 dmin wf degme nvpiv nel (M.Last i) S (fun d => if d = M.Last i then [] else bl d) (bl (M.Last i)) r.2 := by
        refine ⟨m2, r7.congr lk mb (fun _ _ => rfl), if_pos rfl, h4.nodup _ ap.2.2.2.1 ap.2.2.2.2, fun x hx => ?_⟩
        have a := h4.mem _ ap.2.2.2.1 ap.2.2.2.2 x hx
        exact ⟨(mb x).mpr a.1, by rw [r6 x a.1]; exact a.2⟩
      refine Ens.imp (detectLoop_ok D h1 r5) ?_
      rintro s ⟨s1, s2, s3⟩
      refine ⟨s1, ⟨by rw [s3.iw, zI]; exact h2.iw, by rw [s3.deg, r1.Degree]; exact h2.deg⟩, s2.mid, _, s2.hash, fun d d0 d1 x hx => ?_⟩
      split_ifs at hx with w
      · exact absurd hx (by simp)
      · obtain ⟨t, t0, t1, t2⟩ := h5 d d0 d1 x hx
        refine ⟨t, ?_, t1, t2⟩
        by_contra y
        have : t = p := by omega
        rw [this, ← h2.iw, ← hid] at t2
        have := (h4.mem d d0 d1 x hx).2
        rw [← t2] at this; exact w this.symm
    · rw [if_neg q]
      refine Ens.pure ⟨h1, h2, h3, bl, h4, fun d d0 d1 x hx => ?_⟩
      obtain ⟨t, t0, t1, t2⟩ := h5 d d0 d1 x hx
      refine ⟨t, ?_, t1, t2⟩
      by_contra y
      have : t = p := by omega
      rw [this, ← h2.iw, ← hid] at t2
      have a := (h4.mem d d0 d1 x hx).1
      have := (C.knv x a.2).mpr (.inl a.1)
      rw [← t2] at this; exact q this
  · rintro r ⟨h1, h2, h3, bl, h4, h5⟩
    refine ⟨h1, h3, h4.lists h3.fN h3.fL h3.fH h3.core.fD fun d d0 d1 => ?_, h2.deg⟩
    rw [List.eq_nil_iff_forall_not_mem]
    intro x hx
    obtain ⟨t, t0, t1, _⟩ := h5 d d0 d1 x hx
    omega

end Osqp.Amd
