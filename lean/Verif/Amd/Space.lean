import Verif.Amd.Build

/-!
# The construction of the new element in the empty space

The lists that are searched shrink, and may be moved by a garbage collection. `loc j` and `off j` say where what is left of the list of `j` starts, and how
much of it has been searched.
-/

namespace Osqp.Amd
open Csc Finset
set_option linter.unusedSectionVars false

theorem Ens.ret {α β : Type} {x : α} {f : α → Option β} {Q : β → Prop} (h : Ens (f x) Q) : Ens (Option.some x >>= f) Q := h

/-- `j` has a list, and is not absorbed. -/
def Ob (n : ℤ) (M0 : Mem) (A : Finset ℤ) (j : ℤ) : Prop := 0 ≤ j ∧ j < n ∧ 0 ≤ M0.Pe j ∧ j ∉ A

/-- Where the rest of the lists is. -/
structure Rem (n lim : ℤ) (M0 : Mem) (Iw : ℤ → ℤ) (A : Finset ℤ) (loc off : ℤ → ℤ) : Prop where
  offs : ∀ j, Ob n M0 A j → 0 ≤ off j ∧ off j ≤ M0.Len j
  pos : ∀ j, Ob n M0 A j → off j < M0.Len j → 0 ≤ loc j ∧ loc j + (M0.Len j - off j) ≤ lim
  val : ∀ j, Ob n M0 A j → ∀ t, 0 ≤ t → off j + t < M0.Len j → Iw (loc j + t) = ent M0 j (off j + t)
  disj : ∀ j k, Ob n M0 A j → Ob n M0 A k → j ≠ k → off j < M0.Len j → off k < M0.Len k → loc j + (M0.Len j - off j) ≤ loc k ∨ loc k + (M0.Len k - off k) ≤ loc j

/-- `f` with one more at `e`. -/
def bump (f : ℤ → ℤ) (e : ℤ) : ℤ → ℤ := fun j => if j = e then f j + 1 else f j

theorem bump_same (f : ℤ → ℤ) (e : ℤ) : bump f e e = f e + 1 := by unfold bump; rw [if_pos rfl]
theorem bump_ne (f : ℤ → ℤ) {e j : ℤ} (h : j ≠ e) : bump f e j = f j := by unfold bump; rw [if_neg h]

variable {n lim : ℤ} {M0 : Mem} {A : Finset ℤ} {loc off : ℤ → ℤ}

theorem Rem.step {Iw : ℤ → ℤ} (h : Rem n lim M0 Iw A loc off) {e : ℤ} (he : off e < M0.Len e) : Rem n lim M0 Iw A (bump loc e) (bump off e) := by
  refine ⟨fun j hj => ?_, fun j hj hl => ?_, fun j hj t t0 t1 => ?_, fun j k hj hk hjk h1 h2 => ?_⟩
  · have := h.offs j hj
    unfold bump
    split_ifs with q
    · rw [q] at this ⊢; omega
    · exact this
  · unfold bump at hl ⊢
    split_ifs at hl ⊢ with q
    · have := h.pos j hj (by omega); omega
    · exact h.pos j hj hl
  · unfold bump at t1 ⊢
    split_ifs at t1 ⊢ with q
    · have := h.val j hj (t + 1) (by omega) (by omega)
      rw [show loc j + 1 + t = loc j + (t + 1) by omega, show off j + 1 + t = off j + (t + 1) by omega]; exact this
    · exact h.val j hj t t0 t1
  · unfold bump at *
    split_ifs at * with q w
    · omega
    · have := h.disj j k hj hk hjk (by omega) h2; omega
    · have := h.disj j k hj hk hjk h1 (by omega); omega
    · exact h.disj j k hj hk hjk h1 h2

theorem Rem.iw {Iw Iw' : ℤ → ℤ} (h : Rem n lim M0 Iw A loc off) (hi : ∀ p, p < lim → Iw' p = Iw p) : Rem n lim M0 Iw' A loc off :=
  ⟨h.offs, h.pos, fun j hj t t0 t1 => by
    have := h.pos j hj (by omega)
    rw [hi _ (by omega)]; exact h.val j hj t t0 t1, h.disj⟩

theorem Rem.less {Iw : ℤ → ℤ} (h : Rem n lim M0 Iw A loc off) (e : ℤ) : Rem n lim M0 Iw (insert e A) loc off := by
  have : ∀ j, Ob n M0 (insert e A) j → Ob n M0 A j := fun j hj => ⟨hj.1, hj.2.1, hj.2.2.1, fun q => hj.2.2.2 (mem_insert_of_mem q)⟩
  exact ⟨fun j hj => h.offs j (this j hj), fun j hj => h.pos j (this j hj), fun j hj => h.val j (this j hj), fun j k hj hk => h.disj j k (this j hj) (this k hk)⟩

/-- The state of the construction. The list of `e` is being searched. -/
structure In (n iwlen L0 me : ℤ) (M0 : Mem) (A S : Finset ℤ) (e : ℤ) (loc off : ℤ → ℤ) (b : Build) : Prop where
  sub : ∀ j ∈ A, inE M0 me j
  got : Sel n me M0 b.M S
  fP : Full b.M.Pe n
  fL : Full b.M.Len n
  fW : Full b.M.W n
  w : ∀ j, b.M.W j = if j ∈ A then 0 else M0.W j
  dead : ∀ j ∈ A, b.M.Pe j = flip me
  none : ∀ j, 0 ≤ j → j < n → j ∉ A → M0.Pe j < 0 → b.M.Pe j = M0.Pe j
  rem : Rem n b.pme1 M0 b.M.Iw A loc off
  other : ∀ j, Ob n M0 A j → j ≠ me → j ≠ e → off j = 0 ∧ loc j = b.M.Pe j ∧ b.M.Len j = M0.Len j
  seg : Seg b.M.Iw b.pme1 b.pfree S
  p0 : 0 ≤ b.pme1
  fI : Full b.M.Iw b.pfree
  sI : (b.M.Iw.size : ℤ) = iwlen
  pf : b.pfree ≤ iwlen
  rng : ∀ p, 0 ≤ p → p < b.pfree → 0 ≤ b.M.Iw p ∧ b.M.Iw p < n
  early : b.M.Len me = M0.Len me ∨ b.pfree ≤ L0 + S.card
  degme : b.degme = ∑ j ∈ S, M0.Nv j

theorem shorten_ok {me e ln knt1 knt2 : ℤ} {b : Build} (m0 : 0 ≤ me) (m1 : me < n) (e0 : 0 ≤ e) (e1 : e < n) (fP : Full b.M.Pe n) (fL : Full b.M.Len n) :
    Ens (shorten me e ln knt1 knt2 b) (fun M1 => ∃ P L, M1 = { b.M with Pe := P, Len := L } ∧ Full P n ∧ Full L n ∧
      (∀ j, L j = if j = e then ln - knt2 else if j = me then b.M.Len me - knt1 else b.M.Len j) ∧
      ∀ j, P j = if j = e then (if ln - knt2 = 0 then -1 else b.pj) else if j = me then (if b.M.Len me - knt1 = 0 then -1 else b.p) else b.M.Pe j) := by
  have sP := fP.1
  have sL := fL.1
  unfold shorten
  refine Ens.wPe m0 (by omega) (Ens.rd fL m0 m1 (Ens.wLen m0 (by dsimp only; omega) ?_))
  have tail : ∀ P L : Buf ℤ, Full P n → Full L n → (∀ j, L j = if j = me then b.M.Len me - knt1 else b.M.Len j) → (∀ j, j ≠ me → P j = b.M.Pe j) →
      P me = (if b.M.Len me - knt1 = 0 then -1 else b.p) →
      Ens (do
        let M ← ({ b.M with Pe := P, Len := L } : Mem).wPe e b.pj
        let M ← M.wLen e (ln - knt2)
        let l ← M.Len.rd e
        if l = 0 then M.wPe e (-1) else return M) (fun M1 => ∃ P L, M1 = { b.M with Pe := P, Len := L } ∧ Full P n ∧ Full L n ∧
      (∀ j, L j = if j = e then ln - knt2 else if j = me then b.M.Len me - knt1 else b.M.Len j) ∧
      ∀ j, P j = if j = e then (if ln - knt2 = 0 then -1 else b.pj) else if j = me then (if b.M.Len me - knt1 = 0 then -1 else b.p) else b.M.Pe j) := by
    intro P L fP fL hL hP hm
    have sP := fP.1
    have sL := fL.1
    refine Ens.wPe e0 (by dsimp only; omega) (Ens.wLen e0 (by dsimp only; omega) (Ens.rd (fL.upd _ _) e0 e1 ?_))
    rw [upd_same _ e0]
    have hL' : ∀ j, upd L e (ln - knt2) j = if j = e then ln - knt2 else if j = me then b.M.Len me - knt1 else b.M.Len j := fun j => by
      rw [upd_at _ e0, hL]
    have hP' : ∀ j, P j = if j = me then (if b.M.Len me - knt1 = 0 then -1 else b.p) else b.M.Pe j := fun j => by
      by_cases q : j = me
      · rw [if_pos q, q]; exact hm
      · rw [if_neg q]; exact hP j q
    by_cases hz : ln - knt2 = 0
    · rw [if_pos hz]
      refine Ens.last (Ens.wPe e0 (by show _ < ((upd P e b.pj).size : ℤ); rw [upd_size]; omega) (Ens.some ⟨_, _, rfl, (fP.upd _ _).upd _ _, fL.upd _ _, hL', fun j => ?_⟩))
      show upd (upd P e b.pj) e (-1) j = _
      rw [upd_at _ e0, upd_at _ e0, if_pos hz, hP']
      by_cases q : j = e
      · rw [if_pos q, if_pos q]
      · rw [if_neg q, if_neg q, if_neg q]
    · rw [if_neg hz]
      refine Ens.pure ⟨_, _, rfl, fP.upd _ _, fL.upd _ _, hL', fun j => ?_⟩
      show upd P e b.pj j = _
      rw [upd_at _ e0, if_neg hz, hP']
  refine Ens.rd (fL.upd _ _) m0 m1 ?_
  rw [upd_same _ m0]
  have hL : ∀ j, upd b.M.Len me (b.M.Len me - knt1) j = if j = me then b.M.Len me - knt1 else b.M.Len j := fun j => by rw [upd_at _ m0]
  by_cases hz : b.M.Len me - knt1 = 0
  · rw [if_pos hz]
    refine Ens.wPe m0 (by show _ < ((upd b.M.Pe me b.p).size : ℤ); rw [upd_size]; omega) ?_
    refine tail (upd (upd b.M.Pe me b.p) me (-1)) (upd b.M.Len me (b.M.Len me - knt1)) ((fP.upd _ _).upd _ _) (fL.upd _ _) hL (fun j hj => ?_) ?_
    · rw [upd_ne _ m0 hj, upd_ne _ m0 hj]
    · rw [upd_same _ m0, if_pos hz]
  · rw [if_neg hz]
    refine Ens.ret ?_
    refine tail (upd b.M.Pe me b.p) (upd b.M.Len me (b.M.Len me - knt1)) (fP.upd _ _) (fL.upd _ _) hL (fun j hj => ?_) ?_
    · rw [upd_ne _ m0 hj]
    · rw [upd_same _ m0, if_neg hz]

section
variable {iwlen L0 pfree me : ℤ} {S : Finset ℤ}

/-- A garbage collection during the construction. -/
theorem collect_ok (P : Pre n iwlen L0 pfree me M0) {e ln knt1 knt2 : ℤ} {b : Build} (h : In n iwlen L0 me M0 A S e loc off b) (he : Ob n M0 A e) (hm : Ob n M0 A me)
    (hl : b.M.Len me = M0.Len me) (c1 : loc e = b.pj) (c2 : e ≠ me → loc me = b.p ∧ off me = knt1) (c3 : M0.Len e - ln + knt2 = off e) :
    Ens (collect n me e ln knt1 knt2 b) (fun b' => ∃ loc', In n iwlen L0 me M0 A S e loc' off b' ∧ loc' e = b'.pj ∧ (e ≠ me → loc' me = b'.p) ∧ b'.pfree ≤ L0 + S.card ∧ b'.pfree < iwlen) := by
  obtain ⟨m0, m1⟩ := P.mr
  obtain ⟨e0, e1, ep, eA⟩ := he
  unfold collect
  refine Ens.bind (shorten_ok m0 m1 e0 e1 h.fP h.fL) ?_
  rintro M1 ⟨Pe1, Len1, rfl, fP, fL, hL, hP⟩
  obtain ⟨M1, hM1⟩ : ∃ M1 : Mem, M1 = { b.M with Pe := Pe1, Len := Len1 } := ⟨_, rfl⟩
  have eP : M1.Pe = Pe1 := by rw [hM1]
  have eL : M1.Len = Len1 := by rw [hM1]
  have eI : M1.Iw = b.M.Iw := by rw [hM1]
  rw [← hM1]
  -- what the lists are now
  have oL : ∀ j, Ob n M0 A j → M1.Len j = M0.Len j - off j := fun j hj => by
    rw [eL, hL]
    split_ifs with q w
    · rw [q]; omega
    · rw [w, hl, (c2 fun x => q (w.trans x.symm)).2]
    · have := h.other j hj w q; rw [this.2.2, this.1]; omega
  have oP : ∀ j, Ob n M0 A j → M1.Pe j = if M0.Len j - off j = 0 then -1 else loc j := fun j hj => by
    rw [eP, hP]
    by_cases q : j = e
    · rw [if_pos q, q, show ln - knt2 = M0.Len e - off e by omega, c1]
    · rw [if_neg q]
      by_cases w : j = me
      · have := c2 fun x => q (w.trans x.symm)
        rw [if_pos w, w, hl, this.1, this.2]
      · have := h.other j hj w q
        have hlen := P.lay.len j hj.1 hj.2.1 hj.2.2.1
        rw [if_neg w, this.1, if_neg (by omega), this.2.1]
  have nob : ∀ j, 0 ≤ j → j < n → ¬ Ob n M0 A j → M1.Pe j < 0 ∧ M1.Pe j = b.M.Pe j := fun j j0 j1 q => by
    have h1 : j ≠ e := by rintro rfl; exact q ⟨e0, e1, ep, eA⟩
    have h2 : j ≠ me := by rintro rfl; exact q hm
    have e1 : M1.Pe j = b.M.Pe j := by rw [eP, hP, if_neg h1, if_neg h2]
    refine ⟨?_, e1⟩
    rw [e1]
    by_cases hA : j ∈ A
    · rw [h.dead j hA]; unfold flip; omega
    · have hpe : M0.Pe j < 0 := by by_contra w; exact q ⟨j0, j1, by omega, hA⟩
      rw [h.none j j0 j1 hA hpe]; exact hpe
  have ob : ∀ j, 0 ≤ j → j < n → 0 ≤ M1.Pe j → Ob n M0 A j ∧ off j < M0.Len j ∧ M1.Pe j = loc j := fun j j0 j1 q => by
    have hj : Ob n M0 A j := by by_contra w; have := (nob j j0 j1 w).1; omega
    have := h.rem.offs j hj
    have hp := oP j hj
    by_cases hz : M0.Len j - off j = 0
    · rw [if_pos hz] at hp; omega
    · rw [if_neg hz] at hp; exact ⟨hj, by omega, hp⟩
  have lay : Layout n b.pme1 M1.Pe M1.Len := by
    refine ⟨fun j j0 j1 q => ?_, fun j j0 j1 q => ?_, fun j k j0 j1 k0 k1 hjk q w => ?_⟩
    · obtain ⟨hj, ho, _⟩ := ob j j0 j1 q; rw [oL j hj]; omega
    · obtain ⟨hj, ho, e⟩ := ob j j0 j1 q; rw [oL j hj, e]; exact (h.rem.pos j hj ho).2
    · obtain ⟨hj, ho, e⟩ := ob j j0 j1 q
      obtain ⟨hk, ho', e'⟩ := ob k k0 k1 w
      rw [oL j hj, oL k hk, e, e']; exact h.rem.disj j k hj hk hjk ho ho'
  have hroom : room n M1.Pe M1.Len ≤ L0 := by
    refine le_trans ?_ P.bud
    unfold room
    refine sum_le_sum fun j hj => ?_
    rw [mem_Ico] at hj
    by_cases q : 0 ≤ M1.Pe j
    · obtain ⟨hj', ho, _⟩ := ob j hj.1 hj.2 q
      have := h.rem.offs j hj'
      rw [if_pos q, if_pos hj'.2.2.1, oL j hj']; omega
    · rw [if_neg q]
      split_ifs with w
      · have := P.lay.len j hj.1 hj.2 w; omega
      · exact le_rfl
  have hcard := h.seg.card
  have hSn := h.got.card m0 m1
  have gc := gc_ok (M := M1) (n := n) (a := b.pme1) (b := b.pfree) (by omega) lay h.p0 (by omega) (by rw [eP]; exact fP) (by rw [eL]; exact fL) (by rw [eI]; exact h.fI)
    (by rw [eI]; exact h.rng)
  have heq : (do
      let M ← forI 0 n markEntry M1
      let r ← gcMove (b.pme1 - 1) M
      let t ← forI b.pme1 b.pfree moveNew r
      let pj ← t.1.Pe.rd e
      let p ← t.1.Pe.rd me
      return { b with M := t.1, pme1 := r.2, pfree := t.2, pj := pj, p := p } : Option Build) = ((do
      let M ← forI 0 n markEntry M1
      let r ← gcMove (b.pme1 - 1) M
      let t ← forI b.pme1 b.pfree moveNew r
      pure (r.2, t)) >>= fun x => do
      let pj ← x.2.1.Pe.rd e
      let p ← x.2.1.Pe.rd me
      return { b with M := x.2.1, pme1 := x.1, pfree := x.2.2, pj := pj, p := p }) := by
    simp only [bind_assoc, pure_bind]
  rw [heq]
  refine Ens.bind gc ?_
  rintro ⟨d, M2, pf⟩ ⟨hpf, c⟩
  dsimp only at *
  have hd := c.sum
  have cle := c.le
  refine Ens.rd c.fP e0 e1 (Ens.rd c.fP m0 m1 (Ens.pure ⟨M2.Pe, ?_, rfl, fun _ => rfl, by dsimp only; omega, by dsimp only; have := P.iw; omega⟩))
  have kL : M2.Len = M1.Len := c.keep.Len
  refine ⟨h.sub, h.got.congr ?_ ?_ ?_ ?_ ?_ ?_, c.fP, ?_, ?_, ?_, fun j hj => ?_, fun j j0 j1 jA jp => ?_, ⟨h.rem.offs, fun j hj ho => ?_, fun j hj t t0 t1 => ?_, fun j k hj hk hjk h1 h2 => ?_⟩,
    fun j hj q w => ?_, ?_, cle.1, ?_, ?_, ?_, ?_, ?_, h.degme⟩
  · exact c.keep.Elen.trans (by rw [hM1])
  · exact c.keep.Degree.trans (by rw [hM1])
  · exact c.keep.Nv.trans (by rw [hM1])
  · exact c.keep.Next.trans (by rw [hM1])
  · exact c.keep.Last.trans (by rw [hM1])
  · exact c.keep.Head.trans (by rw [hM1])
  · show Full M2.Len n
    rw [kL, eL]; exact fL
  · show Full M2.W n
    rw [c.keep.W, hM1]; exact h.fW
  · show ∀ j, M2.W j = _
    rw [c.keep.W, hM1]; exact h.w
  · have hj' := P.live j (h.sub j hj)
    have hno : ¬ Ob n M0 A j := fun q => q.2.2.2 hj
    have := nob j hj'.1 hj'.2.1 hno
    show M2.Pe j = _
    rw [c.none j hj'.1 hj'.2.1 this.1, this.2]; exact h.dead j hj
  · have hno : ¬ Ob n M0 A j := fun q => by have := q.2.2.1; omega
    have := nob j j0 j1 hno
    show M2.Pe j = _
    rw [c.none j j0 j1 this.1, this.2]; exact h.none j j0 j1 jA jp
  · have hp := oP j hj
    rw [if_neg (by omega)] at hp
    have h0 := h.rem.pos j hj ho
    have h1 := c.pe j hj.1 hj.2.1 (by omega)
    have h2 := c.lay.le j hj.1 hj.2.1 h1
    rw [oL j hj] at h2
    exact ⟨h1, h2⟩
  · have hp := oP j hj
    rw [if_neg (by omega)] at hp
    have h0 := h.rem.pos j hj (by omega)
    have := c.val j hj.1 hj.2.1 (by omega) t t0 (by rw [oL j hj]; omega)
    show M2.Iw (M2.Pe j + t) = _
    rw [this, hp, eI]
    exact h.rem.val j hj t t0 t1
  · have hp := oP j hj
    rw [if_neg (by omega)] at hp
    have hp' := oP k hk
    rw [if_neg (by omega)] at hp'
    have h0 := h.rem.pos j hj h1
    have h0' := h.rem.pos k hk h2
    have := c.lay.disj j k hj.1 hj.2.1 hk.1 hk.2.1 hjk (c.pe j hj.1 hj.2.1 (by omega)) (c.pe k hk.1 hk.2.1 (by omega))
    rw [oL j hj, oL k hk] at this
    exact this
  · have := h.other j hj q w
    refine ⟨this.1, rfl, ?_⟩
    show M2.Len j = _
    rw [kL, eL, hL, if_neg w, if_neg q]; exact this.2.2
  · show Seg M2.Iw d pf S
    exact h.seg.move (by omega) fun t t0 t1 => by rw [c.new t t0 t1, eI]
  · show Full M2.Iw pf
    rw [hpf]; exact c.fI
  · show (M2.Iw.size : ℤ) = iwlen
    rw [c.sI, eI]; exact h.sI
  · show pf ≤ iwlen
    have := P.iw; omega
  · show ∀ p, 0 ≤ p → p < pf → _
    rw [hpf]; exact c.rng
  · right; show pf ≤ _; omega

/-- The state while the list of `e` is searched; `k - 1` entries have been. -/
def Inner (n iwlen L0 me : ℤ) (M0 : Mem) (A : Finset ℤ) (e lo knt1 : ℤ) (B : ℤ → Prop) (c : ℤ) (k : ℤ) (b : Build) : Prop :=
  ∃ S loc off, In n iwlen L0 me M0 A S e loc off b ∧ loc e = b.pj ∧ (e ≠ me → loc me = b.p ∧ off me = knt1) ∧ off e = lo + (k - 1) ∧
    (∀ j, j ∈ S ↔ isVar n M0 j ∧ j ≠ me ∧ (B j ∨ ∃ t, lo ≤ t ∧ t < off e ∧ ent M0 e t = j)) ∧ (S.card : ℤ) ≤ c + (off e - lo)

theorem buildEntry_ok (P : Pre n iwlen L0 pfree me M0) {e lo ln knt1 : ℤ} {B : ℤ → Prop} {c : ℤ} (he : Ob n M0 A e) (hm : Ob n M0 A me) (hlo : M0.Len e - ln = lo) (lo0 : 0 ≤ lo)
    (hel : ∀ t, lo ≤ t → t < M0.Len e → -1 ≤ M0.Elen (ent M0 e t)) {k : ℤ} (k0 : 1 ≤ k) (k1 : k < ln + 1) {b : Build} (h : Inner n iwlen L0 me M0 A e lo knt1 B c k b) :
    Ens (buildEntry n iwlen me e ln knt1 k b) (Inner n iwlen L0 me M0 A e lo knt1 B c (k + 1)) := by
  obtain ⟨S, loc, off, h, c1, c2, c3, hS, hc⟩ := h
  obtain ⟨m0, m1⟩ := P.mr
  obtain ⟨e0, e1, ep, eA⟩ := he
  have he : Ob n M0 A e := ⟨e0, e1, ep, eA⟩
  have hcard := h.seg.card
  have hpos := h.rem.pos e he (by omega)
  unfold buildEntry
  refine Ens.rd h.fI (by omega) (by omega) ?_
  have hi : b.M.Iw b.pj = ent M0 e (off e) := by
    have := h.rem.val e he 0 le_rfl (by omega)
    rwa [add_zero, add_zero, c1] at this
  obtain ⟨i, hi'⟩ : ∃ i, i = ent M0 e (off e) := ⟨_, rfl⟩
  rw [hi, ← hi']
  obtain ⟨i0, i1⟩ := P.ent_rng e0 e1 ep (k := off e) (by omega) (by omega)
  have hele := hel (off e) (by omega) (by omega)
  rw [← hi'] at i0 i1 hele
  dsimp only
  refine Ens.rd h.got.fNv i0 i1 ?_
  -- the state after the read
  obtain ⟨b1, hb1⟩ : ∃ b1 : Build, b1 = { b with pj := b.pj + 1 } := ⟨_, rfl⟩
  have h1 : In n iwlen L0 me M0 A S e (bump loc e) (bump off e) b1 := by
    rw [hb1]
    exact ⟨h.sub, h.got, h.fP, h.fL, h.fW, h.w, h.dead, h.none, h.rem.step (by omega), fun j hj q w => by rw [bump_ne _ w, bump_ne _ w]; exact h.other j hj q w, h.seg, h.p0, h.fI, h.sI, h.pf, h.rng, h.early, h.degme⟩
  have d1 : bump loc e e = b1.pj := by rw [bump_same, c1, hb1]
  have d2 : e ≠ me → bump loc e me = b1.p ∧ bump off e me = knt1 := fun q => by
    rw [bump_ne _ (Ne.symm q), bump_ne _ (Ne.symm q), hb1]; exact c2 q
  have d3 : bump off e e = lo + (k + 1 - 1) := by rw [bump_same]; omega
  by_cases hnv : b.M.Nv i > 0
  · rw [if_pos hnv]
    have hv := h.got.pos P i0 i1 hele hnv
    have hSn := h.got.card m0 m1
    -- the end, from a state with room
    have fin : ∀ (loc' : ℤ → ℤ) (b' : Build), In n iwlen L0 me M0 A S e loc' (bump off e) b' → loc' e = b'.pj → (e ≠ me → loc' me = b'.p ∧ bump off e me = knt1) → b'.pfree < iwlen →
        Ens (do
          let M ← b'.M.wNv i (-b.M.Nv i)
          let M ← M.wIw b'.pfree i
          let M ← unlink i M
          return { b' with M := M, pfree := b'.pfree + 1, degme := b'.degme + b.M.Nv i }) (Inner n iwlen L0 me M0 A e lo knt1 B c (k + 1)) := by
      intro loc' b' h' d1' d2' hlt
      have hnvi : b.M.Nv i = b'.M.Nv i := by rw [h.got.nv, h'.got.nv]
      have hcard' := h'.seg.card
      have hp0 := h'.p0
      have hsI := h'.sI
      rw [hnvi]
      refine take_ok h'.got hv (by omega) (by omega) ?_
      intro M' sl' fP' fL' fW' fI'
      have hlow : ∀ p, p < b'.pfree → M'.Iw p = b'.M.Iw p := fun p hp => by rw [fI', upd_ne _ (by omega) (by omega)]
      refine Ens.pure ⟨insert i S, loc', bump off e, ⟨h'.sub, sl', ?_, ?_, ?_, ?_, ?_, ?_, h'.rem.iw fun p hp => hlow p (by omega), ?_, ?_, hp0, ?_, ?_, ?_, fun p q0 q1 => ?_, ?_, ?_⟩, d1', d2', d3, fun j => ?_, ?_⟩
      · show Full M'.Pe n; rw [fP']; exact h'.fP
      · show Full M'.Len n; rw [fL']; exact h'.fL
      · show Full M'.W n; rw [fW']; exact h'.fW
      · show ∀ j, M'.W j = _; rw [fW']; exact h'.w
      · show ∀ j ∈ A, M'.Pe j = _; rw [fP']; exact h'.dead
      · show ∀ j, 0 ≤ j → j < n → j ∉ A → M0.Pe j < 0 → M'.Pe j = _; rw [fP']; exact h'.none
      · show ∀ j, Ob n M0 A j → j ≠ me → j ≠ e → bump off e j = 0 ∧ loc' j = M'.Pe j ∧ M'.Len j = _; rw [fP', fL']; exact h'.other
      · exact h'.seg.snoc hv.2.2 (by show M'.Iw b'.pfree = i; rw [fI', upd_same _ (by omega)]) fun p q0 q1 => hlow p q1
      · show Full M'.Iw (b'.pfree + 1)
        rw [fI']; exact h'.fI.grow (by omega) (by omega) _
      · show (M'.Iw.size : ℤ) = _
        rw [fI', upd_size]; exact hsI
      · show b'.pfree + 1 ≤ iwlen; omega
      · show 0 ≤ M'.Iw p ∧ M'.Iw p < n
        rw [fI', upd_at _ (by omega)]
        split_ifs with q
        · exact ⟨i0, i1⟩
        · exact h'.rng p q0 (by dsimp only at q1; omega)
      · show M'.Len me = _ ∨ b'.pfree + 1 ≤ _
        rw [fL', card_insert_of_notMem hv.2.2]
        rcases h'.early with q | q
        · exact .inl q
        · right; push_cast; omega
      · show b'.degme + b'.M.Nv i = _
        rw [sum_insert hv.2.2, h'.degme, h'.got.nv i, if_neg hv.2.2]; ring
      · rw [mem_insert, hS]
        constructor
        · rintro (rfl | ⟨a, b, q | ⟨t, t0, t1, q⟩⟩)
          · exact ⟨hv.1, hv.2.1, .inr ⟨off e, by omega, by rw [bump_same]; omega, hi'.symm⟩⟩
          · exact ⟨a, b, .inl q⟩
          · exact ⟨a, b, .inr ⟨t, t0, by rw [bump_same]; omega, q⟩⟩
        · rintro ⟨a, b, q | ⟨t, t0, t1, q⟩⟩
          · exact .inr ⟨a, b, .inl q⟩
          · rw [bump_same] at t1
            by_cases ht : t = off e
            · left; rw [← q, ht, hi']
            · exact .inr ⟨a, b, .inr ⟨t, t0, by omega, q⟩⟩
      · rw [card_insert_of_notMem hv.2.2, bump_same]; push_cast; omega
    have hb1f : b1.pfree = b.pfree := by rw [hb1]
    by_cases hfull : b.pfree ≥ iwlen
    · rw [if_pos hfull, ← hb1]
      have hlm : b1.M.Len me = M0.Len me := by
        rcases h1.early with q | q
        · exact q
        · have := P.iw; omega
      refine Ens.bind (collect_ok P h1 he hm hlm d1 d2 (by omega)) ?_
      rintro b2 ⟨loc', h2, q1, q2, _, q3⟩
      exact fin loc' b2 h2 q1 (fun w => ⟨q2 w, (d2 w).2⟩) q3
    · rw [if_neg hfull, ← hb1]
      exact fin _ b1 h1 d1 d2 (by omega)
  · rw [if_neg hnv, ← hb1]
    refine Ens.pure ⟨S, bump loc e, bump off e, h1, d1, d2, d3, fun j => ?_, by rw [bump_same]; omega⟩
    rw [hS]
    constructor
    · rintro ⟨a, b, q | ⟨t, t0, t1, q⟩⟩
      · exact ⟨a, b, .inl q⟩
      · exact ⟨a, b, .inr ⟨t, t0, by rw [bump_same]; omega, q⟩⟩
    · rintro ⟨a, b, q | ⟨t, t0, t1, q⟩⟩
      · exact ⟨a, b, .inl q⟩
      · rw [bump_same] at t1
        by_cases ht : t = off e
        · have e' : j = i := by rw [← q, ht, hi']
          subst e'
          exact (hS j).mp (h.got.nonpos P hnv a b)
        · exact ⟨a, b, .inr ⟨t, t0, by omega, q⟩⟩

/-- The state between two lists: `k - 1` elements have been absorbed. -/
def Outer (n iwlen L0 me : ℤ) (M0 : Mem) (k : ℤ) (b : Build) : Prop :=
  ∃ A S loc off, In n iwlen L0 me M0 A S me loc off b ∧ loc me = b.p ∧ off me = k - 1 ∧ (∀ j, j ∈ A ↔ ∃ t, 0 ≤ t ∧ t < k - 1 ∧ ent M0 me t = j) ∧
    (∀ j, j ∈ S ↔ isVar n M0 j ∧ j ≠ me ∧ ∃ a ∈ A, inL M0 a j) ∧ (S.card : ℤ) ≤ ∑ a ∈ A, M0.Len a

/-- The end. -/
def Ready (n iwlen L0 me : ℤ) (M0 : Mem) (b : Build) : Prop :=
  ∃ A S loc off, In n iwlen L0 me M0 A S me loc off b ∧ (∀ j, j ∈ A ↔ inE M0 me j) ∧
    (∀ j, j ∈ S ↔ sel n me M0 j) ∧ (S.card : ℤ) ≤ (∑ a ∈ A, M0.Len a) + (M0.Len me - M0.Elen me)

theorem buildList_ok (P : Pre n iwlen L0 pfree me M0) {k : ℤ} (k0 : 1 ≤ k) (k1 : k ≤ M0.Elen me) {b : Build} (h : Outer n iwlen L0 me M0 k b) :
    Ens (buildList n iwlen me (M0.Elen me) (M0.Len me - M0.Elen me) k b) (Outer n iwlen L0 me M0 (k + 1)) := by
  obtain ⟨A, S, loc, off, h, c1, c2, hA, hS, hc⟩ := h
  obtain ⟨m0, m1⟩ := P.mr
  obtain ⟨v0, v1, v2, v3⟩ := P.var
  have hmA : me ∉ A := fun q => by have := P.live me (h.sub me q); have := this.2.2.1; omega
  have hm : Ob n M0 A me := ⟨m0, m1, v1, hmA⟩
  have hcard := h.seg.card
  have hp := h.rem.pos me hm (by omega)
  obtain ⟨e, hE⟩ : ∃ e, e = ent M0 me (k - 1) := ⟨_, rfl⟩
  have hEin : inE M0 me e := ⟨k - 1, by omega, by omega, hE.symm⟩
  obtain ⟨e0, e1, e2, e3⟩ := P.live e hEin
  have eA : e ∉ A := fun q => by
    obtain ⟨t, t0, t1, q⟩ := (hA e).mp q
    have := P.nodup t (k - 1) t0 (by omega) (by omega) (by omega) (by rw [q, hE])
    omega
  have hme : e ≠ me := by rintro rfl; omega
  have he : Ob n M0 A e := ⟨e0, e1, e3, eA⟩
  have ho := h.other e he hme hme
  have hlen := P.lay.len e e0 e1 e3
  unfold buildList buildStart
  rw [if_neg (by omega)]
  have hrd : b.M.Iw b.p = e := by
    have := h.rem.val me hm 0 le_rfl (by omega)
    rw [add_zero, add_zero, c1] at this
    rw [this, c2, hE]
  rw [bind_assoc]
  refine Ens.rd h.fI (by omega) (by omega) ?_
  rw [hrd, bind_assoc]
  refine Ens.rd h.fP e0 e1 ?_
  rw [bind_assoc]
  refine Ens.rd h.fL e0 e1 ?_
  rw [pure_bind]
  dsimp only
  rw [ho.2.2]
  refine Ens.bind (Ens.forI (Inner n iwlen L0 me M0 A e 0 k (fun j => ∃ a ∈ A, inL M0 a j) (∑ a ∈ A, M0.Len a)) (by omega) ?_ fun q b q0 q1 hb => ?_) ?_
  · refine ⟨S, bump loc me, bump off me, ⟨h.sub, h.got, h.fP, h.fL, h.fW, h.w, h.dead, h.none, h.rem.step (by omega), fun j hj q w => by rw [bump_ne _ q, bump_ne _ q]; exact h.other j hj q q, h.seg, h.p0,
      h.fI, h.sI, h.pf, h.rng, h.early, h.degme⟩, ?_, fun _ => ⟨?_, ?_⟩, ?_, fun j => ?_, ?_⟩
    · rw [bump_ne _ hme]; exact ho.2.1
    · rw [bump_same, c1]
    · rw [bump_same]; omega
    · rw [bump_ne _ hme, ho.1]; omega
    · rw [hS, bump_ne _ hme, ho.1]
      constructor
      · rintro ⟨a, b, q⟩; exact ⟨a, b, .inl q⟩
      · rintro ⟨a, b, q | ⟨t, t0, t1, _⟩⟩
        · exact ⟨a, b, q⟩
        · omega
    · rw [bump_ne _ hme, ho.1]; omega
  · exact buildEntry_ok P he hm (by omega) le_rfl (fun t t0 t1 => P.elts e _ hEin ⟨t, t0, t1, rfl⟩) q0 q1 hb
  · rintro b' ⟨S', loc', off', h', d1, d2, d3, hS', hc'⟩
    rw [if_pos hme]
    have sP := h'.fP.1
    have sW := h'.fW.1
    refine Ens.wPe e0 (by omega) (Ens.wW e0 (by dsimp only; omega) (Ens.pure ⟨insert e A, S', loc', off', ⟨fun j hj => ?_, h'.got.congr rfl rfl rfl rfl rfl rfl, h'.fP.upd _ _, h'.fL, h'.fW.upd _ _, fun j => ?_, fun j hj => ?_,
      fun j j0 j1 jA jp => ?_, h'.rem.less e, fun j hj q _ => ?_, h'.seg, h'.p0, h'.fI, h'.sI, h'.pf, h'.rng, h'.early, h'.degme⟩, (d2 hme).1, ?_, fun j => ?_, fun j => ?_, ?_⟩))
    · rw [mem_insert] at hj
      rcases hj with rfl | hj
      · exact hEin
      · exact h.sub j hj
    · show upd b'.M.W e 0 j = _
      rw [upd_at _ e0, h'.w]
      by_cases q : j = e
      · rw [if_pos q, if_pos (by rw [q]; exact mem_insert_self _ _)]
      · rw [if_neg q]
        by_cases w : j ∈ A
        · rw [if_pos w, if_pos (mem_insert_of_mem w)]
        · rw [if_neg w, if_neg (by rw [mem_insert]; tauto)]
    · show upd b'.M.Pe e (flip me) j = _
      rw [upd_at _ e0]
      split_ifs with q
      · rfl
      · exact h'.dead j ((mem_insert.mp hj).resolve_left q)
    · show upd b'.M.Pe e (flip me) j = _
      rw [mem_insert] at jA
      rw [upd_ne _ e0 (by tauto)]
      exact h'.none j j0 j1 (by tauto) jp
    · show _ ∧ loc' j = upd b'.M.Pe e (flip me) j ∧ _
      have hje : j ≠ e := fun w => hj.2.2.2 (by rw [w]; exact mem_insert_self _ _)
      rw [upd_ne _ e0 hje]
      exact h'.other j ⟨hj.1, hj.2.1, hj.2.2.1, fun w => hj.2.2.2 (mem_insert_of_mem w)⟩ q hje
    · rw [(d2 hme).2]; omega
    · rw [mem_insert, hA]
      constructor
      · rintro (rfl | ⟨t, t0, t1, q⟩)
        · exact ⟨k - 1, by omega, by omega, hE.symm⟩
        · exact ⟨t, t0, by omega, q⟩
      · rintro ⟨t, t0, t1, q⟩
        by_cases ht : t = k - 1
        · left; rw [← q, ht, hE]
        · exact .inr ⟨t, t0, by omega, q⟩
    · rw [hS', d3]
      constructor
      · rintro ⟨a, b, ⟨x, hx, q⟩ | ⟨t, t0, t1, q⟩⟩
        · exact ⟨a, b, x, mem_insert_of_mem hx, q⟩
        · exact ⟨a, b, e, mem_insert_self _ _, t, t0, by omega, q⟩
      · rintro ⟨a, b, x, hx, q⟩
        rw [mem_insert] at hx
        rcases hx with rfl | hx
        · obtain ⟨t, t0, t1, q⟩ := q
          exact ⟨a, b, .inr ⟨t, t0, by omega, q⟩⟩
        · exact ⟨a, b, .inl ⟨x, hx, q⟩⟩
    · rw [sum_insert eA]; omega

theorem buildLast_ok (P : Pre n iwlen L0 pfree me M0) {b : Build} (h : Outer n iwlen L0 me M0 (M0.Elen me + 1) b) :
    Ens (buildList n iwlen me (M0.Elen me) (M0.Len me - M0.Elen me) (M0.Elen me + 1) b) (Ready n iwlen L0 me M0) := by
  obtain ⟨A, S, loc, off, h, c1, c2, hA, hS, hc⟩ := h
  obtain ⟨m0, m1⟩ := P.mr
  obtain ⟨v0, v1, v2, v3⟩ := P.var
  have hmA : me ∉ A := fun q => by have := P.live me (h.sub me q); have := this.2.2.1; omega
  have hm : Ob n M0 A me := ⟨m0, m1, v1, hmA⟩
  unfold buildList buildStart
  rw [if_pos (by omega), pure_bind]
  dsimp only
  refine Ens.bind (Ens.forI (Inner n iwlen L0 me M0 A me (M0.Elen me) (M0.Elen me + 1) (fun j => ∃ a ∈ A, inL M0 a j) (∑ a ∈ A, M0.Len a)) (by omega) ?_ fun q b q0 q1 hb => ?_) ?_
  · refine ⟨S, loc, off, ⟨h.sub, h.got, h.fP, h.fL, h.fW, h.w, h.dead, h.none, h.rem, h.other, h.seg, h.p0, h.fI, h.sI, h.pf, h.rng, h.early, h.degme⟩, c1, fun q => absurd rfl q, by omega, fun j => ?_, by omega⟩
    rw [hS]
    constructor
    · rintro ⟨a, b, q⟩; exact ⟨a, b, .inl q⟩
    · rintro ⟨a, b, q | ⟨t, t0, t1, _⟩⟩
      · exact ⟨a, b, q⟩
      · omega
  · exact buildEntry_ok P hm hm (by omega) v0 (fun t t0 t1 => P.vars _ ⟨t, t0, t1, rfl⟩) q0 q1 hb
  · rintro b' ⟨S', loc', off', h', d1, d2, d3, hS', hc'⟩
    rw [if_neg (fun q => q rfl)]
    have hA' : ∀ j, j ∈ A ↔ inE M0 me j := fun j => by
      rw [hA]; unfold inE
      constructor
      · rintro ⟨t, t0, t1, q⟩; exact ⟨t, t0, by omega, q⟩
      · rintro ⟨t, t0, t1, q⟩; exact ⟨t, t0, by omega, q⟩
    refine Ens.pure ⟨A, S', loc', off', h', hA', fun j => ?_, by omega⟩
    rw [hS', d3]
    unfold Amd.sel
    constructor
    · rintro ⟨a, b, ⟨x, hx, q⟩ | ⟨t, t0, t1, q⟩⟩
      · exact ⟨a, b, .inl ⟨x, (hA' x).mp hx, q⟩⟩
      · exact ⟨a, b, .inr ⟨t, t0, by omega, q⟩⟩
    · rintro ⟨a, b, ⟨x, hx, q⟩ | ⟨t, t0, t1, q⟩⟩
      · exact ⟨a, b, .inl ⟨x, (hA' x).mpr hx, q⟩⟩
      · exact ⟨a, b, .inr ⟨t, t0, by omega, q⟩⟩

theorem inSpace_ok (P : Pre n iwlen L0 pfree me M0) :
    Ens (constructInSpace n iwlen me (M0.Elen me) M0 pfree) (fun b => ∃ S, Built n iwlen L0 me M0 b S ∧ b.pfree = b.pme2 + 1) := by
  obtain ⟨m0, m1⟩ := P.mr
  obtain ⟨v0, v1, v2, v3⟩ := P.var
  unfold constructInSpace
  refine Ens.rd P.fP m0 m1 (Ens.rd P.fL m0 m1 ?_)
  refine Ens.bind (Ens.forI (fun k b => (k ≤ M0.Elen me + 1 → Outer n iwlen L0 me M0 k b) ∧ (k = M0.Elen me + 2 → Ready n iwlen L0 me M0 b)) (by omega) ⟨fun _ => ?_, fun q => by omega⟩ fun k b k0 k1 hb => ?_) ?_
  · refine ⟨∅, ∅, M0.Pe, fun _ => 0, ⟨fun j hj => absurd hj (notMem_empty j), ⟨rfl, rfl, P.fNv, fun j => by simp, fun j hj => absurd hj (notMem_empty j), P.lists.congr rfl rfl rfl rfl fun x => by simp⟩, P.fP, P.fL, P.fW, fun j => by simp,
      fun j hj => absurd hj (notMem_empty j), fun _ _ _ _ _ => rfl, ⟨fun j hj => ?_, fun j hj _ => ?_, fun j hj t t0 t1 => ?_, fun j k hj hk hjk _ _ => ?_⟩, fun j hj _ _ => ⟨rfl, rfl, rfl⟩, Seg.nil _ _, P.pf.1, P.fI, P.sI, P.pf.2, P.rng,
      .inl rfl, by simp⟩, rfl, by simp, fun j => ?_, fun j => ?_, by simp⟩
    · have := P.lay.len j hj.1 hj.2.1 hj.2.2.1; omega
    · have := P.lay.le j hj.1 hj.2.1 hj.2.2.1; have := hj.2.2.1; dsimp only; omega
    · unfold ent; dsimp only; congr 2; omega
    · have := P.lay.disj j k hj.1 hj.2.1 hk.1 hk.2.1 hjk hj.2.2.1 hk.2.2.1; omega
    · constructor
      · intro q; exact absurd q (notMem_empty j)
      · rintro ⟨t, t0, t1, _⟩; omega
    · constructor
      · intro q; exact absurd q (notMem_empty j)
      · rintro ⟨_, _, a, ha, _⟩; exact absurd ha (notMem_empty a)
  · by_cases hk : k ≤ M0.Elen me
    · exact Ens.imp (buildList_ok P k0 hk (hb.1 (by omega))) fun b' hb' => ⟨fun _ => hb', fun q => by omega⟩
    · have : k = M0.Elen me + 1 := by omega
      subst this
      exact Ens.imp (buildLast_ok P (hb.1 le_rfl)) fun b' hb' => ⟨fun q => by omega, fun _ => hb'⟩
  · rintro b ⟨_, hb⟩
    obtain ⟨A, S, loc, off, h, hA, hS, hc⟩ := hb rfl
    have hcard := h.seg.card
    have hob : ∀ j, 0 ≤ j → j < n → ¬ inE M0 me j → 0 ≤ M0.Pe j → Ob n M0 A j := fun j j0 j1 q jp => ⟨j0, j1, jp, fun w => q ((hA j).mp w)⟩
    refine Ens.pure ⟨S, ⟨hS, h.got, h.fP, h.fL, h.fW, fun j => ?_, fun e he => ⟨h.dead e ((hA e).mpr he), ?_⟩, fun j j0 j1 jm q => h.none j j0 j1 fun w => q ((hA j).mp w), fun j j0 j1 jm q jp => ?_,
      fun j j0 j1 jm q jp t t0 t1 => ?_, fun j k j0 j1 jm q jp k0 k1 km q' kp hjk => ?_, ?_, ⟨h.p0, by dsimp only; omega⟩, h.fI, h.sI, h.pf, h.rng, ?_, h.degme⟩, by dsimp only; omega⟩
    · show b.M.W j = _ ∨ _ ∧ b.M.W j = 0
      rw [h.w]
      split_ifs with q
      · exact .inr ⟨(hA j).mp q, rfl⟩
      · exact .inl rfl
    · show b.M.W e = 0
      rw [h.w, if_pos ((hA e).mpr he)]
    · have ho := h.other j (hob j j0 j1 q jp) jm jm
      have hp := h.rem.pos j (hob j j0 j1 q jp) (by have := P.lay.len j j0 j1 jp; omega)
      dsimp only
      refine ⟨by omega, ho.2.2, .inl (by omega), by omega⟩
    · have ho := h.other j (hob j j0 j1 q jp) jm jm
      have := h.rem.val j (hob j j0 j1 q jp) t t0 (by omega)
      rw [ho.1, zero_add, ho.2.1] at this
      exact this
    · have ho := h.other j (hob j j0 j1 q jp) jm jm
      have ho' := h.other k (hob k k0 k1 q' kp) km km
      have := h.rem.disj j k (hob j j0 j1 q jp) (hob k k0 k1 q' kp) hjk (by have := P.lay.len j j0 j1 jp; omega) (by have := P.lay.len k k0 k1 kp; omega)
      dsimp only
      omega
    · show Seg b.M.Iw b.pme1 (b.pfree - 1 + 1) S
      rw [sub_add_cancel]; exact h.seg
    · dsimp only
      have hb := P.bud
      have h2 : (∑ j ∈ Ico (0 : ℤ) n, if j ≠ me ∧ 0 ≤ b.M.Pe j then b.M.Len j else 0) + (∑ a ∈ A, M0.Len a) + M0.Len me ≤ room n M0.Pe M0.Len := by
        have hsub : A ⊆ Ico 0 n := fun a ha => by have := P.live a ((hA a).mp ha); exact mem_Ico.mpr ⟨this.1, this.2.1⟩
        have e1 : ∑ a ∈ A, M0.Len a = ∑ j ∈ Ico (0 : ℤ) n, if j ∈ A then M0.Len j else 0 := by
          rw [← sum_filter]; congr 1; ext a; rw [mem_filter]; exact ⟨fun q => ⟨hsub q, q⟩, fun q => q.2⟩
        have e2 : M0.Len me = ∑ j ∈ Ico (0 : ℤ) n, if j = me then M0.Len me else 0 := by
          rw [sum_ite_eq', if_pos (mem_Ico.mpr ⟨m0, m1⟩)]
        rw [e1, e2, ← sum_add_distrib, ← sum_add_distrib]
        unfold room
        refine sum_le_sum fun j hj => ?_
        rw [mem_Ico] at hj
        by_cases q : j = me
        · subst q
          have : j ∉ A := fun w => by have := P.live j ((hA j).mp w); have := this.2.2.1; omega
          rw [if_neg (fun w => w.1 rfl), if_neg this, if_pos rfl, if_pos v1]; omega
        · rw [if_neg q, add_zero]
          by_cases w : j ∈ A
          · have hl := P.live j ((hA j).mp w)
            rw [if_neg (fun x => by have h3 := h.dead j w; have := x.2; rw [h3] at this; unfold flip at this; omega), if_pos w, if_pos hl.2.2.2]; omega
          · rw [if_neg w, add_zero]
            by_cases x : 0 ≤ M0.Pe j
            · have ho := h.other j ⟨hj.1, hj.2, x, w⟩ q q
              have := P.lay.len j hj.1 hj.2 x
              rw [if_pos x]
              split_ifs
              · rw [ho.2.2]
              · omega
            · have := h.none j hj.1 hj.2 w (by omega)
              rw [if_neg x, if_neg (fun y => by have := y.2; omega)]
      omega

theorem construct_ok (P : Pre n iwlen L0 pfree me M0) :
    Ens (construct n iwlen me (M0.Elen me) M0 pfree) (fun b => ∃ S, Built n iwlen L0 me M0 b S ∧ (M0.Elen me ≠ 0 → b.pfree = b.pme2 + 1)) := by
  unfold construct
  by_cases h : M0.Elen me = 0
  · rw [if_pos h]
    refine Ens.bind (inPlace_ok P h) ?_
    rintro r ⟨S, hS⟩
    exact Ens.pure ⟨S, hS, fun q => absurd h q⟩
  · rw [if_neg h]
    exact Ens.imp (inSpace_ok P) fun b ⟨S, hS, q⟩ => ⟨S, hS, fun _ => q⟩

end

end Osqp.Amd
