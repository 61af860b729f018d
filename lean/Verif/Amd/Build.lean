import Verif.Amd.Collect

/-!
# The construction of the new element

The variables that belong to the pivot `me` are gathered: those in the lists of its elements, and those in its own list.
-/

namespace Osqp.Amd
open Csc Finset
set_option linter.unusedSectionVars false

/-- Entry `k` of the list of `x`. -/
def ent (M : Mem) (x k : ℤ) : ℤ := M.Iw (M.Pe x + k)
/-- `y` is an element of variable `x`. -/
def inE (M : Mem) (x y : ℤ) : Prop := ∃ k, 0 ≤ k ∧ k < M.Elen x ∧ ent M x k = y
/-- `y` is in the part of the list of variable `x` that is for variables. -/
def inV (M : Mem) (x y : ℤ) : Prop := ∃ k, M.Elen x ≤ k ∧ k < M.Len x ∧ ent M x k = y
/-- `y` is in the list of element `x`. -/
def inL (M : Mem) (x y : ℤ) : Prop := ∃ k, 0 ≤ k ∧ k < M.Len x ∧ ent M x k = y
/-- `x` is a (principal) variable. -/
def isVar (n : ℤ) (M : Mem) (x : ℤ) : Prop := 0 ≤ x ∧ x < n ∧ 0 ≤ M.Elen x
/-- `x` is an element not yet absorbed. -/
def isElt (n : ℤ) (M : Mem) (x : ℤ) : Prop := 0 ≤ x ∧ x < n ∧ M.Elen x < -1 ∧ 0 ≤ M.Pe x

variable {n : ℤ}

/-- What the construction needs. -/
structure Pre (n iwlen L0 pfree me : ℤ) (M : Mem) : Prop where
  mr : 0 ≤ me ∧ me < n
  fP : Full M.Pe n
  fL : Full M.Len n
  fNv : Full M.Nv n
  fE : Full M.Elen n
  fW : Full M.W n
  fI : Full M.Iw pfree
  sI : (M.Iw.size : ℤ) = iwlen
  pf : 0 ≤ pfree ∧ pfree ≤ iwlen
  rng : ∀ p, 0 ≤ p → p < pfree → 0 ≤ M.Iw p ∧ M.Iw p < n
  lay : Layout n pfree M.Pe M.Len
  bud : room n M.Pe M.Len ≤ L0
  iw : L0 + n ≤ iwlen
  var : 0 ≤ M.Elen me ∧ 0 ≤ M.Pe me ∧ M.Elen me ≤ M.Len me ∧ M.Nv me < 0
  nv : ∀ x, isVar n M x → x ≠ me → 0 < M.Nv x
  gone : ∀ x, 0 ≤ x → x < n → M.Elen x = -1 → M.Nv x = 0
  live : ∀ e, inE M me e → isElt n M e
  nodup : ∀ k l, 0 ≤ k → k < M.Elen me → 0 ≤ l → l < M.Elen me → ent M me k = ent M me l → k = l
  vars : ∀ y, inV M me y → -1 ≤ M.Elen y
  elts : ∀ e y, inE M me e → inL M e y → -1 ≤ M.Elen y
  lists : Lists n M (fun x => isVar n M x ∧ x ≠ me)

/-- The variables of the new element. -/
def sel (n me : ℤ) (M : Mem) (j : ℤ) : Prop := isVar n M j ∧ j ≠ me ∧ ((∃ e, inE M me e ∧ inL M e j) ∨ inV M me j)

/-- The variables of `S` have been taken out of the degree lists and marked. -/
structure Sel (n me : ℤ) (M0 M : Mem) (S : Finset ℤ) : Prop where
  elen : M.Elen = M0.Elen
  deg : M.Degree = M0.Degree
  fNv : Full M.Nv n
  nv : ∀ j, M.Nv j = if j ∈ S then -M0.Nv j else M0.Nv j
  sub : ∀ j ∈ S, isVar n M0 j ∧ j ≠ me
  lists : Lists n M (fun x => isVar n M0 x ∧ x ≠ me ∧ x ∉ S)

theorem Sel.congr {me : ℤ} {M0 M M' : Mem} {S : Finset ℤ} (h : Sel n me M0 M S) (h1 : M'.Elen = M.Elen) (h2 : M'.Degree = M.Degree) (h3 : M'.Nv = M.Nv) (h4 : M'.Next = M.Next)
    (h5 : M'.Last = M.Last) (h6 : M'.Head = M.Head) : Sel n me M0 M' S :=
  ⟨h1.trans h.elen, h2.trans h.deg, by rw [h3]; exact h.fNv, by rw [h3]; exact h.nv, h.sub, h.lists.congr h4 h5 h6 h2 fun _ => Iff.rfl⟩

theorem Sel.card {me : ℤ} {M0 M : Mem} {S : Finset ℤ} (h : Sel n me M0 M S) (h0 : 0 ≤ me) (h1 : me < n) : (S.card : ℤ) < n := by
  have : insert me S ⊆ Ico 0 n := fun x hx => by
    rw [mem_insert] at hx
    rcases hx with rfl | hx
    · exact mem_Ico.mpr ⟨h0, h1⟩
    · exact mem_Ico.mpr ⟨(h.sub x hx).1.1, (h.sub x hx).1.2.1⟩
  have := card_le_card this
  rw [card_insert_of_notMem fun q => (h.sub me q).2 rfl, Int.card_Ico] at this
  omega

/-- A cell range lists the set `S`. -/
structure Seg (Iw : ℤ → ℤ) (a b : ℤ) (S : Finset ℤ) : Prop where
  mem : ∀ p, a ≤ p → p < b → Iw p ∈ S
  surj : ∀ j ∈ S, ∃ p, a ≤ p ∧ p < b ∧ Iw p = j
  inj : ∀ p q, a ≤ p → p < b → a ≤ q → q < b → Iw p = Iw q → p = q
  card : b - a = S.card

theorem Seg.nil (Iw : ℤ → ℤ) (a : ℤ) : Seg Iw a a ∅ :=
  ⟨fun p h0 h1 => by omega, fun j hj => absurd hj (notMem_empty j), fun p q h0 h1 => by omega, by simp⟩

theorem Seg.snoc {Iw Iw' : ℤ → ℤ} {a b i : ℤ} {S : Finset ℤ} (h : Seg Iw a b S) (hi : i ∉ S) (hb : Iw' b = i) (hp : ∀ p, a ≤ p → p < b → Iw' p = Iw p) :
    Seg Iw' a (b + 1) (insert i S) := by
  have hab : a ≤ b := by have := h.card; omega
  refine ⟨fun p h0 h1 => ?_, fun j hj => ?_, fun p q h0 h1 h2 h3 e => ?_, ?_⟩
  · rcases eq_or_ne p b with rfl | e
    · rw [hb]; exact mem_insert_self _ _
    · rw [hp p h0 (by omega)]; exact mem_insert_of_mem (h.mem p h0 (by omega))
  · rw [mem_insert] at hj
    rcases hj with rfl | hj
    · exact ⟨b, hab, by omega, hb⟩
    · obtain ⟨p, h0, h1, e⟩ := h.surj j hj
      exact ⟨p, h0, by omega, by rw [hp p h0 h1]; exact e⟩
  · rcases eq_or_ne p b with rfl | e1
    · rcases eq_or_ne q p with rfl | e2
      · rfl
      · rw [hb, hp q h2 (by omega)] at e; exact absurd (e ▸ h.mem q h2 (by omega)) hi
    · rcases eq_or_ne q b with rfl | e2
      · rw [hb, hp p h0 (by omega)] at e; exact absurd (e ▸ h.mem p h0 (by omega)) hi
      · rw [hp p h0 (by omega), hp q h2 (by omega)] at e
        exact h.inj p q h0 (by omega) h2 (by omega) e
  · rw [card_insert_of_notMem hi]; have := h.card; push_cast; omega

theorem Seg.move {Iw Iw' : ℤ → ℤ} {a b a' b' : ℤ} {S : Finset ℤ} (h : Seg Iw a b S) (hl : b' - a' = b - a) (hp : ∀ t, 0 ≤ t → t < b - a → Iw' (a' + t) = Iw (a + t)) :
    Seg Iw' a' b' S := by
  have hp' : ∀ p, a' ≤ p → p < b' → Iw' p = Iw (a + (p - a')) := fun p h0 h1 => by
    have := hp (p - a') (by omega) (by omega)
    rwa [show a' + (p - a') = p by omega] at this
  refine ⟨fun p h0 h1 => by rw [hp' p h0 h1]; exact h.mem _ (by omega) (by omega), fun j hj => ?_, fun p q h0 h1 h2 h3 e => ?_, by rw [hl]; exact h.card⟩
  · obtain ⟨p, h0, h1, e⟩ := h.surj j hj
    exact ⟨a' + (p - a), by omega, by omega, by rw [hp' _ (by omega) (by omega), show a + (a' + (p - a) - a') = p by omega]; exact e⟩
  · rw [hp' p h0 h1, hp' q h2 h3] at e
    have := h.inj _ _ (by omega) (by omega) (by omega) (by omega) e
    omega

section
variable {iwlen L0 pfree me : ℤ} {M0 M : Mem} {S : Finset ℤ}

/-- An entry with `Nv > 0` is a variable not yet taken. -/
theorem Sel.pos (P : Pre n iwlen L0 pfree me M0) (h : Sel n me M0 M S) {i : ℤ} (i0 : 0 ≤ i) (i1 : i < n) (he : -1 ≤ M0.Elen i) (hp : M.Nv i > 0) : isVar n M0 i ∧ i ≠ me ∧ i ∉ S := by
  have hv : isVar n M0 i := by
    by_cases q : 0 ≤ M0.Elen i
    · exact ⟨i0, i1, q⟩
    · have := P.gone i i0 i1 (by omega)
      rw [h.nv, this] at hp; simp at hp
  have hS : i ∉ S := fun q => by
    have := P.nv i hv (h.sub i q).2
    rw [h.nv, if_pos q] at hp; omega
  refine ⟨hv, ?_, hS⟩
  rintro rfl
  rw [h.nv, if_neg hS] at hp
  have := P.var.2.2.2
  omega

theorem Sel.nonpos (P : Pre n iwlen L0 pfree me M0) (h : Sel n me M0 M S) {i : ℤ} (hp : ¬ M.Nv i > 0) (hv : isVar n M0 i) (hm : i ≠ me) : i ∈ S := by
  by_contra q
  have := P.nv i hv hm
  rw [h.nv, if_neg q] at hp
  omega

/-- A variable is taken. -/
theorem take_ok {β : Type} {Q : β → Prop} {f : Mem → Option β} (h : Sel n me M0 M S) {i q : ℤ} (hi : isVar n M0 i ∧ i ≠ me ∧ i ∉ S) (q0 : 0 ≤ q) (q1 : q < M.Iw.size)
    (hf : ∀ M', Sel n me M0 M' (insert i S) → M'.Pe = M.Pe → M'.Len = M.Len → M'.W = M.W → M'.Iw = upd M.Iw q i → Ens (f M') Q) :
    Ens (M.wNv i (-M.Nv i) >>= fun M => M.wIw q i >>= fun M => unlink i M >>= f) Q := by
  obtain ⟨i0, i1, _⟩ := hi.1
  have hs := h.fNv.1
  refine Ens.wNv i0 (by omega) (Ens.wIw q0 (by dsimp only; omega) ?_)
  have hL : Lists n { M with Nv := upd M.Nv i (-M.Nv i), Iw := upd M.Iw q i } (fun x => isVar n M0 x ∧ x ≠ me ∧ x ∉ S) :=
    ⟨h.lists.fN, h.lists.fL, h.lists.fH, h.lists.fD, h.lists.deg, h.lists.nohash⟩
  refine Ens.bind (unlink_ok hL hi) ?_
  rintro M' ⟨r, hl⟩
  refine hf M' ⟨r.Elen.trans h.elen, r.Degree.trans h.deg, by rw [r.Nv]; exact h.fNv.upd _ _, fun j => ?_, fun j hj => ?_, hl.congr rfl rfl rfl rfl fun x => ?_⟩ r.Pe r.Len r.W r.Iw
  · rw [r.Nv]
    dsimp only
    rw [upd_at _ i0, h.nv j, h.nv i, if_neg hi.2.2]
    by_cases e : j = i
    · rw [if_pos e, if_pos (by rw [e]; exact mem_insert_self _ _), e]
    · rw [if_neg e]
      by_cases q : j ∈ S
      · rw [if_pos q, if_pos (mem_insert_of_mem q)]
      · rw [if_neg q, if_neg (by rw [mem_insert]; tauto)]
  · rw [mem_insert] at hj
    rcases hj with rfl | hj
    · exact ⟨hi.1, hi.2.1⟩
    · exact h.sub j hj
  · rw [mem_insert]; tauto

end

/-- The new element: what has been built. -/
structure Built (n iwlen L0 me : ℤ) (M0 : Mem) (b : Elt) (S : Finset ℤ) : Prop where
  sets : ∀ j, j ∈ S ↔ sel n me M0 j
  got : Sel n me M0 b.M S
  fP : Full b.M.Pe n
  fL : Full b.M.Len n
  fW : Full b.M.W n
  w : ∀ j, b.M.W j = M0.W j ∨ (inE M0 me j ∧ b.M.W j = 0)
  dead : ∀ e, inE M0 me e → b.M.Pe e = flip me ∧ b.M.W e = 0
  none : ∀ j, 0 ≤ j → j < n → j ≠ me → ¬ inE M0 me j → M0.Pe j < 0 → b.M.Pe j = M0.Pe j
  pos : ∀ j, 0 ≤ j → j < n → j ≠ me → ¬ inE M0 me j → 0 ≤ M0.Pe j → 0 ≤ b.M.Pe j ∧ b.M.Len j = M0.Len j ∧ (b.M.Pe j + b.M.Len j ≤ b.pme1 ∨ b.pme2 < b.M.Pe j) ∧ b.M.Pe j + b.M.Len j ≤ b.pfree
  val : ∀ j, 0 ≤ j → j < n → j ≠ me → ¬ inE M0 me j → 0 ≤ M0.Pe j → ∀ t, 0 ≤ t → t < M0.Len j → ent b.M j t = ent M0 j t
  disj : ∀ j k, 0 ≤ j → j < n → j ≠ me → ¬ inE M0 me j → 0 ≤ M0.Pe j → 0 ≤ k → k < n → k ≠ me → ¬ inE M0 me k → 0 ≤ M0.Pe k → j ≠ k →
    b.M.Pe j + b.M.Len j ≤ b.M.Pe k ∨ b.M.Pe k + b.M.Len k ≤ b.M.Pe j
  seg : Seg b.M.Iw b.pme1 (b.pme2 + 1) S
  pme : 0 ≤ b.pme1 ∧ b.pme2 + 1 ≤ b.pfree
  fI : Full b.M.Iw b.pfree
  sI : (b.M.Iw.size : ℤ) = iwlen
  pf : b.pfree ≤ iwlen
  rng : ∀ p, 0 ≤ p → p < b.pfree → 0 ≤ b.M.Iw p ∧ b.M.Iw p < n
  bud : (∑ j ∈ Ico (0 : ℤ) n, if j ≠ me ∧ 0 ≤ b.M.Pe j then b.M.Len j else 0) + S.card ≤ L0
  degme : b.degme = ∑ j ∈ S, M0.Nv j

/-! ## In place -/

section
variable {iwlen L0 pfree me : ℤ} {M0 : Mem}

/-- An entry of a list is a node. -/
theorem Pre.ent_rng (P : Pre n iwlen L0 pfree me M0) {j k : ℤ} (j0 : 0 ≤ j) (j1 : j < n) (jp : 0 ≤ M0.Pe j) (k0 : 0 ≤ k) (k1 : k < M0.Len j) : 0 ≤ ent M0 j k ∧ ent M0 j k < n := by
  have := P.lay.le j j0 j1 jp
  exact P.rng _ (by omega) (by omega)

theorem inPlace_ok (P : Pre n iwlen L0 pfree me M0) (h0 : M0.Elen me = 0) :
    Ens (constructInPlace me M0) (fun r => ∃ S, Built n iwlen L0 me M0 ⟨r.1, r.2.1, r.2.2.1, r.2.2.2, pfree⟩ S) := by
  obtain ⟨m0, m1⟩ := P.mr
  obtain ⟨_, p0, l0, hnv⟩ := P.var
  have hle := P.lay.le me m0 m1 p0
  have hlen := P.lay.len me m0 m1 p0
  have hpf := P.pf
  unfold constructInPlace
  refine Ens.rd P.fP m0 m1 (Ens.rd P.fL m0 m1 ?_)
  have hE : ∀ e, ¬ inE M0 me e := fun e q => by obtain ⟨k, k0, k1, _⟩ := q; omega
  refine Ens.bind (Ens.forI (fun p (s : Mem × ℤ × ℤ) => ∃ S, Sel n me M0 s.1 S ∧ s.1.Pe = M0.Pe ∧ s.1.Len = M0.Len ∧ s.1.W = M0.W ∧ Full s.1.Iw pfree ∧ (s.1.Iw.size : ℤ) = iwlen ∧
      (∀ q, q < M0.Pe me ∨ p ≤ q → s.1.Iw q = M0.Iw q) ∧ s.2.1 < p ∧ Seg s.1.Iw (M0.Pe me) (s.2.1 + 1) S ∧ (∀ j, j ∈ S ↔ isVar n M0 j ∧ j ≠ me ∧ ∃ k, 0 ≤ k ∧ M0.Pe me + k < p ∧ ent M0 me k = j) ∧
      s.2.2 = ∑ j ∈ S, M0.Nv j ∧ ∀ q, 0 ≤ q → q < pfree → 0 ≤ s.1.Iw q ∧ s.1.Iw q < n) (by omega) ?_ ?_) ?_
  · refine ⟨∅, ⟨rfl, rfl, P.fNv, fun j => by simp, fun j hj => absurd hj (notMem_empty j), P.lists.congr rfl rfl rfl rfl fun x => by simp⟩, rfl, rfl, rfl, P.fI, P.sI, fun _ _ => rfl, by dsimp only; omega,
      ?_, fun j => ?_, by simp, P.rng⟩
    · dsimp only; rw [sub_add_cancel]; exact Seg.nil _ _
    · constructor
      · intro q; exact absurd q (notMem_empty j)
      · rintro ⟨_, _, k, k0, k1, _⟩; omega
  · rintro p ⟨M, q, d⟩ hp0 hp1 ⟨S, sl, eP, eL, eW, fI, sI, hiw, hq, hseg, hS, hd, hr⟩
    dsimp only at *
    unfold inPlaceEntry
    dsimp only
    refine Ens.rd fI (by omega) (by omega) ?_
    have hcard := hseg.card
    have hi : M.Iw p = ent M0 me (p - M0.Pe me) := by
      rw [hiw p (.inr le_rfl)]; unfold ent; congr 1; omega
    obtain ⟨i, hi'⟩ : ∃ i, i = ent M0 me (p - M0.Pe me) := ⟨_, rfl⟩
    rw [hi, ← hi']
    obtain ⟨i0, i1⟩ := P.ent_rng m0 m1 p0 (k := p - M0.Pe me) (by omega) (by omega)
    rw [← hi'] at i0 i1
    have hel := P.vars i ⟨p - M0.Pe me, by omega, by omega, hi'.symm⟩
    refine Ens.rd sl.fNv i0 i1 ?_
    by_cases hpos : M.Nv i > 0
    · rw [if_pos hpos]
      have hv := sl.pos P i0 i1 hel hpos
      refine take_ok sl hv (by omega) (by omega) ?_
      intro M' sl' fP' fL' fW' fI'
      refine Ens.pure ⟨insert i S, sl', fP'.trans eP, fL'.trans eL, fW'.trans eW, by rw [fI']; exact fI.upd _ _, by rw [fI']; exact sI, fun x hx => ?_, by dsimp only; omega, ?_, fun j => ?_, ?_, fun x x0 x1 => ?_⟩
      · dsimp only; rw [fI', upd_ne _ (by omega) (by omega)]; exact hiw x (by omega)
      · dsimp only
        refine hseg.snoc hv.2.2 (by rw [fI', upd_same _ (by omega)]) fun x x0 x1 => by rw [fI', upd_ne _ (by omega) (by omega)]
      · rw [mem_insert, hS]
        constructor
        · rintro (rfl | ⟨a, b, k, k0, k1, e⟩)
          · exact ⟨hv.1, hv.2.1, p - M0.Pe me, by omega, by omega, hi'.symm⟩
          · exact ⟨a, b, k, k0, by omega, e⟩
        · rintro ⟨a, b, k, k0, k1, e⟩
          by_cases hk : M0.Pe me + k < p
          · exact .inr ⟨a, b, k, k0, hk, e⟩
          · left; rw [← e, hi']; congr 1; omega
      · dsimp only
        rw [sum_insert hv.2.2, sl.nv i, if_neg hv.2.2, hd]; ring
      · dsimp only
        rw [fI', upd_at _ (by omega)]
        split_ifs
        · exact ⟨i0, i1⟩
        · exact hr x x0 x1
    · rw [if_neg hpos]
      refine Ens.pure ⟨S, sl, eP, eL, eW, fI, sI, fun x hx => hiw x (by omega), by dsimp only; omega, hseg, fun j => ?_, hd, hr⟩
      rw [hS]
      constructor
      · rintro ⟨a, b, k, k0, k1, e⟩; exact ⟨a, b, k, k0, by omega, e⟩
      · rintro ⟨a, b, k, k0, k1, e⟩
        by_cases hk : M0.Pe me + k < p
        · exact ⟨a, b, k, k0, hk, e⟩
        · have e' : j = i := by rw [← e, hi']; congr 1; omega
          subst e'
          exact (hS j).mp (sl.nonpos P hpos a b)
  · rintro ⟨M, q, d⟩ ⟨S, sl, eP, eL, eW, fI, sI, hiw, hq, hseg, hS, hd, hr⟩
    dsimp only at *
    have hcard := hseg.card
    have hiw' : ∀ j, 0 ≤ j → j < n → j ≠ me → 0 ≤ M0.Pe j → ∀ t, 0 ≤ t → t < M0.Len j → M.Iw (M0.Pe j + t) = M0.Iw (M0.Pe j + t) := fun j j0 j1 jm jp t t0 t1 => by
      refine hiw _ ?_
      rcases P.lay.disj j me j0 j1 m0 m1 jm jp p0 with w | w <;> omega
    refine Ens.pure ⟨S, fun j => ?_, sl, by rw [eP]; exact P.fP, by rw [eL]; exact P.fL, by rw [eW]; exact P.fW, fun j => .inl (by rw [eW]), fun e q => absurd q (hE e), fun j _ _ _ _ _ => by rw [eP],
      fun j j0 j1 jm _ jp => ?_, fun j j0 j1 jm _ jp t t0 t1 => ?_, fun j k j0 j1 _ _ jp k0 k1 _ _ kp hjk => ?_, hseg, ⟨p0, by dsimp only; omega⟩, fI, sI, hpf.2, hr, ?_, hd⟩
    · rw [hS]
      unfold Amd.sel
      constructor
      · rintro ⟨a, b, k, k0, k1, e⟩; exact ⟨a, b, .inr ⟨k, by omega, by omega, e⟩⟩
      · rintro ⟨a, b, ⟨e, he, _⟩ | ⟨k, k0, k1, e⟩⟩
        · exact absurd he (hE e)
        · exact ⟨a, b, k, by omega, by omega, e⟩
    · dsimp only
      rw [eP, eL]
      have := P.lay.le j j0 j1 jp
      refine ⟨jp, rfl, ?_, this⟩
      rcases P.lay.disj j me j0 j1 m0 m1 jm jp p0 with w | w
      · left; exact w
      · right; omega
    · unfold ent; dsimp only; rw [eP]; exact hiw' j j0 j1 jm jp t t0 t1
    · dsimp only
      rw [eP, eL]; exact P.lay.disj j k j0 j1 k0 k1 hjk jp kp
    · dsimp only
      rw [eP, eL]
      have h1 := P.bud
      have h2 : room n M0.Pe M0.Len = (∑ j ∈ Ico (0 : ℤ) n, if j ≠ me ∧ 0 ≤ M0.Pe j then M0.Len j else 0) + M0.Len me := by
        have : M0.Len me = ∑ j ∈ Ico (0 : ℤ) n, if j = me then M0.Len me else 0 := by
          rw [sum_ite_eq', if_pos (mem_Ico.mpr ⟨m0, m1⟩)]
        rw [this, ← sum_add_distrib]
        unfold room
        apply sum_congr rfl
        intro j _
        by_cases e : j = me
        · subst e; rw [if_pos p0, if_neg (fun q => q.1 rfl), if_pos rfl, zero_add]
        · rw [if_neg e, add_zero]
          by_cases w : 0 ≤ M0.Pe j
          · rw [if_pos w, if_pos ⟨e, w⟩]
          · rw [if_neg w, if_neg (fun q => w q.2)]
      omega

end

end Osqp.Amd
