import Verif.Amd.Deg

/-!
# Garbage collection

The lists in `Iw` are moved to the front. Every list keeps its contents, and afterwards there is no unused space before the new element.
-/

namespace Osqp.Amd
open Csc Finset
set_option linter.unusedSectionVars false

/-- Only `Pe` and `Iw` have changed. -/
structure KeepPI (M M' : Mem) : Prop where
  Len : M'.Len = M.Len
  Nv : M'.Nv = M.Nv
  Next : M'.Next = M.Next
  Last : M'.Last = M.Last
  Head : M'.Head = M.Head
  Elen : M'.Elen = M.Elen
  Degree : M'.Degree = M.Degree
  W : M'.W = M.W

theorem KeepPI.refl (M : Mem) : KeepPI M M := ⟨rfl, rfl, rfl, rfl, rfl, rfl, rfl, rfl⟩
theorem KeepPI.trans {A B C : Mem} (h : KeepPI A B) (k : KeepPI B C) : KeepPI A C :=
  ⟨k.1.trans h.1, k.2.trans h.2, k.3.trans h.3, k.4.trans h.4, k.5.trans h.5, k.6.trans h.6, k.7.trans h.7, k.8.trans h.8⟩

/-- The lists are disjoint intervals of `Iw` below `lim`, with entries in range. -/
structure Layout (n lim : ℤ) (Pe Len : ℤ → ℤ) : Prop where
  len : ∀ j, 0 ≤ j → j < n → 0 ≤ Pe j → 1 ≤ Len j
  le : ∀ j, 0 ≤ j → j < n → 0 ≤ Pe j → Pe j + Len j ≤ lim
  disj : ∀ j k, 0 ≤ j → j < n → 0 ≤ k → k < n → j ≠ k → 0 ≤ Pe j → 0 ≤ Pe k → Pe j + Len j ≤ Pe k ∨ Pe k + Len k ≤ Pe j

/-- Room taken by the lists. -/
def room (n : ℤ) (Pe Len : ℤ → ℤ) : ℤ := ∑ j ∈ Ico (0 : ℤ) n, if 0 ≤ Pe j then Len j else 0

variable {n lim : ℤ}

theorem Layout.head_ne {Pe Len : ℤ → ℤ} (h : Layout n lim Pe Len) {j k : ℤ} (j0 : 0 ≤ j) (j1 : j < n) (k0 : 0 ≤ k) (k1 : k < n) (hjk : j ≠ k) (hj : 0 ≤ Pe j)
    (hk : 0 ≤ Pe k) {t : ℤ} (t0 : 0 ≤ t) (t1 : t < Len j) : Pe k ≠ Pe j + t := by
  have := h.len k k0 k1 hk
  rcases h.disj j k j0 j1 k0 k1 hjk hj hk with q | q <;> omega

/-- After the marking of the lists. -/
structure Marked (n lim : ℤ) (M0 M : Mem) (upto : ℤ) : Prop where
  keep : KeepPI M0 M
  fP : Full M.Pe n
  fI : Full M.Iw lim
  sI : M.Iw.size = M0.Iw.size
  done : ∀ j, 0 ≤ j → j < upto → j < n → 0 ≤ M0.Pe j → M.Pe j = M0.Iw (M0.Pe j) ∧ M.Iw (M0.Pe j) = flip j
  other : ∀ j, 0 ≤ j → j < n → (upto ≤ j ∨ M0.Pe j < 0) → M.Pe j = M0.Pe j
  iw : ∀ p, (∀ j, 0 ≤ j → j < upto → j < n → 0 ≤ M0.Pe j → p ≠ M0.Pe j) → M.Iw p = M0.Iw p

theorem mark_ok {M : Mem} (hn : 0 ≤ n) (h : Layout n lim M.Pe M.Len) (fP : Full M.Pe n) {top : ℤ} (hlt : lim ≤ top) (fI : Full M.Iw top) :
    Ens (forI 0 n markEntry M) (fun M' => Marked n top M M' n) := by
  refine Ens.forI (fun k M' => Marked n top M M' k) hn ⟨KeepPI.refl M, fP, fI, rfl, fun j h0 h1 => by omega, fun _ _ _ _ => rfl, fun _ _ => rfl⟩ ?_
  intro k M' k0 k1 m
  unfold markEntry
  refine Ens.rd m.fP k0 k1 ?_
  rw [m.other k k0 k1 (.inl le_rfl)]
  by_cases hp : M.Pe k ≥ 0
  swap
  · rw [if_neg hp]
    refine Ens.pure ⟨m.keep, m.fP, m.fI, m.sI, fun j j0 j1 jn jp => m.done j j0 ?_ jn jp, fun j j0 jn q => m.other j j0 jn ?_, fun p hq => m.iw p fun j j0 j1 => hq j j0 (by omega)⟩
    · rcases eq_or_ne j k with e | e
      · rw [e] at jp; exact absurd jp hp
      · omega
    · rcases q with q | q
      · left; omega
      · exact .inr q
  rw [if_pos hp]
  have hl := h.len k k0 k1 hp
  have hle := h.le k k0 k1 hp
  have hs := m.fI.1
  have hsP := m.fP.1
  refine Ens.rd m.fI hp (by omega) ?_
  have hv : M'.Iw (M.Pe k) = M.Iw (M.Pe k) := m.iw _ fun j j0 j1 jn jp e => by
    have := h.head_ne k0 k1 j0 jn (by omega) hp jp (t := 0) le_rfl (by omega)
    omega
  rw [hv]
  refine Ens.wPe k0 (by omega) (Ens.last (Ens.wIw hp (by dsimp only; omega) (Ens.some ⟨⟨m.keep.Len, m.keep.Nv, m.keep.Next, m.keep.Last, m.keep.Head, m.keep.Elen, m.keep.Degree, m.keep.W⟩,
    m.fP.upd _ _, m.fI.upd _ _, m.sI, fun j j0 j1 jn jp => ?_, fun j j0 jn q => ?_, fun p hq => ?_⟩)))
  · dsimp only
    rw [upd_at _ k0, upd_at _ hp]
    by_cases e : j = k
    · rw [if_pos e, if_pos (by rw [e]), e]; exact ⟨rfl, rfl⟩
    · have := h.head_ne k0 k1 j0 jn (Ne.symm e) hp jp (t := 0) le_rfl (by omega)
      rw [if_neg e, if_neg (by omega)]
      exact m.done j j0 (by omega) jn jp
  · dsimp only
    rw [upd_ne _ k0 (by rintro rfl; omega)]
    exact m.other j j0 jn (by omega)
  · dsimp only
    rw [upd_ne _ hp (hq k k0 (by omega) k1 hp)]
    exact m.iw p fun j j0 j1 => hq j j0 (by omega)

/-- The lists moved so far. -/
def moved (Pe Len : ℤ → ℤ) (psrc j : ℤ) : Prop := 0 ≤ Pe j ∧ Pe j + Len j ≤ psrc

instance (Pe Len : ℤ → ℤ) (psrc j : ℤ) : Decidable (moved Pe Len psrc j) := by unfold moved; infer_instance

/-- The state while the lists are moved. `M0` is the memory before the collection. -/
structure Moving (n lim top : ℤ) (M0 M : Mem) (psrc pdst : ℤ) : Prop where
  keep : KeepPI M0 M
  fP : Full M.Pe n
  fI : Full M.Iw top
  sI : M.Iw.size = M0.Iw.size
  le : 0 ≤ pdst ∧ pdst ≤ psrc ∧ psrc ≤ lim
  split : ∀ j, 0 ≤ j → j < n → 0 ≤ M0.Pe j → M0.Pe j + M0.Len j ≤ psrc ∨ psrc ≤ M0.Pe j
  headIw : ∀ j, 0 ≤ j → j < n → 0 ≤ M0.Pe j → psrc ≤ M0.Pe j → M.Pe j = M0.Iw (M0.Pe j) ∧ M.Iw (M0.Pe j) = flip j
  iw : ∀ p, psrc ≤ p → (∀ j, 0 ≤ j → j < n → 0 ≤ M0.Pe j → p ≠ M0.Pe j) → M.Iw p = M0.Iw p
  none : ∀ j, 0 ≤ j → j < n → M0.Pe j < 0 → M.Pe j = M0.Pe j
  loc : ∀ j, 0 ≤ j → j < n → moved M0.Pe M0.Len psrc j → 0 ≤ M.Pe j ∧ M.Pe j + M0.Len j ≤ pdst
  val : ∀ j, 0 ≤ j → j < n → moved M0.Pe M0.Len psrc j → ∀ t, 0 ≤ t → t < M0.Len j → M.Iw (M.Pe j + t) = M0.Iw (M0.Pe j + t)
  disj : ∀ j k, 0 ≤ j → j < n → 0 ≤ k → k < n → j ≠ k → moved M0.Pe M0.Len psrc j → moved M0.Pe M0.Len psrc k →
    M.Pe j + M0.Len j ≤ M.Pe k ∨ M.Pe k + M0.Len k ≤ M.Pe j
  rng : ∀ p, 0 ≤ p → p < pdst → 0 ≤ M.Iw p ∧ M.Iw p < n
  sum : pdst = ∑ j ∈ Ico (0 : ℤ) n, if moved M0.Pe M0.Len psrc j then M0.Len j else 0

/-- One list is moved. -/
theorem copy_ok {M : Mem} {c psrc pdst : ℤ} (hc : 0 ≤ c) (h0 : 0 ≤ pdst) (hle : pdst ≤ psrc) {top : ℤ} (fI : Full M.Iw top) (hs : psrc + c ≤ top) :
    Ens (forI 0 c copyEntry (M, psrc, pdst)) (fun r => r.2.1 = psrc + c ∧ r.2.2 = pdst + c ∧ KeepPI M r.1 ∧ r.1.Pe = M.Pe ∧ r.1.Iw.size = M.Iw.size ∧ Full r.1.Iw top ∧
      (∀ p, p < pdst → r.1.Iw p = M.Iw p) ∧ (∀ p, psrc + c ≤ p → r.1.Iw p = M.Iw p) ∧ ∀ t, 0 ≤ t → t < c → r.1.Iw (pdst + t) = M.Iw (psrc + t)) := by
  refine Ens.imp (Ens.forI (fun k (r : Mem × ℤ × ℤ) => r.2.1 = psrc + k ∧ r.2.2 = pdst + k ∧ KeepPI M r.1 ∧ r.1.Pe = M.Pe ∧ r.1.Iw.size = M.Iw.size ∧ Full r.1.Iw top ∧
      (∀ p, p < pdst → r.1.Iw p = M.Iw p) ∧ (∀ p, psrc + k ≤ p → r.1.Iw p = M.Iw p) ∧ ∀ t, 0 ≤ t → t < k → r.1.Iw (pdst + t) = M.Iw (psrc + t)) hc ?_ ?_) (fun _ h => h)
  · exact ⟨by simp, by simp, KeepPI.refl M, rfl, rfl, fI, fun _ _ => rfl, fun _ _ => rfl, fun t t0 t1 => by omega⟩
  · rintro k ⟨A, a, b⟩ k0 k1 ⟨rfl, rfl, hk, hp, hz, hf, hlow, hhigh, hval⟩
    dsimp only at *
    have := hf.1
    unfold copyEntry
    dsimp only
    refine Ens.rd hf (by omega) (by omega) (Ens.wIw (by omega) (by omega) (Ens.pure ⟨by dsimp only; omega, by dsimp only; omega,
      ⟨hk.Len, hk.Nv, hk.Next, hk.Last, hk.Head, hk.Elen, hk.Degree, hk.W⟩, hp, hz, hf.upd _ _, fun p q => ?_, fun p q => ?_, fun t t0 t1 => ?_⟩))
    · dsimp only; rw [upd_ne _ (by omega) (by omega)]; exact hlow p q
    · dsimp only; rw [upd_ne _ (by omega) (by omega)]; exact hhigh p (by omega)
    · dsimp only
      rw [upd_at _ (by omega)]
      split_ifs with e
      · have : t = k := by omega
        rw [this]; exact hhigh _ le_rfl
      · exact hval t t0 (by omega)

theorem gcMove_ok {M0 M : Mem} {top : ℤ} (h : Layout n lim M0.Pe M0.Len) (h0 : 0 ≤ lim) (hlt : lim ≤ top) (fL : Full M0.Len n)
    (hr : ∀ p, 0 ≤ p → p < lim → 0 ≤ M0.Iw p ∧ M0.Iw p < n) (m : Marked n top M0 M n) :
    Ens (gcMove (lim - 1) M) (fun r => Moving n lim top M0 r.1 lim r.2) := by
  unfold gcMove
  have hnone : ∀ j, 0 ≤ j → j < n → ¬ moved M0.Pe M0.Len 0 j := fun j j0 j1 q => by have := h.len j j0 j1 q.1; have := q.1; have := q.2; omega
  refine Ens.loop (fun (s : Mem × ℤ × ℤ) => Moving n lim top M0 s.1 s.2.1 s.2.2) _ (fun s => (lim - s.2.1).toNat) ?_ _ _ ?_ (by dsimp only; omega)
  swap
  · refine ⟨m.keep, m.fP, m.fI, m.sI, ⟨le_rfl, le_rfl, h0⟩, fun j _ _ q => .inr q, fun j j0 j1 q _ => m.done j j0 j1 j1 q, fun p _ hq => m.iw p fun j j0 _ j1 => hq j j0 j1,
      fun j j0 j1 q => m.other j j0 j1 (.inr q), fun j j0 j1 q => absurd q (hnone j j0 j1), fun j j0 j1 q => absurd q (hnone j j0 j1), fun j k j0 j1 _ _ _ q => absurd q (hnone j j0 j1),
      fun p p0 p1 => by dsimp only at p1; omega, ?_⟩
    dsimp only
    symm
    refine sum_eq_zero fun j hj => ?_
    rw [mem_Ico] at hj
    rw [if_neg (hnone j hj.1 hj.2)]
  rintro ⟨A, psrc, pdst⟩ v
  dsimp only at *
  obtain ⟨d0, ds, sl⟩ := v.le
  unfold moveStep
  dsimp only
  by_cases hq : psrc ≤ lim - 1
  swap
  · rw [if_neg hq]
    have : psrc = lim := by omega
    subst this
    exact Ens.pure v
  rw [if_pos hq]
  have hIs := v.fI.1
  refine Ens.rd v.fI (by omega) (by omega) ?_
  by_cases hex : ∃ j, 0 ≤ j ∧ j < n ∧ 0 ≤ M0.Pe j ∧ psrc = M0.Pe j
  · obtain ⟨j, j0, j1, jp, e⟩ := hex
    obtain ⟨hv1, hv2⟩ := v.headIw j j0 j1 jp (by omega)
    rw [e, hv2]
    have hfl : flip (flip j) = j := by unfold flip; omega
    rw [hfl, if_pos j0, ← e]
    have hlen := h.len j j0 j1 jp
    have hle := h.le j j0 j1 jp
    have hPs := v.fP.1
    refine Ens.rd v.fP j0 j1 (Ens.wIw d0 (by omega) (Ens.wPe j0 (by dsimp only; omega) ?_))
    dsimp only
    have eL : A.Len j = M0.Len j := by rw [v.keep.Len]
    refine Ens.rd (b := A.Len) (n := n) (by rw [v.keep.Len]; exact fL) j0 j1 ?_
    rw [eL]
    refine Ens.bind (copy_ok (M := { A with Iw := upd A.Iw pdst (A.Pe j), Pe := upd A.Pe j pdst }) (c := M0.Len j - 1) (psrc := psrc + 1) (pdst := pdst + 1) (top := top) (by omega) (by omega) (by omega)
      (v.fI.upd _ _) (by omega)) ?_
    rintro ⟨B, ps, pd⟩ ⟨rfl, rfl, bk, bp, bs, bf, blow, bhigh, bval⟩
    dsimp only at *
    have hlast : ∀ k, 0 ≤ k → k < n → (moved M0.Pe M0.Len (psrc + 1 + (M0.Len j - 1)) k ↔ moved M0.Pe M0.Len psrc k ∨ k = j) := fun k k0 k1 => by
      unfold moved
      constructor
      · rintro ⟨a, b⟩
        by_cases ek : k = j
        · exact .inr ek
        · left
          refine ⟨a, ?_⟩
          rcases v.split k k0 k1 a with q | q
          · exact q
          · have := h.len k k0 k1 a
            rcases h.disj j k j0 j1 k0 k1 (Ne.symm ek) jp a with w | w <;> omega
      · rintro (⟨a, b⟩ | rfl)
        · exact ⟨a, by omega⟩
        · exact ⟨jp, by omega⟩
    have hnm : ¬ moved M0.Pe M0.Len psrc j := fun q => by have := q.2; omega
    have hvalj : ∀ t, 0 ≤ t → t < M0.Len j → B.Iw (pdst + t) = M0.Iw (psrc + t) := fun t t0 t1 => by
      by_cases et : t = 0
      · rw [et, add_zero, add_zero, blow _ (by omega), upd_same _ d0, hv1, e]
      · have := bval (t - 1) (by omega) (by omega)
        rw [show pdst + 1 + (t - 1) = pdst + t by omega, show psrc + 1 + (t - 1) = psrc + t by omega] at this
        rw [this, upd_ne _ d0 (by omega)]
        refine v.iw _ (by omega) fun k k0 k1 kp => ?_
        by_cases ek : k = j
        · rw [ek]; omega
        · have := h.head_ne j0 j1 k0 k1 (Ne.symm ek) jp kp t0 t1
          rw [e]; exact this.symm
    have hlowv : ∀ p, p < pdst → B.Iw p = A.Iw p := fun p hp => by rw [blow p (by omega), upd_ne _ d0 (by omega)]
    have hhighv : ∀ p, psrc + 1 + (M0.Len j - 1) ≤ p → B.Iw p = A.Iw p := fun p hp => by rw [bhigh p hp, upd_ne _ d0 (by omega)]
    have hPe : ∀ k, k ≠ j → B.Pe k = A.Pe k := fun k hk => by rw [bp, upd_ne _ j0 hk]
    have hPj : B.Pe j = pdst := by rw [bp, upd_same _ j0]
    refine Ens.pure ⟨⟨v.keep.trans ⟨bk.Len, bk.Nv, bk.Next, bk.Last, bk.Head, bk.Elen, bk.Degree, bk.W⟩, by rw [bp]; exact v.fP.upd _ _, bf, by rw [bs]; exact v.sI,
      ⟨by dsimp only; omega, by dsimp only; omega, by dsimp only; omega⟩, fun k k0 k1 kp => ?_, fun k k0 k1 kp hk => ?_, fun p hp hk => ?_, fun k k0 k1 kp => ?_, fun k k0 k1 hk => ?_, fun k k0 k1 hk t t0 t1 => ?_,
      fun a b a0 a1 b0 b1 hab ha hb => ?_, fun p p0 p1 => ?_, ?_⟩, by dsimp only; omega⟩
    · dsimp only
      by_cases ek : k = j
      · left; rw [ek]; omega
      · have := h.len k k0 k1 kp
        rcases v.split k k0 k1 kp with q | q
        · left; omega
        · rcases h.disj j k j0 j1 k0 k1 (Ne.symm ek) jp kp with w | w
          · right; omega
          · omega
    · dsimp only at *
      have ek : k ≠ j := by rintro rfl; omega
      rw [hPe k ek, hhighv _ hk]
      exact v.headIw k k0 k1 kp (by omega)
    · dsimp only at *
      rw [hhighv p hp]; exact v.iw p (by omega) hk
    · dsimp only at *
      rw [hPe k (by rintro rfl; omega)]; exact v.none k k0 k1 kp
    · dsimp only at *
      rw [hlast k k0 k1] at hk
      rcases hk with hk | rfl
      · have ek : k ≠ j := by rintro rfl; exact hnm hk
        rw [hPe k ek]
        have := v.loc k k0 k1 hk
        exact ⟨this.1, by omega⟩
      · rw [hPj]; exact ⟨d0, by omega⟩
    · dsimp only at *
      rw [hlast k k0 k1] at hk
      rcases hk with hk | rfl
      · have ek : k ≠ j := by rintro rfl; exact hnm hk
        rw [hPe k ek]
        have := v.loc k k0 k1 hk
        rw [hlowv _ (by omega)]
        exact v.val k k0 k1 hk t t0 t1
      · rw [hPj, hvalj t t0 t1, e]
    · dsimp only at *
      rw [hlast a a0 a1] at ha
      rw [hlast b b0 b1] at hb
      rcases ha with ha | rfl
      · have ea : a ≠ j := by rintro rfl; exact hnm ha
        rcases hb with hb | rfl
        · have eb : b ≠ j := by rintro rfl; exact hnm hb
          rw [hPe a ea, hPe b eb]; exact v.disj a b a0 a1 b0 b1 hab ha hb
        · rw [hPe a ea, hPj]
          left; exact (v.loc a a0 a1 ha).2
      · rcases hb with hb | rfl
        · have eb : b ≠ a := by rintro rfl; exact hnm hb
          rw [hPe b eb, hPj]
          right; exact (v.loc b b0 b1 hb).2
        · exact absurd rfl hab
    · dsimp only at *
      by_cases hp : p < pdst
      · rw [hlowv p hp]; exact v.rng p p0 hp
      · have := hvalj (p - pdst) (by omega) (by omega)
        rw [show pdst + (p - pdst) = p by omega] at this
        rw [this]
        exact hr _ (by omega) (by omega)
    · dsimp only
      have : M0.Len j = ∑ k ∈ Ico (0 : ℤ) n, if k = j then M0.Len j else 0 := by
        rw [sum_ite_eq', if_pos (mem_Ico.mpr ⟨j0, j1⟩)]
      rw [show pdst + 1 + (M0.Len j - 1) = pdst + M0.Len j by omega, v.sum, this, ← sum_add_distrib]
      refine sum_congr rfl fun k hk => ?_
      rw [mem_Ico] at hk
      have hl := hlast k hk.1 hk.2
      rw [← this]
      by_cases ek : k = j
      · subst ek
        rw [if_neg hnm, if_pos rfl, if_pos (hl.mpr (.inr rfl)), zero_add]
      · rw [if_neg ek, add_zero]
        by_cases hm : moved M0.Pe M0.Len psrc k
        · rw [if_pos hm, if_pos (hl.mpr (.inl hm))]
        · rw [if_neg hm, if_neg (fun q => (hl.mp q).elim hm ek)]
  · have hno : ∀ j, 0 ≤ j → j < n → 0 ≤ M0.Pe j → psrc ≠ M0.Pe j := fun j j0 j1 jp e => hex ⟨j, j0, j1, jp, e⟩
    have hiw := v.iw psrc le_rfl hno
    have hrp := hr psrc (by omega) (by omega)
    rw [hiw, if_neg (by unfold flip; omega)]
    have hmv : ∀ j, 0 ≤ j → j < n → (moved M0.Pe M0.Len (psrc + 1) j ↔ moved M0.Pe M0.Len psrc j) := fun j j0 j1 => by
      unfold moved
      constructor
      · rintro ⟨a, b⟩
        refine ⟨a, ?_⟩
        rcases v.split j j0 j1 a with q | q
        · exact q
        · have := hno j j0 j1 a; have := h.len j j0 j1 a; omega
      · rintro ⟨a, b⟩; exact ⟨a, by omega⟩
    refine Ens.pure ⟨⟨v.keep, v.fP, v.fI, v.sI, ⟨d0, by dsimp only; omega, by dsimp only; omega⟩, fun k k0 k1 kp => ?_, fun k k0 k1 kp hk => v.headIw k k0 k1 kp (by dsimp only at hk; omega),
      fun p hp hk => v.iw p (by dsimp only at hp; omega) hk, v.none, fun k k0 k1 hk => v.loc k k0 k1 ((hmv k k0 k1).mp hk), fun k k0 k1 hk => v.val k k0 k1 ((hmv k k0 k1).mp hk),
      fun a b a0 a1 b0 b1 hab ha hb => v.disj a b a0 a1 b0 b1 hab ((hmv a a0 a1).mp ha) ((hmv b b0 b1).mp hb), v.rng, ?_⟩, by dsimp only; omega⟩
    · dsimp only
      rcases v.split k k0 k1 kp with q | q
      · left; omega
      · right; have := hno k k0 k1 kp; omega
    · dsimp only
      rw [v.sum]
      refine sum_congr rfl fun k hk => ?_
      rw [mem_Ico] at hk
      simp only [hmv k hk.1 hk.2]

theorem moveNew_ok {M : Mem} {a b d top : ℤ} (hab : a ≤ b) (h0 : 0 ≤ d) (hle : d ≤ a) (fI : Full M.Iw top) (hb : b ≤ top) :
    Ens (forI a b moveNew (M, d)) (fun r => r.2 = d + (b - a) ∧ KeepPI M r.1 ∧ r.1.Pe = M.Pe ∧ r.1.Iw.size = M.Iw.size ∧ Full r.1.Iw top ∧
      (∀ p, p < d → r.1.Iw p = M.Iw p) ∧ ∀ t, 0 ≤ t → t < b - a → r.1.Iw (d + t) = M.Iw (a + t)) := by
  refine Ens.imp (Ens.forI (fun k (r : Mem × ℤ) => r.2 = d + (k - a) ∧ KeepPI M r.1 ∧ r.1.Pe = M.Pe ∧ r.1.Iw.size = M.Iw.size ∧ Full r.1.Iw top ∧
      (∀ p, p < d → r.1.Iw p = M.Iw p) ∧ (∀ p, k ≤ p → r.1.Iw p = M.Iw p) ∧ ∀ t, 0 ≤ t → t < k - a → r.1.Iw (d + t) = M.Iw (a + t)) hab ?_ ?_)
      (fun _ h => ⟨h.1, h.2.1, h.2.2.1, h.2.2.2.1, h.2.2.2.2.1, h.2.2.2.2.2.1, h.2.2.2.2.2.2.2⟩)
  · exact ⟨by simp, KeepPI.refl M, rfl, rfl, fI, fun _ _ => rfl, fun _ _ => rfl, fun t t0 t1 => by omega⟩
  · rintro k ⟨A, e⟩ k0 k1 ⟨rfl, hk, hp, hz, hf, hlow, hhigh, hval⟩
    dsimp only at *
    have := hf.1
    unfold moveNew
    dsimp only
    refine Ens.rd hf (by omega) (by omega) (Ens.wIw (by omega) (by omega) (Ens.pure ⟨by dsimp only; omega,
      ⟨hk.Len, hk.Nv, hk.Next, hk.Last, hk.Head, hk.Elen, hk.Degree, hk.W⟩, hp, hz, hf.upd _ _, fun p q => ?_, fun p q => ?_, fun t t0 t1 => ?_⟩))
    · dsimp only; rw [upd_ne _ (by omega) (by omega)]; exact hlow p q
    · dsimp only; rw [upd_ne _ (by omega) (by omega)]; exact hhigh p (by omega)
    · dsimp only
      rw [upd_at _ (by omega)]
      split_ifs with e
      · have : t = k - a := by omega
        rw [this, show a + (k - a) = k by omega]; exact hhigh _ le_rfl
      · exact hval t t0 (by omega)

/-- What a collection does: `M0` is the memory before it (with the lists shortened), the new element is in `a..b-1` before and `d..d+(b-a)-1` after. -/
structure Collected (n a b : ℤ) (M0 M : Mem) (d : ℤ) : Prop where
  keep : KeepPI M0 M
  fP : Full M.Pe n
  sI : M.Iw.size = M0.Iw.size
  fI : Full M.Iw (d + (b - a))
  le : 0 ≤ d ∧ d ≤ a
  sum : d = room n M0.Pe M0.Len
  none : ∀ j, 0 ≤ j → j < n → M0.Pe j < 0 → M.Pe j = M0.Pe j
  pe : ∀ j, 0 ≤ j → j < n → 0 ≤ M0.Pe j → 0 ≤ M.Pe j
  val : ∀ j, 0 ≤ j → j < n → 0 ≤ M0.Pe j → ∀ t, 0 ≤ t → t < M0.Len j → M.Iw (M.Pe j + t) = M0.Iw (M0.Pe j + t)
  lay : Layout n d M.Pe M0.Len
  new : ∀ t, 0 ≤ t → t < b - a → M.Iw (d + t) = M0.Iw (a + t)
  rng : ∀ p, 0 ≤ p → p < d + (b - a) → 0 ≤ M.Iw p ∧ M.Iw p < n

theorem gc_ok {M : Mem} {a b : ℤ} (hn : 0 ≤ n) (h : Layout n a M.Pe M.Len) (ha : 0 ≤ a) (hab : a ≤ b) (fP : Full M.Pe n) (fL : Full M.Len n) (fI : Full M.Iw b)
    (hr : ∀ p, 0 ≤ p → p < b → 0 ≤ M.Iw p ∧ M.Iw p < n) :
    Ens (do
      let M ← forI 0 n markEntry M
      let r ← gcMove (a - 1) M
      let t ← forI a b moveNew r
      pure (r.2, t)) (fun x => x.2.2 = x.1 + (b - a) ∧ Collected n a b M x.2.1 x.1) := by
  refine Ens.bind (mark_ok hn h fP hab fI) ?_
  intro M1 m
  refine Ens.bind (gcMove_ok h ha hab fL (fun p p0 p1 => hr p p0 (by omega)) m) ?_
  rintro ⟨M2, d⟩ v
  dsimp only at v
  obtain ⟨d0, d1, _⟩ := v.le
  refine Ens.bind (moveNew_ok hab d0 d1 v.fI le_rfl) ?_
  rintro ⟨M3, e⟩ ⟨rfl, hk, hp, hz, hf, hlow, hval⟩
  dsimp only at *
  have hall : ∀ j, 0 ≤ j → j < n → 0 ≤ M.Pe j → moved M.Pe M.Len a j := fun j j0 j1 jp => ⟨jp, h.le j j0 j1 jp⟩
  have hold : ∀ j, 0 ≤ j → j < n → M2.Pe j < 0 ∨ 0 ≤ M.Pe j := fun j j0 j1 => by
    by_cases q : 0 ≤ M.Pe j
    · exact .inr q
    · left; rw [v.none j j0 j1 (by omega)]; omega
  have hobj : ∀ j, 0 ≤ j → j < n → 0 ≤ M2.Pe j → 0 ≤ M.Pe j := fun j j0 j1 q => (hold j j0 j1).resolve_left (by omega)
  have hnew : ∀ t, 0 ≤ t → t < b - a → M3.Iw (d + t) = M.Iw (a + t) := fun t t0 t1 => by
    rw [hval t t0 t1]
    refine v.iw _ (by omega) fun j j0 j1 jp e => ?_
    have := h.le j j0 j1 jp
    have := h.len j j0 j1 jp
    omega
  refine Ens.pure ⟨rfl, ⟨v.keep.trans hk, by rw [hp]; exact v.fP, by rw [hz]; exact v.sI, hf.mono (by dsimp only; omega), ⟨d0, d1⟩, ?_, fun j j0 j1 q => by rw [hp]; exact v.none j j0 j1 q,
    fun j j0 j1 q => by rw [hp]; exact (v.loc j j0 j1 (hall j j0 j1 q)).1, fun j j0 j1 q t t0 t1 => ?_, ⟨fun j j0 j1 q => ?_, fun j j0 j1 q => ?_, fun j k j0 j1 k0 k1 hjk q w => ?_⟩, hnew, fun p p0 p1 => ?_⟩⟩
  · show d = room n M.Pe M.Len
    rw [v.sum]
    unfold room
    apply sum_congr rfl
    intro j hj
    rw [mem_Ico] at hj
    by_cases q : 0 ≤ M.Pe j
    · rw [if_pos (hall j hj.1 hj.2 q), if_pos q]
    · rw [if_neg (fun w => q w.1), if_neg q]
  · have := v.loc j j0 j1 (hall j j0 j1 q)
    rw [hp, hlow _ (by omega)]
    exact v.val j j0 j1 (hall j j0 j1 q) t t0 t1
  · rw [hp] at q; exact h.len j j0 j1 (hobj j j0 j1 q)
  · rw [hp] at q ⊢; exact (v.loc j j0 j1 (hall j j0 j1 (hobj j j0 j1 q))).2
  · rw [hp] at q w ⊢
    exact v.disj j k j0 j1 k0 k1 hjk (hall j j0 j1 (hobj j j0 j1 q)) (hall k k0 k1 (hobj k k0 k1 w))
  · by_cases q : p < d
    · rw [hlow p q]; exact v.rng p p0 q
    · have := hnew (p - d) (by omega) (by omega)
      rw [show d + (p - d) = p by omega] at this
      rw [this]; exact hr _ (by omega) (by omega)

end Osqp.Amd
