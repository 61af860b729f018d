import Verif.Amd.Round
import Verif.Amd.Finish

/-!
# From the graph to the permutation
-/

namespace Osqp.Amd
open Csc Finset
set_option linter.unusedSectionVars false

variable {n iwlen L0 : ℤ} {M M0 : Mem}

/-! ## The end -/

/-- When all the variables are eliminated, the assembly forest is left. -/
theorem Inv.left {s : Main} (h : Inv n iwlen L0 s) (hn : n ≤ s.nel) : ∃ rep rank, Left n s.M rep rank := by
  have C := h.core
  have hc := C.cnt
  have none : ∀ x, ¬ isVar n s.M x := fun x hx => by
    have := wsum_single (p := isVar n s.M) (f := fun x => av (s.M.Nv x)) hx.1 hx.2.1 hx (fun x _ _ => av_nonneg _)
    have := av_gt (C.kvar x hx).1
    omega
  have dead : ∀ x, 0 ≤ x → x < n → s.M.Pe x < 0 := fun x x0 x1 => by
    by_contra q
    rcases lt_trichotomy (s.M.Elen x) (-1) with w | w | w
    · obtain ⟨y, hy, _⟩ := C.i4 x ⟨x0, x1, w, by omega⟩ (by omega)
      exact none y hy
    · have := (C.kgone x x0 x1 w).2; omega
    · exact none x ⟨x0, x1, by omega⟩
  obtain ⟨rep, rank, T, F⟩ := h.trees
  have hE : ∀ x, 0 ≤ x → x < n → s.M.Elen x ≠ -1 → s.M.Elen x < -1 := fun x x0 x1 hx => by
    by_contra q
    exact none x ⟨x0, x1, by omega⟩
  refine ⟨rep, rank, C.fP, C.fNv, C.fE, ⟨C.fW.1, h.lists.fH.1, h.lists.fN.1, h.lists.fL.1⟩, F.forest dead (fun x x0 x1 hx => ?_) (fun x x0 x1 hx => (C.kgone x x0 x1 hx).1), fun x x0 x1 hx => ?_⟩
  · have a := hE x x0 x1 hx
    have b := (C.kelt x x0 x1 a (by omega)).1
    exact ⟨a, b, by show (if x = -1 then 0 else av (s.M.Nv x)) = _; rw [if_neg (by omega), av_pos (by omega)]⟩
  · by_cases q : s.M.Elen x = -1
    · have := (C.kgone x x0 x1 q).1; omega
    · exact hE x x0 x1 q

/-- The main loop, and what follows it. -/
theorem rounds_ok {s : Main} (n0 : 0 ≤ n) (h : Inv n iwlen L0 s) (wbig lim : ℤ) :
    Ens (loop (fun (s : Main) => do
      if s.nel < n then
        let s ← eliminate n iwlen wbig lim s
        return .inl s
      else return .inr s) (n.toNat + 1) s) (fun s' => Inv n iwlen L0 s' ∧ n ≤ s'.nel) := by
  refine Ens.loop (fun s => Inv n iwlen L0 s) _ (fun s => (n - s.nel).toNat) (fun s hs => ?_) _ _ h (by have := h.nel; omega)
  by_cases q : s.nel < n
  · rw [if_pos q]
    refine Ens.bind (eliminate_ok hs q wbig lim) (fun s' hs' => Ens.pure ?_)
    exact ⟨hs'.1, by have := hs'.2; show (n - s'.nel).toNat < (n - s.nel).toNat; omega⟩
  · rw [if_neg q]
    exact Ens.pure ⟨hs, by omega⟩

/-! ## The beginning -/

/-- The graph, as `AMD_1` hands it over: the list of each node, without gaps in front. -/
structure Graph (n iwlen pfree : ℤ) (M : Mem) : Prop where
  fP : Full M.Pe n
  fL : Full M.Len n
  fI : Full M.Iw pfree
  sI : (M.Iw.size : ℤ) = iwlen
  pf : 0 ≤ pfree
  iw : pfree + n ≤ iwlen
  rng : ∀ p, 0 ≤ p → p < pfree → 0 ≤ M.Iw p ∧ M.Iw p < n
  pe : ∀ j, 0 ≤ j → j < n → 0 ≤ M.Pe j ∧ M.Pe j + M.Len j ≤ pfree
  len : ∀ j, 0 ≤ j → j < n → 0 ≤ M.Len j ∧ M.Len j < n
  disj : ∀ j k, 0 ≤ j → j < n → 0 ≤ k → k < n → j ≠ k → M.Pe j + M.Len j ≤ M.Pe k ∨ M.Pe k + M.Len k ≤ M.Pe j
  sum : ∑ j ∈ Ico (0 : ℤ) n, M.Len j ≤ pfree
  sym : ∀ x y, 0 ≤ x → x < n → inL M x y → inL M y x
  sizes : n ≤ M.Nv.size ∧ n ≤ M.Next.size ∧ n ≤ M.Last.size ∧ n ≤ M.Head.size ∧ n ≤ M.Elen.size ∧ n ≤ M.Degree.size ∧ n ≤ M.W.size

/-- After the first loop. -/
structure Ini (n k : ℤ) (M0 M : Mem) : Prop where
  pe : M.Pe = M0.Pe
  iw : M.Iw = M0.Iw
  len : M.Len = M0.Len
  sizes : n ≤ M.Nv.size ∧ n ≤ M.Next.size ∧ n ≤ M.Last.size ∧ n ≤ M.Head.size ∧ n ≤ M.Elen.size ∧ n ≤ M.Degree.size ∧ n ≤ M.W.size
  fNv : Full M.Nv k
  fN : Full M.Next k
  fL : Full M.Last k
  fH : Full M.Head k
  fE : Full M.Elen k
  fD : Full M.Degree k
  fW : Full M.W k
  v : ∀ x, 0 ≤ x → x < k → M.Nv x = 1 ∧ M.Next x = -1 ∧ M.Last x = -1 ∧ M.Head x = -1 ∧ M.Elen x = 0 ∧ M.Degree x = M0.Len x ∧ M.W x = 1

theorem init_ok (n0 : 0 ≤ n) (fL : Full M0.Len n) (hs : n ≤ M0.Nv.size ∧ n ≤ M0.Next.size ∧ n ≤ M0.Last.size ∧ n ≤ M0.Head.size ∧ n ≤ M0.Elen.size ∧ n ≤ M0.Degree.size ∧ n ≤ M0.W.size) :
    Ens (forI 0 n initEntry M0) (Ini n n M0) := by
  refine Ens.forI (fun k M => Ini n k M0 M) n0 ⟨rfl, rfl, rfl, hs, Full.none _, Full.none _, Full.none _, Full.none _, Full.none _, Full.none _, Full.none _, fun x x0 x1 => by omega⟩ (fun k M k0 k1 h => ?_)
  obtain ⟨s1, s2, s3, s4, s5, s6, s7⟩ := h.sizes
  unfold initEntry
  refine Ens.wLast k0 (by omega) (Ens.wHead k0 (by dsimp only; omega) (Ens.wNext k0 (by dsimp only; omega) (Ens.wNv k0 (by dsimp only; omega) (Ens.wW k0 (by dsimp only; omega) (Ens.wElen k0 (by dsimp only; omega)
    (Ens.rd (b := M.Len) (n := n) (by rw [h.len]; exact fL) k0 k1 (Ens.last (Ens.wDegree k0 (by dsimp only; omega) (Ens.some ?_)))))))))
  refine ⟨h.pe, h.iw, h.len, ⟨s1, s2, s3, s4, s5, s6, s7⟩, h.fNv.grow k0 (by omega) _, h.fN.grow k0 (by omega) _, h.fL.grow k0 (by omega) _, h.fH.grow k0 (by omega) _, h.fE.grow k0 (by omega) _, h.fD.grow k0 (by omega) _, h.fW.grow k0 (by omega) _, fun x x0 x1 => ?_⟩
  dsimp only
  rw [upd_at _ k0, upd_at _ k0, upd_at _ k0, upd_at _ k0, upd_at _ k0, upd_at _ k0, upd_at _ k0, h.len]
  by_cases e : x = k
  · simp [e]
  · simp only [e, if_false]; exact h.v x x0 (by omega)

/-- The loop that makes the degree lists has come to `k`. -/
structure Lst (n dense k : ℤ) (M0 M : Mem) (nel : ℤ) : Prop where
  iw : M.Iw = M0.Iw
  len : M.Len = M0.Len
  deg : M.Degree = M0.Degree
  fP : Full M.Pe n
  fNv : Full M.Nv n
  fE : Full M.Elen n
  fW : Full M.W n
  new : ∀ x, 0 ≤ x → x < n → ¬ (x < k ∧ (M0.Len x = 0 ∨ dense < M0.Len x)) → M.Nv x = 1 ∧ M.Elen x = 0 ∧ M.Pe x = M0.Pe x ∧ M.W x = 1
  empty : ∀ x, 0 ≤ x → x < k → M0.Len x = 0 → M.Nv x = 1 ∧ M.Elen x = -3 ∧ M.Pe x = -1 ∧ M.W x = 0
  dense : ∀ x, 0 ≤ x → x < k → M0.Len x ≠ 0 → dense < M0.Len x → M.Nv x = 0 ∧ M.Elen x = -1 ∧ M.Pe x = -1 ∧ M.W x = 1
  cnt : nel + wsum n (isVar n M) (fun x => av (M.Nv x)) = n
  nel : 0 ≤ nel
  last : ∀ x, k ≤ x → x < n → M.Last x = -1
  lists : Lists n M (fun x => isVar n M x ∧ x < k)

theorem wsum_all (n0 : 0 ≤ n) {p : ℤ → Prop} {f : ℤ → ℤ} (hp : ∀ x, 0 ≤ x → x < n → p x ∧ f x = 1) : wsum n p f = n := by
  classical
  unfold wsum
  have : ∀ x ∈ Ico (0 : ℤ) n, (if p x then f x else 0) = 1 := fun x hx => by
    rw [mem_Ico] at hx
    have := hp x hx.1 hx.2
    rw [if_pos this.1, this.2]
  rw [sum_congr rfl this]
  simp; omega

theorem list_ok (n0 : 0 ≤ n) (dense : ℤ) (I : Ini n n M0 M0) (fP : Full M0.Pe n) (hlen : ∀ j, 0 ≤ j → j < n → 0 ≤ M0.Len j ∧ M0.Len j < n) :
    Ens (forI 0 n (listEntry dense) (M0, 0)) (fun r => Lst n dense n M0 r.1 r.2) := by
  refine Ens.forI (fun k (r : Mem × ℤ) => Lst n dense k M0 r.1 r.2) n0 ?_ ?_
  · dsimp only
    have hv : ∀ x, 0 ≤ x → x < n → isVar n M0 x := fun x x0 x1 => ⟨x0, x1, by rw [(I.v x x0 x1).2.2.2.2.1]⟩
    refine ⟨rfl, rfl, rfl, fP, I.fNv, I.fE, I.fW, fun x x0 x1 _ => ?_, fun x x0 x1 => by omega, fun x x0 x1 => by omega, ?_, le_rfl, fun x x0 x1 => (I.v x x0 x1).2.2.1, ⟨I.fN, I.fL, I.fH, I.fD, ⟨fun _ => 0, ?_⟩, fun d d0 d1 => ?_⟩⟩
    · have := I.v x x0 x1; exact ⟨this.1, this.2.2.2.2.1, rfl, this.2.2.2.2.2.2⟩
    · rw [zero_add]
      exact wsum_all n0 fun x x0 x1 => ⟨hv x x0 x1, by rw [(I.v x x0 x1).1]; rfl⟩
    · have no : ∀ x, ¬ (isVar n M0 x ∧ x < 0) := fun x q => by have := q.1.1; omega
      exact ⟨fun x q => absurd q (no x), fun x q => absurd q (no x), fun x q => absurd q (no x), fun x q => absurd q (no x), fun d d0 d1 => .inl (by rw [(I.v d d0 d1).2.2.2.1]; omega)⟩
    · unfold bh
      rw [(I.v d d0 d1).2.2.2.1]; rfl
  · rintro i ⟨M, nel⟩ i0 i1 h
    dsimp only at h
    unfold listEntry
    dsimp only
    have hi := h.new i i0 i1 (by omega)
    have di : M.Degree i = M0.Len i := by rw [h.deg]; exact (I.v i i0 i1).2.2.2.2.2.1
    have vi : isVar n M i := ⟨i0, i1, by rw [hi.2.1]⟩
    have s1 := h.fP.1
    have s2 := h.fNv.1
    have s3 := h.fE.1
    have s4 := h.fW.1
    refine Ens.rd h.lists.fD i0 i1 ?_
    rw [di]
    -- a node taken out
    have out : ∀ M' : Mem, M'.Iw = M.Iw → M'.Len = M.Len → M'.Degree = M.Degree → Full M'.Pe n → Full M'.Nv n → Full M'.Elen n → Full M'.W n → M'.Next = M.Next → M'.Last = M.Last → M'.Head = M.Head →
        (∀ x, x ≠ i → M'.Nv x = M.Nv x ∧ M'.Elen x = M.Elen x ∧ M'.Pe x = M.Pe x ∧ M'.W x = M.W x) → M'.Elen i < 0 →
        ((M0.Len i = 0 ∧ M'.Nv i = 1 ∧ M'.Elen i = -3 ∧ M'.Pe i = -1 ∧ M'.W i = 0) ∨ (M0.Len i ≠ 0 ∧ dense < M0.Len i ∧ M'.Nv i = 0 ∧ M'.Elen i = -1 ∧ M'.Pe i = -1 ∧ M'.W i = 1)) →
        Lst n dense (i + 1) M0 M' (nel + 1) := by
      intro M' e1 e2 e3 f1 f2 f3 f4 e4 e5 e6 hne hE hcase
      have var : ∀ x, isVar n M x ↔ isVar n M' x ∨ x = i := fun x => by
        by_cases e : x = i
        · rw [e]; exact ⟨fun _ => .inr rfl, fun _ => vi⟩
        · unfold isVar; rw [(hne x e).2.1]; simp [e]
      have ni : ¬ isVar n M' i := fun q => by have := q.2.2; omega
      refine ⟨e1.trans h.iw, e2.trans h.len, e3.trans h.deg, f1, f2, f3, f4, fun x x0 x1 hx => ?_, fun x x0 x1 hx => ?_, fun x x0 x1 hx hx' => ?_, ?_, by have := h.nel; omega, fun x x0 x1 => by rw [e5]; exact h.last x (by omega) x1, ?_⟩
      · have e : x ≠ i := by rintro rfl; apply hx; rcases hcase with q | q <;> omega
        obtain ⟨a, b, c, d⟩ := hne x e
        rw [a, b, c, d]; exact h.new x x0 x1 (by omega)
      · by_cases e : x = i
        · rw [e] at hx ⊢
          rcases hcase with q | q
          · exact q.2
          · exact absurd hx q.1
        · obtain ⟨a, b, c, d⟩ := hne x e
          rw [a, b, c, d]; exact h.empty x x0 (by omega) hx
      · by_cases e : x = i
        · rw [e] at hx ⊢
          rcases hcase with q | q
          · exact absurd q.1 hx
          · exact q.2.2
        · obtain ⟨a, b, c, d⟩ := hne x e
          rw [a, b, c, d]; exact h.dense x x0 (by omega) hx hx'
      · have := wsum_add (n := n) (p := isVar n M') (p' := isVar n M) (f := fun x => av (M'.Nv x)) (f' := fun x => av (M.Nv x)) i0 i1 ni (fun x _ _ => var x)
          (fun x _ _ hx => by show av (M.Nv x) = av (M'.Nv x); rw [(hne x (by rintro rfl; exact ni hx)).1])
        have a := h.cnt
        rw [this, hi.1] at a
        have : av 1 = 1 := rfl
        omega
      · refine h.lists.congr e4 e5 e6 e3 (fun x => ?_)
        rw [var]
        constructor
        · rintro ⟨a, b⟩
          have : x ≠ i := by rintro rfl; exact ni a
          exact ⟨.inl a, by omega⟩
        · rintro ⟨a, b⟩
          exact ⟨a.resolve_right (by omega), by omega⟩
    by_cases q : M0.Len i = 0
    · rw [if_pos q]
      refine Ens.wElen i0 (by omega) (Ens.wPe i0 (by dsimp only; omega) (Ens.wW i0 (by dsimp only; omega) (Ens.pure ?_)))
      refine out _ rfl rfl rfl (h.fP.upd _ _) h.fNv (h.fE.upd _ _) (h.fW.upd _ _) rfl rfl rfl (fun x hx => ⟨rfl, upd_ne _ i0 hx, upd_ne _ i0 hx, upd_ne _ i0 hx⟩) (by rw [upd_same _ i0]; unfold flip; omega)
        (.inl ⟨q, hi.1, upd_same _ i0, upd_same _ i0, upd_same _ i0⟩)
    · rw [if_neg q]
      by_cases w : M0.Len i > dense
      · rw [if_pos w]
        refine Ens.wNv i0 (by omega) (Ens.wElen i0 (by dsimp only; omega) (Ens.wPe i0 (by dsimp only; omega) (Ens.pure ?_)))
        refine out _ rfl rfl rfl (h.fP.upd _ _) (h.fNv.upd _ _) (h.fE.upd _ _) h.fW rfl rfl rfl (fun x hx => ⟨upd_ne _ i0 hx, upd_ne _ i0 hx, upd_ne _ i0 hx, rfl⟩) (by rw [upd_same _ i0]; omega)
          (.inr ⟨q, w, upd_same _ i0, upd_same _ i0, upd_same _ i0, hi.2.2.2⟩)
      · rw [if_neg w]
        have hl := hlen i i0 i1
        obtain ⟨g, hg⟩ : ∃ g, g = M0.Len i := ⟨_, rfl⟩
        rw [← hg] at hl ⊢
        refine Ens.rd h.lists.fH hl.1 hl.2 ?_
        obtain ⟨st, dg⟩ := h.lists.deg
        have hhd := h.lists.nohash.head hl.1 hl.2
        have t1 := h.lists.fN.1
        have t2 := h.lists.fL.1
        have t3 := h.lists.fH.1
        have hlast := h.last i le_rfl i1
        have tail : ∀ L1 : Buf ℤ, (∀ x, L1 x = if M.Head g ≠ -1 ∧ x = M.Head g then i else M.Last x) → Full L1 n →
            Ens (({ M with Last := L1 } : Mem).wNext i (M.Head g) >>= fun M => M.wHead g i >>= fun M => (pure (M, nel) : Option (Mem × ℤ))) (fun t => Lst n dense (i + 1) M0 t.1 t.2) := by
          intro L1 hL1 fL1
          refine Ens.wNext i0 (by dsimp only; omega) (Ens.wHead hl.1 (by dsimp only; omega) (Ens.pure ?_))
          dsimp only
          have Hgi : ¬ (M.Head g ≠ -1 ∧ i = M.Head g) := fun y => by
            have := (dg.head g hl.1 hl.2).resolve_left (by omega)
            rw [← y.2] at this; have := this.1.2; omega
          have ins : ∃ st', Deg n (upd M.Next i (M.Head g)) L1 (upd M.Head g i) M.Degree (fun x => (isVar n M x ∧ x < i) ∨ x = i) st' ∧ NoHash n L1 (upd M.Head g i) :=
            deg_insert dg h.lists.nohash i0 i1 (by omega) hl.1 hl.2 (fun x => upd_at _ i0 x) (fun x => by
              rw [hL1]
              by_cases e : x = i
              · rw [if_pos e, e, if_neg Hgi, hlast]
              · rw [if_neg e]) (fun e => upd_at _ hl.1 e) (fun x => by
              split_ifs with e
              · rw [e, di, hg]
              · rfl)
          obtain ⟨st', dg', nh'⟩ := ins
          refine ⟨h.iw, h.len, h.deg, h.fP, h.fNv, h.fE, h.fW, fun x x0 x1 hx => ?_, fun x x0 x1 hx => ?_, fun x x0 x1 hx hx' => ?_, h.cnt, h.nel, fun x x0 x1 => ?_,
            ⟨h.lists.fN.upd _ _, fL1, h.lists.fH.upd _ _, h.lists.fD, ⟨st', dg'.congr (fun x => ?_) (fun _ _ => rfl)⟩, nh'⟩⟩
          · by_cases e : x = i
            · rw [e]; exact hi
            · exact h.new x x0 x1 (by omega)
          · have : x ≠ i := by rintro rfl; exact q hx
            exact h.empty x x0 (by omega) hx
          · have : x ≠ i := by rintro rfl; exact w hx'
            exact h.dense x x0 (by omega) hx hx'
          · dsimp only
            rw [hL1, if_neg, h.last x (by omega) x1]
            rintro ⟨y1, y2⟩
            have := (dg.head g hl.1 hl.2).resolve_left (by omega)
            rw [← y2] at this; have := this.1.2; omega
          · constructor
            · rintro ⟨a, b⟩
              by_cases e : x = i
              · exact .inr e
              · exact .inl ⟨a, by omega⟩
            · rintro (⟨a, b⟩ | rfl)
              · exact ⟨a, by omega⟩
              · exact ⟨vi, by omega⟩
        unfold Mem.wLastOf
        by_cases z : M.Head g = -1
        · rw [if_neg (by omega)]
          exact tail M.Last (fun x => by rw [if_neg (by omega)]) h.lists.fL
        · rw [if_pos z]
          have hk := (dg.head g hl.1 hl.2).resolve_left (by omega)
          have hr := dg.rng _ hk.1
          refine Ens.wLast hr.1 (by omega) (tail _ (fun x => ?_) (h.lists.fL.upd _ _))
          rw [upd_at _ hr.1]
          by_cases e : x = M.Head g
          · rw [if_pos e, if_pos ⟨z, e⟩]
          · rw [if_neg e, if_neg (fun q => e q.2)]

theorem clear0_ok {M1 : Mem} (n0 : 0 ≤ n) (I : Ini n n M0 M1) (wbig : ℤ) : Ens (clearFlag n wbig 0 M1) (fun r => r.1 = 2 ∧ Ini n n M0 r.2) := by
  unfold clearFlag
  rw [if_pos (by omega)]
  refine Ens.bind (Ens.forI (fun _ M => Ini n n M0 M) n0 I (fun k M k0 k1 hI => ?_)) (fun M hM => Ens.pure ⟨rfl, hM⟩)
  unfold clearEntry
  refine Ens.rd hI.fW k0 k1 ?_
  rw [(hI.v k k0 k1).2.2.2.2.2.2, if_pos (by omega)]
  refine Ens.last (Ens.wW k0 (by have := hI.fW.1; omega) (Ens.some ?_))
  refine ⟨hI.pe, hI.iw, hI.len, ⟨hI.sizes.1, hI.sizes.2.1, hI.sizes.2.2.1, hI.sizes.2.2.2.1, hI.sizes.2.2.2.2.1, hI.sizes.2.2.2.2.2.1, (hI.fW.upd _ _).1⟩, hI.fNv, hI.fN, hI.fL, hI.fH, hI.fE, hI.fD, hI.fW.upd _ _, fun x x0 x1 => ?_⟩
  obtain ⟨a, b, c, d, e, f, g⟩ := hI.v x x0 x1
  refine ⟨a, b, c, d, e, f, ?_⟩
  dsimp only
  rw [upd_at _ k0]
  split_ifs
  · rfl
  · exact g

/-- The state in which the main loop starts. -/
theorem start_inv (n0 : 0 ≤ n) {dense pfree : ℤ} {M1 : Mem} (G : Graph n iwlen pfree M0) (I : Ini n n M0 M1) (h : Lst n dense n M1 M nel) :
    Inv n iwlen pfree { M := M, pfree := pfree, mindeg := 0, nel := nel, wflg := 2, lemax := 0 } := by
  classical
  have hlen : M.Len = M0.Len := h.len.trans I.len
  have hiw : M.Iw = M0.Iw := h.iw.trans I.iw
  have kind : ∀ x, 0 ≤ x → x < n →
      (M0.Len x = 0 ∧ M.Nv x = 1 ∧ M.Elen x = -3 ∧ M.Pe x = -1 ∧ M.W x = 0) ∨
      (M0.Len x ≠ 0 ∧ M.Nv x = 0 ∧ M.Elen x = -1 ∧ M.Pe x = -1 ∧ M.W x = 1) ∨
      (M0.Len x ≠ 0 ∧ M.Nv x = 1 ∧ M.Elen x = 0 ∧ M.Pe x = M0.Pe x ∧ M.W x = 1) := fun x x0 x1 => by
    by_cases q : M0.Len x = 0
    · exact .inl ⟨q, h.empty x x0 x1 (by rw [I.len]; exact q)⟩
    · by_cases w : dense < M0.Len x
      · exact .inr (.inl ⟨q, h.dense x x0 x1 (by rw [I.len]; exact q) (by rw [I.len]; exact w)⟩)
      · have := h.new x x0 x1 (by rw [I.len]; rintro ⟨_, a | a⟩; exacts [q a, w a])
        rw [I.pe] at this
        exact .inr (.inr ⟨q, this⟩)
  have var : ∀ x, isVar n M x → M0.Len x ≠ 0 ∧ M.Nv x = 1 ∧ M.Elen x = 0 ∧ M.Pe x = M0.Pe x ∧ M.W x = 1 := fun x hx => by
    have := hx.2.2
    rcases kind x hx.1 hx.2.1 with q | q | q
    · omega
    · omega
    · exact q
  have live : ∀ x, 0 ≤ x → x < n → 0 ≤ M.Pe x → isVar n M x := fun x x0 x1 xp => by
    rcases kind x x0 x1 with q | q | q
    · omega
    · omega
    · exact ⟨x0, x1, by omega⟩
  have noE : ∀ x e, isVar n M x → ¬ inE M x e := fun x e hx ⟨k, k0, k1, _⟩ => by have := (var x hx).2.2.1; omega
  have noElt : ∀ e, ¬ isElt n M e := fun e ⟨e0, e1, e2, e3⟩ => by have := (live e e0 e1 e3).2.2; omega
  have inVL : ∀ x y, isVar n M x → (inV M x y ↔ inL M0 x y) := fun x y hx => by
    have v := var x hx
    unfold inV inL ent
    rw [v.2.2.1, v.2.2.2.1, hlen, hiw]
  have ht : Trees n M (-1) 0 := by
    refine ⟨fun x => if M.Elen x = -1 then -1 else x, fun _ => 0, 1, ⟨fun x x0 x1 hx => .inl ?_, fun x _ _ _ => by omega, fun x x0 x1 hx hp hq => ?_, fun x x0 x1 hx => ?_, fun x x0 x1 hx => if_neg hx, fun x x0 x1 hx hp => ?_, fun x x0 x1 hx _ => if_pos hx, fun x x0 x1 hx => ?_⟩⟩
    · rcases kind x x0 x1 with q | q | q
      · exact q.2.2.2.1
      · exact q.2.2.2.1
      · have := G.pe x x0 x1; omega
    · rcases kind x x0 x1 with q | q | q <;> omega
    · rcases kind x x0 x1 with q | q | q <;> omega
    · rcases kind x x0 x1 with q | q | q <;> omega
    · have : ((Ico (0 : ℤ) n).filter fun y => (if M.Elen y = -1 then -1 else y) = x) = {x} := by
        ext y
        rw [mem_filter, mem_Ico, mem_singleton]
        constructor
        · rintro ⟨_, e⟩
          split_ifs at e with q
          · omega
          · exact e
        · rintro rfl
          exact ⟨⟨x0, x1⟩, if_neg hx⟩
      rw [this, card_singleton, if_neg (by omega)]
      have : M.Nv x = 1 := by rcases kind x x0 x1 with q | q | q <;> omega
      rw [this]; rfl
  refine ⟨?_, h.lists.congr rfl rfl rfl rfl (fun x => ⟨fun a => ⟨a, a.2.1⟩, fun a => a.1⟩), fun x x0 x1 => ?_, (by decide : (0 : ℤ) < 2), le_rfl, h.nel, ⟨le_rfl, fun x hx => ?_⟩, ht⟩
  · refine ⟨h.fP, by dsimp only; rw [hlen]; exact G.fL, h.fNv, h.fE, h.fW, h.lists.fD, by dsimp only; rw [hiw]; exact G.fI, by dsimp only; rw [hiw]; exact G.sI, ⟨G.pf, by have := G.iw; dsimp only; omega⟩,
      by dsimp only; rw [hiw]; exact G.rng, fun x x0 x1 xp _ => ?_, fun x x0 x1 xp => ?_, fun x y x0 x1 y0 y1 hxy xp yp => ?_, ?_, G.iw, fun x hx => ?_, fun x hx => ?_, fun x x0 x1 hx _ => ?_, fun x x0 x1 hx => ?_,
      fun x e hx he => absurd he (noE x e hx), fun x hx k l k0 k1 => ?_, fun x hx => ⟨fun q => absurd q (noE x _ hx), fun q => absurd q (notMem_empty x)⟩, fun x e hx _ he => absurd he (noE x e hx), fun x y hx hy => .inl ?_,
      fun x y hx hD => absurd hD (notMem_empty x), fun x y hx hy _ q => ?_, fun x e _ he => absurd he (noElt e), fun e y he => absurd he (noElt e), fun e he => absurd he (noElt e), fun e he => absurd he (noElt e),
      fun x _ q => absurd q (notMem_empty x), h.cnt⟩
    · have v := var x (live x x0 x1 xp)
      have := G.len x x0 x1
      dsimp only; rw [hlen]; omega
    · have v := var x (live x x0 x1 xp)
      have := G.pe x x0 x1
      dsimp only; rw [hlen, v.2.2.2.1]; omega
    · have v := var x (live x x0 x1 xp)
      have w := var y (live y y0 y1 yp)
      have := G.disj x y x0 x1 y0 y1 hxy
      dsimp only; rw [hlen, v.2.2.2.1, w.2.2.2.1]; exact this
    · refine le_trans (sum_le_sum (fun x hx => ?_)) G.sum
      rw [mem_Ico] at hx
      have := G.len x hx.1 hx.2
      dsimp only
      rw [hlen]
      split_ifs <;> omega
    · have v := var x hx
      have := G.len x hx.1 hx.2.1
      have := G.pe x hx.1 hx.2.1
      have d : M.Degree x = M0.Len x := by rw [h.deg]; exact (I.v x hx.1 hx.2.1).2.2.2.2.2.1
      dsimp only; rw [hlen, d]; omega
    · have v := var x hx
      dsimp only
      rw [v.2.1]; simp
    · rcases kind x x0 x1 with q | q | q
      · refine ⟨by dsimp only; omega, .inr ⟨by dsimp only; omega, q.2.2.2.2⟩⟩
      · dsimp only at hx; omega
      · dsimp only at hx; omega
    · dsimp only at hx
      rcases kind x x0 x1 with q | q | q
      · omega
      · exact ⟨q.2.1, by dsimp only; omega⟩
      · omega
    · have := (var x hx).2.2.1; dsimp only at k1; omega
    · dsimp only
      have a := (inVL x y hx).mp hy
      obtain ⟨k, k0, k1, hk⟩ := G.sym x y hx.1 hx.2.1 a
      obtain ⟨l, l0, l1, hl⟩ := a
      have := G.pe x hx.1 hx.2.1
      have := G.rng (M0.Pe x + l) (by omega) (by omega)
      have hl' : M0.Iw (M0.Pe x + l) = y := hl
      rw [hl'] at this
      rcases kind y this.1 this.2 with q | q | q
      · omega
      · omega
      · omega
    · exact (inVL y x hy).mpr (G.sym x y hx.1 hx.2.1 ((inVL x y hx).mp q))
  · dsimp only
    rcases kind x x0 x1 with q | q | q <;> omega
  · have d : M.Degree x = M0.Len x := by rw [h.deg]; exact (I.v x hx.1 hx.2.1).2.2.2.2.2.1
    have := G.len x hx.1 hx.2.1
    dsimp only; omega

/-- `AMD_2` on a graph: it ends, it stays within its arrays, it reads nothing that was not written, and it makes a permutation and its inverse. -/
theorem amd2_ok (n0 : 0 ≤ n) {pfree : ℤ} (G : Graph n iwlen pfree M0) (dense0 imax lim : ℤ) : Ens (amd2 n iwlen dense0 imax lim M0 pfree) (fun r => Inverse n r.2 r.1) := by
  unfold amd2
  refine Ens.bind (init_ok n0 G.fL G.sizes) (fun M1 I1 => ?_)
  refine Ens.bind (clear0_ok n0 I1 (imax - n)) ?_
  rintro ⟨w, M2⟩ ⟨rfl, I2⟩
  dsimp only at I2 ⊢
  have J : Ini n n M2 M2 := ⟨rfl, rfl, rfl, I2.sizes, I2.fNv, I2.fN, I2.fL, I2.fH, I2.fE, I2.fD, I2.fW, by rw [I2.len]; exact I2.v⟩
  refine Ens.bind (list_ok n0 _ J (by rw [I2.pe]; exact G.fP) (by rw [I2.len]; exact G.len)) ?_
  rintro ⟨M3, nel⟩ h3
  dsimp only at h3 ⊢
  refine Ens.bind (rounds_ok n0 (start_inv n0 G I2 h3) (imax - n) lim) ?_
  rintro s ⟨hs, hn⟩
  obtain ⟨rep, rank, hl⟩ := hs.left hn
  exact finish_ok n0 hl

end Osqp.Amd
