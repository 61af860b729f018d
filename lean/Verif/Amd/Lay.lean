import Verif.Amd.Pairs
import Verif.Amd.Main
import Mathlib.Algebra.Order.BigOperators.Group.Finset

/-!
# The lists built from the pairs

The number of neighbours of each node (`AMD_aat`), and their lists one after the other (`AMD_1`).
-/

namespace Osqp.Amd
open Csc Finset
set_option linter.unusedSectionVars false

/-- What was put into the list of `x`. -/
def row (l : List (ℤ × ℤ)) (x : ℤ) : List ℤ := (l.filter fun q => q.1 = x).map Prod.snd

theorem row_add (l : List (ℤ × ℤ)) (i v x : ℤ) : row (l ++ [(i, v)]) x = if x = i then row l x ++ [v] else row l x := by
  unfold row
  rw [List.filter_append, List.map_append]
  by_cases e : x = i
  · simp [e]
  · have : ¬ i = x := fun h => e h.symm
    simp [e, this]

theorem mem_row {l : List (ℤ × ℤ)} {x y : ℤ} : y ∈ row l x ↔ (x, y) ∈ l := by
  unfold row
  rw [List.mem_map]
  constructor
  · rintro ⟨⟨a, b⟩, h, rfl⟩
    rw [List.mem_filter] at h
    have : a = x := by simpa using h.2
    rw [← this]; exact h.1
  · intro h
    exact ⟨(x, y), List.mem_filter.mpr ⟨h, by simp⟩, rfl⟩

theorem row_nodup {l : List (ℤ × ℤ)} (h : l.Nodup) (x : ℤ) : (row l x).Nodup := by
  unfold row
  refine List.Nodup.map_on ?_ (h.filter _)
  rintro ⟨a, b⟩ ha ⟨c, d⟩ hc e
  rw [List.mem_filter] at ha hc
  have h1 : a = x := by simpa using ha.2
  have h2 : c = x := by simpa using hc.2
  rw [h1, h2]; simpa using e

theorem row_len {l l' : List (ℤ × ℤ)} (h : l.Nodup) (hs : ∀ q ∈ l, q ∈ l') (x : ℤ) : (row l x).length ≤ (row l' x).length := by
  unfold row
  rw [List.length_map, List.length_map]
  refine (List.subperm_of_subset (h.filter _) (fun q hq => ?_)).length_le
  rw [List.mem_filter] at hq ⊢
  exact ⟨hs q hq.1, hq.2⟩

/-- Each pair in both directions. -/
def both (l : List (ℤ × ℤ)) : List (ℤ × ℤ) := l.flatMap fun q => [q, (q.2, q.1)]

theorem both_add (l : List (ℤ × ℤ)) (i j : ℤ) : both (l ++ [(i, j)]) = (both l ++ [(i, j)]) ++ [(j, i)] := by
  unfold both; simp

theorem mem_both {l : List (ℤ × ℤ)} {a b : ℤ} : (a, b) ∈ both l ↔ (a, b) ∈ l ∨ (b, a) ∈ l := by
  unfold both
  rw [List.mem_flatMap]
  constructor
  · rintro ⟨⟨c, d⟩, h, e⟩
    simp only [List.mem_cons, Prod.mk.injEq, List.not_mem_nil, or_false] at e
    rcases e with ⟨rfl, rfl⟩ | ⟨rfl, rfl⟩
    · exact .inl h
    · exact .inr h
  · rintro (h | h)
    · exact ⟨_, h, by simp⟩
    · exact ⟨_, h, by simp⟩

theorem both_nodup {l : List (ℤ × ℤ)} (h : l.Nodup) (ha : ∀ q ∈ l, (q.2, q.1) ∉ l) : (both l).Nodup := by
  induction l with
  | nil => exact List.nodup_nil
  | cons q l ih =>
    rw [List.nodup_cons] at h
    have h1 := ih h.2 (fun q' hq' hn => ha q' (List.mem_cons_of_mem _ hq') (List.mem_cons_of_mem _ hn))
    have e : both (q :: l) = q :: (q.2, q.1) :: both l := by unfold both; simp
    rw [e, List.nodup_cons, List.nodup_cons]
    obtain ⟨a, b⟩ := q
    have n1 : (b, a) ∉ l := fun hn => ha (a, b) (by simp) (List.mem_cons_of_mem _ hn)
    have n2 : (a, b) ≠ (b, a) := fun e => by have := ha (a, b) (by simp); dsimp only at this; rw [← e] at this; simp at this
    refine ⟨?_, ?_, h1⟩
    · rw [List.mem_cons, mem_both]
      rintro (q | q | q)
      · exact n2 q
      · exact h.1 q
      · exact n1 q
    · rw [mem_both]
      rintro (q | q)
      · exact n1 q
      · exact h.1 q

variable {n lim : ℤ}

/-- `b` counts the entries of the lists. -/
structure Cnt (n : ℤ) (l : List (ℤ × ℤ)) (b : Buf ℤ) : Prop where
  full : Full b n
  v : ∀ x, 0 ≤ x → x < n → b x = (row l x).length

theorem Cnt.incr {l : List (ℤ × ℤ)} {b : Buf ℤ} (h : Cnt n l b) {i : ℤ} (i0 : 0 ≤ i) (i1 : i < n) (v : ℤ) : Cnt n (l ++ [(i, v)]) (upd b i (b i + 1)) := by
  refine ⟨h.full.upd _ _, fun x x0 x1 => ?_⟩
  rw [upd_at _ i0, row_add]
  split_ifs with e
  · rw [List.length_append, e, h.v i i0 i1]; simp
  · exact h.v x x0 x1

theorem incr_ok {b : Buf ℤ} (h : Full b n) {i : ℤ} (i0 : 0 ≤ i) (i1 : i < n) : incr b i = some (upd b i (b i + 1)) := by
  unfold incr
  rw [h.rd i0 i1]
  show b.wr i (b i + 1) = _
  rw [h.wr i0 i1]

/-- Lists one after the other. -/
structure Lay (n : ℤ) (c Pe : ℤ → ℤ) (lim : ℤ) : Prop where
  pe : ∀ x, 0 ≤ x → x < n → 0 ≤ Pe x ∧ Pe x + c x ≤ lim
  disj : ∀ j k, 0 ≤ j → j < n → 0 ≤ k → k < n → j ≠ k → Pe j + c j ≤ Pe k ∨ Pe k + c k ≤ Pe j
  cover : ∀ p, 0 ≤ p → p < lim → ∃ x, 0 ≤ x ∧ x < n ∧ Pe x ≤ p ∧ p < Pe x + c x
  sum : ∑ x ∈ Ico (0 : ℤ) n, c x = lim

/-- One more list. -/
theorem Lay.grow {c Pe Pe' : ℤ → ℤ} (h : Lay n c Pe lim) (n0 : 0 ≤ n) (l0 : 0 ≤ lim) (c0 : 0 ≤ c n) (hs : ∀ x, 0 ≤ x → x < n → Pe' x = Pe x) (hn : Pe' n = lim) : Lay (n + 1) c Pe' (lim + c n) := by
  refine ⟨fun x x0 x1 => ?_, fun j k j0 j1 k0 k1 jk => ?_, fun p p0 p1 => ?_, ?_⟩
  · by_cases e : x = n
    · rw [e, hn]; omega
    · have := h.pe x x0 (by omega); rw [hs x x0 (by omega)]; omega
  · by_cases e : j = n
    · have := h.pe k k0 (by omega)
      rw [e, hn, hs k k0 (by omega)]; omega
    · by_cases e' : k = n
      · have := h.pe j j0 (by omega)
        rw [e', hn, hs j j0 (by omega)]; omega
      · rw [hs k k0 (by omega), hs j j0 (by omega)]; exact h.disj j k j0 (by omega) k0 (by omega) jk
  · by_cases e : p < lim
    · obtain ⟨x, x0, x1, a, b⟩ := h.cover p p0 e
      exact ⟨x, x0, by omega, by rw [hs x x0 x1]; omega, by rw [hs x x0 x1]; omega⟩
    · exact ⟨n, n0, by omega, by omega, by omega⟩
  · have : Ico (0 : ℤ) (n + 1) = insert n (Ico 0 n) := by ext x; simp only [mem_Ico, mem_insert]; omega
    rw [this, sum_insert (by simp), h.sum]; ring

/-- The lists are being filled. -/
structure Fill (n : ℤ) (Pe : ℤ → ℤ) (l : List (ℤ × ℤ)) (Iw Sp : Buf ℤ) : Prop where
  full : Full Sp n
  sp : ∀ x, 0 ≤ x → x < n → Sp x = Pe x + (row l x).length
  iw : ∀ x, 0 ≤ x → x < n → ∀ (k : ℕ) v, (row l x)[k]? = some v → Iw.cell (Pe x + k).toNat = some v

theorem Fill.put {c Pe : ℤ → ℤ} {l : List (ℤ × ℤ)} {Iw Sp : Buf ℤ} (L : Lay n c Pe lim) (F : Fill n Pe l Iw Sp) {i : ℤ} (i0 : 0 ≤ i) (i1 : i < n) (v : ℤ)
    (hc : ∀ x, 0 ≤ x → x < n → ((row (l ++ [(i, v)]) x).length : ℤ) ≤ c x) :
    (0 ≤ Sp i ∧ Sp i < lim) ∧ Fill n Pe (l ++ [(i, v)]) (upd Iw (Sp i) v) (upd Sp i (Sp i + 1)) := by
  have hi := hc i i0 i1
  rw [row_add, if_pos rfl, List.length_append, List.length_singleton] at hi
  push_cast at hi
  have pi := L.pe i i0 i1
  have si := F.sp i i0 i1
  refine ⟨by omega, F.full.upd _ _, fun x x0 x1 => ?_, fun x x0 x1 k w hk => ?_⟩
  · rw [upd_at _ i0, row_add]
    split_ifs with e
    · rw [List.length_append, e, si]; simp; ring
    · exact F.sp x x0 x1
  · have hl : (k : ℤ) < c x := by
      obtain ⟨q, _⟩ := List.getElem?_eq_some_iff.mp hk
      have := hc x x0 x1; omega
    have px := L.pe x x0 x1
    rw [row_add] at hk
    unfold upd
    rw [Buf.set_cell]
    by_cases e : x = i
    · rw [if_pos e] at hk
      subst e
      by_cases z : k < (row l x).length
      · rw [List.getElem?_append_left z] at hk
        rw [if_neg (by omega)]
        exact F.iw x x0 x1 k w hk
      · rw [List.getElem?_append_right (by omega)] at hk
        have kl : k - (row l x).length = 0 := by
          by_contra q
          rw [List.getElem?_eq_none (by simp; omega)] at hk; simp at hk
        rw [kl] at hk
        rw [if_pos (by omega)]
        simpa using hk
    · rw [if_neg e] at hk
      have z := F.iw x x0 x1 k w hk
      have := L.disj x i x0 x1 i0 i1 e
      rw [if_neg (by omega)]
      exact z

theorem Fill.start {Pe : ℤ → ℤ} {Iw Sp : Buf ℤ} (h : Full Sp n) (hs : ∀ x, 0 ≤ x → x < n → Sp x = Pe x) : Fill n Pe [] Iw Sp :=
  ⟨h, fun x x0 x1 => by rw [hs x x0 x1]; simp [row], fun x x0 x1 k v hk => by simp [row] at hk⟩

/-- The lists are full. -/
theorem Fill.fin {c Pe : ℤ → ℤ} {l : List (ℤ × ℤ)} {Iw Sp : Buf ℤ} (L : Lay n c Pe lim) (F : Fill n Pe l Iw Sp) (hc : ∀ x, 0 ≤ x → x < n → ((row l x).length : ℤ) = c x) (hs : lim ≤ Iw.size) :
    Full Iw lim ∧ ∀ x, 0 ≤ x → x < n → ∀ (k : ℕ), k < (row l x).length → (row l x)[k]? = some (Iw (Pe x + k)) := by
  refine ⟨⟨hs, fun p p0 p1 => rd_of_cell p0 (by omega) ?_⟩, fun x x0 x1 k hk => ?_⟩
  · obtain ⟨x, x0, x1, a, b⟩ := L.cover p p0 p1
    have hx := hc x x0 x1
    have := F.iw x x0 x1 (p - Pe x).toNat _ (List.getElem?_eq_getElem (by omega))
    rw [show Pe x + ((p - Pe x).toNat : ℤ) = p by omega] at this
    rw [this]; simp
  · have := F.iw x x0 x1 k _ (List.getElem?_eq_getElem hk)
    rw [List.getElem?_eq_getElem hk]
    have px := L.pe x x0 x1
    unfold at'
    rw [if_pos (by omega), this]; rfl

variable {Ap Ai : Buf ℤ}

theorem pair_anti {l : List (ℤ × ℤ)} (hp : ∀ q ∈ l, Pair n Ap Ai q) : ∀ q ∈ l, (q.2, q.1) ∉ l := fun q hq hn => by
  obtain ⟨_, _, ne, e, u⟩ := hp q hq
  obtain ⟨_, _, _, e', u'⟩ := hp _ hn
  dsimp only at e' u'
  rcases u with u | u
  · rcases u' with u' | u'
    · omega
    · exact u' e
  · exact u e'

/-- The number of neighbours. -/
theorem row_small {l : List (ℤ × ℤ)} (h : l.Nodup) (hp : ∀ q ∈ l, Pair n Ap Ai q) {x : ℤ} (x0 : 0 ≤ x) (x1 : x < n) : ((row (both l) x).length : ℤ) < n := by
  have nd := row_nodup (both_nodup h (pair_anti hp)) x
  have sub : (row (both l) x).toFinset ⊆ (Ico (0 : ℤ) n).erase x := fun y hy => by
    rw [List.mem_toFinset, mem_row, mem_both] at hy
    rw [mem_erase, mem_Ico]
    rcases hy with hy | hy
    · obtain ⟨_, b, c, _⟩ := hp _ hy
      exact ⟨fun e => c e.symm, b⟩
    · obtain ⟨a, _, c, _⟩ := hp _ hy
      exact ⟨c, a⟩
  have := card_le_card sub
  rw [List.toFinset_card_of_nodup nd, card_erase_of_mem (mem_Ico.mpr ⟨x0, x1⟩), Int.card_Ico] at this
  omega

/-- `AMD_aat`. -/
theorem aat_ok (A : Srt n Ap Ai) (n0 : 0 ≤ n) {Len Tp : Buf ℤ} (hL : n ≤ Len.size) (hT : n ≤ Tp.size) :
    Ens (aat n Ap Ai Len Tp) (fun r => r.1 = ∑ x ∈ Ico (0 : ℤ) n, r.2.1 x ∧ n ≤ r.2.2.size ∧ ∃ l, l.Nodup ∧ (∀ q, q ∈ l ↔ Pair n Ap Ai q) ∧ Cnt n (both l) r.2.1) := by
  unfold aat
  refine Ens.bind (Ens.forI (fun k (b : Buf ℤ) => n ≤ b.size ∧ Full b k ∧ ∀ x, 0 ≤ x → x < k → b x = 0) n0 ⟨hL, Full.none _, fun x x0 x1 => by omega⟩ ?_) ?_
  · rintro k b k0 k1 ⟨hs, hf, hv⟩
    refine Ens.wrLast k0 (by omega) ⟨hs, hf.grow k0 (by omega) _, fun x x0 x1 => ?_⟩
    rw [upd_at _ k0]
    split_ifs with e
    · rfl
    · exact hv x x0 (by omega)
  rintro b ⟨hs, hf, hv⟩
  refine Ens.bind (scanAAt_ok (I := fun l b => Cnt n (both l) b) ?_ A n0 hT ⟨hf, fun x x0 x1 => by rw [hv x x0 x1]; simp [both, row]⟩) ?_
  · intro i j l s hI _ _ hp _
    rw [incr_ok hI.full hp.1.1 hp.1.2]
    have h1 := hI.incr hp.1.1 hp.1.2 j
    show Ens (incr _ j) _
    rw [incr_ok h1.full hp.2.1.1 hp.2.1.2]
    refine Ens.some ?_
    rw [both_add]
    exact h1.incr hp.2.1.1 hp.2.1.2 i
  · rintro ⟨Len, T⟩ ⟨hT, l, hI, nd, mem⟩
    dsimp only at hI hT ⊢
    refine Ens.bind (Ens.forI (fun k (s : ℤ) => s = ∑ x ∈ Ico (0 : ℤ) k, Len x) n0 (by simp) ?_) ?_
    · rintro k s k0 k1 rfl
      refine Ens.rd hI.full k0 k1 (Ens.pure ?_)
      have : Ico (0 : ℤ) (k + 1) = insert k (Ico 0 k) := by ext x; simp only [mem_Ico, mem_insert]; omega
      rw [this, sum_insert (by simp)]; ring
    · rintro s rfl
      exact Ens.pure ⟨rfl, hT, l, nd, mem, hI⟩

/-- `AMD_1`. -/
theorem amd1_ok (A : Srt n Ap Ai) (n0 : 0 ≤ n) {Len P Pinv : Buf ℤ} {l : List (ℤ × ℤ)} (nd : l.Nodup) (mem : ∀ q, q ∈ l ↔ Pair n Ap Ai q) (hL : Cnt n (both l) Len) (hP : n ≤ P.size) (hI : n ≤ Pinv.size) {slen : ℤ}
    (hs : (∑ x ∈ Ico (0 : ℤ) n, Len x) + 7 * n ≤ slen) (dense0 imax lim : ℤ) : Ens (amd1 n dense0 imax lim Ap Ai P Pinv Len slen) (fun r => Inverse n r.2 r.1) := by
  have hp : ∀ q ∈ l, Pair n Ap Ai q := fun q hq => (mem q).mp hq
  have ndb := both_nodup nd (pair_anti hp)
  have len0 : ∀ x, 0 ≤ x → x < n → 0 ≤ Len x := fun x x0 x1 => by rw [hL.v x x0 x1]; omega
  unfold amd1
  dsimp only
  refine Ens.bind (Ens.forI (fun k (s : Buf ℤ × Buf ℤ × ℤ) => (s.1.size = n ∧ s.2.1.size = n ∧ 0 ≤ s.2.2) ∧ Full s.1 k ∧ Full s.2.1 k ∧ (∀ x, 0 ≤ x → x < k → s.2.1 x = s.1 x) ∧ Lay k Len s.1 s.2.2) n0
    ⟨⟨Int.toNat_of_nonneg n0, Int.toNat_of_nonneg n0, le_rfl⟩, Full.none _, Full.none _, fun x x0 x1 => by omega, ⟨fun x x0 x1 => by omega, fun j k j0 j1 => by omega, fun p p0 p1 => by dsimp only at p1; omega, by simp⟩⟩ ?_) ?_
  · rintro j ⟨Pe, Sp, pf⟩ j0 j1 ⟨⟨s1, s2, pf0⟩, f1, f2, eq, L⟩
    dsimp only at s1 s2 f1 f2 eq L pf0 ⊢
    refine Ens.wr j0 (by omega) (Ens.wr j0 (by omega) (Ens.rd hL.full j0 j1 (Ens.pure ?_)))
    dsimp only
    have := len0 j j0 j1
    refine ⟨⟨s1, s2, by omega⟩, f1.grow j0 (by omega) _, f2.grow j0 (by omega) _, fun x x0 x1 => ?_, L.grow j0 pf0 this (fun x x0 x1 => upd_ne _ j0 (by omega)) (upd_same _ j0)⟩
    rw [upd_at _ j0, upd_at _ j0]
    split_ifs with e
    · rfl
    · exact eq x x0 (by omega)
  rintro ⟨Pe, Sp, pf⟩ ⟨⟨s1, s2, pf0⟩, f1, f2, eq, L⟩
  dsimp only at s1 s2 f1 f2 eq L pf0 ⊢
  have hlim : pf + n ≤ slen - 6 * n := by rw [L.sum] at hs; omega
  have hcap : ∀ l' : List (ℤ × ℤ), l'.Nodup → (∀ q ∈ l', q ∈ both l) → ∀ x, 0 ≤ x → x < n → ((row l' x).length : ℤ) ≤ Len x := fun l' nd' sub x x0 x1 => by
    rw [hL.v x x0 x1]; exact_mod_cast row_len nd' sub x
  have hsz : ((Buf.fresh (slen - 6 * n) : Buf ℤ).size : ℤ) = slen - 6 * n := Int.toNat_of_nonneg (by omega)
  refine Ens.bind (scanAAt_ok (I := fun l' (s : Buf ℤ × Buf ℤ) => (s.1.size : ℤ) = slen - 6 * n ∧ n ≤ s.2.size ∧ Fill n Pe (both l') s.1 s.2) ?_ A n0 (Tp := Buf.fresh n) (by show n ≤ (n.toNat : ℤ); omega) ⟨hsz, by dsimp only; omega, Fill.start f2 eq⟩) ?_
  · rintro i j l' ⟨Iw, Sp⟩ ⟨z1, z2, F⟩ nd' hp' pij nl
    dsimp only at z1 z2 F ⊢
    obtain ⟨⟨i0, i1⟩, ⟨j0, j1⟩, ij, _⟩ := id pij
    dsimp only at i0 i1 j0 j1 ij
    have nd2 : (l' ++ [(i, j)]).Nodup := by
      rw [List.nodup_append]
      refine ⟨nd', by simp, ?_⟩
      rintro a ha b hb rfl
      rw [List.mem_singleton] at hb
      rw [hb] at ha; exact nl ha
    have hp2 : ∀ q ∈ l' ++ [(i, j)], Pair n Ap Ai q := fun q hq => by
      rw [List.mem_append, List.mem_singleton] at hq
      rcases hq with hq | rfl
      · exact hp' q hq
      · exact pij
    have nd3 := both_nodup nd2 (pair_anti hp2)
    have sub3 : ∀ q ∈ both (l' ++ [(i, j)]), q ∈ both l := fun ⟨a, b⟩ hq => by
      rw [mem_both] at hq ⊢
      rcases hq with hq | hq
      · exact .inl ((mem _).mpr (hp2 _ hq))
      · exact .inr ((mem _).mpr (hp2 _ hq))
    rw [both_add] at nd3 sub3
    have c2 := hcap _ nd3 sub3
    have c1 := hcap (both l' ++ [(i, j)]) (nd3.sublist (List.sublist_append_left _ _)) (fun q hq => sub3 q (List.mem_append_left _ hq))
    obtain ⟨r1, F1⟩ := F.put L i0 i1 j c1
    obtain ⟨r2, F2⟩ := F1.put L j0 j1 i c2
    refine Ens.rd F.full i0 i1 (Ens.wr r1.1 (by omega) (Ens.wr i0 (by omega) (Ens.rd F1.full j0 j1 (Ens.wr r2.1 (by rw [upd_size]; omega) (Ens.wr j0 (by rw [upd_size]; omega) (Ens.pure ⟨z1, z2, ?_⟩))))))
    dsimp only
    rw [both_add]
    exact F2
  · rintro ⟨⟨Iw, Sp⟩, T⟩ ⟨hT, l', ⟨z1, z2, F⟩, nd', mem'⟩
    dsimp only at z1 z2 F hT ⊢
    have hp' : ∀ q ∈ l', Pair n Ap Ai q := fun q hq => (mem' q).mp hq
    have nd3 := both_nodup nd' (pair_anti hp')
    have sub : ∀ q, q ∈ both l' ↔ q ∈ both l := fun ⟨a, b⟩ => by rw [mem_both, mem_both, mem', mem', mem, mem]
    have hc : ∀ x, 0 ≤ x → x < n → ((row (both l') x).length : ℤ) = Len x := fun x x0 x1 => by
      have a := hcap _ nd3 (fun q hq => (sub q).mp hq) x x0 x1
      have b := row_len ndb (fun q hq => (sub q).mpr hq) x
      have c := hL.v x x0 x1
      omega
    obtain ⟨fI, hv⟩ := F.fin L hc (by omega)
    have inl : ∀ x y, 0 ≤ x → x < n → ((∃ k : ℤ, 0 ≤ k ∧ k < Len x ∧ Iw (Pe x + k) = y) ↔ (x, y) ∈ both l') := fun x y x0 x1 => by
      have hx := hc x x0 x1
      rw [← mem_row, List.mem_iff_getElem?]
      constructor
      · rintro ⟨k, k0, k1, e⟩
        have := hv x x0 x1 k.toNat (by omega)
        rw [Int.toNat_of_nonneg k0, e] at this
        exact ⟨_, this⟩
      · rintro ⟨k, hk⟩
        obtain ⟨q, _⟩ := List.getElem?_eq_some_iff.mp hk
        have := hv x x0 x1 k q
        rw [hk] at this
        exact ⟨k, by omega, by omega, (Option.some.inj this).symm⟩
    refine amd2_ok n0 ?_ dense0 imax lim
    refine ⟨f1, hL.full, fI, z1, pf0, hlim, fun p p0 p1 => ?_, L.pe, fun x x0 x1 => ⟨len0 x x0 x1, ?_⟩, L.disj, L.sum.le, fun x y x0 x1 h => ?_, ?_⟩
    · obtain ⟨x, x0, x1, a, b⟩ := L.cover p p0 p1
      have := (inl x (Iw p) x0 x1).mp ⟨p - Pe x, by omega, by omega, by congr 1; omega⟩
      rw [mem_both] at this
      rcases this with h | h
      · exact (hp' _ h).2.1
      · exact (hp' _ h).1
    · dsimp only
      rw [hL.v x x0 x1]; exact row_small nd hp x0 x1
    · have a := (inl x y x0 x1).mp h
      have b : (y, x) ∈ both l' := by rw [mem_both] at a ⊢; exact a.symm
      have r : 0 ≤ y ∧ y < n := by
        rw [mem_both] at a
        rcases a with a | a
        · exact (hp' _ a).2.1
        · exact (hp' _ a).1
      exact (inl y x r.1 r.2).mpr b
    · have q : n ≤ ((Buf.fresh n : Buf ℤ).size : ℤ) := by show n ≤ (n.toNat : ℤ); omega
      exact ⟨z2, hI, hP, q, q, q, hT⟩

end Osqp.Amd
