import Verif.Amd.Forest
import Mathlib.Algebra.Order.BigOperators.Group.Finset
import Mathlib.Data.Finset.Card
import Mathlib.Algebra.BigOperators.Ring.Finset
import Mathlib.Algebra.BigOperators.Group.Finset.Piecewise
import Mathlib.Algebra.BigOperators.Group.Finset.Sigma
import Mathlib.Algebra.Order.BigOperators.Group.Finset

/-!
# From the order of the pivots to the permutation

`permutation` numbers the pivots and the variables they stand for.
-/

namespace Osqp.Amd
open Csc Finset
set_option linter.unusedSectionVars false

/-- `W` numbers the pivots `0..K-1`, and is -1 elsewhere. -/
structure Ordered (n : ℤ) (nv : ℤ → ℤ) (W : Buf ℤ) (K : ℤ) : Prop where
  full : Full W n
  le : 0 ≤ K ∧ K ≤ n
  other : ∀ i, 0 ≤ i → i < n → nv i = 0 → W i = -1
  piv : ∀ i, 0 ≤ i → i < n → 0 < nv i → 0 ≤ W i ∧ W i < K
  inj : ∀ i j, 0 ≤ i → i < n → 0 < nv i → 0 ≤ j → j < n → 0 < nv j → W i = W j → i = j
  surj : ∀ k, 0 ≤ k → k < K → ∃ e, 0 ≤ e ∧ e < n ∧ 0 < nv e ∧ W e = k

variable {n K : ℤ} {par nv rep : ℤ → ℤ} {rank : ℤ → ℕ} {W : Buf ℤ}

/-- The number of variables in the pivots before the `k`-th. -/
def off (n : ℤ) (nv : ℤ → ℤ) (W : Buf ℤ) (k : ℤ) : ℤ := ∑ e ∈ Ico (0 : ℤ) n, if 0 < nv e ∧ W e < k then nv e else 0

/-- The absorbed variables of `e` before `i`. -/
def before (nv rep : ℤ → ℤ) (e i : ℤ) : ℕ := ((Ico (0 : ℤ) i).filter fun x => nv x = 0 ∧ rep x = e).card

theorem off_zero (h : Ordered n nv W K) : off n nv W 0 = 0 := by
  unfold off
  refine sum_eq_zero fun x hx => ?_
  rw [mem_Ico] at hx
  rw [if_neg]
  rintro ⟨h1, h2⟩
  have := (h.piv x hx.1 hx.2 h1).1
  omega

theorem off_succ (h : Ordered n nv W K) {e : ℤ} (h0 : 0 ≤ e) (h1 : e < n) (hv : 0 < nv e) : off n nv W (W e + 1) = off n nv W (W e) + nv e := by
  unfold off
  have : nv e = ∑ x ∈ Ico (0 : ℤ) n, if x = e then nv e else 0 := by
    rw [sum_ite_eq' , if_pos (mem_Ico.mpr ⟨h0, h1⟩)]
  rw [this, ← sum_add_distrib]
  refine sum_congr rfl fun x hx => ?_
  rw [mem_Ico] at hx
  by_cases ex : x = e
  · subst ex
    rw [if_pos ⟨hv, by omega⟩, if_neg (by omega), if_pos rfl]; omega
  · rw [if_neg ex, add_zero]
    by_cases hc : 0 < nv x ∧ W x < W e
    · rw [if_pos hc, if_pos ⟨hc.1, by omega⟩]
    · rw [if_neg hc, if_neg]
      rintro ⟨a, b⟩
      refine hc ⟨a, ?_⟩
      rcases eq_or_ne (W x) (W e) with q | q
      · exact absurd (h.inj x e hx.1 hx.2 a h0 h1 hv q) ex
      · omega

theorem off_mono {a b : ℤ} (hab : a ≤ b) (hnv : ∀ i, 0 ≤ i → i < n → 0 ≤ nv i) : off n nv W a ≤ off n nv W b := by
  unfold off
  refine sum_le_sum fun x hx => ?_
  rw [mem_Ico] at hx
  have := hnv x hx.1 hx.2
  split_ifs <;> omega

theorem before_succ (e i : ℤ) (hi : 0 ≤ i) : before nv rep e (i + 1) = before nv rep e i + if nv i = 0 ∧ rep i = e then 1 else 0 := by
  unfold before
  have : Ico (0 : ℤ) (i + 1) = insert i (Ico 0 i) := by ext x; simp only [mem_Ico, mem_insert]; omega
  rw [this, filter_insert]
  split_ifs with h
  · rw [card_insert_of_notMem (by simp)]
  · rfl

theorem before_mono (e : ℤ) {i j : ℤ} (h : i ≤ j) : before nv rep e i ≤ before nv rep e j := by
  unfold before
  refine card_le_card fun x hx => ?_
  rw [mem_filter, mem_Ico] at hx ⊢
  exact ⟨by omega, hx.2⟩

theorem before_lt {e i j : ℤ} (h0 : 0 ≤ i) (h : i < j) (hz : nv i = 0) (hr : rep i = e) : before nv rep e i < before nv rep e j := by
  have h1 := before_succ (nv := nv) (rep := rep) e i h0
  rw [if_pos ⟨hz, hr⟩] at h1
  have := before_mono (nv := nv) (rep := rep) e (show i + 1 ≤ j by omega)
  omega

/-- The absorbed variables and the pivot itself are all that belongs to it. -/
theorem before_all (F : Forest n par nv rep rank) {e : ℤ} (h0 : 0 ≤ e) (h1 : e < n) (hv : 0 < nv e) : (before nv rep e n : ℤ) + 1 = nv e := by
  rw [F.cnt e h0 h1 hv]
  have : (Ico (0 : ℤ) n).filter (fun x => rep x = e) = insert e ((Ico (0 : ℤ) n).filter fun x => nv x = 0 ∧ rep x = e) := by
    ext x
    simp only [mem_filter, mem_Ico, mem_insert]
    constructor
    · rintro ⟨⟨a, b⟩, c⟩
      by_cases hx : 0 < nv x
      · exact .inl (by rw [← c]; exact (F.self x a b hx).symm)
      · exact .inr ⟨⟨a, b⟩, by have := F.nv x a b; omega, c⟩
    · rintro (rfl | ⟨a, _, c⟩)
      · exact ⟨⟨h0, h1⟩, F.self _ h0 h1 hv⟩
      · exact ⟨a, c⟩
  rw [this, card_insert_of_notMem (by simp; omega)]
  unfold before
  push_cast; rfl

/-- The variables set apart come after all the others. -/
theorem off_all (F : Forest n par nv rep rank) (h : Ordered n nv W K) (hn : 0 ≤ n) : off n nv W K + before nv rep (-1) n = n := by
  have e1 : off n nv W K = (((Ico (0 : ℤ) n).filter fun x => rep x ≠ -1).card : ℤ) := by
    have := card_eq_sum_card_fiberwise (f := rep) (s := (Ico (0 : ℤ) n).filter fun x => rep x ≠ -1) (t := (Ico (0 : ℤ) n).filter fun e => 0 < nv e) (by
      intro x hx
      rw [mem_coe, mem_filter, mem_Ico] at hx
      obtain ⟨a, b, c, _⟩ := F.rep_ok hx.1.1 hx.1.2 hx.2
      rw [mem_coe, mem_filter, mem_Ico]
      exact ⟨⟨a, b⟩, c⟩)
    rw [this, Finset.sum_filter]
    push_cast
    unfold off
    refine Finset.sum_congr rfl fun e he => ?_
    rw [mem_Ico] at he
    by_cases hv : 0 < nv e
    · rw [if_pos ⟨hv, (h.piv e he.1 he.2 hv).2⟩, if_pos hv, F.cnt e he.1 he.2 hv]
      congr 2
      ext x
      simp only [mem_filter, mem_Ico]
      constructor
      · rintro ⟨a, b⟩; exact ⟨⟨a, by omega⟩, b⟩
      · rintro ⟨⟨a, _⟩, b⟩; exact ⟨a, b⟩
    · rw [if_neg (fun q => hv q.1), if_neg hv]
  have e2 : before nv rep (-1) n = ((Ico (0 : ℤ) n).filter fun x => ¬ rep x ≠ -1).card := by
    unfold before
    congr 1
    ext x
    simp only [mem_filter, mem_Ico, not_not]
    constructor
    · rintro ⟨a, _, b⟩; exact ⟨a, b⟩
    · rintro ⟨a, b⟩
      refine ⟨a, ?_, b⟩
      by_contra hz
      have hp := F.nv x a.1 a.2
      have := F.self x a.1 a.2 (by omega)
      omega
  have e3 := card_filter_add_card_filter_not (s := Ico (0 : ℤ) n) (fun x => rep x ≠ -1)
  rw [e1, e2]
  have : (Ico (0 : ℤ) n).card = n.toNat := by simp
  omega

/-- The place of a node in the permutation. -/
def place (n : ℤ) (nv rep : ℤ → ℤ) (W : Buf ℤ) (K : ℤ) (x : ℤ) : ℤ :=
  if 0 < nv x then off n nv W (W x) + before nv rep x n
  else if rep x = -1 then off n nv W K + before nv rep (-1) x
  else off n nv W (W (rep x)) + before nv rep (rep x) x

/-- The block of a joined node. -/
theorem place_block (F : Forest n par nv rep rank) {x : ℤ} (h0 : 0 ≤ x) (h1 : x < n) (hr : rep x ≠ -1) :
    off n nv W (W (rep x)) ≤ place n nv rep W K x ∧ place n nv rep W K x < off n nv W (W (rep x)) + nv (rep x) := by
  obtain ⟨a, b, c, _⟩ := F.rep_ok h0 h1 hr
  have hb := before_all F a b c
  unfold place
  by_cases hv : 0 < nv x
  · have e := F.self x h0 h1 hv
    rw [if_pos hv, e]
    rw [e] at hb
    constructor <;> omega
  · rw [if_neg hv, if_neg hr]
    have hz : nv x = 0 := by have := F.nv x h0 h1; omega
    have := before_lt (nv := nv) (rep := rep) h0 h1 hz rfl
    constructor <;> omega

theorem place_apart (F : Forest n par nv rep rank) (h : Ordered n nv W K) (hn : 0 ≤ n) {x : ℤ} (h0 : 0 ≤ x) (h1 : x < n) (hr : rep x = -1) :
    nv x = 0 ∧ place n nv rep W K x = off n nv W K + before nv rep (-1) x ∧ place n nv rep W K x < n := by
  have hz : nv x = 0 := by
    by_contra hz
    have hp := F.nv x h0 h1
    have := F.self x h0 h1 (by omega)
    omega
  have hb := before_lt (nv := nv) (rep := rep) h0 h1 hz hr
  have ha := off_all F h hn
  have e : place n nv rep W K x = off n nv W K + before nv rep (-1) x := by unfold place; rw [if_neg (by omega), if_pos hr]
  exact ⟨hz, e, by rw [e]; omega⟩

theorem block_le (F : Forest n par nv rep rank) (h : Ordered n nv W K) {e : ℤ} (h0 : 0 ≤ e) (h1 : e < n) (hv : 0 < nv e) {k : ℤ} (hk : W e < k) :
    off n nv W (W e) + nv e ≤ off n nv W k := by
  rw [← off_succ h h0 h1 hv]
  exact off_mono (by omega) F.nv

theorem place_range (F : Forest n par nv rep rank) (h : Ordered n nv W K) (hn : 0 ≤ n) {x : ℤ} (h0 : 0 ≤ x) (h1 : x < n) :
    0 ≤ place n nv rep W K x ∧ place n nv rep W K x < n := by
  have hpos : ∀ k, 0 ≤ off n nv W k := fun k => by
    unfold off
    refine sum_nonneg fun y hy => ?_
    split_ifs <;> omega
  have ha := off_all F h hn
  by_cases hr : rep x = -1
  · obtain ⟨_, e, b⟩ := place_apart F h hn h0 h1 hr
    refine ⟨?_, b⟩
    rw [e]; have := hpos K; omega
  · obtain ⟨a, b, c, _⟩ := F.rep_ok h0 h1 hr
    obtain ⟨l, u⟩ := place_block (W := W) (K := K) F h0 h1 hr
    have := block_le F h a b c (h.piv _ a b c).2
    have := hpos (W (rep x))
    constructor <;> omega

theorem place_inj (F : Forest n par nv rep rank) (h : Ordered n nv W K) (hn : 0 ≤ n) {x y : ℤ} (x0 : 0 ≤ x) (x1 : x < n) (y0 : 0 ≤ y) (y1 : y < n)
    (he : place n nv rep W K x = place n nv rep W K y) : x = y := by
  by_cases hx : rep x = -1
  · obtain ⟨xz, ex, _⟩ := place_apart F h hn x0 x1 hx
    by_cases hy : rep y = -1
    · obtain ⟨yz, ey, _⟩ := place_apart F h hn y0 y1 hy
      rcases lt_trichotomy x y with q | q | q
      · have := before_lt (nv := nv) (rep := rep) x0 q xz hx; omega
      · exact q
      · have := before_lt (nv := nv) (rep := rep) y0 q yz hy; omega
    · obtain ⟨a, b, c, _⟩ := F.rep_ok y0 y1 hy
      have := (place_block (W := W) (K := K) F y0 y1 hy).2
      have := block_le F h a b c (h.piv _ a b c).2
      omega
  · obtain ⟨a, b, c, _⟩ := F.rep_ok x0 x1 hx
    obtain ⟨lx, ux⟩ := place_block (W := W) (K := K) F x0 x1 hx
    by_cases hy : rep y = -1
    · obtain ⟨yz, ey, _⟩ := place_apart F h hn y0 y1 hy
      have := block_le F h a b c (h.piv _ a b c).2
      omega
    · obtain ⟨a', b', c', _⟩ := F.rep_ok y0 y1 hy
      obtain ⟨ly, uy⟩ := place_block (W := W) (K := K) F y0 y1 hy
      have hrr : rep x = rep y := by
        refine h.inj _ _ a b c a' b' c' ?_
        rcases lt_trichotomy (W (rep x)) (W (rep y)) with q | q | q
        · have := block_le F h a b c q; omega
        · exact q
        · have := block_le F h a' b' c' q; omega
      unfold place at he
      by_cases vx : 0 < nv x
      · have ex := F.self x x0 x1 vx
        rw [if_pos vx] at he
        by_cases vy : 0 < nv y
        · have ey := F.self y y0 y1 vy
          omega
        · rw [if_neg vy, if_neg hy, ← hrr, ex] at he
          have := before_lt (nv := nv) (rep := rep) (e := x) y0 y1 (by have := F.nv y y0 y1; omega) (by rw [← hrr, ex])
          omega
      · rw [if_neg vx, if_neg hx] at he
        have zx : nv x = 0 := by have := F.nv x x0 x1; omega
        by_cases vy : 0 < nv y
        · have ey := F.self y y0 y1 vy
          rw [if_pos vy, hrr, ey] at he
          have := before_lt (nv := nv) (rep := rep) (e := y) x0 x1 zx (by rw [hrr, ey])
          omega
        · have zy : nv y = 0 := by have := F.nv y y0 y1; omega
          rw [if_neg vy, if_neg hy, hrr] at he
          rcases lt_trichotomy x y with q | q | q
          · have := before_lt (nv := nv) (rep := rep) x0 q zx hrr; omega
          · exact q
          · have := before_lt (nv := nv) (rep := rep) y0 q zy (e := rep y) rfl; omega

/-- The two arrays hold a permutation of `0..n-1` and its inverse. -/
structure Inverse (n : ℤ) (P Pinv : Buf ℤ) : Prop where
  fullP : Full P n
  fullI : Full Pinv n
  left : ∀ k, 0 ≤ k → k < n → 0 ≤ P k ∧ P k < n ∧ Pinv (P k) = k
  right : ∀ x, 0 ≤ x → x < n → 0 ≤ Pinv x ∧ Pinv x < n ∧ P (Pinv x) = x

theorem full_of_surj {b : Buf ℤ} (hs : n ≤ b.size) (h : ∀ k : ℤ, 0 ≤ k → k < n → b.cell k.toNat ≠ none) : Full b n :=
  ⟨hs, fun i h0 h1 => rd_of_cell h0 (by omega) (h i h0 h1)⟩

theorem upd_cell (b : Buf ℤ) (i v : ℤ) (k : ℕ) : (upd b i v).cell k = if k = i.toNat then some v else b.cell k := by unfold upd; rw [Buf.set_cell]

theorem upd_cell_ne {b : Buf ℤ} {k : ℕ} (h : b.cell k ≠ none) (i v : ℤ) : (upd b i v).cell k ≠ none := by
  rw [upd_cell]; split_ifs
  · simp
  · exact h

/-- Filling two arrays. -/
theorem fill2 {A B : Buf ℤ} (hn : 0 ≤ n) (hA : n ≤ A.size) (hB : n ≤ B.size) (v w : ℤ) :
    Ens (forI 0 n (fun k (s : Buf ℤ × Buf ℤ) => do
      let A ← s.1.wr k v
      let B ← s.2.wr k w
      return (A, B)) (A, B)) (fun s => s.1.size = A.size ∧ s.2.size = B.size ∧ Full s.1 n ∧ Full s.2 n ∧ (∀ k, 0 ≤ k → k < n → s.1 k = v) ∧
        (∀ k, 0 ≤ k → k < n → s.2 k = w)) := by
  refine Ens.forI (fun m (s : Buf ℤ × Buf ℤ) => s.1.size = A.size ∧ s.2.size = B.size ∧ Full s.1 m ∧ Full s.2 m ∧ (∀ k, 0 ≤ k → k < m → s.1 k = v) ∧
        (∀ k, 0 ≤ k → k < m → s.2 k = w)) hn ⟨rfl, rfl, Full.none _, Full.none _, fun k h0 h1 => by omega, fun k h0 h1 => by omega⟩ ?_
  rintro k ⟨a, b⟩ h0 h1 ⟨sa, sb, fa, fb, va, vb⟩
  dsimp only at *
  refine Ens.wr h0 (by omega) (Ens.wr h0 (by omega) (Ens.pure ⟨sa, sb, fa.grow h0 (by omega) _, fb.grow h0 (by omega) _, fun j j0 j1 => ?_, fun j j0 j1 => ?_⟩))
  · rw [upd_at _ h0]; split_ifs with e
    · rfl
    · exact va j j0 (by omega)
  · rw [upd_at _ h0]; split_ifs with e
    · rfl
    · exact vb j j0 (by omega)

theorem fill1 {A : Buf ℤ} (hn : 0 ≤ n) (hA : n ≤ A.size) (v : ℤ) :
    Ens (forI 0 n (fun k (b : Buf ℤ) => b.wr k v) A) (fun s => s.size = A.size ∧ Full s n ∧ (∀ k, 0 ≤ k → k < n → s k = v)) := by
  refine Ens.forI (fun m (s : Buf ℤ) => s.size = A.size ∧ Full s m ∧ (∀ k, 0 ≤ k → k < m → s k = v)) hn ⟨rfl, Full.none _, fun k h0 h1 => by omega⟩ ?_
  rintro k a h0 h1 ⟨sa, fa, va⟩
  refine Ens.wrLast h0 (by omega) ⟨sa, fa.grow h0 (by omega) _, fun j j0 j1 => ?_⟩
  rw [upd_at _ h0]; split_ifs with e
  · rfl
  · exact va j j0 (by omega)

/-- `permutation` yields a permutation and its inverse. -/
theorem permutation_ok {Pe Nv W Head Next Last : Buf ℤ} (hn : 0 ≤ n) (F : Forest n par Nv rep rank) (hW : Ordered n Nv W K) (hNv : Full Nv n) (hPe : Full Pe n)
    (hP : ∀ i, 0 ≤ i → i < n → Nv i = 0 → Pe i = rep i) (hH : n ≤ Head.size) (hN : n ≤ Next.size) (hL : n ≤ Last.size) :
    Ens (permutation n Pe Nv W Head Next Last) (fun r => Inverse n r.2 r.1) := by
  unfold permutation
  refine Ens.bind (fill2 hn hH hN (-1) (-1)) ?_
  rintro ⟨H, X⟩ ⟨_, _, fH, fX, vH, vX⟩
  dsimp only at *
  -- the inverse of `W`
  refine Ens.bind (P := fun H' : Buf ℤ => Full H' n ∧ (∀ e, 0 ≤ e → e < n → 0 < Nv e → H' (W e) = e) ∧
    (∀ k, 0 ≤ k → k < n → H' k = -1 ∨ (0 ≤ H' k ∧ H' k < n ∧ 0 < Nv (H' k) ∧ W (H' k) = k))) ?_ ?_
  · refine Ens.forI (fun m (H' : Buf ℤ) => Full H' n ∧ (∀ e, 0 ≤ e → e < m → 0 < Nv e → H' (W e) = e) ∧
      (∀ k, 0 ≤ k → k < n → H' k = -1 ∨ (0 ≤ H' k ∧ H' k < n ∧ 0 < Nv (H' k) ∧ W (H' k) = k))) hn
      ⟨fH, fun e h0 h1 => by omega, fun k h0 h1 => .inl (vH k h0 h1)⟩ ?_
    rintro e G e0 e1 ⟨fG, g1, g2⟩
    refine Ens.rd hW.full e0 e1 ?_
    by_cases hv : 0 < Nv e
    · obtain ⟨w0, w1⟩ := hW.piv e e0 e1 hv
      have := hW.le.2
      rw [if_pos (by omega)]
      refine Ens.wrLast w0 (by have := fG.1; omega) ⟨fG.upd _ _, fun x x0 x1 xv => ?_, fun k k0 k1 => ?_⟩
      · rw [upd_at _ w0]
        split_ifs with q
        · exact (hW.inj x e x0 (by omega) xv e0 e1 hv q).symm
        · exact g1 x x0 (by rcases eq_or_ne x e with r | r; · rw [r] at q; exact absurd rfl q
                            · omega) xv
      · rw [upd_at _ w0]
        split_ifs with q
        · exact .inr ⟨e0, e1, hv, q.symm⟩
        · exact g2 k k0 k1
    · rw [hW.other e e0 e1 (by have := F.nv e e0 e1; omega)]
      rw [if_neg (by omega)]
      refine Ens.pure ⟨fG, fun x x0 x1 xv => g1 x x0 ?_ xv, g2⟩
      rcases eq_or_ne x e with r | r
      · rw [r] at xv; exact absurd xv hv
      · omega
  rintro H' ⟨fH', g1, g2⟩
  -- the pivots
  refine Ens.bind (P := fun s : Buf ℤ × ℤ => Full s.1 n ∧ s.2 = off n Nv W K ∧ ∀ e, 0 ≤ e → e < n → 0 < Nv e → s.1 e = off n Nv W (W e)) ?_ ?_
  · refine Ens.loop (fun (s : Buf ℤ × ℤ × ℤ) => Full s.1 n ∧ 0 ≤ s.2.2 ∧ s.2.2 ≤ K ∧ s.2.1 = off n Nv W s.2.2 ∧
      ∀ e, 0 ≤ e → e < n → 0 < Nv e → W e < s.2.2 → s.1 e = off n Nv W (W e)) _ (fun s => (n - s.2.2).toNat) ?_ _ _
      ⟨fX, le_rfl, hW.le.1, (off_zero hW).symm, fun e h0 h1 hv hw => by have := (hW.piv e h0 h1 hv).1; dsimp only at hw; omega⟩ (by dsimp only; omega)
    rintro ⟨N, nel, k⟩ ⟨fN, k0, k1, hnel, hN⟩
    dsimp only at *
    have hKn := hW.le.2
    have hend : k = K → Full N n ∧ nel = off n Nv W K ∧ ∀ e, 0 ≤ e → e < n → 0 < Nv e → N e = off n Nv W (W e) := fun e =>
      ⟨fN, by rw [hnel, e], fun x x0 x1 xv => hN x x0 x1 xv (by rw [e]; exact (hW.piv x x0 x1 xv).2)⟩
    by_cases hk : k < n
    swap
    · rw [if_neg hk]; exact Ens.pure (hend (by omega))
    rw [if_pos hk]
    refine Ens.rd fH' k0 hk ?_
    by_cases hkK : k = K
    · have : H' k = -1 := by
        rcases g2 k k0 hk with q | ⟨a, b, c, d⟩
        · exact q
        · have := (hW.piv _ a b c).2; omega
      rw [if_pos this]; exact Ens.pure (hend hkK)
    · obtain ⟨e, e0, e1, ev, ew⟩ := hW.surj k k0 (by omega)
      have : H' k = e := by rw [← ew]; exact g1 e e0 e1 ev
      rw [this, if_neg (by omega)]
      refine Ens.wr e0 (by have := fN.1; omega) (Ens.rd hNv e0 e1 (Ens.pure ⟨⟨fN.upd _ _, by dsimp only; omega, by dsimp only; omega, ?_, fun x x0 x1 xv xw => ?_⟩, by dsimp only; omega⟩))
      · dsimp only
        rw [hnel, ← ew, off_succ hW e0 e1 ev]
      · dsimp only at *
        rw [upd_at _ e0]
        split_ifs with q
        · rw [q, ew]; exact hnel
        · refine hN x x0 x1 xv ?_
          rcases eq_or_ne (W x) k with r | r
          · exact absurd (hW.inj x e x0 x1 xv e0 e1 ev (by rw [r, ew])) q
          · omega
  rintro ⟨N, nel⟩ ⟨fN, hnel, hNe⟩
  dsimp only at *
  -- the absorbed variables
  refine Ens.bind (P := fun s : Buf ℤ × ℤ => Full s.1 n ∧ ∀ x, 0 ≤ x → x < n → s.1 x = place n Nv rep W K x) ?_ ?_
  · refine Ens.imp (Ens.forI (fun m (s : Buf ℤ × ℤ) => Full s.1 n ∧ s.2 = off n Nv W K + before Nv rep (-1) m ∧
      (∀ e, 0 ≤ e → e < n → 0 < Nv e → s.1 e = off n Nv W (W e) + before Nv rep e m) ∧
      (∀ x, 0 ≤ x → x < m → x < n → Nv x = 0 → s.1 x = place n Nv rep W K x)) hn ?_ ?_) ?_
    · have hz : ∀ e, before Nv rep e 0 = 0 := fun e => by unfold before; simp
      exact ⟨fN, by dsimp only; rw [hz, hnel]; simp, fun e h0 h1 hv => by rw [hz, hNe e h0 h1 hv]; simp, fun x h0 h1 => by omega⟩
    · rintro i ⟨Y, nel'⟩ i0 i1 ⟨fY, hd, hp, hx⟩
      dsimp only at *
      refine Ens.rd hNv i0 i1 ?_
      by_cases hz : Nv i = 0
      · rw [if_pos hz]
        refine Ens.rd hPe i0 i1 ?_
        rw [hP i i0 i1 hz]
        have hsz := fY.1
        by_cases hr : rep i = -1
        · rw [if_neg (by omega)]
          refine Ens.wr i0 (by omega) (Ens.pure ⟨fY.upd _ _, ?_, fun e e0 e1 ev => ?_, fun x x0 x1 xn xz => ?_⟩)
          · dsimp only
            rw [before_succ _ _ i0, if_pos ⟨hz, hr⟩, hd]; push_cast; omega
          · dsimp only
            rw [upd_ne _ i0 (by rintro rfl; omega), hp e e0 e1 ev, before_succ _ _ i0, if_neg (by omega)]; simp
          · dsimp only
            rw [upd_at _ i0]
            split_ifs with q
            · unfold place
              rw [q, if_neg (by omega), if_pos hr, hd]
            · exact hx x x0 (by omega) xn xz
        · rw [if_pos hr]
          obtain ⟨a, b, c, _⟩ := F.rep_ok i0 i1 hr
          have hne : rep i ≠ i := by intro q; rw [q] at c; omega
          refine Ens.rd fY a b (Ens.wr i0 (by omega) (Ens.rd (fY.upd _ _) a b (Ens.wr a (by rw [upd_size]; omega) (Ens.pure ⟨(fY.upd _ _).upd _ _, ?_, fun e e0 e1 ev => ?_, fun x x0 x1 xn xz => ?_⟩))))
          · dsimp only
            rw [before_succ _ _ i0, if_neg (by omega), hd]; simp
          · dsimp only
            rw [upd_at _ a, before_succ _ _ i0]
            split_ifs with q r r
            · rw [upd_ne _ i0 hne, hp _ a b c, q]; push_cast; omega
            · exact absurd ⟨hz, q.symm⟩ r
            · exact absurd r.2.symm q
            · rw [upd_ne _ i0 (by rintro rfl; omega), hp e e0 e1 ev]; simp
          · dsimp only
            rw [upd_at _ a, if_neg (by rintro rfl; omega), upd_at _ i0]
            split_ifs with q
            · unfold place
              rw [q, if_neg (by omega), if_neg hr, hp _ a b c]
            · exact hx x x0 (by omega) xn xz
      · rw [if_neg hz]
        refine Ens.pure ⟨fY, ?_, fun e e0 e1 ev => ?_, fun x x0 x1 xn xz => hx x x0 ?_ xn xz⟩
        · dsimp only; rw [before_succ _ _ i0, if_neg (by omega), hd]; simp
        · dsimp only; rw [before_succ _ _ i0, if_neg (by omega), hp e e0 e1 ev]; simp
        · rcases eq_or_ne x i with r | r
          · rw [r] at xz; exact absurd xz hz
          · omega
    · rintro ⟨Y, nel'⟩ ⟨fY, _, hp, hx⟩
      refine ⟨fY, fun x x0 x1 => ?_⟩
      by_cases hv : 0 < Nv x
      · dsimp only at *
        rw [hp x x0 x1 hv]; unfold place; rw [if_pos hv]
      · exact hx x x0 x1 x1 (by have := F.nv x x0 x1; omega)
  rintro ⟨Y, nel'⟩ ⟨fY, hY⟩
  dsimp only at *
  have hrange : ∀ x, 0 ≤ x → x < n → 0 ≤ Y x ∧ Y x < n := fun x x0 x1 => by rw [hY x x0 x1]; exact place_range F hW hn x0 x1
  have hinj : ∀ x y, 0 ≤ x → x < n → 0 ≤ y → y < n → Y x = Y y → x = y := fun x y x0 x1 y0 y1 e => by
    rw [hY x x0 x1, hY y y0 y1] at e; exact place_inj F hW hn x0 x1 y0 y1 e
  have hsurj : ∀ k, 0 ≤ k → k < n → ∃ x, 0 ≤ x ∧ x < n ∧ Y x = k := by
    have him : (Ico (0 : ℤ) n).image (fun x => Y x) = Ico (0 : ℤ) n := by
      refine eq_of_subset_of_card_le (fun k hk => ?_) ?_
      · obtain ⟨x, hx, rfl⟩ := mem_image.mp hk
        rw [mem_Ico] at hx ⊢
        exact hrange x hx.1 hx.2
      · rw [card_image_of_injOn]
        intro x hx y hy e
        rw [mem_coe, mem_Ico] at hx hy
        exact hinj x y hx.1 hx.2 hy.1 hy.2 e
    intro k k0 k1
    have : k ∈ (Ico (0 : ℤ) n).image (fun x => Y x) := by rw [him, mem_Ico]; exact ⟨k0, k1⟩
    obtain ⟨x, hx, e⟩ := mem_image.mp this
    rw [mem_Ico] at hx
    exact ⟨x, hx.1, hx.2, e⟩
  refine Ens.bind (P := fun L : Buf ℤ => n ≤ L.size ∧ ∀ x, 0 ≤ x → x < n → L (Y x) = x ∧ L.cell (Y x).toNat ≠ none) ?_ ?_
  · refine Ens.forI (fun m (L : Buf ℤ) => n ≤ L.size ∧ ∀ x, 0 ≤ x → x < m → L (Y x) = x ∧ L.cell (Y x).toNat ≠ none) hn ⟨hL, fun x h0 h1 => by omega⟩ ?_
    rintro i L i0 i1 ⟨hs, hl⟩
    obtain ⟨y0, y1⟩ := hrange i i0 i1
    refine Ens.rd fY i0 i1 (Ens.wrLast y0 (by omega) ⟨hs, fun x x0 x1 => ?_⟩)
    by_cases q : x = i
    · rw [q, upd_same _ y0, upd_cell, if_pos rfl]; exact ⟨rfl, by simp⟩
    · obtain ⟨l1, l2⟩ := hl x x0 (by omega)
      refine ⟨?_, upd_cell_ne l2 _ _⟩
      rw [upd_ne _ y0 (fun e => q (hinj x i x0 (by omega) i0 i1 e))]; exact l1
  · rintro L ⟨hs, hl⟩
    refine Ens.pure ⟨full_of_surj hs fun k k0 k1 => ?_, fY, fun k k0 k1 => ?_, fun x x0 x1 => ?_⟩
    · obtain ⟨x, x0, x1, rfl⟩ := hsurj k k0 k1; exact (hl x x0 x1).2
    · obtain ⟨x, x0, x1, rfl⟩ := hsurj k k0 k1
      dsimp only
      rw [(hl x x0 x1).1]; exact ⟨x0, x1, rfl⟩
    · exact ⟨(hrange x x0 x1).1, (hrange x x0 x1).2, (hl x x0 x1).1⟩

end Osqp.Amd
