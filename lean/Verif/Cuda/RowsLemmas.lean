import Verif.Spec.Rows
import Verif.Cuda.MatsLemmas
import Mathlib.Data.Finset.Sort
import Mathlib.Order.Interval.Finset.Fin
import Mathlib.Algebra.Order.Field.Basic
import Mathlib.Algebra.Order.Group.Abs
import Mathlib.Algebra.BigOperators.Intervals

/-!
# Lemmas about compressed rows, norms and row selection on the device
-/

set_option linter.unusedSectionVars false

namespace Osqp.Cuda
open Matrix Osqp.Spec

variable {K : Type*} {m n : ℕ}

theorem allSome_some {α : Type*} {N : ℕ} {f : Fin N → Option α} {g : Fin N → α} (h : ∀ e, f e = some (g e)) : allSome f = some g := by
  unfold allSome
  rw [dif_pos (fun e => by rw [h e]; rfl)]
  congr 1
  funext e
  exact Option.get_of_eq_some _ (h e)

/-! ### Pointers -/

theorem lt_count {N : ℕ} {row : Fin N → ℕ} (h : Monotone row) (e : Fin N) (i : ℕ) : e.val < (Finset.univ.filter fun e => row e < i).card ↔ row e < i := by
  constructor
  · intro he
    by_contra hn
    have : (Finset.univ.filter fun e => row e < i) ⊆ Finset.Iio e := by
      intro f hf
      rw [Finset.mem_filter] at hf
      rw [Finset.mem_Iio]
      by_contra hc
      have := h (not_lt.1 hc)
      omega
    have := Finset.card_le_card this
    rw [Fin.card_Iio] at this
    omega
  · intro he
    have : Finset.Iic e ⊆ (Finset.univ.filter fun e => row e < i) := by
      intro f hf
      rw [Finset.mem_Iic] at hf
      rw [Finset.mem_filter]
      have := h hf
      exact ⟨Finset.mem_univ _, by omega⟩
    have := Finset.card_le_card this
    rw [Fin.card_Iic] at this
    omega

theorem compress_get {N : ℕ} (row : Fin N → ℕ) {rows i : ℕ} (h : i ≤ rows) : (compress row rows)[i]? = some (Finset.univ.filter fun e => row e < i).card := by
  unfold compress
  rw [List.getElem?_map, List.getElem?_range (by omega)]
  rfl

theorem between_iff {N : ℕ} {row : Fin N → ℕ} {ptr : List ℕ} {rows : ℕ} (h : Monotone row) (hp : ∀ i ≤ rows, ptr[i]? = some (Finset.univ.filter fun e => row e < i).card) (e : Fin N) {i : ℕ}
    (hi : i < rows) : between ptr e i = true ↔ row e = i := by
  unfold between
  rw [hp i (by omega), hp (i + 1) (by omega)]
  simp only [decide_eq_true_eq]
  rw [lt_count h, ← not_lt, lt_count h]
  omega

theorem expand_some {N : ℕ} {row : Fin N → ℕ} {ptr : List ℕ} {rows : ℕ} (h : Monotone row) (hr : ∀ e, row e < rows)
    (hp : ∀ i ≤ rows, ptr[i]? = some (Finset.univ.filter fun e => row e < i).card) : expand ptr rows N = some row := by
  refine allSome_some fun e => ?_
  rw [List.find?_range_eq_some]
  refine ⟨(between_iff h hp e (hr e)).2 rfl, List.mem_range.2 (hr e), fun j hj => ?_⟩
  rw [Bool.not_eq_true', Bool.eq_false_iff]
  intro hc
  have := (between_iff h hp e (hj.trans (hr e))).1 hc
  omega

/-! ### Transposition -/

variable [Field K]

theorem stores_perm {N : ℕ} {row col : Fin N → ℕ} {val : Fin N → Option K} {B : Matrix (Fin m) (Fin n) K} (h : Stores row col val B) (s : Equiv.Perm (Fin N)) :
    Stores (fun e => row (s e)) (fun e => col (s e)) (fun e => val (s e)) B := by
  obtain ⟨x, h1, h2⟩ := h.sums
  refine ⟨fun e => h.row_lt _, fun e => h.col_lt _, fun e => x (s e), fun e => h1 _, fun i j => ?_⟩
  rw [h2]
  exact (Equiv.sum_comp s fun e => if row e = i.val ∧ col e = j.val then x e else 0).symm

theorem stores_transpose {N : ℕ} {row col : Fin N → ℕ} {val : Fin N → Option K} {B : Matrix (Fin m) (Fin n) K} (h : Stores row col val B) : Stores col row val Bᵀ := by
  obtain ⟨x, h1, h2⟩ := h.sums
  refine ⟨h.col_lt, h.row_lt, x, h1, fun i j => ?_⟩
  rw [transpose_apply, h2]
  exact Finset.sum_congr rfl fun e _ => if_congr and_comm rfl rfl

theorem transpose_some {sort : Sorter} (hs : SortsByRow sort) {N : ℕ} {M : CsrMat N K} {B : Matrix (Fin m) (Fin n) K} (h : HoldsRows M B) (hN : N ≠ 0) :
    ∃ T, csrTranspose sort m n M.ptr M.col M.val = some T ∧ HoldsRows T Bᵀ ∧ T.row = (fun e => M.col (sort N M.col M.row e)) ∧ T.col = (fun e => M.row (sort N M.col M.row e)) ∧
      T.val = (fun e => M.val (sort N M.col M.row e)) := by
  unfold csrTranspose
  rw [if_neg hN, expand_some h.sorted h.stores.row_lt h.pointers]
  refine ⟨_, rfl, ⟨rfl, rfl, stores_perm (stores_transpose h.stores) _, ?_, fun i hi => compress_get _ hi⟩, rfl, rfl, rfl⟩
  exact hs N M.col M.row

/-- Without entries the pointers are kept; they suffice if there are not more rows than before. -/
theorem transpose_empty {sort : Sorter} {M : CsrMat 0 K} {B : Matrix (Fin m) (Fin n) K} (h : HoldsRows M B) :
    ∃ T, csrTranspose sort m n M.ptr M.col M.val = some T ∧ T.ptr = M.ptr ∧ T.rows = n ∧ T.cols = m ∧ (n ≤ m → HoldsRows T Bᵀ) := by
  unfold csrTranspose expand
  rw [if_pos rfl, allSome_some (g := fun e => e.elim0) (fun e => e.elim0)]
  refine ⟨_, rfl, rfl, rfl, rfl, fun hnm => ⟨rfl, rfl, ⟨fun e => e.elim0, fun e => e.elim0, fun e => e.elim0, fun e => e.elim0, fun i j => ?_⟩, fun e => e.elim0, fun i hi => ?_⟩⟩
  · obtain ⟨x, _, h2⟩ := h.stores.sums
    rw [transpose_apply, h2]
    rfl
  · dsimp only
    rw [h.pointers i (by omega)]
    rfl

/-! ### Products -/

theorem foldl_sum {g : ℕ → K} {f : ℕ → Option K} : ∀ (l : List ℕ) (s : K), (∀ k ∈ l, f k = some (g k)) →
    l.foldl (fun acc k => acc.bind fun s => (f k).map (s + ·)) (some s) = some (s + (l.map g).sum) := by
  intro l
  induction l with
  | nil => intro s _; simp
  | cons a l ih =>
    intro s h
    rw [List.foldl_cons]
    have : ((some s).bind fun s => (f a).map (s + ·)) = some (s + g a) := by rw [h a (by simp)]; rfl
    rw [this, ih _ fun k hk => h k (by simp [hk]), List.map_cons, List.sum_cons, add_assoc]

theorem range'_sum (g : ℕ → K) (a : ℕ) : ∀ k, ((List.range' a k).map g).sum = ∑ i ∈ Finset.range k, g (a + i) := by
  intro k
  induction k with
  | zero => simp
  | succ k ih => rw [List.range'_1_concat, List.map_append, List.sum_append, ih, Finset.sum_range_succ]; simp

theorem rowSum_some {N : ℕ} {M : CsrMat N K} {B : Matrix (Fin m) (Fin n) K} (h : HoldsRows M B) (x : Vec K n) (i : Fin m) : rowSum M.ptr M.col M.val x i = some ((B *ᵥ x) i) := by
  obtain ⟨v, h1, h2⟩ := h.stores.sums
  unfold rowSum
  rw [h.pointers i (by omega), h.pointers (i + 1) (by omega)]
  simp only [Option.bind_some]
  have hle : (Finset.univ.filter fun e => M.row e < i.val).card ≤ (Finset.univ.filter fun e => M.row e < i.val + 1).card :=
    Finset.card_le_card fun e he => by
      rw [Finset.mem_filter] at he ⊢
      exact ⟨he.1, by omega⟩
  have hN : (Finset.univ.filter fun e => M.row e < i.val + 1).card ≤ N := by simpa using Finset.card_le_univ (Finset.univ.filter fun e => M.row e < i.val + 1)
  set lo := (Finset.univ.filter fun e => M.row e < i.val).card with hlo
  set hi := (Finset.univ.filter fun e => M.row e < i.val + 1).card with hhi
  let g : ℕ → K := fun k => if hk : k < N then v ⟨k, hk⟩ * x ⟨M.col ⟨k, hk⟩, h.stores.col_lt _⟩ else 0
  have hf : ∀ k ∈ List.range' lo (hi - lo), term M.col M.val x k = some (g k) := by
    intro k hk
    rw [List.mem_range'_1] at hk
    have hkN : k < N := by omega
    unfold term
    rw [dif_pos hkN, h1, Option.bind_some, dif_pos (h.stores.col_lt _)]
    simp only [g, dif_pos hkN]
  rw [foldl_sum _ _ hf, zero_add, range'_sum, ← Finset.sum_Ico_eq_sum_range]
  congr 1
  have e1 : ∑ k ∈ Finset.Ico lo hi, g k = ∑ k ∈ Finset.range N, if lo ≤ k ∧ k < hi then g k else 0 := by
    rw [← Finset.sum_filter]
    refine Finset.sum_congr ?_ fun _ _ => rfl
    ext k
    simp only [Finset.mem_Ico, Finset.mem_filter, Finset.mem_range]
    omega
  rw [e1, Finset.sum_range]
  have e2 : ∀ e : Fin N, (if lo ≤ e.val ∧ e.val < hi then g e.val else 0) = if M.row e = i.val then v e * x ⟨M.col e, h.stores.col_lt _⟩ else 0 := by
    intro e
    have c1 := lt_count h.sorted e i.val
    have c2 := lt_count h.sorted e (i.val + 1)
    rw [← hlo] at c1
    rw [← hhi] at c2
    by_cases he : M.row e = i.val
    · rw [if_pos he, if_pos (by omega)]
      simp only [g, dif_pos e.2]
    · rw [if_neg he, if_neg (by omega)]
  rw [Finset.sum_congr rfl fun e _ => e2 e]
  simp only [mulVec, dotProduct]
  simp only [h2, Finset.sum_mul]
  rw [Finset.sum_comm]
  refine Finset.sum_congr rfl fun e _ => ?_
  by_cases he : M.row e = i.val
  · rw [if_pos he, Finset.sum_eq_single (⟨M.col e, h.stores.col_lt _⟩ : Fin n)]
    · rw [if_pos ⟨he, rfl⟩]
    · intro j _ hj
      rw [if_neg (fun hc => hj (Fin.ext hc.2.symm)), zero_mul]
    · intro hc; exact absurd (Finset.mem_univ _) hc
  · rw [if_neg he]
    refine (Finset.sum_eq_zero fun j _ => ?_).symm
    rw [if_neg (fun hc => he hc.1), zero_mul]

end Osqp.Cuda
