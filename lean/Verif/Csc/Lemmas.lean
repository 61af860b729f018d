import Verif.Csc.Model
import Verif.Lemmas.Num
import Mathlib.Algebra.BigOperators.Ring.Finset
import Mathlib.Data.Finset.Interval
import Mathlib.Order.Interval.Finset.Nat

/-!
# Lemmas about compressed-column matrices and the loops over their entries
-/

set_option linter.unusedSectionVars false
namespace Osqp.Csc
open Finset

section View
variable {K : Type*} {V : View K}

theorem View.Valid.le (h : V.Valid) {a b : ℕ} (hab : a ≤ b) (hb : b ≤ V.n) : V.p a ≤ V.p b := by
  induction b with
  | zero => have : a = 0 := by omega
            rw [this]
  | succ b ih =>
    rcases Nat.lt_or_ge a (b + 1) with h1 | h1
    · exact le_trans (ih (by omega) (by omega)) (h.mono b (by omega))
    · have : a = b + 1 := by omega
      rw [this]

theorem View.Valid.lt_nnz (h : V.Valid) {j k : ℕ} (hj : j < V.n) (hk : k < V.p (j + 1)) : k < V.nnz :=
  lt_of_lt_of_le hk (h.le (by omega) (le_refl _))

theorem View.Valid.col_eq (h : V.Valid) {j k : ℕ} (hj : j < V.n) (h1 : V.p j ≤ k) (h2 : k < V.p (j + 1)) : V.col k = j := by
  unfold View.col
  have : (range V.n).filter (fun c => V.p (c + 1) ≤ k) = range j := by
    ext c
    simp only [mem_filter, mem_range]
    constructor
    · rintro ⟨hc, hp⟩
      by_contra hlt
      have := h.le (a := j + 1) (b := c + 1) (by omega) (by omega)
      omega
    · intro hc
      exact ⟨by omega, le_trans (h.le (by omega) (by omega)) h1⟩
  rw [this, card_range]

theorem View.Valid.exists_col (h : V.Valid) : ∀ {j k : ℕ}, j ≤ V.n → k < V.p j → ∃ c, c < j ∧ V.p c ≤ k ∧ k < V.p (c + 1) := by
  intro j
  induction j with
  | zero => intro k _ hk; rw [h.zero] at hk; omega
  | succ j ih =>
    intro k hj hk
    rcases Nat.lt_or_ge k (V.p j) with h1 | h1
    · obtain ⟨c, hc, h2⟩ := ih (by omega) h1
      exact ⟨c, by omega, h2⟩
    · exact ⟨j, by omega, h1, hk⟩

theorem View.Valid.col_spec (h : V.Valid) {k : ℕ} (hk : k < V.nnz) : V.col k < V.n ∧ V.p (V.col k) ≤ k ∧ k < V.p (V.col k + 1) := by
  obtain ⟨c, h1, h2, h3⟩ := h.exists_col (le_refl _) hk
  rw [h.col_eq h1 h2 h3]; exact ⟨h1, h2, h3⟩

theorem View.Valid.sum_le [AddCommMonoid K] {V : View K} (h : V.Valid) (g : ℕ → ℕ → K) : ∀ j ≤ V.n,
    ∑ k ∈ range (V.p j), g (V.col k) k = ∑ c ∈ range j, ∑ k ∈ Ico (V.p c) (V.p (c + 1)), g c k := by
  intro j
  induction j with
  | zero => intro _; rw [h.zero]; simp
  | succ j ih =>
    intro hj
    have e1 : ∑ k ∈ Ico (V.p j) (V.p (j + 1)), g j k = ∑ k ∈ Ico (V.p j) (V.p (j + 1)), g (V.col k) k := by
      refine sum_congr rfl fun k hk => ?_
      rw [mem_Ico] at hk
      rw [h.col_eq (by omega) hk.1 hk.2]
    rw [Finset.sum_range_succ, ← ih (by omega), e1, range_eq_Ico, range_eq_Ico, Finset.sum_Ico_consecutive _ (Nat.zero_le _) (h.mono j (by omega))]

/-- A sum over all stored entries is a sum over columns of the entries of the column. -/
theorem View.Valid.sum_cols [AddCommMonoid K] {V : View K} (h : V.Valid) (g : ℕ → ℕ → K) :
    ∑ k ∈ range V.nnz, g (V.col k) k = ∑ c ∈ range V.n, ∑ k ∈ Ico (V.p c) (V.p (c + 1)), g c k := h.sum_le g V.n (le_refl _)

end View

variable {K : Type*} [Field K] [LinearOrder K] {V : View K} {M : Csc K}

theorem Rep.forCols_rule {σ : Type*} (h : Rep M V) {body : ℤ → ℤ → σ → Option σ} {s : σ} (I : ℕ → σ → Prop) (h0 : I 0 s)
    (hs : ∀ j k s, j < V.n → V.p j ≤ k → k < V.p (j + 1) → k < V.nnz → V.col k = j → I k s →
      ∃ s', body (j : ℤ) (k : ℤ) s = some s' ∧ I (k + 1) s') :
    ∃ s', forCols M.p M.n body s = some s' ∧ I V.nnz s' := by
  rw [h.n]
  exact forCols_nat h.p h.valid.mono I (by rw [h.valid.zero]; exact h0)
    (fun j k s hj h1 h2 h3 => hs j k s hj h1 h2 (h.valid.lt_nnz hj h2) (h.valid.col_eq hj h1 h2) h3)

theorem Rep.rdI (h : Rep M V) {k : ℕ} (hk : k < V.nnz) : M.i.rd (k : ℤ) = some ((V.i k : ℕ) : ℤ) := h.i.rd hk
theorem Rep.rdX (h : Rep M V) {k : ℕ} (hk : k < V.nnz) : M.x.rd (k : ℤ) = some (V.x k) := h.x.rd hk
theorem Rep.rdNnz (h : Rep M V) : M.p.rd M.n = some ((V.nnz : ℕ) : ℤ) := by
  rw [h.n]; exact h.p.rd (k := V.n) (by omega)

/-- Loops that add a contribution of every entry to a vector. -/
theorem Rep.forCols_add (h : Rep M V) {body : ℤ → ℤ → Buf K → Option (Buf K)} {y : Buf K} {m : ℕ} {Y : ℕ → K} (c : ℕ → ℕ → ℕ → K)
    (hy : Holds y m Y)
    (hs : ∀ j k (y : Buf K) Y, j < V.n → V.p j ≤ k → k < V.p (j + 1) → k < V.nnz → Holds y m Y →
      ∃ y', body (j : ℤ) (k : ℤ) y = some y' ∧ Holds y' m (fun r => Y r + c j k r)) :
    ∃ y', forCols M.p M.n body y = some y' ∧
      Holds y' m (fun r => Y r + ∑ j ∈ range V.n, ∑ k ∈ Ico (V.p j) (V.p (j + 1)), c j k r) := by
  obtain ⟨y', e, h'⟩ := h.forCols_rule (body := body) (s := y)
    (fun k y => Holds y m (fun r => Y r + ∑ k' ∈ range k, c (V.col k') k' r)) (hy.congr (by simp)) (by
      intro j k y hj h1 h2 h3 hc hk
      obtain ⟨y', e, h'⟩ := hs j k y _ hj h1 h2 h3 hk
      refine ⟨y', e, h'.congr fun r _ => ?_⟩
      rw [sum_range_succ, hc, add_assoc])
  refine ⟨y', e, h'.congr fun r _ => ?_⟩
  rw [h.valid.sum_cols (fun j k => c j k r)]

theorem addTo_holds {y : Buf K} {m : ℕ} {Y : ℕ → K} (hy : Holds y m Y) {r : ℕ} (hr : r < m) (v : K) :
    ∃ y', addTo y (r : ℤ) v = some y' ∧ Holds y' m (fun t => Y t + if r = t then v else 0) := by
  refine ⟨y.set r (Y r + v), ?_, (hy.set r (Y r + v)).congr fun t _ => ?_⟩
  · unfold addTo; rw [hy.rd hr]; simp only [Option.bind_some]; exact hy.wr hr _
  · rw [Function.update_apply]
    by_cases e : t = r
    · subst e; simp
    · have : ¬ r = t := fun h => e h.symm
      simp [e, this]

theorem subFrom_holds {y : Buf K} {m : ℕ} {Y : ℕ → K} (hy : Holds y m Y) {r : ℕ} (hr : r < m) (v : K) :
    ∃ y', subFrom y (r : ℤ) v = some y' ∧ Holds y' m (fun t => Y t + if r = t then -v else 0) := by
  obtain ⟨y', e, h⟩ := addTo_holds hy hr (-v)
  refine ⟨y', ?_, h⟩
  rw [← e]; unfold addTo subFrom; simp [sub_eq_add_neg]

theorem vecSet_holds {y : Buf K} {n : ℕ} (hs : n ≤ y.size) (v : K) : ∃ y', vecSet y v (n : ℤ) = some y' ∧ y'.size = y.size ∧ Holds y' n (fun _ => v) := by
  unfold vecSet
  obtain ⟨y', e, h1, h2⟩ := forI_zero (hi := n) (f := fun i v' => v'.wr i v) (s := y) (fun k b => b.size = y.size ∧ Holds b k (fun _ => v)) ⟨rfl, Holds.zero⟩
    (fun k b hk h => ⟨b.set k v, Buf.wr_eq (by rw [h.1]; omega), h.1, h.2.extend (by rw [h.1]; omega) v rfl⟩)
  exact ⟨y', e, h1, h2⟩

/-- Loops `v[i] = g(v[i])`. -/
theorem map_holds {y : Buf K} {n : ℕ} {Y : ℕ → K} (hy : Holds y n Y) (g : ℕ → K → K) {f : ℤ → Buf K → Option (Buf K)}
    (hf : ∀ (k : ℕ) (b : Buf K) (v : K), k < b.size → b.rd (k : ℤ) = some v → k < n → f (k : ℤ) b = b.wr (k : ℤ) (g k v)) :
    ∃ y', forI 0 (n : ℤ) f y = some y' ∧ Holds y' n (fun k => g k (Y k)) := by
  obtain ⟨y', e, h1⟩ := forI_zero (hi := n) (f := f) (s := y) (fun k b => Holds b n (fun i => if i < k then g i (Y i) else Y i)) (hy.congr (by simp)) (by
    intro k b hk h
    have e1 : b.rd (k : ℤ) = some (Y k) := by rw [h.rd hk]; simp
    refine ⟨b.set k (g k (Y k)), ?_, (h.set k (g k (Y k))).congr fun i hi => ?_⟩
    · rw [hf k b _ (by have := h.1; omega) e1 hk]; exact h.wr hk _
    · rw [Function.update_apply]
      by_cases e2 : i = k
      · subst e2; simp
      · rw [if_neg e2]
        by_cases e3 : i < k
        · rw [if_pos e3, if_pos (by omega)]
        · rw [if_neg e3, if_neg (by omega)])
  exact ⟨y', e, h1.congr fun k hk => by simp [hk]⟩

theorem betaPart_holds {y : Buf K} {n : ℕ} {Y : ℕ → K} (beta : K) (hs : n ≤ y.size) (hy : beta = 0 ∨ Holds y n Y) :
    ∃ y', betaPart y beta (n : ℤ) = some y' ∧ Holds y' n (fun r => if beta = 0 then 0 else beta * Y r) := by
  unfold betaPart
  by_cases h0 : beta = 0
  · obtain ⟨y', e, _, h⟩ := vecSet_holds (y := y) (n := n) hs (0 : K)
    exact ⟨y', by rw [if_pos h0]; exact e, h.congr (by simp [h0])⟩
  have hy' : Holds y n Y := hy.resolve_left h0
  rw [if_neg h0]
  by_cases h1 : beta = 1
  · exact ⟨y, by rw [if_pos h1], hy'.congr (by simp [h1])⟩
  rw [if_neg h1]
  by_cases h2 : beta = -1
  · obtain ⟨y', e, h⟩ := map_holds hy' (fun _ v => -v) (f := fun i v => (v.rd i).bind fun a => v.wr i (-a)) (fun k b v _ e _ => by rw [e]; rfl)
    exact ⟨y', by rw [if_pos h2]; exact e, h.congr (by simp [h2])⟩
  · obtain ⟨y', e, h⟩ := map_holds hy' (fun _ v => v * beta) (f := fun i v => (v.rd i).bind fun a => v.wr i (a * beta)) (fun k b v _ e _ => by rw [e]; rfl)
    exact ⟨y', by rw [if_neg h2]; exact e, h.congr (by simp [h0, mul_comm])⟩

end Osqp.Csc
