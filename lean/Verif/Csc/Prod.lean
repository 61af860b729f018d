import Verif.Csc.Lemmas
import Mathlib.Algebra.BigOperators.Pi

/-!
# Products of a compressed-column matrix with a vector
-/

set_option linter.unusedSectionVars false
namespace Osqp.Csc
open Finset

variable {K : Type*} [Field K] [LinearOrder K] {V : View K} {M : Csc K}

theorem sum_entry (V : View K) (r c : ℕ) (v : K) :
    V.entry r c * v = ∑ k ∈ Ico (V.p c) (V.p (c + 1)), if V.i k = r then V.x k * v else 0 := by
  unfold View.entry
  rw [sum_mul]
  exact sum_congr rfl fun k _ => by split_ifs <;> simp

/-- The entries of a column seen by row. -/
theorem sum_rows (V : View K) (h : V.Valid) {c : ℕ} (hc : c < V.n) (g : ℕ → K) :
    ∑ k ∈ Ico (V.p c) (V.p (c + 1)), V.x k * g (V.i k) = ∑ r ∈ range V.m, V.entry r c * g r := by
  simp only [sum_entry]
  rw [sum_comm]
  refine sum_congr rfl fun k hk => ?_
  rw [mem_Ico] at hk
  rw [sum_eq_single (V.i k)]
  · simp
  · intro r _ hr; rw [if_neg (fun h => hr h.symm)]
  · intro hr; exact absurd (mem_range.2 (h.rows k (h.lt_nnz hc hk.2))) hr

theorem View.Triu.entry_zero (h : V.Triu) {r c : ℕ} (hc : c < V.n) (hr : c < r) : V.entry r c = 0 := by
  unfold View.entry
  refine sum_eq_zero fun k hk => ?_
  rw [mem_Ico] at hk
  have := h c hc k hk.1 hk.2
  rw [if_neg (by omega)]

theorem View.Triu.symEntry_eq (h : V.Triu) {r c : ℕ} (hr : r < V.n) (hc : c < V.n) :
    V.symEntry r c = V.entry r c + if c = r then 0 else V.entry c r := by
  unfold View.symEntry
  rcases lt_trichotomy r c with h1 | h1 | h1
  · rw [if_pos h1.le, if_neg (by omega), h.entry_zero hr h1, add_zero]
  · subst h1; simp
  · rw [if_neg (by omega), if_neg (by omega), h.entry_zero hc h1, zero_add]

theorem Rep.axpy_aux (h : Rep M V) {x y : Buf K} {X Y : ℕ → K} {alpha beta : K} (hx : Holds x V.n X) (hs : V.m ≤ y.size)
    (hy : beta = 0 ∨ Holds y V.m Y) :
    ∃ y', axpy M x y alpha beta = some y' ∧
      Holds y' V.m (fun r => (if beta = 0 then 0 else beta * Y r) +
        alpha * ∑ j ∈ range V.n, ∑ k ∈ Ico (V.p j) (V.p (j + 1)), if V.i k = r then V.x k * X j else 0) := by
  obtain ⟨y1, e1, h1⟩ := betaPart_holds (n := V.m) beta hs hy
  unfold axpy
  rw [h.m, e1]
  simp only [Option.bind_some, h.rdNnz]
  by_cases h0 : (V.nnz : ℤ) = 0 ∨ alpha = 0
  · rw [if_pos h0]
    refine ⟨y1, rfl, h1.congr fun r _ => ?_⟩
    rcases h0 with h0 | h0
    · rw [← h.valid.sum_cols (fun j k => if V.i k = r then V.x k * X j else 0)]
      have : V.nnz = 0 := by omega
      rw [this]; simp
    · rw [h0]; simp
  rw [if_neg h0]
  have key : ∀ {body : ℤ → ℤ → Buf K → Option (Buf K)},
      (∀ j k (y : Buf K) Y, j < V.n → k < V.nnz → Holds y V.m Y → ∃ y', body (j : ℤ) (k : ℤ) y = some y' ∧
        Holds y' V.m (fun r => Y r + if V.i k = r then alpha * (V.x k * X j) else 0)) →
      ∃ y', forCols M.p M.n body y1 = some y' ∧ Holds y' V.m (fun r => (if beta = 0 then 0 else beta * Y r) +
        alpha * ∑ j ∈ range V.n, ∑ k ∈ Ico (V.p j) (V.p (j + 1)), if V.i k = r then V.x k * X j else 0) := by
    intro body hb
    obtain ⟨y', e, h'⟩ := h.forCols_add (body := body) (fun j k r => if V.i k = r then alpha * (V.x k * X j) else 0) h1
      (fun j k y Y hj _ _ hk hy => hb j k y Y hj hk hy)
    refine ⟨y', e, h'.congr fun r _ => ?_⟩
    congr 1
    rw [mul_sum]
    refine sum_congr rfl fun j _ => ?_
    rw [mul_sum]
    exact sum_congr rfl fun k _ => by split_ifs <;> simp
  by_cases ha : alpha = -1
  · rw [if_pos ha]
    refine key fun j k y Y hj hk hy => ?_
    rw [h.rdI hk, h.rdX hk, hx.rd hj]
    simp only [Option.bind_some]
    obtain ⟨y', e, h'⟩ := subFrom_holds hy (h.valid.rows k hk) (V.x k * X j)
    exact ⟨y', e, h'.congr fun r _ => by rw [ha]; simp⟩
  rw [if_neg ha]
  by_cases hb : alpha = 1
  · rw [if_pos hb]
    refine key fun j k y Y hj hk hy => ?_
    rw [h.rdI hk, h.rdX hk, hx.rd hj]
    simp only [Option.bind_some]
    obtain ⟨y', e, h'⟩ := addTo_holds hy (h.valid.rows k hk) (V.x k * X j)
    exact ⟨y', e, h'.congr fun r _ => by rw [hb]; simp⟩
  · rw [if_neg hb]
    refine key fun j k y Y hj hk hy => ?_
    rw [h.rdI hk, h.rdX hk, hx.rd hj]
    simp only [Option.bind_some]
    obtain ⟨y', e, h'⟩ := addTo_holds hy (h.valid.rows k hk) (alpha * V.x k * X j)
    exact ⟨y', e, h'.congr fun r _ => by rw [mul_assoc]⟩

theorem Rep.atxpy_aux (h : Rep M V) {x y : Buf K} {X Y : ℕ → K} {alpha beta : K} (hx : Holds x V.m X) (hs : V.n ≤ y.size)
    (hy : beta = 0 ∨ Holds y V.n Y) :
    ∃ y', atxpy M x y alpha beta = some y' ∧
      Holds y' V.n (fun c => (if beta = 0 then 0 else beta * Y c) +
        alpha * ∑ j ∈ range V.n, ∑ k ∈ Ico (V.p j) (V.p (j + 1)), if j = c then V.x k * X (V.i k) else 0) := by
  obtain ⟨y1, e1, h1⟩ := betaPart_holds (n := V.n) beta hs hy
  unfold atxpy
  rw [h.rdNnz]
  rw [h.n, e1]
  simp only [Option.bind_some]
  by_cases h0 : (V.nnz : ℤ) = 0 ∨ alpha = 0
  · rw [if_pos h0]
    refine ⟨y1, rfl, h1.congr fun r _ => ?_⟩
    rcases h0 with h0 | h0
    · rw [← h.valid.sum_cols (fun j k => if j = r then V.x k * X (V.i k) else 0)]
      have : V.nnz = 0 := by omega
      rw [this]; simp
    · rw [h0]; simp
  rw [if_neg h0]
  have key : ∀ {body : ℤ → ℤ → Buf K → Option (Buf K)},
      (∀ j k (y : Buf K) Y, j < V.n → k < V.nnz → Holds y V.n Y → ∃ y', body (j : ℤ) (k : ℤ) y = some y' ∧
        Holds y' V.n (fun r => Y r + if j = r then alpha * (V.x k * X (V.i k)) else 0)) →
      ∃ y', forCols M.p V.n body y1 = some y' ∧ Holds y' V.n (fun r => (if beta = 0 then 0 else beta * Y r) +
        alpha * ∑ j ∈ range V.n, ∑ k ∈ Ico (V.p j) (V.p (j + 1)), if j = r then V.x k * X (V.i k) else 0) := by
    intro body hb
    obtain ⟨y', e, h'⟩ := h.forCols_add (body := body) (fun j k r => if j = r then alpha * (V.x k * X (V.i k)) else 0) h1
      (fun j k y Y hj _ _ hk hy => hb j k y Y hj hk hy)
    refine ⟨y', by rw [← h.n]; exact e, h'.congr fun r _ => ?_⟩
    congr 1
    rw [mul_sum]
    refine sum_congr rfl fun j _ => ?_
    rw [mul_sum]
    exact sum_congr rfl fun k _ => by split_ifs <;> simp
  by_cases ha : alpha = -1
  · rw [if_pos ha]
    refine key fun j k y Y hj hk hy => ?_
    rw [h.rdI hk, h.rdX hk]
    simp only [Option.bind_some]
    rw [hx.rd (h.valid.rows k hk)]
    obtain ⟨y', e, h'⟩ := subFrom_holds hy hj (V.x k * X (V.i k))
    exact ⟨y', e, h'.congr fun r _ => by rw [ha]; simp⟩
  rw [if_neg ha]
  by_cases hb : alpha = 1
  · rw [if_pos hb]
    refine key fun j k y Y hj hk hy => ?_
    rw [h.rdI hk, h.rdX hk]
    simp only [Option.bind_some]
    rw [hx.rd (h.valid.rows k hk)]
    obtain ⟨y', e, h'⟩ := addTo_holds hy hj (V.x k * X (V.i k))
    exact ⟨y', e, h'.congr fun r _ => by rw [hb]; simp⟩
  · rw [if_neg hb]
    refine key fun j k y Y hj hk hy => ?_
    rw [h.rdI hk, h.rdX hk]
    simp only [Option.bind_some]
    rw [hx.rd (h.valid.rows k hk)]
    obtain ⟨y', e, h'⟩ := addTo_holds hy hj (alpha * V.x k * X (V.i k))
    exact ⟨y', e, h'.congr fun r _ => by rw [mul_assoc]⟩

/-- What an entry of the stored upper triangle adds to component `r` of the product. -/
def symContrib (V : View K) (X : ℕ → K) (j k r : ℕ) : K :=
  (if V.i k = r then V.x k * X j else 0) + if V.i k ≠ j ∧ j = r then V.x k * X (V.i k) else 0

theorem Rep.axpySym_aux (h : Rep M V) (hsq : V.m = V.n) {x y : Buf K} {X Y : ℕ → K} {alpha beta : K} (hx : Holds x V.n X)
    (hs : V.n ≤ y.size) (hy : beta = 0 ∨ Holds y V.n Y) :
    ∃ y', axpySymTriu M x y alpha beta = some y' ∧
      Holds y' V.n (fun r => (if beta = 0 then 0 else beta * Y r) +
        alpha * ∑ j ∈ range V.n, ∑ k ∈ Ico (V.p j) (V.p (j + 1)), symContrib V X j k r) := by
  obtain ⟨y1, e1, h1⟩ := betaPart_holds (n := V.n) beta hs hy
  unfold axpySymTriu
  rw [h.m, hsq, e1]
  simp only [Option.bind_some, h.rdNnz]
  by_cases h0 : (V.nnz : ℤ) = 0 ∨ alpha = 0
  · rw [if_pos h0]
    refine ⟨y1, rfl, h1.congr fun r _ => ?_⟩
    rcases h0 with h0 | h0
    · rw [← h.valid.sum_cols (fun j k => symContrib V X j k r)]
      have : V.nnz = 0 := by omega
      rw [this]; simp
    · rw [h0]; simp
  rw [if_neg h0]
  have hrow : ∀ {k}, k < V.nnz → V.i k < V.n := fun hk => hsq ▸ h.valid.rows _ hk
  have key : ∀ {body : ℤ → ℤ → Buf K → Option (Buf K)},
      (∀ j k (y : Buf K) Y, j < V.n → k < V.nnz → Holds y V.n Y → ∃ y', body (j : ℤ) (k : ℤ) y = some y' ∧
        Holds y' V.n (fun r => Y r + alpha * symContrib V X j k r)) →
      ∃ y', forCols M.p M.n body y1 = some y' ∧ Holds y' V.n (fun r => (if beta = 0 then 0 else beta * Y r) +
        alpha * ∑ j ∈ range V.n, ∑ k ∈ Ico (V.p j) (V.p (j + 1)), symContrib V X j k r) := by
    intro body hb
    obtain ⟨y', e, h'⟩ := h.forCols_add (body := body) (fun j k r => alpha * symContrib V X j k r) h1
      (fun j k y Y hj _ _ hk hy => hb j k y Y hj hk hy)
    refine ⟨y', e, h'.congr fun r _ => ?_⟩
    congr 1
    rw [mul_sum]
    exact sum_congr rfl fun j _ => by rw [mul_sum]
  have two : ∀ (op : Buf K → ℤ → K → Option (Buf K)) (a : K) (j k : ℕ) (y : Buf K) (Y : ℕ → K),
      (∀ (y : Buf K) (Y : ℕ → K) (r : ℕ) (v : K), r < V.n → Holds y V.n Y →
        ∃ y', op y (r : ℤ) v = some y' ∧ Holds y' V.n (fun t => Y t + if r = t then a * v else 0)) →
      j < V.n → k < V.nnz → Holds y V.n Y → ∀ b : K, a * b = alpha →
      ∃ y', ((op y (V.i k : ℤ) (b * V.x k * X j)).bind fun y =>
        if ((V.i k : ℕ) : ℤ) ≠ (j : ℤ) then (x.rd (V.i k : ℤ)).bind fun w => op y (j : ℤ) (b * V.x k * w) else some y) = some y' ∧
        Holds y' V.n (fun r => Y r + alpha * symContrib V X j k r) := by
    intro op a j k y Y hop hj hk hy b hab
    obtain ⟨y2, e2, h2⟩ := hop y Y (V.i k) (b * V.x k * X j) (hrow hk) hy
    rw [e2]
    simp only [Option.bind_some]
    by_cases hd : V.i k = j
    · rw [if_neg (by simp [hd])]
      refine ⟨y2, rfl, h2.congr fun r _ => ?_⟩
      unfold symContrib
      rw [← hab]
      rw [hd]
      by_cases hr : j = r
      · simp [hr]; ring
      · simp [hr]
    · have : ((V.i k : ℕ) : ℤ) ≠ (j : ℤ) := by exact_mod_cast hd
      rw [if_pos this, hx.rd (hrow hk)]
      simp only [Option.bind_some]
      obtain ⟨y3, e3, h3⟩ := hop y2 _ j (b * V.x k * X (V.i k)) hj h2
      refine ⟨y3, e3, h3.congr fun r _ => ?_⟩
      unfold symContrib
      rw [← hab]
      generalize X (V.i k) = w
      generalize V.i k = t at hd ⊢
      by_cases h5 : t = r
      · have h6 : ¬ j = r := fun e => hd (h5.trans e.symm)
        rw [if_pos h5, if_neg h6, if_pos h5, if_neg (fun h => h6 h.2)]; ring
      · rw [if_neg h5, if_neg h5]
        by_cases h6 : j = r
        · rw [if_pos h6, if_pos ⟨hd, h6⟩]; ring
        · rw [if_neg h6, if_neg (fun h => h6 h.2)]; ring
  by_cases ha : alpha = -1
  · rw [if_pos ha]
    refine key fun j k y Y hj hk hy => ?_
    rw [h.rdI hk, h.rdX hk, hx.rd hj]
    simp only [Option.bind_some]
    have := two subFrom (-1) j k y Y (fun y Y r v hr hy => by simpa using subFrom_holds hy hr v) hj hk hy 1 (by rw [ha]; ring)
    simpa only [one_mul] using this
  rw [if_neg ha]
  by_cases hb : alpha = 1
  · rw [if_pos hb]
    refine key fun j k y Y hj hk hy => ?_
    rw [h.rdI hk, h.rdX hk, hx.rd hj]
    simp only [Option.bind_some]
    have := two addTo 1 j k y Y (fun y Y r v hr hy => by simpa using addTo_holds hy hr v) hj hk hy 1 (by rw [hb]; ring)
    simpa only [one_mul] using this
  · rw [if_neg hb]
    refine key fun j k y Y hj hk hy => ?_
    rw [h.rdI hk, h.rdX hk, hx.rd hj]
    simp only [Option.bind_some]
    exact two addTo 1 j k y Y (fun y Y r v hr hy => by simpa using addTo_holds hy hr v) hj hk hy alpha (by ring)

theorem sum_symContrib (h : V.Valid) (ht : V.Triu) (hsq : V.m = V.n) (X : ℕ → K) {r : ℕ} (hr : r < V.n) :
    ∑ j ∈ range V.n, ∑ k ∈ Ico (V.p j) (V.p (j + 1)), symContrib V X j k r = ∑ c ∈ range V.n, V.symEntry r c * X c := by
  unfold symContrib
  simp only [sum_add_distrib]
  have e1 : ∑ j ∈ range V.n, ∑ k ∈ Ico (V.p j) (V.p (j + 1)), (if V.i k = r then V.x k * X j else 0) = ∑ j ∈ range V.n, V.entry r j * X j :=
    sum_congr rfl fun j _ => (sum_entry V r j (X j)).symm
  have e2 : ∑ j ∈ range V.n, ∑ k ∈ Ico (V.p j) (V.p (j + 1)), (if V.i k ≠ j ∧ j = r then V.x k * X (V.i k) else 0) =
      ∑ c ∈ range V.n, (if c = r then 0 else V.entry c r) * X c := by
    rw [sum_eq_single r]
    · have := sum_rows V h hr (fun c => if c = r then 0 else X c)
      rw [hsq] at this
      calc _ = ∑ k ∈ Ico (V.p r) (V.p (r + 1)), V.x k * (if V.i k = r then 0 else X (V.i k)) :=
            sum_congr rfl fun k _ => by by_cases e : V.i k = r <;> simp [e]
        _ = _ := this
        _ = _ := sum_congr rfl fun c _ => by split_ifs <;> simp
    · intro j _ hj; exact sum_eq_zero fun k _ => by rw [if_neg (fun h => hj h.2)]
    · intro hn; exact absurd (mem_range.2 hr) hn
  rw [e1, e2, ← sum_add_distrib]
  refine sum_congr rfl fun c hc => ?_
  rw [ht.symEntry_eq hr (mem_range.1 hc), add_mul]

end Osqp.Csc
