import Verif.Csc.Compare
import Verif.Props.CscConv

/-!
# Comparison and dense copies (C79)

Arrays are C arrays in raw memory (`none` is undefined behaviour); `V.entry r c` is an entry of the denoted matrix (`Csc/Spec.lean`).
-/

set_option linter.unusedSectionVars false
namespace Osqp.Csc
open Finset

variable {K : Type*} [Field K] [LinearOrder K] [IsStrictOrderedRing K] {A B M : Csc K} {V W : View K}

/-- The same pattern, and values that differ by at most `tol`. -/
structure Close (V W : View K) (tol : K) : Prop where
  n : V.n = W.n
  p : ∀ j ≤ V.n, V.p j = W.p j
  i : ∀ k < V.nnz, V.i k = W.i k
  x : ∀ k < V.nnz, |V.x k - W.x k| ≤ tol

theorem isEqCol_ok (hA : Rep A V) (hB : Rep B W) (tol : K) {s e : ℕ} (hse : s ≤ e) (h1 : e ≤ V.nnz) (h2 : e ≤ W.nnz) :
    ∃ b : Bool, isEqCol A B tol s e = some b ∧ (b = true ↔ ∀ k, s ≤ k → k < e → V.i k = W.i k ∧ |V.x k - W.x k| ≤ tol) := by
  unfold isEqCol
  refine forI_nat (lo := s) (hi := e) (s := true) (fun t (b : Bool) => b = true ↔ ∀ k, s ≤ k → k < t → V.i k = W.i k ∧ |V.x k - W.x k| ≤ tol) hse
    ⟨fun _ k a b => absurd b (by omega), fun _ => rfl⟩ fun t b ht1 ht2 hb => ?_
  cases b with
  | false =>
    refine ⟨false, rfl, ?_⟩
    have : ¬ ∀ k, s ≤ k → k < t → V.i k = W.i k ∧ |V.x k - W.x k| ≤ tol := fun hh => by simpa using hb.2 hh
    exact ⟨fun h => (Bool.false_ne_true h).elim, fun hh => absurd (fun k a b => hh k a (by omega)) this⟩
  | true =>
    have hb := hb.1 rfl
    simp only [if_true]
    rw [hA.rdI (by omega), hB.rdI (by omega)]
    simp only [Option.bind_some]
    by_cases c : V.i t = W.i t
    · rw [if_neg (by simp [c]), hA.x.rd (by omega), hB.x.rd (by omega)]
      refine ⟨_, rfl, ?_⟩
      constructor
      · intro h k a b
        rcases Nat.lt_succ_iff_lt_or_eq.1 b with b | rfl
        · exact hb k a b
        · exact ⟨c, by simpa using h⟩
      · intro h
        simpa using (h t ht1 (by omega)).2
    · rw [if_pos (by simpa using c)]
      exact ⟨false, rfl, fun h => (Bool.false_ne_true h).elim, fun h => absurd (h t ht1 (by omega)).1 c⟩

/-- **C79** (comparison).  The comparison reads inside the arrays only, and says yes exactly for the same number of columns, the same pattern and values within `tol`. -/
theorem c79_compare (hA : Rep A V) (hB : Rep B W) (tol : K) : ∃ b : Bool, isEq A B tol = some b ∧ (b = true ↔ Close V W tol) := by
  unfold isEq
  by_cases hn : V.n = W.n
  swap
  · rw [if_pos (by rw [hA.n, hB.n]; exact_mod_cast hn)]
    exact ⟨false, rfl, fun h => (Bool.false_ne_true h).elim, fun h => absurd h.n hn⟩
  rw [if_neg (by rw [hA.n, hB.n, hn]; simp), hA.n]
  have key := forI_zero (hi := V.n) (s := true) (f := fun j (ok : Bool) => if ok then
    (A.p.rd (j + 1)).bind fun a => (B.p.rd (j + 1)).bind fun b => if a ≠ b then some false else
    (A.p.rd j).bind fun s => isEqCol A B tol s a else some false)
    (fun t (b : Bool) => b = true ↔ (∀ j ≤ t, V.p j = W.p j) ∧ ∀ k < V.p t, V.i k = W.i k ∧ |V.x k - W.x k| ≤ tol)
    ⟨fun _ => ⟨fun j hj => by rw [Nat.le_zero.1 hj, hA.valid.zero, hB.valid.zero], fun k hk => absurd hk (by rw [hA.valid.zero]; omega)⟩, fun _ => rfl⟩
    (fun t b ht hb => by
      have hm := hA.valid.mono t ht
      cases b with
      | false =>
        refine ⟨false, rfl, fun h => (Bool.false_ne_true h).elim, fun hh => ?_⟩
        have := hb.2 ⟨fun j hj => hh.1 j (by omega), fun k hk => hh.2 k (by omega)⟩
        cases this
      | true =>
        obtain ⟨g1, g2⟩ := hb.1 rfl
        simp only [if_true]
        rw [hA.p.rd' (k := t + 1) (by push_cast; rfl) (by omega), hB.p.rd' (k := t + 1) (by push_cast; rfl) (by omega)]
        simp only [Option.bind_some]
        by_cases c : V.p (t + 1) = W.p (t + 1)
        · rw [if_neg (by simp [c]), hA.p.rd (k := t) (by omega)]
          simp only [Option.bind_some]
          obtain ⟨b, e, hb'⟩ := isEqCol_ok hA hB tol hm (hA.valid.le (by omega) le_rfl) (by rw [c]; exact hB.valid.le (by omega) le_rfl)
          refine ⟨b, e, hb'.trans ⟨fun h => ⟨fun j hj => ?_, fun k hk => ?_⟩, fun h k a b => h.2 k b⟩⟩
          · rcases Nat.lt_succ_iff_lt_or_eq.1 (Nat.lt_succ_of_le hj) with a | rfl
            · exact g1 j (by omega)
            · exact c
          · by_cases a : k < V.p t
            · exact g2 k a
            · exact h k (by omega) hk
        · rw [if_pos (by simpa using c)]
          exact ⟨false, rfl, fun h => (Bool.false_ne_true h).elim, fun h => absurd (h.1 _ le_rfl) c⟩)
  obtain ⟨b, e, hb⟩ := key
  exact ⟨b, e, hb.trans ⟨fun h => ⟨hn, h.1, fun k hk => (h.2 k hk).1, fun k hk => (h.2 k hk).2⟩, fun h => ⟨h.p, fun k hk => ⟨h.i k hk, h.x k hk⟩⟩⟩⟩

/-- With tolerance 0, matrices that compare equal have equal entries. -/
theorem c79_compare_entries (hA : Rep A V) (hB : Rep B W) (h : isEq A B 0 = some true) {r c : ℕ} (hc : c < V.n) : V.entry r c = W.entry r c := by
  obtain ⟨b, e, hb⟩ := c79_compare hA hB (0 : K)
  obtain rfl : b = true := Option.some.inj (e.symm.trans h)
  have g := hb.1 rfl
  unfold View.entry
  rw [← g.p c (by omega), ← g.p (c + 1) (by omega)]
  refine sum_congr rfl fun k hk => ?_
  have hk' := hA.valid.lt_nnz hc (mem_Ico.1 hk).2
  rw [g.i k hk', sub_eq_zero.1 (abs_eq_zero.1 (le_antisymm (g.x k hk') (abs_nonneg _)))]

/-- **C79, rows are not compared.**  A matrix with one more (empty) row compares equal to the original, for every matrix and every tolerance that is not negative. -/
theorem c79_rows_ignored (hA : Rep A V) {tol : K} (ht : 0 ≤ tol) :
    Rep { A with m := A.m + 1 } { V with m := V.m + 1 } ∧ isEq A { A with m := A.m + 1 } tol = some true := by
  have hB : Rep { A with m := A.m + 1 } { V with m := V.m + 1 } :=
    ⟨by show A.m + 1 = _; rw [hA.m]; push_cast; rfl, hA.n, ⟨hA.valid.zero, hA.valid.mono, fun k hk => Nat.lt_succ_of_lt (hA.valid.rows k hk)⟩, hA.p, hA.i, hA.x⟩
  obtain ⟨b, e, hb⟩ := c79_compare hA hB tol
  rw [hb.2 ⟨rfl, fun _ _ => rfl, fun _ _ => rfl, fun k _ => by simpa using ht⟩] at e
  exact ⟨hB, e⟩

/-! ## Dense copy -/

theorem nextCol_ok (h : Rep M V) {k : ℕ} (hk : k < V.nnz) : ∀ (fuel j : ℕ), j ≤ V.col k → V.col k < j + fuel → nextCol M k fuel j = some (V.col k : ℤ)
  | 0, j, h1, h2 => by omega
  | fuel + 1, j, h1, h2 => by
    obtain ⟨c1, c2, c3⟩ := h.valid.col_spec hk
    unfold nextCol
    rw [h.p.rd' (k := j + 1) (by push_cast; rfl) (by omega)]
    simp only [Option.bind_some]
    by_cases e : j = V.col k
    · rw [if_neg (by rw [e]; omega), e]
    · have : V.p (j + 1) ≤ V.p (V.col k) := h.valid.le (by omega) (by omega)
      rw [if_pos (by omega)]
      have := nextCol_ok h hk fuel (j + 1) (by omega) (by omega)
      push_cast at this
      exact this

/-- The value last stored at row `r` of column `c` among the first `t` entries, 0 if there is none. -/
def lastAt (V : View K) (r c : ℕ) : ℕ → K
  | 0 => 0
  | t + 1 => if V.col t = c ∧ V.i t = r then V.x t else lastAt V r c t

/-- **C79** (dense copy).  The dense copy writes inside its array only; the cell of row `r` and column `c` holds the value stored last for this position. -/
theorem c79_dense (h : Rep M V) : ∃ D, toDns M = some D ∧ D.size = V.m * V.n ∧ ∀ c < V.n, ∀ r < V.m, D.cell (c * V.m + r) = some (lastAt V r c V.nnz) := by
  have key := forI_zero (hi := V.nnz) (s := ((0 : ℤ), (Buf.zeroed (M.m * M.n) 0 : Buf K))) (f := fun idx (s : ℤ × Buf K) =>
    (M.i.rd idx).bind fun i => (nextCol M idx (M.n.toNat + 1) s.1).bind fun j =>
    (M.x.rd idx).bind fun v => (s.2.wr (j * M.m + i) v).bind fun A => some (j, A))
    (fun t s => (∃ j : ℕ, s.1 = j ∧ ∀ k, t ≤ k → k < V.nnz → j ≤ V.col k) ∧ s.2.size = V.m * V.n ∧ ∀ c < V.n, ∀ r < V.m, s.2.cell (c * V.m + r) = some (lastAt V r c t))
    ⟨⟨0, rfl, fun _ _ _ => Nat.zero_le _⟩, by show (M.m * M.n).toNat = _; rw [h.m, h.n]; exact_mod_cast rfl, fun _ _ _ _ => rfl⟩
    (fun t s ht hs => by
      obtain ⟨⟨j, hj, hj'⟩, hsz, hc⟩ := hs
      obtain ⟨c1, c2, c3⟩ := h.valid.col_spec ht
      have hi := h.valid.rows t ht
      have hlt : V.col t * V.m + V.i t < V.m * V.n := by
        have : (V.col t + 1) * V.m ≤ V.n * V.m := Nat.mul_le_mul_right _ c1
        rw [Nat.add_mul, one_mul] at this
        rw [Nat.mul_comm V.m]; omega
      refine ⟨((V.col t : ℤ), s.2.set (V.col t * V.m + V.i t) (V.x t)), ?_, ⟨_, rfl, fun k hk1 hk2 => ?_⟩, hsz, fun c hc1 r hr => ?_⟩
      · rw [h.rdI ht]; simp only [Option.bind_some]
        rw [hj, nextCol_ok h ht _ _ (hj' t le_rfl ht) (by rw [h.n]; simp; omega)]; simp only [Option.bind_some]
        rw [h.x.rd ht]; simp only [Option.bind_some]
        have : ((V.col t : ℤ) * M.m + (V.i t : ℤ)) = ((V.col t * V.m + V.i t : ℕ) : ℤ) := by rw [h.m]; push_cast; rfl
        rw [this, Buf.wr_eq (by omega)]; rfl
      · obtain ⟨d1, d2, d3⟩ := h.valid.col_spec hk2
        by_contra hcon
        have : V.p (V.col k + 1) ≤ V.p (V.col t) := h.valid.le (by omega) (by omega)
        omega
      · rw [Buf.set_cell]
        show _ = some (if V.col t = c ∧ V.i t = r then V.x t else lastAt V r c t)
        by_cases e : V.col t = c ∧ V.i t = r
        · rw [if_pos e, if_pos (by rw [e.1, e.2])]
        · rw [if_neg e, if_neg, hc c hc1 r hr]
          intro e'
          apply e
          have hm : 0 < V.m := by omega
          have a1 : (c * V.m + r) / V.m = c := by rw [Nat.mul_comm, Nat.mul_add_div hm, Nat.div_eq_of_lt hr]; rfl
          have a2 : (V.col t * V.m + V.i t) / V.m = V.col t := by rw [Nat.mul_comm, Nat.mul_add_div hm, Nat.div_eq_of_lt hi]; rfl
          have e1 : V.col t = c := by rw [← a1, ← a2, e']
          refine ⟨e1, ?_⟩
          rw [e1] at e'; omega)
  obtain ⟨s, e, _, h2, h3⟩ := key
  refine ⟨s.2, ?_, h2, h3⟩
  unfold toDns
  rw [h.rdNnz]; simp only [Option.bind_some]
  rw [e]; rfl

/-- Without positions stored twice the dense copy is the matrix. -/
theorem c79_dense_entries (h : Rep M V) (hd : V.NoDup) : ∃ D, toDns M = some D ∧ ∀ c < V.n, ∀ r < V.m, D.cell (c * V.m + r) = some (V.entry r c) := by
  obtain ⟨D, e, _, hD⟩ := c79_dense h
  refine ⟨D, e, fun c hc r hr => ?_⟩
  rw [hD c hc r hr]
  congr 1
  have key : ∀ t ≤ V.nnz, lastAt V r c t = ∑ k ∈ range t, if V.col k = c ∧ V.i k = r then V.x k else 0 := by
    intro t
    induction t with
    | zero => intro _; rfl
    | succ t ih =>
      intro ht
      rw [sum_range_succ]
      show (if V.col t = c ∧ V.i t = r then V.x t else lastAt V r c t) = _
      by_cases e : V.col t = c ∧ V.i t = r
      · rw [if_pos e, if_pos e, sum_eq_zero, zero_add]
        intro k hk
        have hk := mem_range.1 hk
        rw [if_neg]
        intro e2
        obtain ⟨_, c2, c3⟩ := h.valid.col_spec (k := t) (by omega)
        obtain ⟨_, d2, d3⟩ := h.valid.col_spec (k := k) (by omega)
        rw [e.1] at c2 c3; rw [e2.1] at d2 d3
        have := hd c hc t k c2 c3 d2 d3 (e.2.trans e2.2.symm)
        omega
      · rw [if_neg e, if_neg e, add_zero]; exact ih (by omega)
  rw [key _ le_rfl]
  unfold View.entry
  have hsub : Ico (V.p c) (V.p (c + 1)) ⊆ range V.nnz := fun k hk => mem_range.2 (h.valid.lt_nnz hc (mem_Ico.1 hk).2)
  rw [← sum_subset hsub (f := fun k => if V.col k = c ∧ V.i k = r then V.x k else 0)]
  · refine sum_congr rfl fun k hk => ?_
    have := h.valid.col_eq hc (mem_Ico.1 hk).1 (mem_Ico.1 hk).2
    simp [this]
  · intro k hk hn
    rw [if_neg]
    rintro ⟨e, _⟩
    obtain ⟨_, d2, d3⟩ := h.valid.col_spec (mem_range.1 hk)
    rw [e] at d2 d3
    exact hn (mem_Ico.2 ⟨d2, d3⟩)

/-! ## Vectors -/

/-- **C79** (comparison of vectors). -/
theorem c79_vectors {a b : Buf K} {la lb : ℕ} {f g : ℕ → K} (ha : Holds a la f) (hb : Holds b lb g) (tol : K) :
    ∃ r : Bool, vecIsEq a b la lb tol = some r ∧ (r = true ↔ la = lb ∧ ∀ k < la, |f k - g k| ≤ tol) := by
  unfold vecIsEq
  by_cases hl : la = lb
  swap
  · rw [if_pos (by exact_mod_cast hl)]
    exact ⟨false, rfl, fun h => (Bool.false_ne_true h).elim, fun h => absurd h.1 hl⟩
  rw [if_neg (by simp [hl])]
  obtain ⟨r, e, hr⟩ := forI_zero (hi := la) (s := true)
    (f := fun i (ok : Bool) => (a.rd i).bind fun u => (b.rd i).bind fun v => some (if tol < |u - v| then false else ok))
    (fun t (r : Bool) => r = true ↔ ∀ k < t, |f k - g k| ≤ tol) ⟨fun _ k hk => absurd hk (by omega), fun _ => rfl⟩ (fun t r ht hr => by
      rw [ha.rd ht, hb.rd (by omega)]
      refine ⟨_, rfl, ?_⟩
      by_cases c : tol < |f t - g t|
      · rw [if_pos c]
        exact ⟨fun h => (Bool.false_ne_true h).elim, fun h => absurd (h t (by omega)) (not_le.2 c)⟩
      · rw [if_neg c, hr]
        refine ⟨fun h k hk => ?_, fun h k hk => h k (by omega)⟩
        rcases Nat.lt_succ_iff_lt_or_eq.1 hk with hk | rfl
        · exact h k hk
        · exact not_lt.1 c)
  exact ⟨r, e, hr.trans ⟨fun h => ⟨hl, h⟩, fun h => h.2⟩⟩

/-! ## Cases -/

example : isEq Demo.triu Demo.triu (1 / 100) = some true ∧ isEq Demo.triu Demo.rect (1 / 100) = some false := by decide +kernel
example : isEq Demo.rect { Demo.rect with m := Demo.rect.m + 1 } 0 = some true := (c79_rows_ignored Demo.rect_rep le_rfl).2
example : ∃ D, toDns Demo.rect = some D ∧ ∀ c < 3, ∀ r < 2, D.cell (c * 2 + r) = some (Demo.rectV.entry r c) := c79_dense_entries Demo.rect_rep Demo.rect_nodup

/-- One position stored twice, with values 1 and 2: the entry of the matrix is 3, the dense copy holds 2. -/
theorem c79_dense_counterexample : ∃ (M : Csc ℚ) (V : View ℚ), Rep M V ∧ V.entry 0 0 = 3 ∧ ∃ D, toDns M = some D ∧ D.cell 0 = some 2 :=
  ⟨Demo.csc 1 1 [0, 2] [0, 0] [1, 2], Demo.view 1 1 [0, 2] [0, 0] [1, 2], Demo.csc_rep ⟨by decide, by decide, by decide⟩ (by decide) (by decide) (by decide), by decide +kernel, by
    obtain ⟨D, e, _, h⟩ := c79_dense (Demo.csc_rep (K := ℚ) (m := 1) (n := 1) (p := [0, 2]) (i := [0, 0]) (x := [1, 2]) ⟨by decide, by decide, by decide⟩ (by decide) (by decide) (by decide))
    exact ⟨D, e, (h 0 (by decide) 0 (by decide)).trans (by decide +kernel)⟩⟩

example : vecIsEq Demo.v3 (Demo.buf [1, 2, 4]) 3 3 1 = some true ∧ vecIsEq Demo.v3 (Demo.buf [1, 2, 4]) 3 3 (1 / 2) = some false ∧ vecIsEq Demo.v3 Demo.v2 3 2 1 = some false := by decide +kernel

end Osqp.Csc
