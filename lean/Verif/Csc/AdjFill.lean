import Verif.Csc.DerivGet
import Verif.Csc.KktMain

/-!
# The assembled matrix of the adjoint system
-/

set_option linter.unusedSectionVars false
namespace Osqp.Csc
open Finset

variable {K : Type*} [Field K] [LinearOrder K]

/-- Diagonal values of a block. -/
def dv (r0 c0 : ℕ) (D : ℕ → K) (t : ℕ) : List (Ent K) := [⟨t + c0, t + r0, D t⟩]

theorem dv_length (r0 c0 : ℕ) (D : ℕ → K) (k : ℕ) : (pre (dv r0 c0 D) k).length = k := pre_length_one (fun _ => rfl) k

theorem cnt_dv (r0 c0 : ℕ) (D : ℕ → K) (k c : ℕ) : cnt (pre (dv r0 c0 D) k) c = cnt (pre (dg c0) k : List (Ent K)) c := by
  rw [cnt_pre, cnt_pre]; exact sum_congr rfl fun t _ => by simp [dv, dg]

theorem fillDiagValues_holds {N : ℕ} {all es rest : List (Ent K)} {s s0 : Slots K} {r0 c0 m : ℕ} {D : ℕ → K} {val : ℤ → Option K} (hval : ∀ t < m, val (t : ℤ) = some (D t))
    (hall : all = es ++ (pre (dv r0 c0 D) m ++ rest)) (ha : InCols N all) (hf : Filling N all es s0 s) :
    ∃ s', fillDiagValues s (r0 : ℤ) (c0 : ℤ) val (m : ℤ) = some s' ∧ Filling N all (es ++ pre (dv r0 c0 D) m) s0 s' := by
  unfold fillDiagValues
  refine forI_zero (hi := m) (s := s) (fun k s' => Filling N all (es ++ pre (dv r0 c0 D) k) s0 s') (by simpa using hf) ?_
  intro k s' hk h1
  obtain ⟨rs, hrs⟩ := pre_split (dv r0 c0 D) hk
  have hall' : all = (es ++ pre (dv r0 c0 D) k) ++ (⟨k + c0, k + r0, D k⟩ : Ent K) :: (rs ++ rest) := by
    rw [hall, hrs]; simp [dv, List.append_assoc]
  obtain ⟨s2, e, hf2, g1, g2, g3, _⟩ := h1.f.put ha hall' (col := (k : ℤ) + (c0 : ℤ)) (row := (k : ℤ) + (r0 : ℤ)) (by simp) (by simp)
  rw [hval k hk]
  simp only [Option.bind_some]
  rw [e]
  refine ⟨_, rfl, ?_, by rw [g1, h1.ps], by rw [g2, h1.is], by rw [g3, h1.xs]⟩
  rw [pre_succ, ← List.append_assoc]
  exact hf2

/-! ## What the pieces stand for -/

theorem View.Valid.entry_out {V : View K} (h : V.Valid) {r c : ℕ} (hc : c < V.n) (hr : V.m ≤ r) : V.entry r c = 0 := by
  unfold View.entry
  refine sum_eq_zero fun k hk => ?_
  rw [mem_Ico] at hk
  have := h.rows k (h.lt_nnz hc hk.2)
  rw [if_neg (by omega)]

theorem matOf_blk_false {V : View K} (h : V.Valid) (r0 c0 r c : ℕ) : matOf (pre (blk V r0 c0 false) V.nnz) r c =
    if (r0 ≤ r ∧ r - r0 < V.m) ∧ c0 ≤ c ∧ c - c0 < V.n then V.entry (r - r0) (c - c0) else 0 := by
  rw [matOf_pre]
  by_cases h1 : c0 ≤ c ∧ c - c0 < V.n
  · by_cases h2 : r0 ≤ r
    · have : (∑ k ∈ range V.nnz, matOf (blk V r0 c0 false k) r c) = V.entry (r - r0) (c - c0) := by
        rw [entry_full h _ h1.2]
        refine sum_congr rfl fun k _ => ?_
        unfold blk blkE
        rw [if_neg (by simp), matOf_cons, matOf_nil, add_zero]
        exact if_congr ⟨fun h => ⟨by have := h.1; simp only at this; omega, by have := h.2; simp only at this; omega⟩, fun h => ⟨by simp only; omega, by simp only; omega⟩⟩ rfl rfl
      rw [this]
      by_cases h3 : r - r0 < V.m
      · rw [if_pos ⟨⟨h2, h3⟩, h1⟩]
      · rw [if_neg (fun h => h3 h.1.2), h.entry_out h1.2 (by omega)]
    · rw [if_neg (fun h => h2 h.1.1)]
      refine sum_eq_zero fun k _ => ?_
      unfold blk blkE
      rw [if_neg (by simp), matOf_cons, matOf_nil, add_zero, if_neg]
      rintro ⟨h3, _⟩; simp only at h3; omega
  · rw [if_neg (fun h => h1 h.2)]
    refine sum_eq_zero fun k hk => ?_
    have := (h.col_spec (mem_range.1 hk)).1
    unfold blk blkE
    rw [if_neg (by simp), matOf_cons, matOf_nil, add_zero, if_neg]
    rintro ⟨_, h3⟩; simp only at h3; omega

theorem matOf_blk_true {V : View K} (h : V.Valid) (r0 c0 r c : ℕ) : matOf (pre (blk V r0 c0 true) V.nnz) r c =
    if (r0 ≤ r ∧ r - r0 < V.n) ∧ c0 ≤ c ∧ c - c0 < V.m then V.entry (c - c0) (r - r0) else 0 := by
  have : matOf (pre (blk V r0 c0 true) V.nnz) r c = matOf (pre (blk V c0 r0 false) V.nnz) c r := by
    rw [matOf_pre, matOf_pre]
    refine sum_congr rfl fun k _ => ?_
    unfold blk blkE
    rw [if_pos rfl, if_neg (by simp), matOf_cons, matOf_cons, matOf_nil, matOf_nil]
    exact congrArg (· + 0) (if_congr ⟨fun h => ⟨h.2, h.1⟩, fun h => ⟨h.2, h.1⟩⟩ rfl rfl)
  rw [this, matOf_blk_false h]
  exact if_congr ⟨fun h => ⟨h.2, h.1⟩, fun h => ⟨h.2, h.1⟩⟩ rfl rfl

theorem matOf_dv (r0 c0 : ℕ) (D : ℕ → K) (m r c : ℕ) : matOf (pre (dv r0 c0 D) m) r c = if (r0 ≤ r ∧ r - r0 < m) ∧ c = r - r0 + c0 then D (r - r0) else 0 := by
  rw [matOf_pre]
  by_cases h : (r0 ≤ r ∧ r - r0 < m) ∧ c = r - r0 + c0
  · rw [if_pos h, sum_eq_single (r - r0)]
    · unfold dv; rw [matOf_cons, matOf_nil, add_zero, if_pos ⟨by simp only; omega, by simp only; omega⟩]
    · intro t _ hne
      unfold dv; rw [matOf_cons, matOf_nil, add_zero, if_neg]
      rintro ⟨h1, _⟩; simp only at h1; omega
    · intro h1; exact absurd (mem_range.2 h.1.2) h1
  · rw [if_neg h]
    refine sum_eq_zero fun t ht => ?_
    rw [mem_range] at ht
    unfold dv; rw [matOf_cons, matOf_nil, add_zero, if_neg]
    rintro ⟨h1, h2⟩
    simp only at h1 h2
    exact h ⟨⟨by omega, by omega⟩, by omega⟩

/-! ## All entries -/

section
variable (n x y : ℕ) (VP VG VE VL : View K) (S : ℕ → K)

/-- The entries between the two outer diagonals. -/
def adjMid : List (Ent K) :=
  pre (blk VP 0 (n + x + y) false) VP.nnz ++ (pre (blk VG n (n + x + y) false) VG.nnz ++ (pre (blk VE (n + x) (n + x + y) false) VE.nnz ++
  (pre (blk VL 0 (n + x + y + n) true) VL.nnz ++ (pre (dv n (n + x + y + n) S) x ++ pre (blk VE 0 (n + x + y + n + x) true) VE.nnz))))

/-- All entries, with the values `a` and `b` on the outer diagonals. -/
def adjEnts (a b : K) : List (Ent K) :=
  pre (dv 0 0 fun _ => a) (n + x + y) ++ (adjMid n x y VP VG VE VL S ++ pre (dv (n + x + y) (n + x + y) fun _ => b) (n + x + y))

theorem adjEnts_length (a b : K) : (adjEnts n x y VP VG VE VL S a b).length =
    (n + x + y) + (VP.nnz + VG.nnz + VE.nnz + VL.nnz + x + VE.nnz) + (n + x + y) := by
  unfold adjEnts adjMid
  simp only [List.length_append, blk_length, dv_length]
  omega
end

/-- The blocks have the sizes of the system. -/
structure Blocks (n x y : ℕ) (VP VG VE VL : View K) : Prop where
  P : VP.Valid
  G : VG.Valid
  E : VE.Valid
  L : VL.Valid
  Pm : VP.m = n
  Pn : VP.n = n
  Gm : VG.m = x
  Gn : VG.n = n
  Em : VE.m = y
  En : VE.n = n
  Lm : VL.m = x
  Ln : VL.n = n

variable {n x y : ℕ} {VP VG VE VL : View K} {S : ℕ → K}

theorem adjMid_bounds (h : Blocks n x y VP VG VE VL) : ∀ e ∈ adjMid n x y VP VG VE VL S, e.r < n + x + y ∧ n + x + y ≤ e.c ∧ e.c < 2 * (n + x + y) := by
  have h1 := h.Pm; have h2 := h.Pn; have h3 := h.Gm; have h4 := h.Gn; have h5 := h.Em; have h6 := h.En; have h7 := h.Lm; have h8 := h.Ln
  intro e he
  unfold adjMid at he
  simp only [List.mem_append] at he
  rcases he with he | he | he | he | he | he
  · revert e; exact pre_all fun k hk e he => by
      rw [blk, List.mem_singleton] at he
      rw [he]; have := (h.P.col_spec hk).1; have := h.P.rows k hk; simp [blkE]; omega
  · revert e; exact pre_all fun k hk e he => by
      rw [blk, List.mem_singleton] at he
      rw [he]; have := (h.G.col_spec hk).1; have := h.G.rows k hk; simp [blkE]; omega
  · revert e; exact pre_all fun k hk e he => by
      rw [blk, List.mem_singleton] at he
      rw [he]; have := (h.E.col_spec hk).1; have := h.E.rows k hk; simp [blkE]; omega
  · revert e; exact pre_all fun k hk e he => by
      rw [blk, List.mem_singleton] at he
      rw [he]; have := (h.L.col_spec hk).1; have := h.L.rows k hk; simp [blkE]; omega
  · revert e; exact pre_all fun k hk e he => by
      rw [dv, List.mem_singleton] at he
      rw [he]; simp only; omega
  · revert e; exact pre_all fun k hk e he => by
      rw [blk, List.mem_singleton] at he
      rw [he]; have := (h.E.col_spec hk).1; have := h.E.rows k hk; simp [blkE]; omega

theorem adjEnts_bounds (h : Blocks n x y VP VG VE VL) (a b : K) : ∀ e ∈ adjEnts n x y VP VG VE VL S a b, e.r ≤ e.c ∧ e.c < 2 * (n + x + y) := by
  intro e he
  unfold adjEnts at he
  simp only [List.mem_append] at he
  rcases he with he | he | he
  · revert e; exact pre_all fun k hk e he => by
      rw [dv, List.mem_singleton] at he
      rw [he]; simp only; omega
  · have := adjMid_bounds h e he; omega
  · revert e; exact pre_all fun k hk e he => by
      rw [dv, List.mem_singleton] at he
      rw [he]; simp only; omega

theorem adjEnts_inCols (h : Blocks n x y VP VG VE VL) (a b : K) : InCols (2 * (n + x + y)) (adjEnts n x y VP VG VE VL S a b) := fun e he => (adjEnts_bounds h a b e he).2
theorem adjEnts_rows (h : Blocks n x y VP VG VE VL) (a b : K) : ∀ e ∈ adjEnts n x y VP VG VE VL S a b, e.r < 2 * (n + x + y) := fun e he => by
  have := adjEnts_bounds h a b e he; omega

/-- The matrix. -/
theorem adjEnts_matOf (h : Blocks n x y VP VG VE VL) (a b : K) {r c : ℕ} (hrc : r ≤ c) (hc : c < 2 * (n + x + y)) :
    matOf (adjEnts n x y VP VG VE VL S a b) r c =
      if r < n + x + y then
        if c < n + x + y then (if r = c then a else 0)
        else if r < n then
          if c - (n + x + y) < n then VP.entry r (c - (n + x + y)) else if c - (n + x + y) < n + x then VL.entry (c - (n + x + y) - n) r else VE.entry (c - (n + x + y) - (n + x)) r
        else if r < n + x then
          if c - (n + x + y) < n then VG.entry (r - n) (c - (n + x + y)) else if c - (n + x + y) = r then S (r - n) else 0
        else if c - (n + x + y) < n then VE.entry (r - (n + x)) (c - (n + x + y)) else 0
      else if r = c then b else 0 := by
  have h1 := h.Pm; have h2 := h.Pn; have h3 := h.Gm; have h4 := h.Gn; have h5 := h.Em; have h6 := h.En; have h7 := h.Lm; have h8 := h.Ln
  unfold adjEnts adjMid
  simp only [matOf_append]
  rw [matOf_blk_false h.P, matOf_blk_false h.G, matOf_blk_false h.E, matOf_blk_true h.L, matOf_blk_true h.E, matOf_dv, matOf_dv, matOf_dv, h1, h2, h3, h4, h5, h6, h7, h8]
  set N := n + x + y with hN
  simp only [Nat.sub_zero, Nat.zero_le, true_and]
  by_cases a1 : r < N
  · rw [if_pos a1]
    by_cases a2 : c < N
    · rw [if_pos a2]
      have c0 : ¬ N ≤ c := by omega
      rw [if_neg (c := (r < n) ∧ N ≤ c ∧ c - N < n) (fun h => c0 h.2.1), if_neg (c := (n ≤ r ∧ r - n < x) ∧ N ≤ c ∧ c - N < n) (fun h => c0 h.2.1),
        if_neg (c := (n + x ≤ r ∧ r - (n + x) < y) ∧ N ≤ c ∧ c - N < n) (fun h => c0 h.2.1), if_neg (c := r < n ∧ N + n ≤ c ∧ c - (N + n) < x) (fun h => c0 (by omega)),
        if_neg (c := (n ≤ r ∧ r - n < x) ∧ c = r - n + (N + n)) (fun h => c0 (by omega)), if_neg (c := r < n ∧ N + n + x ≤ c ∧ c - (N + n + x) < y) (fun h => c0 (by omega)),
        if_neg (c := (N ≤ r ∧ r - N < N) ∧ c = r - N + N) (fun h => c0 (by omega))]
      simp only [add_zero]
      exact if_congr ⟨fun h => by omega, fun h => ⟨a1, by omega⟩⟩ rfl rfl
    · rw [if_neg a2, if_neg (c := r < N ∧ c = r + 0) (by omega), if_neg (c := (N ≤ r ∧ r - N < N) ∧ c = r - N + N) (by omega)]
      simp only [add_zero, zero_add]
      by_cases a3 : r < n
      · rw [if_pos a3, if_neg (c := (n ≤ r ∧ r - n < x) ∧ N ≤ c ∧ c - N < n) (by omega), if_neg (c := (n + x ≤ r ∧ r - (n + x) < y) ∧ N ≤ c ∧ c - N < n) (by omega),
          if_neg (c := (n ≤ r ∧ r - n < x) ∧ c = r - n + (N + n)) (by omega)]
        simp only [zero_add]
        by_cases a4 : c - N < n
        · rw [if_pos a4, if_pos (c := r < n ∧ N ≤ c ∧ c - N < n) (by omega), if_neg (c := r < n ∧ N + n ≤ c ∧ c - (N + n) < x) (by omega),
            if_neg (c := r < n ∧ N + n + x ≤ c ∧ c - (N + n + x) < y) (by omega), add_zero, add_zero]
        · rw [if_neg a4, if_neg (c := r < n ∧ N ≤ c ∧ c - N < n) (by omega)]
          by_cases a5 : c - N < n + x
          · rw [if_pos a5, if_pos (c := r < n ∧ N + n ≤ c ∧ c - (N + n) < x) (by omega),
              if_neg (c := r < n ∧ N + n + x ≤ c ∧ c - (N + n + x) < y) (by omega), add_zero, zero_add, show c - (N + n) = c - N - n by omega]
          · rw [if_neg a5, if_neg (c := r < n ∧ N + n ≤ c ∧ c - (N + n) < x) (by omega),
              if_pos (c := r < n ∧ N + n + x ≤ c ∧ c - (N + n + x) < y) (by omega), zero_add, zero_add, show c - (N + n + x) = c - N - (n + x) by omega]
      · rw [if_neg a3, if_neg (c := r < n ∧ N ≤ c ∧ c - N < n) (by omega), if_neg (c := r < n ∧ N + n ≤ c ∧ c - (N + n) < x) (by omega),
          if_neg (c := r < n ∧ N + n + x ≤ c ∧ c - (N + n + x) < y) (by omega)]
        simp only [zero_add, add_zero]
        by_cases a4 : r < n + x
        · rw [if_pos a4, if_neg (c := (n + x ≤ r ∧ r - (n + x) < y) ∧ N ≤ c ∧ c - N < n) (by omega), zero_add]
          by_cases a5 : c - N < n
          · rw [if_pos a5, if_pos (c := (n ≤ r ∧ r - n < x) ∧ N ≤ c ∧ c - N < n) (by omega), if_neg (c := (n ≤ r ∧ r - n < x) ∧ c = r - n + (N + n)) (by omega), add_zero]
          · rw [if_neg a5, if_neg (c := (n ≤ r ∧ r - n < x) ∧ N ≤ c ∧ c - N < n) (by omega), zero_add]
            exact if_congr ⟨fun h => by omega, fun h => by omega⟩ rfl rfl
        · rw [if_neg a4, if_neg (c := (n ≤ r ∧ r - n < x) ∧ N ≤ c ∧ c - N < n) (by omega), if_neg (c := (n ≤ r ∧ r - n < x) ∧ c = r - n + (N + n)) (by omega), zero_add, add_zero]
          exact if_congr ⟨fun h => by omega, fun h => by omega⟩ rfl rfl
  · rw [if_neg a1, if_neg (c := r < N ∧ c = r + 0) (by omega), if_neg (c := r < n ∧ N ≤ c ∧ c - N < n) (by omega), if_neg (c := (n ≤ r ∧ r - n < x) ∧ N ≤ c ∧ c - N < n) (by omega),
      if_neg (c := (n + x ≤ r ∧ r - (n + x) < y) ∧ N ≤ c ∧ c - N < n) (by omega), if_neg (c := r < n ∧ N + n ≤ c ∧ c - (N + n) < x) (by omega),
      if_neg (c := (n ≤ r ∧ r - n < x) ∧ c = r - n + (N + n)) (by omega), if_neg (c := r < n ∧ N + n + x ≤ c ∧ c - (N + n + x) < y) (by omega)]
    simp only [zero_add]
    exact if_congr ⟨fun h => by omega, fun h => by omega⟩ rfl rfl

end Osqp.Csc
