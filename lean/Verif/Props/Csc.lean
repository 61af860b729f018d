import Verif.Csc.Norms
import Verif.Csc.Demo

/-!
# Sparse matrix products, norms, diagonals and scalings (C36, C37)

The matrix is the C struct in raw memory.  `some y'` in a conclusion says that the call reads no uninitialised cell and
stays inside every array.  `V.entry r c` is the entry of the denoted matrix (`Csc/Spec.lean`).
-/

set_option linter.unusedSectionVars false
namespace Osqp.Csc
open Finset Spec

variable {K : Type*} [Field K] [LinearOrder K] {V : View K} {M : Csc K}

/-- **C36** (plain product).  For every well-formed matrix and all `alpha`, `beta`, `csc_Axpy` leaves
`alpha*A*x + beta*y` in `y`.  With `beta = 0` the old contents of `y` need not be initialised. -/
theorem c36_axpy (h : Rep M V) {x y : Buf K} {X Y : ℕ → K} (alpha beta : K) (hx : Holds x V.n X) (hs : V.m ≤ y.size)
    (hy : beta = 0 ∨ Holds y V.m Y) :
    ∃ y', axpy M x y alpha beta = some y' ∧
      Holds y' V.m (fun r => alpha * (∑ c ∈ range V.n, V.entry r c * X c) + beta * Y r) := by
  obtain ⟨y', e, h'⟩ := h.axpy_aux (alpha := alpha) hx hs hy
  refine ⟨y', e, h'.congr fun r _ => ?_⟩
  rw [add_comm]
  congr 1
  · congr 1; exact sum_congr rfl fun c _ => (sum_entry V r c (X c)).symm
  · split_ifs with h0 <;> simp [h0]

/-- **C36** (transposed product). -/
theorem c36_atxpy (h : Rep M V) {x y : Buf K} {X Y : ℕ → K} (alpha beta : K) (hx : Holds x V.m X) (hs : V.n ≤ y.size)
    (hy : beta = 0 ∨ Holds y V.n Y) :
    ∃ y', atxpy M x y alpha beta = some y' ∧
      Holds y' V.n (fun c => alpha * (∑ r ∈ range V.m, V.entry r c * X r) + beta * Y c) := by
  obtain ⟨y', e, h'⟩ := h.atxpy_aux (alpha := alpha) hx hs hy
  refine ⟨y', e, h'.congr fun c hc => ?_⟩
  rw [add_comm]
  congr 1
  · congr 1
    rw [sum_eq_single c, ← sum_rows V h.valid hc X]
    · exact sum_congr rfl fun k _ => by rw [if_pos rfl]
    · intro j _ hj; exact sum_eq_zero fun k _ => by rw [if_neg hj]
    · intro hn; exact absurd (mem_range.2 hc) hn
  · split_ifs with h0 <;> simp [h0]

/-- **C36** (symmetric matrix of which the upper triangle is stored). -/
theorem c36_axpy_sym (h : Rep M V) (hsq : V.m = V.n) (ht : V.Triu) {x y : Buf K} {X Y : ℕ → K} (alpha beta : K) (hx : Holds x V.n X)
    (hs : V.n ≤ y.size) (hy : beta = 0 ∨ Holds y V.n Y) :
    ∃ y', axpySymTriu M x y alpha beta = some y' ∧
      Holds y' V.n (fun r => alpha * (∑ c ∈ range V.n, V.symEntry r c * X c) + beta * Y r) := by
  obtain ⟨y', e, h'⟩ := h.axpySym_aux hsq (alpha := alpha) hx hs hy
  refine ⟨y', e, h'.congr fun r hr => ?_⟩
  rw [add_comm]
  congr 1
  · rw [sum_symContrib h.valid ht hsq X hr]
  · split_ifs with h0 <;> simp [h0]

/-- The hypotheses are met by a rectangular matrix with an empty column and by an upper triangle without full diagonal. -/
example : (∃ y', axpy Demo.rect Demo.v3 Demo.v2 2 (-1) = some y' ∧ Holds y' 2 (fun r => 2 * (∑ c ∈ range 3, Demo.rectV.entry r c * Demo.f3 c) + -1 * Demo.f2 r)) ∧
    (∃ y', atxpy Demo.rect Demo.v2 Demo.v3 (-1) 3 = some y' ∧ Holds y' 3 (fun r => -1 * (∑ c ∈ range 2, Demo.rectV.entry c r * Demo.f2 c) + 3 * Demo.f3 r)) ∧
    (∃ y', axpySymTriu Demo.triu Demo.v3 Demo.v3 1 0 = some y' ∧ Holds y' 3 (fun r => 1 * (∑ c ∈ range 3, Demo.triuV.symEntry r c * Demo.f3 c) + 0 * Demo.f3 r)) :=
  ⟨c36_axpy Demo.rect_rep 2 (-1) Demo.v3_holds (by decide) (Or.inr Demo.v2_holds), c36_atxpy Demo.rect_rep (-1) 3 Demo.v2_holds (by decide) (Or.inr Demo.v3_holds),
    c36_axpy_sym Demo.triu_rep rfl Demo.triu_triu 1 0 Demo.v3_holds (by decide) (Or.inl rfl)⟩

variable [IsStrictOrderedRing K]

/-- **C37** (column norms): for a matrix that stores no position twice. -/
theorem c37_col_norm (h : Rep M V) (hd : V.NoDup) {E : Buf K} (hs : V.n ≤ E.size) :
    ∃ E', colNormInf M E = some E' ∧ Holds E' V.n (fun c => normInf fun r : Fin V.m => V.entry r c) := by
  obtain ⟨E', e, h'⟩ := h.colNorm_aux hs
  refine ⟨E', e, h'.congr fun c hc => mx_norm _ ?_ ?_⟩
  · intro k hk hh
    obtain ⟨_, h1, h2⟩ := h.valid.col_spec hk
    rw [hh] at h1 h2
    exact ⟨⟨V.i k, h.valid.rows k hk⟩, hd.entry_eq hc h1 h2⟩
  · intro r
    rcases hd.entry_cases (r := r) hc with h0 | ⟨k, h1, h2, _, h4⟩
    · exact Or.inl h0
    · exact Or.inr ⟨k, h.valid.lt_nnz hc h2, h.valid.col_eq hc h1 h2, h4⟩

/-- **C37** (row norms). -/
theorem c37_row_norm (h : Rep M V) (hd : V.NoDup) {E : Buf K} (hs : V.m ≤ E.size) :
    ∃ E', rowNormInf M E = some E' ∧ Holds E' V.m (fun r => normInf fun c : Fin V.n => V.entry r c) := by
  obtain ⟨E', e, h'⟩ := h.rowNorm_aux hs
  refine ⟨E', e, h'.congr fun r hr => mx_norm _ ?_ ?_⟩
  · intro k hk hh
    obtain ⟨h0, h1, h2⟩ := h.valid.col_spec hk
    exact ⟨⟨V.col k, h0⟩, by rw [← hd.entry_eq h0 h1 h2, hh]⟩
  · intro c
    rcases hd.entry_cases (r := r) c.2 with h0 | ⟨k, h1, h2, h3, h4⟩
    · exact Or.inl h0
    · exact Or.inr ⟨k, h.valid.lt_nnz c.2 h2, h3, h4⟩

/-- **C37** (row norms of the symmetric matrix of which the upper triangle is stored). -/
theorem c37_row_norm_sym (h : Rep M V) (hd : V.NoDup) (hsq : V.m = V.n) (ht : V.Triu) {E : Buf K} (hs : V.n ≤ E.size) :
    ∃ E', rowNormInfSymTriu M E = some E' ∧ Holds E' V.n (fun r => normInf fun c : Fin V.n => V.symEntry r c) := by
  obtain ⟨E', e, h'⟩ := h.rowNormSym_aux hsq hs
  refine ⟨E', e, h'.congr fun r hr => mx_norm _ ?_ ?_⟩
  · intro k hk hh
    obtain ⟨h0, h1, h2⟩ := h.valid.col_spec hk
    have h3 := ht _ h0 k h1 h2
    have h4 := hd.entry_eq h0 h1 h2
    rcases hh with hh | hh
    · refine ⟨⟨V.col k, h0⟩, ?_⟩
      unfold View.symEntry
      rw [hh] at h3 h4
      rw [if_pos h3]; exact h4
    · refine ⟨⟨V.i k, hsq ▸ h.valid.rows k hk⟩, ?_⟩
      unfold View.symEntry
      rw [hh] at h3 h4
      by_cases h5 : r ≤ V.i k
      · have h6 : V.i k = r := by omega
        simp only [h6, le_refl, if_true]; rw [h6] at h4; exact h4
      · simp only [h5, if_false]; exact h4
  · intro c
    unfold View.symEntry
    by_cases h5 : r ≤ c
    · rw [if_pos h5]
      rcases hd.entry_cases (r := r) c.2 with h0 | ⟨k, h1, h2, h3, h4⟩
      · exact Or.inl h0
      · exact Or.inr ⟨k, h.valid.lt_nnz c.2 h2, Or.inl h3, h4⟩
    · rw [if_neg h5]
      rcases hd.entry_cases (r := c) hr with h0 | ⟨k, h1, h2, h3, h4⟩
      · exact Or.inl h0
      · exact Or.inr ⟨k, h.valid.lt_nnz hr h2, Or.inr (h.valid.col_eq hr h1 h2), h4⟩

/-- **C37** (diagonal extraction). -/
theorem c37_extract_diag (h : Rep M V) (hd : V.NoDup) {d : Buf K} (hs : V.n ≤ d.size) :
    ∃ d', extractDiag M d = some d' ∧ Holds d' V.n (fun c => V.entry c c) := h.extract_aux hd hs

/-- **C37** (diagonal of `A'DA`). -/
theorem c37_atda (h : Rep M V) (hd : V.NoDup) {D d : Buf K} {W : ℕ → K} (hD : Holds D V.m W) (hs : V.n ≤ d.size) :
    ∃ d', atdaDiag M D d = some d' ∧ Holds d' V.n (fun c => ∑ r ∈ range V.m, V.entry r c * W r * V.entry r c) := by
  obtain ⟨d', e, h'⟩ := h.atda_aux hD hs
  refine ⟨d', e, h'.congr fun c hc => ?_⟩
  have := sum_rows V h.valid hc (fun r => W r * V.entry r c)
  calc _ = ∑ k ∈ Ico (V.p c) (V.p (c + 1)), V.x k * (W (V.i k) * V.entry (V.i k) c) := sum_congr rfl fun k hk => by
        rw [mem_Ico] at hk; rw [hd.entry_eq hc hk.1 hk.2]; ring
    _ = _ := this
    _ = _ := sum_congr rfl fun r _ => by ring

/-- The matrix with the same sizes and pattern and entries `f r c * entry r c`. -/
def Scaled (M : Csc K) (V : View K) (M' : Csc K) (f : ℕ → ℕ → K) : Prop :=
  ∃ V', Rep M' V' ∧ V'.m = V.m ∧ V'.n = V.n ∧ V'.p = V.p ∧ V'.i = V.i ∧ M'.p = M.p ∧ M'.i = M.i ∧
    ∀ r c, c < V.n → V'.entry r c = f r c * V.entry r c

/-- **C37** (scalar product). -/
theorem c37_scale (h : Rep M V) (sc : K) : ∃ M', scale M sc = some M' ∧ Scaled M V M' (fun _ _ => sc) := by
  unfold scale
  rw [h.rdNnz]
  simp only [Option.bind_some]
  obtain ⟨x', e, h'⟩ := map_holds (n := V.nnz) h.x (fun _ v => v * sc) (f := fun i x => (x.rd i).bind fun a => x.wr i (a * sc))
    (fun k b v _ e _ => by rw [e]; rfl)
  rw [e]
  refine ⟨_, rfl, _, h.withX h', rfl, rfl, rfl, rfl, rfl, rfl, fun r c hc => ?_⟩
  rw [entry_withX h.valid (fun _ _ => sc) hc, mul_comm]

/-- **C37** (left product with a diagonal matrix). -/
theorem c37_lmult (h : Rep M V) {d : Buf K} {D : ℕ → K} (hd : Holds d V.m D) :
    ∃ M', lmultDiag M d = some M' ∧ Scaled M V M' (fun r _ => D r) := by
  unfold lmultDiag
  obtain ⟨x', e, h'⟩ := h.mulEach (body := fun _ i x => (x.rd i).bind fun a => (M.i.rd i).bind fun r => (d.rd r).bind fun v => x.wr i (a * v))
    (fun _ k => D (V.i k)) (fun j k x v hj hk e => by
      rw [e, h.rdI hk]; simp only [Option.bind_some]; rw [hd.rd (h.valid.rows k hk)]; rfl)
  rw [e]
  refine ⟨_, rfl, _, h.withX h', rfl, rfl, rfl, rfl, rfl, rfl, fun r c hc => ?_⟩
  rw [entry_withX h.valid (fun _ r => D r) hc, mul_comm]

/-- **C37** (right product with a diagonal matrix). -/
theorem c37_rmult (h : Rep M V) {d : Buf K} {D : ℕ → K} (hd : Holds d V.n D) :
    ∃ M', rmultDiag M d = some M' ∧ Scaled M V M' (fun _ c => D c) := by
  unfold rmultDiag
  obtain ⟨x', e, h'⟩ := h.mulEach (body := fun j i x => (x.rd i).bind fun a => (d.rd j).bind fun v => x.wr i (a * v))
    (fun j _ => D j) (fun j k x v hj hk e => by
      rw [e, hd.rd hj]; rfl)
  rw [e]
  refine ⟨_, rfl, _, h.withX h', rfl, rfl, rfl, rfl, rfl, rfl, fun r c hc => ?_⟩
  rw [entry_withX h.valid (fun c _ => D c) hc, mul_comm]

/-- The hypotheses of the C37 theorems are met. -/
example : (∃ E', colNormInf Demo.triu (Buf.fresh 3) = some E' ∧ Holds E' 3 (fun c => normInf fun r : Fin 3 => Demo.triuV.entry r c)) ∧
    (∃ E', rowNormInfSymTriu Demo.triu (Buf.fresh 3) = some E' ∧ Holds E' 3 (fun r => normInf fun c : Fin 3 => Demo.triuV.symEntry r c)) ∧
    (∃ d', extractDiag Demo.triu (Buf.fresh 3) = some d' ∧ Holds d' 3 (fun c => Demo.triuV.entry c c)) ∧
    (∃ M', lmultDiag Demo.rect Demo.v2 = some M' ∧ Scaled Demo.rect Demo.rectV M' (fun r _ => Demo.f2 r)) ∧
    (∃ M', rmultDiag Demo.rect Demo.v3 = some M' ∧ Scaled Demo.rect Demo.rectV M' (fun _ c => Demo.f3 c)) :=
  ⟨c37_col_norm Demo.triu_rep Demo.triu_nodup (by decide), c37_row_norm_sym Demo.triu_rep Demo.triu_nodup rfl Demo.triu_triu (by decide),
    c37_extract_diag Demo.triu_rep Demo.triu_nodup (by decide), c37_lmult Demo.rect_rep Demo.v2_holds, c37_rmult Demo.rect_rep Demo.v3_holds⟩

end Osqp.Csc
