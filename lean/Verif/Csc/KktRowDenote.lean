import Verif.Csc.KktRowUpd

/-!
# The matrix that the compressed rows denote
-/

set_option linter.unusedSectionVars false
namespace Osqp.Csc
open Finset

variable {K : Type*} [Field K] [LinearOrder K] {VP VA V : View K} {sigma : K} {φ R : ℕ → K} {M : Csc K} {pm am rm : Buf ℤ}

/-- What has been added to entry `(r, c)` of `P`. -/
def extra (VP : View K) (sigma : K) (φ : ℕ → K) (r c : ℕ) : K :=
  (∑ k ∈ range VP.nnz, if VP.i k = r ∧ VP.col k = c then φ k else 0) + if r = c ∧ Missing VP r then sigma else 0

/-- Entry `k` of `P` is off the diagonal, or the only one of its column. -/
def Spared (VP : View K) (k : ℕ) : Prop := VP.i k ≠ VP.col k ∨ VP.p (VP.col k + 1) = VP.p (VP.col k) + 1

instance (VP : View K) (k : ℕ) : Decidable (Spared VP k) := by unfold Spared; infer_instance

theorem begins_col (hP : VP.Valid) (hsq : VP.m = VP.n) {k : ℕ} (hk : k < VP.nnz) (h : Begins VP k) : VP.col k = VP.i k :=
  hP.col_eq (hsq ▸ hP.rows k hk) (le_of_eq h.2) (by have := h.1; have := h.2; omega)

/-- For a spared entry an update adds what forming the matrix added. -/
theorem spared_shift (hF : Fits VP VA) {k : ℕ} (hk : k < VP.nnz) (hs : Spared VP k) : (if Begins VP k then sigma else 0) = formShift VP sigma k := by
  unfold formShift
  refine if_congr ?_ rfl rfl
  obtain ⟨c1, c2, c3⟩ := hF.hP.col_spec hk
  have hle := Triu.le hF.hP hF.triu hk
  by_cases hd : VP.i k = VP.col k
  · have h1 : VP.p (VP.col k + 1) = VP.p (VP.col k) + 1 := hs.resolve_left (fun h => h hd)
    have hk1 : VP.p (VP.col k) = k := by omega
    refine ⟨fun _ => ⟨?_, fun k' hk' e => ?_⟩, fun _ => ⟨by rw [hd]; omega, by rw [hd]; exact hk1⟩⟩
    · rw [hd]
      rintro (h | h)
      · omega
      · exact h (by rw [h1, Nat.add_sub_cancel, hk1]; exact hd)
    · obtain ⟨d1, d2, d3⟩ := hF.hP.col_spec (show k' < VP.nnz by omega)
      have := Triu.le hF.hP hF.triu (show k' < VP.nnz by omega)
      have := hF.hP.le (a := VP.col k) (b := VP.col k') (by omega) (by omega)
      omega
  · refine ⟨fun h => absurd (begins_col hF.hP hF.sq hk h).symm hd, fun h => ?_⟩
    exfalso
    have hm := h.1
    have h3 : VP.p (VP.i k) ≠ VP.p (VP.i k + 1) := fun h => hm (Or.inl h)
    have h4 := hF.hP.mono (VP.i k) (by omega)
    have h5 : VP.i (VP.p (VP.i k + 1) - 1) = VP.i k := by by_contra h6; exact hm (Or.inr h6)
    have h6 := hF.hP.le (a := VP.i k + 1) (b := VP.col k) (by omega) (by omega)
    exact h.2 _ (by omega) h5

theorem extra_form (hF : Fits VP VA) (hφ : ∀ k < VP.nnz, φ k = formShift VP sigma k) {r c : ℕ} (hr : r < VP.n) : extra VP sigma φ r c = if r = c then sigma else 0 := by
  unfold extra
  have : (∑ k ∈ range VP.nnz, if VP.i k = r ∧ VP.col k = c then φ k else 0) = ∑ k ∈ range VP.nnz, if VP.i k = r ∧ VP.col k = c then formShift VP sigma k else 0 :=
    sum_congr rfl fun k hk => by rw [hφ k (mem_range.1 hk)]
  rw [this, formShift_sum hF.hP hF.sq hF.triu sigma hr]
  by_cases h : r = c
  · subst h
    by_cases hm : Missing VP r <;> simp [hm]
  · rw [if_neg (fun h' => h h'.1.symm), if_neg (fun h' => h h'.1), if_neg h, add_zero]

theorem rowEnts_le (hF : Fits VP VA) : ∀ e ∈ rowEnts VP VA sigma φ R, e.c ≤ e.r := by
  intro e he
  unfold rowEnts at he
  simp only [List.mem_append] at he
  rcases he with he | he | he | he
  · revert e; exact pre_all fun k hk e he => by
      unfold gM at he
      split at he
      · rw [List.mem_singleton] at he; rw [he]
      · simp at he
  · revert e; exact pre_all fun k hk e he => by
      rw [rP, List.mem_singleton] at he; rw [he]; exact Triu.le hF.hP hF.triu hk
  · revert e; exact pre_all fun k hk e he => by
      rw [show blk VA VP.n 0 false k = [blkE VA VP.n 0 false k] from rfl, List.mem_singleton] at he
      rw [he]; have := (hF.hA.col_spec hk).1; have := hF.cols; simp [blkE]; omega
  · revert e; exact pre_all fun k hk e he => by
      rw [gR, List.mem_singleton] at he; rw [he]

/-- Row `r` holds only positions on or after the diagonal. -/
theorem RowKept.upper (h : RowKept sigma VP VA φ R V M pm am rm) : ∀ t < V.nnz, V.col t ≤ V.i t := by
  intro t ht
  have hc := rowEnts_inCols (sigma := sigma) (φ := φ) (R := R) h.fits
  have hr := rowEnts_rows (sigma := sigma) (φ := φ) (R := R) h.fits
  obtain ⟨k, hk, rfl⟩ := h.laid.pos hc ht
  rw [h.laid.i k hk, h.laid.col hc hr hk]
  exact rowEnts_le h.fits _ (List.getElem_mem hk)

theorem RowKept.entry (h : RowKept sigma VP VA φ R V M pm am rm) {r c : ℕ} (hrc : r ≤ c) (hc : c < VP.n + VA.m) :
    V.entry c r = kktFull VP VA 0 R r c + if c < VP.n then extra VP sigma φ r c else 0 := by
  have hF := h.fits
  rw [h.laid.entry (rowEnts_inCols hF) (rowEnts_rows hF) (by omega), rowEnts_matOf hF.hP hF.hA hF.sq hF.cols sigma φ R hc (by omega)]
  unfold kktFull extra View.symEntry
  by_cases h1 : r < VP.n
  · rw [if_pos h1, if_pos h1]
    by_cases h2 : c < VP.n
    · rw [if_pos h2, if_pos h2, if_pos h2, if_pos hrc]
      have : (if c = r ∧ Missing VP r then sigma else 0) = if r = c ∧ Missing VP r then sigma else 0 := if_congr ⟨fun h => ⟨h.1.symm, h.2⟩, fun h => ⟨h.1.symm, h.2⟩⟩ rfl rfl
      rw [this]
      simp only [ite_self]
      ring
    · rw [if_neg h2, if_neg h2, if_neg h2, add_zero]
  · have h2 : ¬ c < VP.n := by omega
    rw [if_neg h1, if_neg h1, if_neg h2, if_neg h2, add_zero]
    by_cases h3 : r = c
    · subst h3; rfl
    · rw [if_neg h3, if_neg (fun h => h3 h.symm)]

/-- Every row stores its diagonal position. -/
theorem RowKept.diag (h : RowKept sigma VP VA φ R V M pm am rm) {r : ℕ} (hr : r < VP.n + VA.m) : ∃ t, V.p r ≤ t ∧ t < V.p (r + 1) ∧ V.i t = r := by
  have hF := h.fits
  have hc := rowEnts_inCols (sigma := sigma) (φ := φ) (R := R) hF
  have hv := h.laid.valid hc (rowEnts_rows hF)
  have key : ∃ e ∈ rowEnts VP VA sigma φ R, e.c = r ∧ e.r = r := by
    rcases Nat.lt_or_ge r VP.n with h1 | h1
    · by_cases hm : Missing VP r
      · refine ⟨⟨r, r, 0 + sigma⟩, ?_, rfl, rfl⟩
        unfold rowEnts
        refine List.mem_append_left _ ?_
        rw [pre_drop (gM VP sigma) h1]
        simp [gM, hm]
      · obtain ⟨k, g1, g2, g3, _⟩ := firstP_unique hF.hP hF.triu h1 hm
        obtain ⟨g, e⟩ := rowAt_P (VA := VA) sigma φ R g1
        exact ⟨_, List.getElem_mem g, by rw [e]; exact g2, by rw [e]; exact g3⟩
    · obtain ⟨g, e⟩ := rowAt_R (VP := VP) sigma φ R (t := r - VP.n) (show r - VP.n < VA.m by omega)
      exact ⟨_, List.getElem_mem g, by rw [e]; show r - VP.n + VP.n = r; omega, by rw [e]; show r - VP.n + VP.n = r; omega⟩
  obtain ⟨e, he, e1, e2⟩ := key
  obtain ⟨k, hk, rfl⟩ := List.getElem_of_mem he
  refine ⟨_, ?_, ?_, (h.laid.i k hk).trans e2⟩
  · rw [h.laid.p r hr.le, ← e1]; exact dest_ge _ _ _
  · rw [h.laid.p (r + 1) hr, ← e1]; exact dest_lt_succ hk

end Osqp.Csc
