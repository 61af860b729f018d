import Verif.Csc.KktForm

/-!
# The entries of the KKT matrix after the diagonal shifts
-/

set_option linter.unusedSectionVars false
namespace Osqp.Csc
open Finset

variable {K : Type*} [Field K] [LinearOrder K] {VP VA : View K} {P A : Csc K}

/-- Stored entry `k` is the last one of column `i k`: a diagonal entry that ends its column. -/
def DiagLast (V : View K) (k : ℕ) : Prop := V.p (V.i k) < V.p (V.i k + 1) ∧ k + 1 = V.p (V.i k + 1)

instance (V : View K) (k : ℕ) : Decidable (DiagLast V k) := by unfold DiagLast; infer_instance

/-- Entries of `P`, with `sigma` on the diagonal entries that end their column. -/
def gP (VP : View K) (sigma : K) (k : ℕ) : List (Ent K) := [⟨VP.col k, VP.i k, VP.x k + if DiagLast VP k then sigma else 0⟩]
/-- `sigma` for the missing diagonal entries. -/
def gM (VP : View K) (sigma : K) (j : ℕ) : List (Ent K) := if Missing VP j then [⟨j, j, sigma⟩] else []
/-- Diagonal of the lower block. -/
def gR (n : ℕ) (R : ℕ → K) (t : ℕ) : List (Ent K) := [⟨t + n, t + n, -R t⟩]

/-- All entries of the shifted matrix. -/
def kktEnts (VP VA : View K) (sigma : K) (R : ℕ → K) : List (Ent K) :=
  pre (gP VP sigma) VP.nnz ++ (pre (gM VP sigma) VP.n ++ (pre (blk VA 0 VP.n true) VA.nnz ++ pre (gR VP.n R) VA.m))

/-! ## Comparing two lists position by position -/

/-- `T` holds between the elements at every position of two lists of equal length. -/
def All2 (T : ℕ → Ent K → Ent K → Prop) (l l' : List (Ent K)) : Prop :=
  l.length = l'.length ∧ ∀ k (h : k < l.length) (h' : k < l'.length), T k l[k] l'[k]

theorem All2.nil (T : ℕ → Ent K → Ent K → Prop) : All2 T [] [] := ⟨rfl, fun k h => absurd h (Nat.not_lt_zero k)⟩

theorem All2.single {T : ℕ → Ent K → Ent K → Prop} {e e' : Ent K} (h : T 0 e e') : All2 T [e] [e'] :=
  ⟨rfl, fun k h1 h2 => by
    have : k = 0 := by simpa using h1
    subst this; exact h⟩

theorem All2.append {T : ℕ → Ent K → Ent K → Prop} {l l' q q' : List (Ent K)} (h : All2 T l l') (h2 : All2 (fun k => T (l.length + k)) q q') :
    All2 T (l ++ q) (l' ++ q') := by
  refine ⟨by rw [List.length_append, List.length_append, h.1, h2.1], fun k h3 h4 => ?_⟩
  rcases Nat.lt_or_ge k l.length with h5 | h5
  · rw [List.getElem_append_left h5, List.getElem_append_left (by rw [← h.1]; exact h5)]
    exact h.2 k h5 _
  · rw [List.getElem_append_right h5, List.getElem_append_right (by rw [← h.1]; exact h5)]
    have hl := h.1
    rw [List.length_append] at h3
    have := h2.2 (k - l.length) (by omega) (by have := h2.1; omega)
    simp only [Nat.add_sub_cancel' h5] at this
    simp only [← hl]
    exact this

theorem All2.pre {T : ℕ → Ent K → Ent K → Prop} {g g' : ℕ → List (Ent K)} : ∀ {N : ℕ},
    (∀ j < N, All2 (fun k => T ((pre g j).length + k)) (g j) (g' j)) → All2 T (pre g N) (pre g' N) := by
  intro N
  induction N with
  | zero => intro _; exact All2.nil T
  | succ N ih =>
    intro h
    rw [pre_succ, pre_succ]
    exact (ih fun j hj => h j (by omega)).append (h N (by omega))

/-- Two lists with the same columns have the same counts and starts. -/
theorem cnt_map (es : List (Ent K)) (c : ℕ) : cnt es c = (es.map (·.c)).count c := by
  induction es with
  | nil => rfl
  | cons e es ih => rw [cnt_cons, ih, List.map_cons, List.count_cons]; simp [add_comm]

theorem cnt_congr {l l' : List (Ent K)} (h : l.map (·.c) = l'.map (·.c)) (c : ℕ) : cnt l c = cnt l' c := by rw [cnt_map, cnt_map, h]
theorem start_congr {l l' : List (Ent K)} (h : l.map (·.c) = l'.map (·.c)) (c : ℕ) : start l c = start l' c :=
  sum_congr rfl fun j _ => cnt_congr h j
theorem dest_congr {l l' : List (Ent K)} (h : l.map (·.c) = l'.map (·.c)) {e e' : Ent K} (he : e.c = e'.c) (k : ℕ) : dest l e k = dest l' e' k := by
  unfold dest
  rw [start_congr h, he]
  congr 1
  refine cnt_congr ?_ _
  rw [List.map_take, List.map_take, h]

theorem All2.map_c {T : ℕ → Ent K → Ent K → Prop} {l l' : List (Ent K)} (h : All2 T l l') (hT : ∀ k e e', T k e e' → e.c = e'.c) : l.map (·.c) = l'.map (·.c) := by
  refine List.ext_getElem (by simp [h.1]) fun k h1 h2 => ?_
  simp only [List.getElem_map]
  simp only [List.length_map] at h1 h2
  exact hT k _ _ (h.2 k h1 h2)

theorem All2.inCols {T : ℕ → Ent K → Ent K → Prop} {l l' : List (Ent K)} (h : All2 T l l') (hT : ∀ k e e', T k e e' → e.c = e'.c) {n : ℕ} (hc : InCols n l) : InCols n l' := by
  intro e he
  obtain ⟨k, hk, rfl⟩ := List.getElem_of_mem he
  have := h.2 k (by rw [h.1]; exact hk) hk
  rw [← hT _ _ _ this]; exact hc _ (List.getElem_mem _)

theorem All2.rows {T : ℕ → Ent K → Ent K → Prop} {l l' : List (Ent K)} (h : All2 T l l') (hT : ∀ k e e', T k e e' → e.r = e'.r) {m : ℕ} (hc : ∀ e ∈ l, e.r < m) : ∀ e ∈ l', e.r < m := by
  intro e he
  obtain ⟨k, hk, rfl⟩ := List.getElem_of_mem he
  have := h.2 k (by rw [h.1]; exact hk) hk
  rw [← hT _ _ _ this]; exact hc _ (List.getElem_mem _)

/-! ## Which entries end their column -/

/-- Distance of an entry from the end of its column. -/
theorem dest_end {all es rest : List (Ent K)} {e : Ent K} (h : all = es ++ e :: rest) : dest all e es.length + 1 + cnt rest e.c = start all (e.c + 1) := by
  rw [start_succ]
  unfold dest
  have e1 : all.take es.length = es := by rw [h]; simp
  have e2 : ∀ c, cnt all c = cnt es c + cnt (e :: rest) c := fun c => by rw [h, cnt_append]
  rw [e1, e2, cnt_cons, if_pos rfl]; omega

theorem pre_drop (g : ℕ → List (Ent K)) {k N : ℕ} (h : k < N) : pre g N = pre g k ++ (g k ++ pre (fun t => g (k + 1 + t)) (N - k - 1)) := by
  obtain ⟨d, rfl⟩ : ∃ d, N = k + 1 + d := ⟨N - k - 1, by omega⟩
  clear h
  induction d with
  | zero => rw [Nat.add_zero, pre_succ]; simp
  | succ d ih =>
    rw [← Nat.add_assoc, pre_succ, ih, show k + 1 + d + 1 - k - 1 = (k + 1 + d - k - 1) + 1 by omega, pre_succ]
    rw [show k + 1 + (k + 1 + d - k - 1) = k + 1 + d by omega]
    simp [List.append_assoc]

theorem cnt_zero {es : List (Ent K)} {c : ℕ} (h : ∀ e ∈ es, e.c ≠ c) : cnt es c = 0 := by
  unfold cnt
  rw [List.countP_eq_zero]
  intro e he; simpa using h e he

theorem cnt_miss (VP : View K) (N c : ℕ) : cnt (pre (miss VP) N) c = if c < N ∧ Missing VP c then 1 else 0 := by
  rw [cnt_pre]
  have : ∀ k, cnt (miss VP k) c = if c = k then (if Missing VP c then 1 else 0) else 0 := by
    intro k
    unfold miss
    by_cases h1 : c = k
    · subst h1; rw [if_pos rfl]; split_ifs <;> simp
    · rw [if_neg h1]; split_ifs
      · rw [cnt_cons, if_neg (fun h => h1 h.symm)]; rfl
      · rfl
  rw [sum_congr rfl fun k _ => this k, sum_ite_eq]
  simp only [mem_range]
  by_cases h1 : c < N <;> simp [h1]

theorem cnt_blk_tail (hv : VP.Valid) {k : ℕ} (hk : k < VP.nnz) :
    cnt (pre (fun t => blk VP 0 0 false (k + 1 + t)) (VP.nnz - k - 1)) (VP.col k) = VP.p (VP.col k + 1) - (k + 1) := by
  obtain ⟨h1, h2, h3⟩ := hv.col_spec hk
  rw [cnt_pre]
  have e1 : ∀ t ∈ range (VP.nnz - k - 1), cnt (blk VP 0 0 false (k + 1 + t)) (VP.col k) = if t < VP.p (VP.col k + 1) - (k + 1) then 1 else 0 := by
    intro t ht
    rw [mem_range] at ht
    obtain ⟨g1, g2, g3⟩ := hv.col_spec (show k + 1 + t < VP.nnz by omega)
    unfold blk blkE
    rw [if_neg (by simp), cnt_cons, cnt_nil, add_zero, add_zero]
    by_cases h4 : t < VP.p (VP.col k + 1) - (k + 1)
    · rw [if_pos h4, if_pos]
      exact hv.col_eq h1 (by omega) (by omega)
    · rw [if_neg h4, if_neg]
      intro (h5 : VP.col (k + 1 + t) = VP.col k)
      rw [h5] at g3; omega
  rw [sum_congr rfl e1, sum_boole]
  have hle : VP.p (VP.col k + 1) ≤ VP.nnz := hv.le (by omega) (le_refl _)
  have e2 : (range (VP.nnz - k - 1)).filter (fun t => t < VP.p (VP.col k + 1) - (k + 1)) = range (VP.p (VP.col k + 1) - (k + 1)) := by
    ext t; simp only [mem_filter, mem_range]; omega
  rw [e2, card_range]; rfl

theorem DiagLast_iff (hv : VP.Valid) (hsq : VP.m = VP.n) {k : ℕ} (hk : k < VP.nnz) :
    DiagLast VP k ↔ k + 1 = VP.p (VP.col k + 1) ∧ ¬ Missing VP (VP.col k) := by
  obtain ⟨h1, h2, h3⟩ := hv.col_spec hk
  have hr : VP.i k < VP.n := hsq ▸ hv.rows k hk
  constructor
  · rintro ⟨h4, h5⟩
    have : VP.col k = VP.i k := hv.col_eq hr (by omega) (by omega)
    rw [this]
    refine ⟨h5, ?_⟩
    rintro (h6 | h6)
    · omega
    · exact h6 (by rw [← h5]; simp)
  · rintro ⟨h4, h5⟩
    have hi : VP.i k = VP.col k := by
      by_contra h6
      exact h5 (Or.inr (by rw [← h4]; simpa using h6))
    unfold DiagLast
    rw [hi]
    exact ⟨by omega, h4⟩

/-- Value added to the entry that ends column `c`. -/
def shiftOf (n : ℕ) (sigma : K) (R : ℕ → K) (c : ℕ) : K := if c < n then sigma else -R (c - n)

/-- The list after the shifts: same rows and columns, and exactly the entries that end their column are shifted. -/
theorem ents_shift (hP : VP.Valid) (hA : VA.Valid) (hsq : VP.m = VP.n) (hn : VA.n = VP.n) (sigma : K) (R : ℕ → K) :
    All2 (fun k e e' => e.c = e'.c ∧ e.r = e'.r ∧
      e'.v = e.v + if dest (entsCsc VP VA) e k + 1 = start (entsCsc VP VA) (e.c + 1) then shiftOf VP.n sigma R e.c else 0)
      (entsCsc VP VA) (kktEnts VP VA sigma R) := by
  set all := entsCsc VP VA with hall
  have hA0 : ∀ k c, c < VP.n → cnt (pre (fun t => blk VA 0 VP.n true (k + t)) (VA.nnz - k)) c = 0 := fun k c hc => cnt_zero (pre_all fun t _ e he => by
    rw [blk, List.mem_singleton] at he; rw [he]; simp [blkE]; omega)
  have hA1 : ∀ N c, c < VP.n → cnt (pre (blk VA 0 VP.n true) N) c = 0 := fun N c hc => cnt_zero (pre_all fun t _ e he => by
    rw [blk, List.mem_singleton] at he; rw [he]; simp [blkE]; omega)
  have hR0 : ∀ N c, c < VP.n → cnt (pre (dg VP.n) N : List (Ent K)) c = 0 := fun N c hc => cnt_zero (pre_all fun t _ e he => by
    rw [dg, List.mem_singleton] at he; rw [he]; show t + VP.n ≠ c; omega)
  rw [hall]
  unfold entsCsc kktEnts
  rw [← entsCsc, ← hall]
  refine All2.append (All2.pre fun k hk => All2.single ?_) (All2.append (All2.pre fun j hj => ?_) (All2.append (All2.pre fun k hk => All2.single ?_) (All2.pre fun t ht => All2.single ?_)))
  · -- entries of P
    obtain ⟨h1, h2, h3⟩ := hP.col_spec hk
    have hd := dest_end (all := all) (es := pre (blk VP 0 0 false) k) (e := blkE VP 0 0 false k)
      (rest := pre (fun t => blk VP 0 0 false (k + 1 + t)) (VP.nnz - k - 1) ++ (pre (miss VP) VP.n ++ (pre (blk VA 0 VP.n true) VA.nnz ++ pre (dg VP.n) VA.m)))
      (by rw [hall]; unfold entsCsc; rw [pre_drop _ hk]; simp [blk, List.append_assoc])
    have hc : (blkE VP 0 0 false k).c = VP.col k := by simp [blkE]
    refine ⟨hc, by simp [blkE], ?_⟩
    rw [cnt_append, cnt_append, cnt_append, hc, cnt_blk_tail hP hk, cnt_miss, hA1 _ _ h1, hR0 _ _ h1] at hd
    simp only [h1, true_and, add_zero] at hd
    rw [hc]
    simp only [Nat.add_zero]
    have hv : (blkE VP 0 0 false k).v = VP.x k := by simp [blkE]
    rw [hv]
    show VP.x k + _ = _
    congr 1
    have hiff := DiagLast_iff hP hsq hk
    have hsh : shiftOf VP.n sigma R (VP.col k) = sigma := if_pos h1
    rw [hsh]
    refine if_congr ?_ rfl rfl
    rw [hiff]
    by_cases hm : Missing VP (VP.col k)
    · rw [if_pos hm] at hd
      constructor
      · rintro ⟨_, h⟩; exact absurd hm h
      · intro h; omega
    · rw [if_neg hm] at hd
      constructor
      · rintro ⟨h, _⟩; omega
      · intro h; exact ⟨by omega, hm⟩
  · -- missing diagonal entries
    by_cases hm : Missing VP j
    · rw [show miss VP j = [⟨j, j, 0⟩] from if_pos hm, show gM VP sigma j = [⟨j, j, sigma⟩] from if_pos hm]
      refine All2.single ⟨rfl, rfl, ?_⟩
      have hd := dest_end (all := all) (es := pre (blk VP 0 0 false) VP.nnz ++ pre (miss VP) j) (e := ⟨j, j, 0⟩)
        (rest := pre (fun t => miss VP (j + 1 + t)) (VP.n - j - 1) ++ (pre (blk VA 0 VP.n true) VA.nnz ++ pre (dg VP.n) VA.m))
        (by rw [hall]; unfold entsCsc; rw [pre_drop (miss VP) hj, show miss VP j = [⟨j, j, 0⟩] from if_pos hm]; simp [List.append_assoc])
      have h0 : cnt (pre (fun t => miss VP (j + 1 + t)) (VP.n - j - 1)) j = 0 := cnt_zero (pre_all fun t _ e he => by
        unfold miss at he
        split_ifs at he
        · rw [List.mem_singleton] at he; rw [he]; show j + 1 + t ≠ j; omega
        · simp at he)
      rw [cnt_append, cnt_append] at hd
      simp only [h0, hA1 _ _ hj, hR0 _ _ hj, add_zero] at hd
      rw [List.length_append, blk_length] at hd
      rw [blk_length]
      simp only [Nat.add_zero]
      rw [if_pos hd, show shiftOf VP.n sigma R j = sigma from if_pos hj, zero_add]
    · rw [show miss VP j = [] from if_neg hm, show gM VP sigma j = [] from if_neg hm]
      exact All2.nil _
  · -- entries of A
    refine ⟨rfl, rfl, ?_⟩
    have hd := dest_end (all := all) (es := pre (blk VP 0 0 false) VP.nnz ++ (pre (miss VP) VP.n ++ pre (blk VA 0 VP.n true) k)) (e := blkE VA 0 VP.n true k)
      (rest := pre (fun t => blk VA 0 VP.n true (k + 1 + t)) (VA.nnz - k - 1) ++ pre (dg VP.n) VA.m)
      (by rw [hall]; unfold entsCsc; rw [pre_drop (blk VA 0 VP.n true) hk]; simp [blk, List.append_assoc])
    have h1 : 0 < cnt (pre (dg VP.n) VA.m : List (Ent K)) (blkE VA 0 VP.n true k).c := by
      unfold cnt
      rw [List.countP_pos_iff]
      refine ⟨⟨VA.i k + VP.n, VA.i k + VP.n, 0⟩, ?_, by simp [blkE]⟩
      unfold pre
      rw [List.mem_flatMap]
      exact ⟨VA.i k, List.mem_range.2 (hA.rows k hk), by simp [dg]⟩
    rw [cnt_append, List.length_append, List.length_append, blk_length, blk_length] at hd
    rw [blk_length, blk_length, if_neg, add_zero]
    simp only [Nat.add_zero] at hd ⊢
    rw [← hd]; omega
  · -- lower diagonal
    refine ⟨rfl, rfl, ?_⟩
    have hd := dest_end (all := all) (es := pre (blk VP 0 0 false) VP.nnz ++ (pre (miss VP) VP.n ++ (pre (blk VA 0 VP.n true) VA.nnz ++ pre (dg VP.n) t)))
      (e := ⟨t + VP.n, t + VP.n, 0⟩) (rest := pre (fun s => dg VP.n (t + 1 + s)) (VA.m - t - 1))
      (by rw [hall]; unfold entsCsc; rw [pre_drop (dg VP.n) ht]; simp [dg, List.append_assoc])
    have h0 : cnt (pre (fun s => dg VP.n (t + 1 + s)) (VA.m - t - 1) : List (Ent K)) (t + VP.n) = 0 := cnt_zero (pre_all fun s _ e he => by
      rw [dg, List.mem_singleton] at he; rw [he]; show t + 1 + s + VP.n ≠ t + VP.n; omega)
    simp only [h0, add_zero] at hd
    rw [List.length_append, List.length_append, List.length_append, blk_length, blk_length, dg_length] at hd
    rw [blk_length, blk_length, dg_length]
    simp only [Nat.add_zero]
    rw [if_pos hd]
    unfold shiftOf
    rw [if_neg (by omega), zero_add, Nat.add_sub_cancel]

end Osqp.Csc
