import Verif.Csc.KktCsr

/-!
# The entries of the KKT matrix in compressed rows
-/

set_option linter.unusedSectionVars false
namespace Osqp.Csc
open Finset

variable {K : Type*} [Field K] [LinearOrder K] {VP VA V W : View K} {P A : Csc K}

/-- Entry `k` of `P` begins its row: no zero was put for that row and no earlier entry lies in it. -/
def FirstP (VP : View K) (k : ℕ) : Prop := ¬ Missing VP (VP.i k) ∧ ∀ k' < k, VP.i k' ≠ VP.i k

instance (V : View K) (k : ℕ) : Decidable (FirstP V k) := by unfold FirstP; infer_instance

/-- Entry `k` of `P`, transposed, with `φ k` added. -/
def rP (VP : View K) (φ : ℕ → K) (k : ℕ) : List (Ent K) := [⟨VP.i k, VP.col k, VP.x k + φ k⟩]

/-- The entries of the stored matrix when `φ` has been added to the entries of `P`. -/
def rowEnts (VP VA : View K) (sigma : K) (φ R : ℕ → K) : List (Ent K) :=
  pre (gM VP sigma) VP.n ++ (pre (rP VP φ) VP.nnz ++ (pre (blk VA VP.n 0 false) VA.nnz ++ pre (gR VP.n R) VA.m))

/-- What is added to the entries of `P` when the matrix is formed. -/
def formShift (VP : View K) (sigma : K) (k : ℕ) : K := if FirstP VP k then sigma else 0

theorem rP_length (VP : View K) (φ : ℕ → K) (k : ℕ) : (pre (rP VP φ) k).length = k := pre_length_one (fun _ => rfl) k

theorem rowEnts_length (VP VA : View K) (sigma : K) (φ R : ℕ → K) : (rowEnts VP VA sigma φ R).length = nMiss VP + VP.nnz + VA.nnz + VA.m := by
  unfold rowEnts nMiss
  simp only [List.length_append, rP_length, gM_length, blk_length, gR_length]
  omega

theorem dest_take {all es rest : List (Ent K)} {e : Ent K} (h : all = es ++ e :: rest) : dest all e es.length = start all e.c + cnt es e.c := by
  unfold dest
  rw [show all.take es.length = es by rw [h]; simp]

theorem cnt_blk_true (V : View K) (r0 N c : ℕ) : cnt (pre (blk V r0 0 true) N) c = 0 ↔ ∀ k < N, V.i k ≠ c := by
  rw [cnt_pre, sum_eq_zero_iff]
  refine ⟨fun h k hk e => ?_, fun h k hk => ?_⟩
  · have := h k (mem_range.2 hk)
    rw [blk, cnt_cons, if_pos (by simpa [blkE] using e)] at this
    simp at this
  · rw [blk, cnt_cons, if_neg (by simpa [blkE] using h k (mem_range.1 hk))]; rfl

/-- Every row of the upper block has a zero for the diagonal or an entry of `P`. -/
theorem row_filled (hP : VP.Valid) {c : ℕ} (h1 : c < VP.n) : 0 < cnt (pre (miss VP) VP.n) c + cnt (pre (blk VP 0 0 true) VP.nnz) c := by
  by_cases h2 : Missing VP c
  · have := cnt_miss VP VP.n c
    rw [if_pos ⟨h1, h2⟩] at this; omega
  · have h3 : VP.p c ≠ VP.p (c + 1) := fun h => h2 (Or.inl h)
    have h4 := hP.mono c h1
    have h5 : VP.i (VP.p (c + 1) - 1) = c := by by_contra h6; exact h2 (Or.inr h6)
    have h6 : VP.p (c + 1) - 1 < VP.nnz := hP.lt_nnz h1 (by omega)
    have : cnt (pre (blk VP 0 0 true) VP.nnz) c ≠ 0 := fun h => (cnt_blk_true VP 0 VP.nnz c).1 h _ h6 h5
    omega

theorem cnt_miss_high (VP : View K) {c : ℕ} (h : VP.n ≤ c) : cnt (pre (miss VP) VP.n) c = 0 := by
  rw [cnt_miss, if_neg (by omega)]

/-- The list after the shifts: same rows and columns, and exactly the entries that begin their row are shifted. -/
theorem row_shift (hP : VP.Valid) (hA : VA.Valid) (hsq : VP.m = VP.n) (hn : VA.n = VP.n) (sigma : K) (R : ℕ → K) :
    All2 (fun k e e' => e.c = e'.c ∧ e.r = e'.r ∧
      e'.v = e.v + if dest (entsCsr VP VA) e k = start (entsCsr VP VA) e.c then shiftOf VP.n sigma R e.c else 0)
      (entsCsr VP VA) (rowEnts VP VA sigma (formShift VP sigma) R) := by
  set all := entsCsr VP VA with hall
  rw [hall]
  unfold entsCsr rowEnts
  rw [← entsCsr, ← hall]
  refine All2.append (All2.pre fun j hj => ?_) (All2.append (All2.pre fun k hk => All2.single ?_) (All2.append (All2.pre fun k hk => All2.single ?_) (All2.pre fun t ht => All2.single ?_)))
  · by_cases hm : Missing VP j
    · rw [show miss VP j = [⟨j, j, 0⟩] from if_pos hm, show gM VP sigma j = [⟨j, j, sigma⟩] from if_pos hm]
      refine All2.single ⟨rfl, rfl, ?_⟩
      have hd := dest_take (all := all) (es := pre (miss VP) j) (e := ⟨j, j, 0⟩)
        (rest := pre (fun t => miss VP (j + 1 + t)) (VP.n - j - 1) ++ (pre (blk VP 0 0 true) VP.nnz ++ (pre (blk VA VP.n 0 false) VA.nnz ++ pre (dg VP.n) VA.m)))
        (by rw [hall]; unfold entsCsr; rw [pre_drop (miss VP) hj, show miss VP j = [⟨j, j, 0⟩] from if_pos hm]; simp [List.append_assoc])
      have z : cnt (pre (miss VP) j) j = 0 := by rw [cnt_miss, if_neg (by omega)]
      simp only [z, Nat.add_zero] at hd
      simp only [Nat.add_zero]
      rw [if_pos hd, show shiftOf VP.n sigma R j = sigma from if_pos hj, zero_add]
    · rw [show miss VP j = [] from if_neg hm, show gM VP sigma j = [] from if_neg hm]
      exact All2.nil _
  · have hc : (blkE VP 0 0 true k).c = VP.i k := by simp [blkE]
    have hr : VP.i k < VP.n := hsq ▸ hP.rows k hk
    refine ⟨hc, by simp [blkE], ?_⟩
    have hd := dest_take (all := all) (es := pre (miss VP) VP.n ++ pre (blk VP 0 0 true) k) (e := blkE VP 0 0 true k)
      (rest := pre (fun t => blk VP 0 0 true (k + 1 + t)) (VP.nnz - k - 1) ++ (pre (blk VA VP.n 0 false) VA.nnz ++ pre (dg VP.n) VA.m))
      (by rw [hall]; unfold entsCsr; rw [pre_drop (blk VP 0 0 true) hk]; simp [blk, List.append_assoc])
    rw [List.length_append, blk_length, cnt_append, hc, cnt_miss] at hd
    simp only [blk_length, hc, Nat.add_zero, hd]
    rw [show (blkE VP 0 0 true k).v = VP.x k by simp [blkE], show shiftOf VP.n sigma R (VP.i k) = sigma from if_pos hr]
    show VP.x k + formShift VP sigma k = _
    congr 1
    unfold formShift
    refine if_congr ?_ rfl rfl
    unfold FirstP
    rw [← cnt_blk_true VP 0 k (VP.i k)]
    by_cases hm : Missing VP (VP.i k)
    · rw [if_pos ⟨hr, hm⟩]
      exact ⟨fun h => absurd hm h.1, fun h => by omega⟩
    · rw [if_neg (fun h => hm h.2)]
      exact ⟨fun h => by omega, fun h => ⟨hm, by omega⟩⟩
  · refine ⟨rfl, rfl, ?_⟩
    have hc : (blkE VA VP.n 0 false k).c = VA.col k := by simp [blkE]
    have hcn : VA.col k < VP.n := by have := (hA.col_spec hk).1; omega
    have hd := dest_take (all := all) (es := pre (miss VP) VP.n ++ (pre (blk VP 0 0 true) VP.nnz ++ pre (blk VA VP.n 0 false) k)) (e := blkE VA VP.n 0 false k)
      (rest := pre (fun t => blk VA VP.n 0 false (k + 1 + t)) (VA.nnz - k - 1) ++ pre (dg VP.n) VA.m)
      (by rw [hall]; unfold entsCsr; rw [pre_drop (blk VA VP.n 0 false) hk]; simp [blk, List.append_assoc])
    have h1 := row_filled hP hcn
    rw [cnt_append, cnt_append, List.length_append, List.length_append, blk_length, blk_length, hc] at hd
    rw [blk_length, blk_length, if_neg, add_zero]
    simp only [Nat.add_zero]
    rw [hd, hc]; omega
  · refine ⟨rfl, rfl, ?_⟩
    have hd := dest_take (all := all) (es := pre (miss VP) VP.n ++ (pre (blk VP 0 0 true) VP.nnz ++ (pre (blk VA VP.n 0 false) VA.nnz ++ pre (dg VP.n) t)))
      (e := ⟨t + VP.n, t + VP.n, 0⟩) (rest := pre (fun s => dg VP.n (t + 1 + s)) (VA.m - t - 1))
      (by rw [hall]; unfold entsCsr; rw [pre_drop (dg VP.n) ht]; simp [dg, List.append_assoc])
    have z1 := cnt_miss_high VP (c := t + VP.n) (by omega)
    have z2 : cnt (pre (blk VP 0 0 true) VP.nnz) (t + VP.n) = 0 := (cnt_blk_true VP 0 VP.nnz _).2 fun k hk => by
      have := hP.rows k hk; omega
    have z3 : cnt (pre (blk VA VP.n 0 false) VA.nnz) (t + VP.n) = 0 := cnt_zero (pre_all fun k hk e he => by
      rw [blk, List.mem_singleton] at he; rw [he]; have := (hA.col_spec hk).1; simp [blkE]; omega)
    have z4 : cnt (pre (dg VP.n) t : List (Ent K)) (t + VP.n) = 0 := cnt_zero (pre_all fun s hs e he => by
      rw [dg, List.mem_singleton] at he; rw [he]; show s + VP.n ≠ t + VP.n; omega)
    rw [cnt_append, cnt_append, cnt_append] at hd
    simp only [z1, z2, z3, z4, Nat.add_zero] at hd
    rw [List.length_append, List.length_append, List.length_append, blk_length, blk_length, dg_length] at hd
    rw [blk_length, blk_length, dg_length]
    simp only [Nat.add_zero]
    rw [if_pos hd]
    unfold shiftOf
    rw [if_neg (by omega), zero_add, Nat.add_sub_cancel]

/-- The layout of the final list is the layout of the first one with the shifted values. -/
theorem laid_rows (hP : VP.Valid) (hA : VA.Valid) (hsq : VP.m = VP.n) (hn : VA.n = VP.n) (sigma : K) (R : ℕ → K) {V0 : View K}
    (h0 : Laid (VP.n + VA.m) (VP.n + VA.m) (entsCsr VP VA) V0) :
    Laid (VP.n + VA.m) (VP.n + VA.m) (rowEnts VP VA sigma (formShift VP sigma) R) (V0.withX fun t => V0.x t + firstShift VP VA sigma R t) := by
  have hs := row_shift hP hA hsq hn sigma R
  have hcols := entsCsr_inCols hP hA hsq hn
  have hmap := hs.map_c (fun _ _ _ h => h.1)
  have hst : ∀ c < VP.n + VA.m, start (entsCsr VP VA) c < start (entsCsr VP VA) (c + 1) := fun c hc => startCsr_strict hP hc
  have key : ∀ k (hk : k < (rowEnts VP VA sigma (formShift VP sigma) R).length), ∃ hk' : k < (entsCsr VP VA).length,
      dest (rowEnts VP VA sigma (formShift VP sigma) R) (rowEnts VP VA sigma (formShift VP sigma) R)[k] k = dest (entsCsr VP VA) (entsCsr VP VA)[k] k := by
    intro k hk
    have hk' : k < (entsCsr VP VA).length := by rw [hs.1]; exact hk
    exact ⟨hk', (dest_congr hmap (hs.2 k hk' hk).1 k).symm⟩
  refine ⟨h0.vm, h0.vn, fun c hc => ?_, fun k hk => ?_, fun k hk => ?_⟩
  · show V0.p c = _
    rw [h0.p c hc, start_congr hmap]
  · obtain ⟨hk', e⟩ := key k hk
    rw [e]
    show V0.i _ = _
    rw [h0.i k hk', (hs.2 k hk' hk).2.1]
  · obtain ⟨hk', e⟩ := key k hk
    rw [e]
    show V0.x _ + _ = _
    rw [h0.x k hk', (hs.2 k hk' hk).2.2]
    congr 1
    have hck := hcols _ (List.getElem_mem hk')
    unfold firstShift
    rw [sum_eq_single (entsCsr VP VA)[k].c]
    · intro c hc hne
      rw [mem_range] at hc
      refine if_neg fun h => hne ?_
      have hlo := dest_ge (entsCsr VP VA) (entsCsr VP VA)[k] k
      have hhi := dest_lt_succ hk'
      have := hst c hc
      rcases lt_trichotomy c (entsCsr VP VA)[k].c with h1 | h1 | h1
      · have := start_mono (entsCsr VP VA) (show c + 1 ≤ (entsCsr VP VA)[k].c from h1); omega
      · exact h1
      · have := start_mono (entsCsr VP VA) (show (entsCsr VP VA)[k].c + 1 ≤ c from h1); omega
    · intro h; exact absurd (mem_range.2 hck) h

/-! ## The matrix denoted -/

theorem rowEnts_same (VP VA : View K) (X Y : ℕ → K) (sigma : K) (φ ψ R R' : ℕ → K) :
    All2 (fun _ e e' => e.c = e'.c ∧ e.r = e'.r) (rowEnts VP VA sigma φ R) (rowEnts (VP.withX X) (VA.withX Y) sigma ψ R') := by
  unfold rowEnts
  refine All2.append (All2.pre fun j hj => ?_) (All2.append (All2.pre fun k hk => All2.single ⟨rfl, rfl⟩) (All2.append (All2.pre fun k hk => All2.single ⟨rfl, rfl⟩) (All2.pre fun t ht => All2.single ⟨rfl, rfl⟩)))
  by_cases hm : Missing VP j
  · rw [show gM VP sigma j = [⟨j, j, sigma⟩] from if_pos hm, show gM (VP.withX X) sigma j = [⟨j, j, sigma⟩] from if_pos hm]
    exact All2.single ⟨rfl, rfl⟩
  · rw [show gM VP sigma j = [] from if_neg hm, show gM (VP.withX X) sigma j = [] from if_neg hm]
    exact All2.nil _

/-- The matrix of the list. -/
theorem rowEnts_matOf (hP : VP.Valid) (hA : VA.Valid) (hsq : VP.m = VP.n) (hn : VA.n = VP.n) (sigma : K) (φ R : ℕ → K) {r c : ℕ} (hr : r < VP.n + VA.m) (hc : c < VP.n + VA.m) :
    matOf (rowEnts VP VA sigma φ R) r c =
      if c < VP.n then (if r < VP.n then VP.entry c r + (∑ k ∈ range VP.nnz, if VP.i k = c ∧ VP.col k = r then φ k else 0) + (if r = c ∧ Missing VP c then sigma else 0)
        else VA.entry (r - VP.n) c) else if r = c then -R (r - VP.n) else 0 := by
  unfold rowEnts
  rw [matOf_append, matOf_append, matOf_append, matOf_pre, matOf_pre, matOf_pre, matOf_pre]
  have e1 : (∑ k ∈ range VP.nnz, matOf (rP VP φ k) r c) =
      (∑ k ∈ range VP.nnz, if VP.i k = c ∧ VP.col k = r then VP.x k else 0) + ∑ k ∈ range VP.nnz, if VP.i k = c ∧ VP.col k = r then φ k else 0 := by
    rw [← sum_add_distrib]
    refine sum_congr rfl fun k _ => ?_
    unfold rP
    rw [matOf_cons, matOf_nil, add_zero]
    by_cases h : VP.i k = c ∧ VP.col k = r
    · rw [if_pos h, if_pos h, if_pos ⟨h.2, h.1⟩]
    · rw [if_neg h, if_neg h, if_neg (fun h' => h ⟨h'.2, h'.1⟩), add_zero]
  have e2 : (∑ j ∈ range VP.n, matOf (gM VP sigma j) r c) = if r = c ∧ c < VP.n ∧ Missing VP c then sigma else 0 := by
    have : ∀ j, matOf (gM VP sigma j) r c = if c = j then (if r = c ∧ Missing VP c then sigma else 0) else 0 := by
      intro j
      unfold gM
      by_cases h1 : c = j
      · subst h1
        rw [if_pos rfl]
        by_cases h2 : Missing VP c
        · rw [if_pos h2, matOf_cons, matOf_nil, add_zero]
          by_cases h3 : r = c
          · rw [if_pos ⟨h3.symm, rfl⟩, if_pos ⟨h3, h2⟩]
          · rw [if_neg (fun h => h3 h.1.symm), if_neg (fun h => h3 h.1)]
        · rw [if_neg h2, if_neg (fun h => h2 h.2)]; rfl
      · rw [if_neg h1]
        by_cases h2 : Missing VP j
        · rw [if_pos h2, matOf_cons, matOf_nil, add_zero, if_neg (fun h => h1 h.2.symm)]
        · rw [if_neg h2]; rfl
    rw [sum_congr rfl fun j _ => this j, sum_ite_eq]
    by_cases h1 : c < VP.n
    · rw [if_pos (mem_range.2 h1)]
      refine if_congr ⟨fun h => ⟨h.1, h1, h.2⟩, fun h => ⟨h.1, h.2.2⟩⟩ rfl rfl
    · rw [if_neg (fun h => h1 (mem_range.1 h)), if_neg (fun h => h1 h.2.1)]
  have e3 : (∑ k ∈ range VA.nnz, matOf (blk VA VP.n 0 false k) r c) = ∑ k ∈ range VA.nnz, if VA.i k + VP.n = r ∧ VA.col k = c then VA.x k else 0 :=
    sum_congr rfl fun k _ => by unfold blk blkE; rw [if_neg (by simp), matOf_cons, matOf_nil, add_zero]; rfl
  have e4 : (∑ t ∈ range VA.m, matOf (gR VP.n R t) r c) = ∑ t ∈ range VA.m, if t + VP.n = r ∧ t + VP.n = c then -R t else 0 :=
    sum_congr rfl fun t _ => by unfold gR; rw [matOf_cons, matOf_nil, add_zero]
  rw [e1, e2, e3, e4]
  by_cases h1 : c < VP.n
  · rw [if_pos h1]
    have z4 : (∑ t ∈ range VA.m, if t + VP.n = r ∧ t + VP.n = c then -R t else 0) = 0 := sum_eq_zero fun t _ => by
      rw [if_neg (by rintro ⟨_, h⟩; omega)]
    by_cases h2 : r < VP.n
    · rw [if_pos h2, entry_full hP c h2]
      have z3 : (∑ k ∈ range VA.nnz, if VA.i k + VP.n = r ∧ VA.col k = c then VA.x k else 0) = 0 := sum_eq_zero fun k _ => by
        rw [if_neg (by rintro ⟨h, _⟩; omega)]
      rw [z3, z4]
      have : (if r = c ∧ c < VP.n ∧ Missing VP c then sigma else 0) = if r = c ∧ Missing VP c then sigma else 0 :=
        if_congr ⟨fun h => ⟨h.1, h.2.2⟩, fun h => ⟨h.1, h1, h.2⟩⟩ rfl rfl
      rw [this]; ring
    · rw [if_neg h2, entry_full hA (r - VP.n) (by omega), z4, if_neg (by rintro ⟨h, _⟩; omega)]
      have z1 : ∀ g : ℕ → K, (∑ k ∈ range VP.nnz, if VP.i k = c ∧ VP.col k = r then g k else 0) = 0 := fun g => sum_eq_zero fun k hk => by
        rw [if_neg]; rintro ⟨_, h⟩; have := (hP.col_spec (mem_range.1 hk)).1; omega
      rw [z1, z1, zero_add, add_zero, zero_add, add_zero]
      refine sum_congr rfl fun k _ => if_congr ⟨fun h => ⟨by omega, h.2⟩, fun h => ⟨by omega, h.2⟩⟩ rfl rfl
  · rw [if_neg h1, if_neg (fun h => h1 h.2.1)]
    have z1 : ∀ g : ℕ → K, (∑ k ∈ range VP.nnz, if VP.i k = c ∧ VP.col k = r then g k else 0) = 0 := fun g => sum_eq_zero fun k hk => by
      rw [if_neg]; rintro ⟨h, _⟩; have := hP.rows k (mem_range.1 hk); omega
    have z3 : (∑ k ∈ range VA.nnz, if VA.i k + VP.n = r ∧ VA.col k = c then VA.x k else 0) = 0 := sum_eq_zero fun k hk => by
      rw [if_neg]; rintro ⟨_, h⟩; have := (hA.col_spec (mem_range.1 hk)).1; omega
    rw [z1, z1, z3, add_zero, zero_add, zero_add, zero_add]
    by_cases h3 : r = c
    · subst h3
      rw [if_pos rfl, sum_eq_single (r - VP.n)]
      · rw [if_pos ⟨by omega, by omega⟩]
      · intro t _ hne; rw [if_neg (by rintro ⟨h, _⟩; omega)]
      · intro h; exact absurd (mem_range.2 (by omega)) h
    · rw [if_neg h3]
      exact sum_eq_zero fun t _ => by rw [if_neg (by rintro ⟨h, h'⟩; omega)]

/-- In a row without a zero for the diagonal, the entry that begins it is a diagonal entry, and there is one. -/
theorem firstP_unique (hP : VP.Valid) (ht : VP.Triu) {c : ℕ} (hc : c < VP.n) (hm : ¬ Missing VP c) :
    ∃ k < VP.nnz, VP.i k = c ∧ VP.col k = c ∧ FirstP VP k ∧ ∀ k' < VP.nnz, VP.i k' = c → FirstP VP k' → k' = k := by
  have h3 : VP.p c ≠ VP.p (c + 1) := fun h => hm (Or.inl h)
  have h4 := hP.mono c hc
  have h5 : VP.i (VP.p (c + 1) - 1) = c := by by_contra h6; exact hm (Or.inr h6)
  have h6 : VP.p (c + 1) - 1 < VP.nnz := hP.lt_nnz hc (by omega)
  have hex : ∃ k, VP.i k = c := ⟨_, h5⟩
  classical
  set k := Nat.find hex with hk
  have g1 : VP.i k = c := Nat.find_spec hex
  have g2 : ∀ k' < k, VP.i k' ≠ c := fun k' h => Nat.find_min hex h
  have g3 : k ≤ VP.p (c + 1) - 1 := Nat.find_min' hex h5
  have g4 : k < VP.nnz := by omega
  obtain ⟨c1, c2, c3⟩ := hP.col_spec g4
  have g5 := Triu.le hP ht g4
  have g6 : VP.col k = c := by
    rcases Nat.lt_or_ge c (VP.col k) with h | h
    · have := hP.le (a := c + 1) (b := VP.col k) (by omega) (by omega); omega
    · omega
  refine ⟨k, g4, g1, g6, ⟨by rw [g1]; exact hm, by rw [g1]; exact g2⟩, fun k' hk' e hf => ?_⟩
  rcases lt_trichotomy k' k with h | h | h
  · exact absurd e (g2 k' h)
  · exact h
  · exact absurd (g1.trans e.symm) (hf.2 k h)

/-- What forming the matrix adds. -/
theorem formShift_sum (hP : VP.Valid) (hsq : VP.m = VP.n) (ht : VP.Triu) (sigma : K) {r c : ℕ} (hc : c < VP.n) :
    (∑ k ∈ range VP.nnz, if VP.i k = c ∧ VP.col k = r then formShift VP sigma k else 0) = if r = c ∧ ¬ Missing VP c then sigma else 0 := by
  by_cases hm : Missing VP c
  · rw [if_neg (fun h => h.2 hm)]
    refine sum_eq_zero fun k _ => ?_
    by_cases h : VP.i k = c ∧ VP.col k = r
    · rw [if_pos h]; exact if_neg fun h' => h'.1 (by rw [h.1]; exact hm)
    · exact if_neg h
  · obtain ⟨k0, g1, g2, g3, g4, g5⟩ := firstP_unique hP ht hc hm
    rw [sum_eq_single k0]
    · by_cases h : r = c
      · rw [if_pos ⟨g2, by rw [g3, h]⟩, if_pos ⟨h, hm⟩]; exact if_pos g4
      · rw [if_neg (fun h' => h (by rw [← h'.2, g3])), if_neg (fun h' => h h'.1)]
    · intro k hk hne
      by_cases h : VP.i k = c ∧ VP.col k = r
      · rw [if_pos h]; exact if_neg fun h' => hne (g5 k (mem_range.1 hk) h.1 h')
      · exact if_neg h
    · intro h; exact absurd (mem_range.2 g1) h

end Osqp.Csc
