import Verif.Csc.KktMain
import Verif.Csc.KktSpec

/-!
# What the assembled KKT matrix denotes
-/

set_option linter.unusedSectionVars false
namespace Osqp.Csc
open Finset

variable {K : Type*} [Field K] [LinearOrder K] {VP VA V : View K}

theorem sum_diagLast (hP : VP.Valid) (hsq : VP.m = VP.n) (sigma : K) (r c : ℕ) :
    (∑ k ∈ range VP.nnz, if VP.i k = r ∧ VP.col k = c then (if DiagLast VP k then sigma else 0) else 0) =
      if r = c ∧ c < VP.n ∧ ¬ Missing VP c then sigma else 0 := by
  by_cases h : r = c ∧ c < VP.n ∧ ¬ Missing VP c
  · obtain ⟨rfl, h1, h2⟩ := h
    rw [if_pos ⟨rfl, h1, h2⟩]
    have h3 : VP.p r ≠ VP.p (r + 1) := fun h => h2 (Or.inl h)
    have h4 := hP.mono r h1
    have h5 : VP.i (VP.p (r + 1) - 1) = r := by by_contra h6; exact h2 (Or.inr h6)
    have h6 : VP.p (r + 1) - 1 < VP.nnz := hP.lt_nnz h1 (by omega)
    have h7 : VP.col (VP.p (r + 1) - 1) = r := hP.col_eq h1 (by omega) (by omega)
    rw [sum_eq_single (VP.p (r + 1) - 1)]
    · rw [if_pos ⟨h5, h7⟩, if_pos]
      rw [DiagLast_iff hP hsq h6, h7]
      exact ⟨by omega, h2⟩
    · intro k hk hne
      rw [mem_range] at hk
      by_cases h8 : VP.i k = r ∧ VP.col k = r
      · rw [if_pos h8, if_neg]
        rw [DiagLast_iff hP hsq hk, h8.2]
        rintro ⟨h9, _⟩; omega
      · rw [if_neg h8]
    · intro h8; exact absurd (mem_range.2 h6) h8
  · rw [if_neg h]
    refine sum_eq_zero fun k hk => ?_
    rw [mem_range] at hk
    by_cases h8 : VP.i k = r ∧ VP.col k = c
    · rw [if_pos h8, if_neg]
      intro h9
      have h10 := (DiagLast_iff hP hsq hk).1 h9
      have hr : VP.i k < VP.n := hsq ▸ hP.rows k hk
      have : VP.col k = VP.i k := hP.col_eq hr (by have := h9.1; have := h9.2; omega) (by have := h9.2; omega)
      rw [h8.2] at h10
      exact h ⟨by rw [← h8.1, ← h8.2, this], by rw [← h8.2]; exact (hP.col_spec hk).1, h10.2⟩
    · rw [if_neg h8]

theorem kktEnts_matOf (hP : VP.Valid) (hA : VA.Valid) (hsq : VP.m = VP.n) (hn : VA.n = VP.n) (sigma : K) (R : ℕ → K) {r c : ℕ} (hr : r < VP.n + VA.m) (hc : c < VP.n + VA.m) :
    matOf (kktEnts VP VA sigma R) r c =
      if c < VP.n then VP.entry r c + (if r = c then sigma else 0)
      else if r < VP.n then VA.entry (c - VP.n) r else if r = c then -R (r - VP.n) else 0 := by
  unfold kktEnts
  rw [matOf_append, matOf_append, matOf_append, matOf_pre, matOf_pre, matOf_pre, matOf_pre]
  have e1 : (∑ k ∈ range VP.nnz, matOf (gP VP sigma k) r c) =
      (∑ k ∈ range VP.nnz, if VP.i k = r ∧ VP.col k = c then VP.x k else 0) + if r = c ∧ c < VP.n ∧ ¬ Missing VP c then sigma else 0 := by
    rw [← sum_diagLast hP hsq, ← sum_add_distrib]
    refine sum_congr rfl fun k _ => ?_
    unfold gP
    rw [matOf_cons, matOf_nil, add_zero]
    by_cases h : VP.i k = r ∧ VP.col k = c
    · rw [if_pos h, if_pos h, if_pos h]
    · rw [if_neg h, if_neg h, if_neg h, add_zero]
  have e2 : (∑ j ∈ range VP.n, matOf (gM VP sigma j) r c) = if r = c ∧ c < VP.n ∧ Missing VP c then sigma else 0 := by
    have : ∀ j, matOf (gM VP sigma j) r c = if c = j then (if r = c ∧ Missing VP c then sigma else 0) else 0 := by
      intro j
      unfold gM
      by_cases h1 : c = j
      · subst h1
        rw [if_pos rfl]
        by_cases h2 : Missing VP c
        · rw [if_pos h2, matOf_cons, matOf_nil, add_zero]
          by_cases h3 : r = c
          · rw [if_pos ⟨h3.symm, rfl⟩, if_pos ⟨h3, h2⟩]
          · rw [if_neg (fun h => h3 h.1.symm), if_neg (fun h => h3 h.1)]
        · rw [if_neg h2, if_neg (fun h => h2 h.2)]; rfl
      · rw [if_neg h1]
        by_cases h2 : Missing VP j
        · rw [if_pos h2, matOf_cons, matOf_nil, add_zero, if_neg (fun h => h1 h.2.symm)]
        · rw [if_neg h2]; rfl
    rw [sum_congr rfl fun j _ => this j, sum_ite_eq]
    by_cases h1 : c < VP.n
    · rw [if_pos (mem_range.2 h1)]
      refine if_congr ⟨fun h => ⟨h.1, h1, h.2⟩, fun h => ⟨h.1, h.2.2⟩⟩ rfl rfl
    · rw [if_neg (fun h => h1 (mem_range.1 h)), if_neg (fun h => h1 h.2.1)]
  have e3 : (∑ k ∈ range VA.nnz, matOf (blk VA 0 VP.n true k) r c) = ∑ k ∈ range VA.nnz, if VA.col k = r ∧ VA.i k + VP.n = c then VA.x k else 0 :=
    sum_congr rfl fun k _ => by unfold blk blkE; rw [if_pos rfl, matOf_cons, matOf_nil, add_zero]; rfl
  have e4 : (∑ t ∈ range VA.m, matOf (gR VP.n R t) r c) = ∑ t ∈ range VA.m, if t + VP.n = r ∧ t + VP.n = c then -R t else 0 :=
    sum_congr rfl fun t _ => by unfold gR; rw [matOf_cons, matOf_nil, add_zero]
  rw [e1, e2, e3, e4]
  by_cases h1 : c < VP.n
  · rw [if_pos h1, ← entry_full hP r h1]
    have z3 : (∑ k ∈ range VA.nnz, if VA.col k = r ∧ VA.i k + VP.n = c then VA.x k else 0) = 0 := sum_eq_zero fun k _ => by
      rw [if_neg (by rintro ⟨_, h⟩; omega)]
    have z4 : (∑ t ∈ range VA.m, if t + VP.n = r ∧ t + VP.n = c then -R t else 0) = 0 := sum_eq_zero fun t _ => by
      rw [if_neg (by rintro ⟨_, h⟩; omega)]
    rw [z3, z4, add_zero, add_zero, add_assoc]
    congr 1
    by_cases h2 : r = c <;> by_cases h3 : Missing VP c <;> simp [h1, h2, h3]
  · rw [if_neg h1]
    have z1 : (∑ k ∈ range VP.nnz, if VP.i k = r ∧ VP.col k = c then VP.x k else 0) = 0 := sum_eq_zero fun k hk => by
      rw [if_neg]; rintro ⟨_, h⟩; have := (hP.col_spec (mem_range.1 hk)).1; omega
    rw [z1, if_neg (fun h => h1 h.2.1), if_neg (fun h => h1 h.2.1), add_zero, zero_add, zero_add]
    by_cases h2 : r < VP.n
    · rw [if_pos h2, entry_full hA (c - VP.n) (by omega)]
      have z4 : (∑ t ∈ range VA.m, if t + VP.n = r ∧ t + VP.n = c then -R t else 0) = 0 := sum_eq_zero fun t _ => by
        rw [if_neg (by rintro ⟨h, _⟩; omega)]
      rw [z4, add_zero]
      refine sum_congr rfl fun k _ => if_congr ⟨fun h => ⟨by omega, h.1⟩, fun h => ⟨h.2, by omega⟩⟩ rfl rfl
    · rw [if_neg h2]
      have z3 : (∑ k ∈ range VA.nnz, if VA.col k = r ∧ VA.i k + VP.n = c then VA.x k else 0) = 0 := sum_eq_zero fun k hk => by
        rw [if_neg]; rintro ⟨h, _⟩; have := (hA.col_spec (mem_range.1 hk)).1; omega
      rw [z3, zero_add]
      by_cases h3 : r = c
      · subst h3
        rw [if_pos rfl, sum_eq_single (r - VP.n)]
        · rw [if_pos ⟨by omega, by omega⟩]
        · intro t _ hne; rw [if_neg (by rintro ⟨h, _⟩; omega)]
        · intro h; exact absurd (mem_range.2 (by omega)) h
      · rw [if_neg h3]
        exact sum_eq_zero fun t _ => by rw [if_neg (by rintro ⟨h, h'⟩; omega)]

section
variable {sigma : K} {R : ℕ → K}

theorem kktEnts_inCols (hP : VP.Valid) (hA : VA.Valid) (hsq : VP.m = VP.n) (hn : VA.n = VP.n) : InCols (VP.n + VA.m) (kktEnts VP VA sigma R) :=
  (ents_shift hP hA hsq hn sigma R).inCols (fun _ _ _ h => h.1) (ents_inCols hP hA)

theorem kktEnts_rows (hP : VP.Valid) (hA : VA.Valid) (hsq : VP.m = VP.n) (hn : VA.n = VP.n) : ∀ e ∈ kktEnts VP VA sigma R, e.r < VP.n + VA.m :=
  (ents_shift hP hA hsq hn sigma R).rows (fun _ _ _ h => h.2.1) (ents_rows hP hA hsq hn)

theorem kktEnts_map (hP : VP.Valid) (hA : VA.Valid) (hsq : VP.m = VP.n) (hn : VA.n = VP.n) : (entsCsc VP VA).map (·.c) = (kktEnts VP VA sigma R).map (·.c) :=
  (ents_shift hP hA hsq hn sigma R).map_c (fun _ _ _ h => h.1)

theorem kktEnts_triu (hP : VP.Valid) (hA : VA.Valid) (hn : VA.n = VP.n) (ht : VP.Triu) : ∀ e ∈ kktEnts VP VA sigma R, e.r ≤ e.c := by
  intro e he
  unfold kktEnts at he
  simp only [List.mem_append] at he
  rcases he with he | he | he | he
  · revert e; exact pre_all fun k hk e he => by
      rw [gP, List.mem_singleton] at he; rw [he]; exact Triu.le hP ht hk
  · revert e; exact pre_all fun k hk e he => by
      unfold gM at he
      split_ifs at he
      · rw [List.mem_singleton] at he; rw [he]
      · simp at he
  · revert e; exact pre_all fun k hk e he => by
      rw [blk, List.mem_singleton] at he
      rw [he]; have := (hA.col_spec hk).1; simp [blkE]; omega
  · revert e; exact pre_all fun k hk e he => by
      rw [gR, List.mem_singleton] at he; rw [he]

theorem kkt_denote (hP : VP.Valid) (hA : VA.Valid) (hsq : VP.m = VP.n) (hn : VA.n = VP.n) (ht : VP.Triu)
    (hL : Laid (VP.n + VA.m) (VP.n + VA.m) (kktEnts VP VA sigma R) V) :
    V.Valid ∧ V.Triu ∧ ∀ r < VP.n + VA.m, ∀ c < VP.n + VA.m, V.symEntry r c = kktFull VP VA sigma R r c := by
  have hcols := kktEnts_inCols (sigma := sigma) (R := R) hP hA hsq hn
  have hrows := kktEnts_rows (sigma := sigma) (R := R) hP hA hsq hn
  have hv := hL.valid hcols hrows
  refine ⟨hv, triu_of_le hv fun t ht' => ?_, fun r hr c hc => ?_⟩
  · obtain ⟨k, hk, rfl⟩ := hL.pos hcols ht'
    rw [hL.i k hk, hL.col hcols hrows hk]
    exact kktEnts_triu hP hA hn ht _ (List.getElem_mem hk)
  · have hup : ∀ r c, r ≤ c → c < VP.n + VA.m → V.entry r c = if r < VP.n then
        if c < VP.n then VP.symEntry r c + (if r = c then sigma else 0) else VA.entry (c - VP.n) r else if r = c then -R (r - VP.n) else 0 := by
      intro r c hrc hc
      rw [hL.entry hcols hrows hc, kktEnts_matOf hP hA hsq hn sigma R (by omega) hc]
      by_cases h1 : c < VP.n
      · have h0 : r < VP.n := by omega
        rw [if_pos h1, if_pos h0, if_pos h1]
        unfold View.symEntry; rw [if_pos hrc]
      · rw [if_neg h1]
        by_cases h2 : r < VP.n
        · rw [if_pos h2, if_pos h2, if_neg h1]
        · rw [if_neg h2, if_neg h2]
    unfold View.symEntry kktFull
    by_cases h : r ≤ c
    · rw [if_pos h, hup r c h hc]
      by_cases h1 : r < VP.n
      · rw [if_pos h1, if_pos h1]
      · have h0 : ¬ c < VP.n := by omega
        rw [if_neg h1, if_neg h1, if_neg h0]
    · have hne : ¬ c = r := by omega
      have hne' : ¬ r = c := by omega
      rw [if_neg h, hup c r (by omega) hr]
      by_cases h1 : c < VP.n
      · rw [if_pos h1]
        by_cases h2 : r < VP.n
        · rw [if_pos h2, if_pos h2, if_pos h1, if_neg hne, if_neg hne']
          unfold View.symEntry
          have h3 : c ≤ r := by omega
          rw [if_pos h3, if_neg h]
        · rw [if_neg h2, if_neg h2, if_pos h1]
      · have h0 : ¬ r < VP.n := by omega
        rw [if_neg h1, if_neg h0, if_neg hne, if_neg h1, if_neg hne']

/-! ## Index maps -/

theorem locate (hL : Laid (VP.n + VA.m) (VP.n + VA.m) (kktEnts VP VA sigma R) V) (hP : VP.Valid) (hA : VA.Valid) (hsq : VP.m = VP.n) (hn : VA.n = VP.n)
    {N : ℕ} {es : ℕ → List (Ent K)} {e : ℕ → Ent K} {f I J : ℕ → ℕ} {X : ℕ → K} (hdec : ∀ k < N, ∃ rest, kktEnts VP VA sigma R = es k ++ e k :: rest)
    (hf : ∀ k < N, f k = dest (kktEnts VP VA sigma R) (e k) (es k).length) (he : ∀ k < N, (e k).r = I k ∧ (e k).c = J k ∧ (e k).v = X k)
    (hes : ∀ k < N, ∀ k' < N, (es k).length = (es k').length → k = k') : Locates V N f I J X := by
  have hcols := kktEnts_inCols (sigma := sigma) (R := R) hP hA hsq hn
  have hrows := kktEnts_rows (sigma := sigma) (R := R) hP hA hsq hn
  have key : ∀ k < N, f k < V.nnz ∧ V.i (f k) = I k ∧ V.col (f k) = J k ∧ V.x (f k) = X k := by
    intro k hk
    obtain ⟨rest, hr⟩ := hdec k hk
    have := hL.at hcols hrows hr
    rw [← hf k hk, (he k hk).1, (he k hk).2.1, (he k hk).2.2] at this
    exact this
  refine ⟨fun k hk => (key k hk).1, fun k hk => (key k hk).2.1, fun k hk => (key k hk).2.2.1, fun k hk => (key k hk).2.2.2, fun k hk k' hk' h => ?_⟩
  obtain ⟨rest, hr⟩ := hdec k hk
  obtain ⟨rest', hr'⟩ := hdec k' hk'
  exact hes k hk k' hk' (dest_at_inj hr hr' (by rw [← hf k hk, ← hf k' hk', h]))

theorem gP_length (VP : View K) (sigma : K) (k : ℕ) : (pre (gP VP sigma) k).length = k := pre_length_one (fun _ => rfl) k
theorem gR_length (n : ℕ) (R : ℕ → K) (k : ℕ) : (pre (gR n R) k).length = k := pre_length_one (fun _ => rfl) k
theorem gM_length (VP : View K) (sigma : K) (k : ℕ) : (pre (gM VP sigma) k).length = (pre (miss VP) k).length := by
  induction k with
  | zero => rfl
  | succ k ih =>
    rw [pre_succ, pre_succ, List.length_append, List.length_append, ih]
    congr 1
    unfold gM miss; split_ifs <;> rfl

variable (hL : Laid (VP.n + VA.m) (VP.n + VA.m) (kktEnts VP VA sigma R) V) (hP : VP.Valid) (hA : VA.Valid) (hsq : VP.m = VP.n) (hn : VA.n = VP.n)
include hL hP hA hsq hn

theorem locates_P : Locates V VP.nnz (posP VP VA) VP.i VP.col (fun k => VP.x k + if DiagLast VP k then sigma else 0) := by
  have hmap := kktEnts_map (sigma := sigma) (R := R) hP hA hsq hn
  refine locate hL hP hA hsq hn (es := fun k => pre (gP VP sigma) k) (e := fun k => ⟨VP.col k, VP.i k, VP.x k + if DiagLast VP k then sigma else 0⟩)
    (fun k hk => ?_) (fun k hk => ?_) (fun k _ => ⟨rfl, rfl, rfl⟩) (fun k _ k' _ h => by rwa [gP_length, gP_length] at h)
  · unfold kktEnts
    rw [pre_drop (gP VP sigma) hk]
    exact ⟨_, by rw [gP]; simp [List.append_assoc]; rfl⟩
  · rw [gP_length, posP]
    exact dest_congr hmap (by simp [blkE]) k

theorem locates_A : Locates V VA.nnz (posA VP VA) VA.col (fun k => VA.i k + VP.n) VA.x := by
  have hmap := kktEnts_map (sigma := sigma) (R := R) hP hA hsq hn
  refine locate hL hP hA hsq hn (es := fun k => pre (gP VP sigma) VP.nnz ++ (pre (gM VP sigma) VP.n ++ pre (blk VA 0 VP.n true) k)) (e := fun k => blkE VA 0 VP.n true k)
    (fun k hk => ?_) (fun k hk => ?_) (fun k _ => by unfold blkE; simp) (fun k _ k' _ h => by simp only [List.length_append, blk_length] at h; omega)
  · unfold kktEnts
    rw [pre_drop (blk VA 0 VP.n true) hk]
    exact ⟨_, by rw [blk]; simp [List.append_assoc]; rfl⟩
  · rw [posA]
    simp only [List.length_append, gP_length, blk_length, gM_length]
    rw [← Nat.add_assoc]
    exact dest_congr hmap rfl _

theorem locates_R : Locates V VA.m (posR VP VA) (fun t => t + VP.n) (fun t => t + VP.n) (fun t => -R t) := by
  have hmap := kktEnts_map (sigma := sigma) (R := R) hP hA hsq hn
  refine locate hL hP hA hsq hn (es := fun k => pre (gP VP sigma) VP.nnz ++ (pre (gM VP sigma) VP.n ++ (pre (blk VA 0 VP.n true) VA.nnz ++ pre (gR VP.n R) k)))
    (e := fun t => ⟨t + VP.n, t + VP.n, -R t⟩)
    (fun k hk => ?_) (fun k hk => ?_) (fun k _ => ⟨rfl, rfl, rfl⟩) (fun k _ k' _ h => by simp only [List.length_append, blk_length, gR_length] at h; omega)
  · unfold kktEnts
    rw [pre_drop (gR VP.n R) hk]
    exact ⟨_, by rw [gR]; simp [List.append_assoc]; rfl⟩
  · rw [posR]
    simp only [List.length_append, gP_length, blk_length, gM_length, gR_length]
    rw [← Nat.add_assoc, ← Nat.add_assoc]
    exact dest_congr hmap rfl _

end

end Osqp.Csc
