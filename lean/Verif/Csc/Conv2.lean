import Verif.Csc.Conv

/-!
# What the conversions denote
-/

set_option linter.unusedSectionVars false
namespace Osqp.Csc
open Finset

variable {K : Type*} [Field K] [LinearOrder K]

/-- An entry of the matrix as a sum over all stored entries. -/
theorem entry_full {V : View K} (h : V.Valid) (r : ℕ) {c : ℕ} (hc : c < V.n) :
    V.entry r c = ∑ k ∈ range V.nnz, if V.i k = r ∧ V.col k = c then V.x k else 0 := by
  have := h.sum_cols (fun j k => if V.i k = r ∧ j = c then V.x k else 0)
  rw [this, sum_eq_single c]
  · unfold View.entry; exact sum_congr rfl fun k _ => by simp
  · intro j _ hj; exact sum_eq_zero fun k _ => by rw [if_neg (fun h => hj h.2)]
  · intro hn; exact absurd (mem_range.2 hc) hn

theorem Triu.le {V : View K} (h : V.Valid) (ht : V.Triu) {k : ℕ} (hk : k < V.nnz) : V.i k ≤ V.col k := by
  obtain ⟨h1, h2, h3⟩ := h.col_spec hk; exact ht _ h1 _ h2 h3

theorem triu_of_le {V : View K} (h : V.Valid) (ht : ∀ k < V.nnz, V.i k ≤ V.col k) : V.Triu := by
  intro j hj k h1 h2
  have := ht k (h.lt_nnz hj h2)
  rwa [h.col_eq hj h1 h2] at this

theorem symEntry_max (V : View K) (a b : ℕ) : V.symEntry a b = V.entry (min a b) (max a b) := by
  unfold View.symEntry
  split_ifs with h
  · rw [min_eq_left h, max_eq_right h]
  · rw [min_eq_right (by omega), max_eq_left (by omega)]

theorem symOne_laid {V W : View K} (hv : V.Valid) (hsq : V.m = V.n) (ht : V.Triu) {π : ℕ → ℕ} (hπ : ∀ j < V.n, π j < V.n)
    (hinj : ∀ i < V.n, ∀ j < V.n, π i = π j → i = j) (hL : Laid V.n V.n (pre (symOne V π) V.nnz) W) :
    W.Triu ∧ (∀ i < V.n, ∀ j < V.n, W.symEntry (π i) (π j) = V.symEntry i j) ∧
      Locates W V.nnz (symSlot V π) (fun k => min (π (V.i k)) (π (V.col k))) (fun k => max (π (V.i k)) (π (V.col k))) V.x := by
  have hle : ∀ {k}, k < V.nnz → V.i k ≤ V.col k := fun hk => Triu.le hv ht hk
  have hone : ∀ {k}, k < V.nnz → symOne V π k = [⟨max (π (V.i k)) (π (V.col k)), min (π (V.i k)) (π (V.col k)), V.x k⟩] := fun hk => if_pos (hle hk)
  have hrow : ∀ {k}, k < V.nnz → V.i k < V.n := fun hk => hsq ▸ hv.rows _ hk
  have hcol : ∀ {k}, k < V.nnz → V.col k < V.n := fun hk => (hv.col_spec hk).1
  have hlen : ∀ k ≤ V.nnz, (pre (symOne V π) k).length = k := by
    intro k
    induction k with
    | zero => intro _; rfl
    | succ k ih => intro hk; rw [pre_succ, List.length_append, ih (by omega), hone (by omega)]; rfl
  have hc : InCols V.n (pre (symOne V π) V.nnz) := pre_all fun k hk e he => by
    rw [hone hk, List.mem_singleton] at he; rw [he]; exact max_lt (hπ _ (hrow hk)) (hπ _ (hcol hk))
  have hr : ∀ e ∈ pre (symOne V π) V.nnz, e.r < V.n := pre_all fun k hk e he => by
    rw [hone hk, List.mem_singleton] at he; rw [he]; exact lt_of_le_of_lt (min_le_left _ _) (hπ _ (hrow hk))
  have hat : ∀ k < V.nnz, symSlot V π k < W.nnz ∧ W.i (symSlot V π k) = min (π (V.i k)) (π (V.col k)) ∧
      W.col (symSlot V π k) = max (π (V.i k)) (π (V.col k)) ∧ W.x (symSlot V π k) = V.x k := by
    intro k hk
    obtain ⟨rest, hs⟩ := pre_split (symOne V π) hk
    rw [hone hk] at hs
    exact hL.at hc hr hs
  refine ⟨?_, ?_, fun k hk => (hat k hk).1, fun k hk => (hat k hk).2.1, fun k hk => (hat k hk).2.2.1, fun k hk => (hat k hk).2.2.2, ?_⟩
  · refine triu_of_le (hL.valid hc hr) fun t hts => ?_
    obtain ⟨k, hk, rfl⟩ := hL.pos hc hts
    rw [hL.i k hk, hL.col hc hr hk]
    have : ∀ e ∈ pre (symOne V π) V.nnz, e.r ≤ e.c := pre_all fun k hk e he => by
      rw [hone hk, List.mem_singleton] at he; rw [he]; exact le_trans (min_le_left _ _) (le_max_left _ _)
    exact this _ (List.getElem_mem hk)
  · intro i hi j hj
    rw [symEntry_max W, symEntry_max V, hL.entry hc hr (max_lt (hπ i hi) (hπ j hj)), entry_full hv _ (max_lt hi hj), matOf_pre]
    refine sum_congr rfl fun k hk => ?_
    rw [mem_range] at hk
    rw [hone hk, matOf_cons, matOf_nil, add_zero]
    have hiff : (min (π (V.i k)) (π (V.col k)) = min (π i) (π j) ∧ max (π (V.i k)) (π (V.col k)) = max (π i) (π j)) ↔
        (V.i k = min i j ∧ V.col k = max i j) := by
      constructor
      · rintro ⟨h1, h2⟩
        have h3 : (π (V.i k) = π i ∧ π (V.col k) = π j) ∨ (π (V.i k) = π j ∧ π (V.col k) = π i) := by omega
        have h4 := hle hk
        rcases h3 with ⟨h5, h6⟩ | ⟨h5, h6⟩
        · have a := hinj _ (hrow hk) _ hi h5
          have b := hinj _ (hcol hk) _ hj h6
          omega
        · have a := hinj _ (hrow hk) _ hj h5
          have b := hinj _ (hcol hk) _ hi h6
          omega
      · rintro ⟨h1, h2⟩
        rcases le_total i j with h3 | h3
        · rw [min_eq_left h3] at h1; rw [max_eq_right h3] at h2; rw [h1, h2]; exact ⟨rfl, rfl⟩
        · rw [min_eq_right h3] at h1; rw [max_eq_left h3] at h2; rw [h1, h2]; exact ⟨min_comm _ _, max_comm _ _⟩
    by_cases hh : V.i k = min i j ∧ V.col k = max i j
    · rw [if_pos hh, if_pos (hiff.2 hh)]
    · rw [if_neg hh, if_neg (fun h => hh (hiff.1 h))]
  · intro k hk k' hk' he
    obtain ⟨rest, hs⟩ := pre_split (symOne V π) hk
    obtain ⟨rest', hs'⟩ := pre_split (symOne V π) hk'
    rw [hone hk] at hs
    rw [hone hk'] at hs'
    have := dest_at_inj hs hs' he
    rwa [hlen k hk.le, hlen k' hk'.le] at this

/-! ## Triplet buffers -/

def noEnt : Ent K := ⟨0, 0, 0⟩

/-- The triplet buffer holds the first entries `es` of `all`. -/
structure TripHas (all es : List (Ent K)) (t : Trip K) : Prop where
  z : t.z = es.length
  i : Holds t.i es.length (fun k => ((all.getD k noEnt).r : ℤ))
  p : Holds t.p es.length (fun k => ((all.getD k noEnt).c : ℤ))
  x : Holds t.x es.length (fun k => (all.getD k noEnt).v)
  isz : all.length ≤ t.i.size
  psz : all.length ≤ t.p.size
  xsz : all.length ≤ t.x.size

theorem TripHas.add {all es rest : List (Ent K)} {e : Ent K} {t : Trip K} (h : TripHas all es t) (hall : all = es ++ e :: rest) {r c : ℤ}
    (hr : r = e.r) (hc : c = e.c) : ∃ t', t.add r c e.v = some t' ∧ TripHas all (es ++ [e]) t' := by
  have hlt : es.length < all.length := by rw [hall]; simp
  have hget : all.getD es.length noEnt = e := by rw [hall]; simp [List.getD]
  refine ⟨⟨t.i.set es.length r, t.p.set es.length c, t.x.set es.length e.v, t.z + 1⟩, ?_, ?_, ?_, ?_, ?_, h.isz, h.psz, h.xsz⟩
  · unfold Trip.add
    rw [h.z, Buf.wr_eq (lt_of_lt_of_le hlt h.isz), Buf.wr_eq (lt_of_lt_of_le hlt h.psz), Buf.wr_eq (lt_of_lt_of_le hlt h.xsz)]
    rfl
  · simp [h.z]
  · rw [List.length_append]; exact h.i.extend (lt_of_lt_of_le hlt h.isz) _ (by rw [hget, hr])
  · rw [List.length_append]; exact h.p.extend (lt_of_lt_of_le hlt h.psz) _ (by rw [hget, hc])
  · rw [List.length_append]; exact h.x.extend (lt_of_lt_of_le hlt h.xsz) _ (by rw [hget])

theorem pre_getD (all : List (Ent K)) : pre (one (fun k => (all.getD k noEnt).r) (fun k => (all.getD k noEnt).c) (fun k => (all.getD k noEnt).v)) all.length = all := by
  have : ∀ k ≤ all.length, pre (one (fun k => (all.getD k noEnt).r) (fun k => (all.getD k noEnt).c) (fun k => (all.getD k noEnt).v)) k = all.take k := by
    intro k
    induction k with
    | zero => intro _; simp
    | succ k ih =>
      intro hk
      rw [pre_succ, ih (by omega), List.take_succ]
      congr 1
      simp [one, List.getD, show k < all.length by omega]
  rw [this _ (le_refl _), List.take_length]

theorem TripHas.toCsc {all : List (Ent K)} {t : Trip K} (h : TripHas all all t) {m n : ℕ} (hI : ∀ e ∈ all, e.r < m) (hJ : InCols n all) (T : Csc K)
    (hm : T.m = m) (hn : T.n = n) :
    ∃ C V, tripletToCsc { T with i := t.i, p := t.p, x := t.x, nz := t.z } none = some (C, none) ∧ Rep C V ∧ Laid m n all V ∧
      C.i.size = all.length ∧ C.x.size = all.length := by
  have hget : ∀ k < all.length, all.getD k noEnt ∈ all := fun k hk => by
    simp [List.getD, hk]
  obtain ⟨C, map', V, e, h1, h2, h3, h4, _, h6⟩ := triplet_aux (T := { T with i := t.i, p := t.p, x := t.x, nz := t.z }) (N := all.length)
    hm hn h.z h.i h.p h.x (fun k hk => hI _ (hget k hk)) (fun k hk => hJ _ (hget k hk)) (map := none) (by intro b hb; simp at hb)
  rw [pre_getD] at h2
  refine ⟨C, V, ?_, h1, h2, h3, h4⟩
  rw [e, h6.1 rfl]

/-! ## Symmetrisation -/

/-- A stored entry and, off the diagonal, its mirror image. -/
def mirror (V : View K) (k : ℕ) : List (Ent K) :=
  ⟨V.col k, V.i k, V.x k⟩ :: if V.i k < V.col k then [⟨V.i k, V.col k, V.x k⟩] else []

theorem mirror_length (V : View K) (N : ℕ) : (pre (mirror V) N).length ≤ 2 * N := by
  induction N with
  | zero => simp
  | succ N ih =>
    rw [pre_succ, List.length_append]
    have : (mirror V N).length ≤ 2 := by unfold mirror; split_ifs <;> simp
    omega

theorem spallocTrip_nat (m n : ℤ) (N : ℕ) : (spallocTrip m n (N : ℤ) : Csc K).p.size = N ∧ (spallocTrip m n (N : ℤ) : Csc K).i.size = N ∧
    (spallocTrip m n (N : ℤ) : Csc K).x.size = N := by
  refine ⟨?_, ?_, ?_⟩ <;> simp [spallocTrip, Buf.fresh]

theorem triuToCsc_aux {M : Csc K} {V : View K} (h : Rep M V) (hsq : V.m = V.n) (ht : V.Triu) :
    ∃ C W, triuToCsc M = some (some C) ∧ Rep C W ∧ W.m = V.n ∧ W.n = V.n ∧ C.nzmax = W.nnz ∧ C.i.size = W.nnz ∧ C.x.size = W.nnz ∧
      ∀ r < V.n, ∀ c < V.n, W.entry r c = V.symEntry r c := by
  have hrow : ∀ {k}, k < V.nnz → V.i k < V.n := fun hk => hsq ▸ h.valid.rows _ hk
  have hcol : ∀ {k}, k < V.nnz → V.col k < V.n := fun hk => (h.valid.col_spec hk).1
  set all := pre (mirror V) V.nnz with hall
  have hmem : ∀ e ∈ all, e.r < V.n ∧ e.c < V.n := pre_all fun k hk e he => by
    unfold mirror at he
    rw [List.mem_cons] at he
    rcases he with he | he
    · rw [he]; exact ⟨hrow hk, hcol hk⟩
    · split_ifs at he
      · rw [List.mem_singleton] at he; rw [he]; exact ⟨hcol hk, hrow hk⟩
      · simp at he
  have hlen : all.length ≤ 2 * V.nnz := mirror_length V _
  obtain ⟨z1, z2, z3⟩ := spallocTrip_nat (K := K) V.n V.n (2 * V.nnz)
  obtain ⟨t, et, htr⟩ := h.forCols_rule
    (s := (⟨(spallocTrip (V.n : ℤ) (V.n : ℤ) ((2 * V.nnz : ℕ) : ℤ) : Csc K).i, (spallocTrip (V.n : ℤ) (V.n : ℤ) ((2 * V.nnz : ℕ) : ℤ) : Csc K).p,
      (spallocTrip (V.n : ℤ) (V.n : ℤ) ((2 * V.nnz : ℕ) : ℤ) : Csc K).x, 0⟩ : Trip K))
    (body := fun j ptr (t : Trip K) => (M.i.rd ptr).bind fun i => (M.x.rd ptr).bind fun v =>
      (t.add i j v).bind fun t => if i < j then t.add j i v else some t)
    (fun k t => TripHas all (pre (mirror V) k) t)
    ⟨rfl, Holds.zero, Holds.zero, Holds.zero, by simp only; omega, by simp only; omega, by simp only; omega⟩ (by
      intro j k t hj h1 h2 hk hc hh
      rw [h.rdI hk, h.rdX hk]
      simp only [Option.bind_some]
      obtain ⟨rest, hsp⟩ := pre_split (mirror V) hk
      rw [← hall] at hsp
      obtain ⟨t1, e1, h3⟩ := hh.add (e := ⟨V.col k, V.i k, V.x k⟩) (rest := (if V.i k < V.col k then [⟨V.i k, V.col k, V.x k⟩] else []) ++ rest)
        (by rw [hsp]; rfl) (r := V.i k) (c := j) rfl (by rw [hc])
      simp only at e1
      rw [e1]
      simp only [Option.bind_some]
      by_cases hlt : V.i k < j
      · rw [if_pos (by exact_mod_cast hlt)]
        have hlt' : V.i k < V.col k := by rw [hc]; exact hlt
        obtain ⟨t2, e2, h4⟩ := h3.add (e := ⟨V.i k, V.col k, V.x k⟩) (rest := rest)
          (by rw [hsp]; unfold mirror; rw [if_pos hlt']; simp) (r := j) (c := V.i k) (by rw [hc]) rfl
        refine ⟨t2, e2, ?_⟩
        have em : mirror V k = [⟨V.col k, V.i k, V.x k⟩, ⟨V.i k, V.col k, V.x k⟩] := by unfold mirror; rw [if_pos hlt']
        rw [pre_succ, em]
        simpa using h4
      · rw [if_neg (by exact_mod_cast hlt)]
        have hlt' : ¬ V.i k < V.col k := by rw [hc]; exact hlt
        refine ⟨t1, rfl, ?_⟩
        rw [pre_succ]
        unfold mirror
        rw [if_neg hlt']
        exact h3)
  obtain ⟨C, W, eC, hR, hL, hs1, hs2⟩ := htr.toCsc (m := V.n) (n := V.n) (fun e he => (hmem e he).1) (fun e he => (hmem e he).2)
    (spallocTrip (V.n : ℤ) (V.n : ℤ) ((2 * V.nnz : ℕ) : ℤ) : Csc K) rfl rfl
  have hInC : InCols V.n all := fun e he => (hmem e he).2
  have hInR : ∀ e ∈ all, e.r < V.n := fun e he => (hmem e he).1
  refine ⟨{ C with nzmax := t.z }, W, ?_, ⟨hR.m, hR.n, hR.valid, hR.p, hR.i, hR.x⟩, hL.vm, hL.vn, ?_, ?_, ?_, ?_⟩
  · unfold triuToCsc
    rw [h.n] at et
    rw [if_neg (by rw [h.m, h.n, hsq]; simp), h.rdNnz, h.n]
    simp only [Option.bind_some]
    rw [show (2 : ℤ) * (V.nnz : ℤ) = ((2 * V.nnz : ℕ) : ℤ) by push_cast; ring]
    rw [et]
    simp only [Option.bind_some]
    rw [eC]
    rfl
  · rw [hL.nnz hInC]; exact htr.z
  · rw [hL.nnz hInC]; exact hs1
  · rw [hL.nnz hInC]; exact hs2
  · intro r hr c hc
    rw [hL.entry hInC hInR hc, ht.symEntry_eq hr hc, matOf_pre, entry_full h.valid r hc, entry_full h.valid c hr]
    have : ∀ k ∈ range V.nnz, matOf (mirror V k) r c = (if V.i k = r ∧ V.col k = c then V.x k else 0) +
        if c = r then 0 else if V.i k = c ∧ V.col k = r then V.x k else 0 := by
      intro k hk
      rw [mem_range] at hk
      have hle := Triu.le h.valid ht hk
      unfold mirror
      rw [matOf_cons]
      congr 1
      by_cases h1 : V.i k < V.col k
      · rw [if_pos h1, matOf_cons, matOf_nil, add_zero]
        by_cases h2 : V.i k = c ∧ V.col k = r
        · rw [if_pos ⟨h2.2, h2.1⟩, if_neg (by omega), if_pos h2]
        · rw [if_neg (fun h => h2 ⟨h.2, h.1⟩), if_neg h2]; simp
      · rw [if_neg h1, matOf_nil]
        by_cases h2 : c = r
        · rw [if_pos h2]
        · rw [if_neg h2, if_neg (by omega)]
    rw [sum_congr rfl this, sum_add_distrib]
    congr 1
    by_cases h2 : c = r
    · simp [h2]
    · simp [h2]

/-! ## Stacking -/

theorem vstack_aux {A B : Csc K} {V W : View K} (hA : Rep A V) (hB : Rep B W) (hn : V.n = W.n) (hzA : (V.nnz : ℤ) ≤ A.nzmax) (hzB : (W.nnz : ℤ) ≤ B.nzmax) :
    ∃ C U, vstack A B = some (some C) ∧ Rep C U ∧ U.m = V.m + W.m ∧ U.n = V.n ∧ C.nzmax = U.nnz ∧ C.i.size = U.nnz ∧ C.x.size = U.nnz ∧
      (∀ r < V.m, ∀ c < V.n, U.entry r c = V.entry r c) ∧ ∀ r < W.m, ∀ c < V.n, U.entry (V.m + r) c = W.entry r c := by
  set g1 := one V.i V.col V.x with hg1
  set g2 := one (fun k => V.m + W.i k) W.col W.x with hg2
  set all := pre g1 V.nnz ++ pre g2 W.nnz with hall
  have hlen : all.length = V.nnz + W.nnz := by rw [hall, List.length_append, pre_one_length, pre_one_length]
  have hmem : ∀ e ∈ all, e.r < V.m + W.m ∧ e.c < V.n := by
    intro e he
    rw [hall, List.mem_append] at he
    rcases he with he | he
    · exact pre_all (P := fun e => e.r < V.m + W.m ∧ e.c < V.n) (fun k hk e he => by
        rw [hg1, one, List.mem_singleton] at he; rw [he]
        exact ⟨by have := hA.valid.rows k hk; simp only; omega, (hA.valid.col_spec hk).1⟩) e he
    · exact pre_all (P := fun e => e.r < V.m + W.m ∧ e.c < V.n) (fun k hk e he => by
        rw [hg2, one, List.mem_singleton] at he; rw [he]
        exact ⟨by have := hB.valid.rows k hk; simp only; omega, by rw [hn]; exact (hB.valid.col_spec hk).1⟩) e he
  obtain ⟨zA, hA1⟩ : ∃ z : ℕ, A.nzmax + B.nzmax = z := ⟨(A.nzmax + B.nzmax).toNat, by omega⟩
  obtain ⟨z1, z2, z3⟩ := spallocTrip_nat (K := K) (A.m + B.m) V.n zA
  obtain ⟨t1, e1, ht1⟩ := hA.forCols_rule
    (s := (⟨(spallocTrip (A.m + B.m) (V.n : ℤ) (zA : ℤ) : Csc K).i, (spallocTrip (A.m + B.m) (V.n : ℤ) (zA : ℤ) : Csc K).p,
      (spallocTrip (A.m + B.m) (V.n : ℤ) (zA : ℤ) : Csc K).x, 0⟩ : Trip K))
    (body := fun j ptr (t : Trip K) => (A.i.rd ptr).bind fun i => (A.x.rd ptr).bind fun v => t.add i j v)
    (fun k t => TripHas all (pre g1 k) t)
    ⟨rfl, Holds.zero, Holds.zero, Holds.zero, by simp only; omega, by simp only; omega, by simp only; omega⟩ (by
      intro j k t hj h1 h2 hk hc hh
      rw [hA.rdI hk, hA.rdX hk]
      simp only [Option.bind_some]
      obtain ⟨rest, hsp⟩ := pre_split g1 hk
      obtain ⟨t', e, h'⟩ := hh.add (e := ⟨V.col k, V.i k, V.x k⟩) (rest := rest ++ pre g2 W.nnz)
        (by rw [hall, hsp, hg1]; simp [one]) (r := V.i k) (c := j) rfl (by rw [hc])
      exact ⟨t', e, by rw [pre_succ]; exact h'⟩)
  obtain ⟨t2, e2, ht2⟩ := hB.forCols_rule (s := t1)
    (body := fun j ptr (t : Trip K) => (B.i.rd ptr).bind fun i => (B.x.rd ptr).bind fun v => t.add (i + A.m) j v)
    (fun k t => TripHas all (pre g1 V.nnz ++ pre g2 k) t) (by simpa using ht1) (by
      intro j k t hj h1 h2 hk hc hh
      rw [hB.rdI hk, hB.rdX hk]
      simp only [Option.bind_some]
      obtain ⟨rest, hsp⟩ := pre_split g2 hk
      obtain ⟨t', e, h'⟩ := hh.add (e := ⟨W.col k, V.m + W.i k, W.x k⟩) (rest := rest)
        (by rw [hall, hsp, hg2]; simp [one]) (r := (W.i k : ℤ) + A.m) (c := j) (by rw [hA.m]; push_cast; ring) (by rw [hc])
      exact ⟨t', e, by rw [pre_succ, ← List.append_assoc]; exact h'⟩)
  have hInC : InCols V.n all := fun e he => (hmem e he).2
  have hInR : ∀ e ∈ all, e.r < V.m + W.m := fun e he => (hmem e he).1
  obtain ⟨C, U, eC, hR, hL, hs1, hs2⟩ := TripHas.toCsc ht2 (m := V.m + W.m) (n := V.n) hInR hInC
    (spallocTrip (A.m + B.m) (V.n : ℤ) (zA : ℤ) : Csc K) (by show A.m + B.m = _; rw [hA.m, hB.m]; push_cast; ring) rfl
  refine ⟨{ C with nzmax := t2.z }, U, ?_, ⟨hR.m, hR.n, hR.valid, hR.p, hR.i, hR.x⟩, hL.vm, hL.vn, ?_, ?_, ?_, ?_, ?_⟩
  · unfold vstack
    rw [if_neg (by rw [hA.n, hB.n, hn]; simp)]
    simp only
    rw [hA1]
    rw [hA.n] at e1 ⊢
    rw [e1]
    simp only [Option.bind_some]
    rw [hB.n, ← hn] at e2
    rw [e2]
    simp only [Option.bind_some]
    rw [eC]
    rfl
  · rw [hL.nnz hInC]; exact ht2.z
  · rw [hL.nnz hInC]; exact hs1
  · rw [hL.nnz hInC]; exact hs2
  · intro r hr c hc
    rw [hL.entry hInC hInR hc, hall, matOf_append, hg1, hg2, matOf_pre_one, matOf_pre_one, ← entry_full hA.valid r hc]
    have : ∑ k ∈ range W.nnz, (if V.m + W.i k = r ∧ W.col k = c then W.x k else 0) = 0 := sum_eq_zero fun k _ => by rw [if_neg (by omega)]
    rw [this, add_zero]
  · intro r hr c hc
    rw [hL.entry hInC hInR hc, hall, matOf_append, hg1, hg2, matOf_pre_one, matOf_pre_one, entry_full hB.valid r (hn ▸ hc)]
    have : ∑ k ∈ range V.nnz, (if V.i k = V.m + r ∧ V.col k = c then V.x k else 0) = 0 := sum_eq_zero fun k hk => by
      rw [mem_range] at hk
      have := hA.valid.rows k hk
      rw [if_neg (by omega)]
    rw [this, zero_add]
    exact sum_congr rfl fun k _ => by simp

end Osqp.Csc
