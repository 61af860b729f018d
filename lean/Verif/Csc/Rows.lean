import Verif.Csc.Conv2

/-!
# Row selection, copies, inverse permutations
-/

set_option linter.unusedSectionVars false
namespace Osqp.Csc
open Finset

variable {K : Type*} [Field K] [LinearOrder K]

/-- Number of selected rows before row `r`: the new index of a selected row. -/
def rank (F : ℕ → ℤ) (r : ℕ) : ℕ := ((range r).filter fun t => F t ≠ 0).card

theorem rank_succ (F : ℕ → ℤ) (r : ℕ) : rank F (r + 1) = rank F r + if F r ≠ 0 then 1 else 0 := by
  unfold rank
  rw [range_add_one, filter_insert]
  split_ifs with h
  · rw [card_insert_of_notMem (by simp)]
  · rfl

theorem rank_mono (F : ℕ → ℤ) {a b : ℕ} (h : a ≤ b) : rank F a ≤ rank F b := by
  unfold rank; exact card_le_card (filter_subset_filter _ (range_mono h))

theorem rank_lt (F : ℕ → ℤ) {a b : ℕ} (h : a < b) (ha : F a ≠ 0) : rank F a < rank F b := by
  have h1 := rank_succ F a
  rw [if_pos ha] at h1
  have h2 := rank_mono F (show a + 1 ≤ b from h)
  omega

theorem rank_inj (F : ℕ → ℤ) {a b : ℕ} (ha : F a ≠ 0) (hb : F b ≠ 0) (h : rank F a = rank F b) : a = b := by
  rcases lt_trichotomy a b with h1 | h1 | h1
  · have := rank_lt F h1 ha; omega
  · exact h1
  · have := rank_lt F h1 hb; omega

/-- The selected entry `k`, with its new row index. -/
def selOne (V : View K) (F : ℕ → ℤ) (k : ℕ) : List (Ent K) := if F (V.i k) ≠ 0 then [⟨V.col k, rank F (V.i k), V.x k⟩] else []

theorem sum_Ico_sel {g : ℕ → List (Ent K)} (hg : ∀ k, g k = [] ∨ ∃ e, g k = [e]) (f : Ent K → K) {a N : ℕ} : ∀ b, a ≤ b → b ≤ N →
    ∑ t ∈ Ico (pre g a).length (pre g b).length, f ((pre g N).getD t noEnt) = ∑ k ∈ Ico a b, ((g k).map f).sum := by
  intro b
  induction b with
  | zero => intro h _; have : a = 0 := by omega
            subst this; simp
  | succ b ih =>
    intro h1 h2
    rcases Nat.lt_or_ge a (b + 1) with h3 | h3
    · have hmono : (pre g a).length ≤ (pre g b).length := by
        rcases Nat.lt_or_ge a b with h4 | h4
        · obtain ⟨rest, hr⟩ := pre_split g h4; rw [hr]; simp
        · have : a = b := by omega
          rw [this]
      rw [Finset.sum_Ico_succ_top (by omega : a ≤ b), ← ih (by omega) (by omega), pre_succ, List.length_append]
      rcases hg b with h4 | ⟨e, h4⟩
      · rw [h4]; simp
      · rw [h4]
        simp only [List.length_singleton, List.map_cons, List.map_nil, List.sum_cons, List.sum_nil, add_zero]
        rw [Finset.sum_Ico_succ_top hmono]
        congr 2
        obtain ⟨rest, hr⟩ := pre_split g (show b < N by omega)
        rw [hr, h4]; simp [List.getD]
    · have : a = b + 1 := by omega
      subst this; simp

theorem submatrix_aux {A : Csc K} {V : View K} (h : Rep A V) {rows : Buf ℤ} {F : ℕ → ℤ} (hF : Holds rows V.m F) :
    ∃ R W, submatrixByRows A rows = some R ∧ Rep R W ∧ W.m = rank F V.m ∧ W.n = V.n ∧ R.nzmax = W.nnz ∧ R.i.size = W.nnz ∧ R.x.size = W.nnz ∧
      ∀ r < V.m, F r ≠ 0 → ∀ c < V.n, W.entry (rank F r) c = V.entry r c := by
  set g := selOne V F with hg
  set sl := pre g V.nnz with hsl
  have hg1 : ∀ k, g k = [] ∨ ∃ e, g k = [e] := fun k => by
    rw [hg]; unfold selOne; split_ifs
    · exact Or.inr ⟨_, rfl⟩
    · exact Or.inl rfl
  have hpl : ∀ {a b : ℕ}, a ≤ b → (pre g a).length ≤ (pre g b).length := by
    intro a b hab
    rcases Nat.lt_or_ge a b with h4 | h4
    · obtain ⟨rest, hr⟩ := pre_split g h4; rw [hr]; simp
    · have : a = b := by omega
      rw [this]
  let W : View K := ⟨rank F V.m, V.n, fun j => (pre g (V.p j)).length, fun t => (sl.getD t noEnt).r, fun t => (sl.getD t noEnt).v⟩
  have hWn : W.nnz = sl.length := rfl
  have hslr : ∀ e ∈ sl, e.r < rank F V.m := pre_all fun k hk e he => by
    rw [hg] at he; unfold selOne at he
    split_ifs at he with h1
    · rw [List.mem_singleton] at he; rw [he]; exact rank_lt F (h.valid.rows k hk) h1
    · simp at he
  have hWv : W.Valid := by
    refine ⟨?_, fun j hj => hpl (h.valid.mono j hj), fun t ht => ?_⟩
    · show (pre g (V.p 0)).length = 0
      rw [h.valid.zero]; rfl
    · rw [hWn] at ht
      refine hslr _ ?_
      simp [List.getD, ht]
  have hWe : ∀ r < V.m, F r ≠ 0 → ∀ c < V.n, W.entry (rank F r) c = V.entry r c := by
    intro r _ hFr c hc
    have := sum_Ico_sel hg1 (fun e => if e.r = rank F r then e.v else 0) (N := V.nnz) (V.p (c + 1)) (h.valid.mono c hc) (h.valid.le (by omega) (le_refl _))
    unfold View.entry
    refine Eq.trans this (sum_congr rfl fun k _ => ?_)
    rw [hg]; unfold selOne
    by_cases h1 : F (V.i k) ≠ 0
    · rw [if_pos h1]
      simp only [List.map_cons, List.map_nil, List.sum_cons, List.sum_nil, add_zero]
      by_cases h2 : V.i k = r
      · rw [if_pos h2, if_pos (by rw [h2])]
      · rw [if_neg h2, if_neg (fun h => h2 (rank_inj F h1 hFr h))]
    · rw [if_neg h1, if_neg (fun h2 => h1 (by rw [h2]; exact hFr))]; rfl
  -- the row index map
  obtain ⟨rr, e1, hrs, hrm, hrc⟩ := forI_zero (hi := V.m) (s := ((Buf.fresh (V.m : ℤ) : Buf ℤ), (0 : ℤ)))
    (f := fun j (s : Buf ℤ × ℤ) => (rows.rd j).bind fun f => if f ≠ 0 then (s.1.wr j s.2).bind fun b => some (b, s.2 + 1) else some s)
    (fun k s => s.1.size = V.m ∧ s.2 = rank F k ∧ ∀ r < k, F r ≠ 0 → s.1.cell r = some ((rank F r : ℕ) : ℤ))
    ⟨by simp, by simp [rank], fun r hr => absurd hr (Nat.not_lt_zero r)⟩ (by
      intro k s hk ⟨h1, h2, h3⟩
      rw [hF.rd hk]
      simp only [Option.bind_some]
      by_cases h4 : F k ≠ 0
      · rw [if_pos h4, Buf.wr_eq (by rw [h1]; exact hk)]
        refine ⟨(s.1.set k s.2, s.2 + 1), rfl, h1, ?_, ?_⟩
        · show s.2 + 1 = _
          rw [rank_succ, if_pos h4, h2]; push_cast; ring
        · intro r hr hFr
          show (s.1.set k s.2).cell r = _
          rw [Buf.set_cell]
          by_cases h5 : r = k
          · rw [if_pos h5, h5, h2]
          · rw [if_neg h5]; exact h3 r (by omega) hFr
      · rw [if_neg h4]
        refine ⟨s, rfl, h1, ?_, fun r hr hFr => ?_⟩
        · rw [rank_succ, if_neg h4, h2]; simp
        · have : r ≠ k := fun e => h4 (by rw [← e]; exact hFr)
          exact h3 r (by omega) hFr)
  -- the number of entries
  obtain ⟨nzR, e2, hnz⟩ := forI_zero (hi := V.nnz) (s := (0 : ℤ))
    (f := fun j (c : ℤ) => (A.i.rd j).bind fun r => (rows.rd r).bind fun f => some (if f ≠ 0 then c + 1 else c))
    (fun k c => c = ((pre g k).length : ℤ)) rfl (by
      intro k c hk hc
      rw [h.rdI hk]
      simp only [Option.bind_some]
      rw [hF.rd (h.valid.rows k hk)]
      refine ⟨_, rfl, ?_⟩
      rw [pre_succ, List.length_append, hc, hg]
      unfold selOne
      split_ifs <;> simp)
  obtain ⟨z1, z2, z3, z4⟩ := spalloc_nat (K := K) (rank F V.m) V.n sl.length
  have hnz' : nzR = (sl.length : ℤ) := hnz
  -- both branches
  have fin : ∀ {p : Buf ℤ} {i : Buf ℤ} {x : Buf K}, Holds p (V.n + 1) (fun j => ((W.p j : ℕ) : ℤ)) → Holds i sl.length (fun k => ((W.i k : ℕ) : ℤ)) →
      Holds x sl.length W.x → i.size = sl.length → x.size = sl.length →
      ∀ R : Csc K, R = { (spalloc ((rank F V.m : ℕ) : ℤ) (V.n : ℤ) (sl.length : ℤ) : Csc K) with p := p, i := i, x := x } →
      Rep R W ∧ W.m = rank F V.m ∧ W.n = V.n ∧ R.nzmax = W.nnz ∧ R.i.size = W.nnz ∧ R.x.size = W.nnz ∧
        ∀ r < V.m, F r ≠ 0 → ∀ c < V.n, W.entry (rank F r) c = V.entry r c := by
    intro p i x hp hi hx hsi hsx R hR
    subst hR
    exact ⟨⟨rfl, rfl, hWv, hp, hi, hx⟩, rfl, rfl, z4, hsi, hsx, hWe⟩
  unfold submatrixByRows
  rw [h.rdNnz, h.m, h.n, e1]
  simp only [Option.bind_some]
  rw [e2]
  simp only [Option.bind_some]
  rw [hrm, hnz']
  by_cases h0 : ((rank F V.m : ℕ) : ℤ) = 0
  · rw [if_pos h0]
    have hr0 : rank F V.m = 0 := by omega
    have hs0 : sl.length = 0 := by
      by_contra hne
      have : sl.getD 0 noEnt ∈ sl := by simp [List.getD, Nat.pos_of_ne_zero hne]
      have := hslr _ this
      omega
    have hp0 : ∀ k, k ≤ V.nnz → (pre g k).length = 0 := fun k hk => by have := hpl hk; omega
    obtain ⟨p, ep, _, hp⟩ : ∃ p, intSet (spalloc ((rank F V.m : ℕ) : ℤ) (V.n : ℤ) (sl.length : ℤ) : Csc K).p 0 ((V.n : ℤ) + 1) = some p ∧
        p.size = V.n + 1 ∧ Holds p (V.n + 1) (fun _ => (0 : ℤ)) := by
      unfold intSet
      have := forI_zero (hi := V.n + 1) (f := fun i (v : Buf ℤ) => v.wr i 0) (s := (spalloc ((rank F V.m : ℕ) : ℤ) (V.n : ℤ) (sl.length : ℤ) : Csc K).p)
        (fun k b => b.size = V.n + 1 ∧ Holds b k (fun _ => (0 : ℤ))) ⟨z1, Holds.zero⟩
        (fun k b hk h => ⟨b.set k 0, Buf.wr_eq (by rw [h.1]; exact hk), h.1, h.2.extend (by rw [h.1]; omega) 0 rfl⟩)
      push_cast at this
      exact this
    rw [ep]
    refine ⟨_, W, rfl, fin (p := p) (i := (spalloc ((rank F V.m : ℕ) : ℤ) (V.n : ℤ) (sl.length : ℤ) : Csc K).i)
      (x := (spalloc ((rank F V.m : ℕ) : ℤ) (V.n : ℤ) (sl.length : ℤ) : Csc K).x) ?_ ?_ ?_ z2 z3 _ rfl⟩
    · refine hp.congr fun j hj => ?_
      show (0 : ℤ) = ((pre g (V.p j)).length : ℤ)
      rw [hp0 _ (h.valid.le (by omega) (le_refl _))]; rfl
    · rw [hs0]; exact Holds.zero
    · rw [hs0]; exact Holds.zero
  · rw [if_neg h0]
    obtain ⟨s, e3, hz, hps, his, hxs, hp, hi, hx⟩ := forI_zero (hi := V.n)
      (s := ((⟨(spalloc ((rank F V.m : ℕ) : ℤ) (V.n : ℤ) (sl.length : ℤ) : Csc K).p, (spalloc ((rank F V.m : ℕ) : ℤ) (V.n : ℤ) (sl.length : ℤ) : Csc K).i,
        (spalloc ((rank F V.m : ℕ) : ℤ) (V.n : ℤ) (sl.length : ℤ) : Csc K).x⟩ : Slots K), (0 : ℤ)))
      (f := fun j (s : Slots K × ℤ) =>
        (s.1.p.wr j s.2).bind fun p => (A.p.rd j).bind fun a => (A.p.rd (j + 1)).bind fun b =>
        forI a b (fun t (s : Slots K × ℤ) => (A.i.rd t).bind fun r => (rows.rd r).bind fun f =>
          if f ≠ 0 then (rr.1.rd r).bind fun r' => (s.1.i.wr s.2 r').bind fun i => (A.x.rd t).bind fun v => (s.1.x.wr s.2 v).bind fun x =>
            some (⟨s.1.p, i, x⟩, s.2 + 1)
          else some s) (⟨p, s.1.i, s.1.x⟩, s.2))
      (fun j s => s.2 = ((pre g (V.p j)).length : ℤ) ∧ s.1.p.size = V.n + 1 ∧ s.1.i.size = sl.length ∧ s.1.x.size = sl.length ∧
        Holds s.1.p j (fun j => ((W.p j : ℕ) : ℤ)) ∧ Holds s.1.i (pre g (V.p j)).length (fun k => ((W.i k : ℕ) : ℤ)) ∧ Holds s.1.x (pre g (V.p j)).length W.x)
      ⟨by rw [h.valid.zero]; rfl, z1, z2, z3, Holds.zero, by rw [h.valid.zero]; exact Holds.zero, by rw [h.valid.zero]; exact Holds.zero⟩ (by
        intro j s hj ⟨h1, h2, h3, h4, h5, h6, h7⟩
        rw [Buf.wr_eq (by rw [h2]; omega)]
        simp only [Option.bind_some]
        rw [h.p.rd (k := j) (by omega), h.p.rd' (k := j + 1) (by push_cast; ring) (by omega)]
        simp only [Option.bind_some]
        obtain ⟨s', e, hh⟩ := forI_nat (lo := V.p j) (hi := V.p (j + 1)) (s := ((⟨s.1.p.set j s.2, s.1.i, s.1.x⟩ : Slots K), s.2))
          (f := fun t (s : Slots K × ℤ) => (A.i.rd t).bind fun r => (rows.rd r).bind fun f =>
            if f ≠ 0 then (rr.1.rd r).bind fun r' => (s.1.i.wr s.2 r').bind fun i => (A.x.rd t).bind fun v => (s.1.x.wr s.2 v).bind fun x =>
              some (⟨s.1.p, i, x⟩, s.2 + 1)
            else some s)
          (fun k s => s.2 = ((pre g k).length : ℤ) ∧ s.1.p.size = V.n + 1 ∧ s.1.i.size = sl.length ∧ s.1.x.size = sl.length ∧
            Holds s.1.p (j + 1) (fun j => ((W.p j : ℕ) : ℤ)) ∧ Holds s.1.i (pre g k).length (fun k => ((W.i k : ℕ) : ℤ)) ∧ Holds s.1.x (pre g k).length W.x)
          (h.valid.mono j hj) ⟨h1, h2, h3, h4, h5.extend (by rw [h2]; omega) _ (by rw [h1]), h6, h7⟩ (by
            intro k s hk1 hk2 ⟨q1, q2, q3, q4, q5, q6, q7⟩
            have hk := h.valid.lt_nnz hj hk2
            rw [h.rdI hk]
            simp only [Option.bind_some]
            rw [hF.rd (h.valid.rows k hk)]
            simp only [Option.bind_some]
            by_cases h8 : F (V.i k) ≠ 0
            · rw [if_pos h8]
              have eg : g k = [⟨V.col k, rank F (V.i k), V.x k⟩] := by rw [hg]; unfold selOne; rw [if_pos h8]
              have erd : rr.1.rd ((V.i k : ℕ) : ℤ) = some ((rank F (V.i k) : ℕ) : ℤ) := by
                have hvr := h.valid.rows k hk
                unfold Buf.rd
                rw [if_pos ⟨by omega, by rw [hrs]; omega⟩, Int.toNat_natCast]
                exact hrc _ hvr h8
              obtain ⟨rest, hsp⟩ := pre_split g hk
              have hlt : (pre g k).length < sl.length := by rw [hsl, hsp, eg]; simp
              have hget : sl.getD (pre g k).length noEnt = ⟨V.col k, rank F (V.i k), V.x k⟩ := by rw [hsl, hsp, eg]; simp [List.getD]
              rw [erd, h.rdX hk]
              simp only [Option.bind_some]
              rw [q1, Buf.wr_eq (by rw [q3]; exact hlt), Buf.wr_eq (by rw [q4]; exact hlt)]
              refine ⟨_, rfl, ?_, q2, q3, q4, q5, ?_, ?_⟩
              · rw [pre_succ, eg]; simp
              · rw [pre_succ, eg, List.length_append]
                exact q6.extend (by rw [q3]; exact hlt) _ (by show (((sl.getD (pre g k).length noEnt).r : ℕ) : ℤ) = _; rw [hget])
              · rw [pre_succ, eg, List.length_append]
                exact q7.extend (by rw [q4]; exact hlt) _ (by show (sl.getD (pre g k).length noEnt).v = _; rw [hget])
            · rw [if_neg h8]
              have eg : g k = [] := by rw [hg]; unfold selOne; rw [if_neg h8]
              refine ⟨s, rfl, ?_⟩
              rw [pre_succ, eg, List.append_nil]
              exact ⟨q1, q2, q3, q4, q5, q6, q7⟩)
        exact ⟨s', e, hh⟩)
    rw [e3]
    simp only [Option.bind_some]
    rw [Buf.wr_eq (by rw [hps]; omega)]
    refine ⟨_, W, rfl, fin (hp.extend (by rw [hps]; omega) _ (by rw [hz])) hi hx his hxs _ rfl⟩

/-! ## Copy and inverse permutation -/

theorem copyLoop {α : Type*} {a b : Buf α} {n : ℕ} {f : ℕ → α} (ha : Holds a n f) (hb : n ≤ b.size) :
    ∃ b', forI 0 (n : ℤ) (fun i b => (a.rd i).bind fun v => b.wr i v) b = some b' ∧ b'.size = b.size ∧ Holds b' n f :=
  forI_zero (hi := n) (s := b) (f := fun i b => (a.rd i).bind fun v => b.wr i v) (fun k b' => b'.size = b.size ∧ Holds b' k f) ⟨rfl, Holds.zero⟩
    (fun k b' hk h => ⟨b'.set k (f k), by rw [ha.rd hk]; exact Buf.wr_eq (by rw [h.1]; omega), h.1, h.2.extend (by rw [h.1]; omega) _ rfl⟩)

theorem copy_aux {A : Csc K} {V : View K} (h : Rep A V) : ∃ B, copy A = some B ∧ Rep B V ∧ B.nzmax = V.nnz := by
  obtain ⟨z1, z2, z3, z4⟩ := spalloc_nat (K := K) V.m V.n V.nnz
  obtain ⟨p, ep, _, hp⟩ := copyLoop (b := (spalloc (V.m : ℤ) (V.n : ℤ) (V.nnz : ℤ) : Csc K).p) h.p (by rw [z1])
  obtain ⟨i, ei, _, hi⟩ := copyLoop (b := (spalloc (V.m : ℤ) (V.n : ℤ) (V.nnz : ℤ) : Csc K).i) h.i (by rw [z2])
  obtain ⟨x, ex, _, hx⟩ := copyLoop (b := (spalloc (V.m : ℤ) (V.n : ℤ) (V.nnz : ℤ) : Csc K).x) h.x (by rw [z3])
  refine ⟨{ (spalloc (V.m : ℤ) (V.n : ℤ) (V.nnz : ℤ) : Csc K) with p := p, i := i, x := x }, ?_, ⟨rfl, rfl, h.valid, hp, hi, hx⟩, z4⟩
  unfold copy
  rw [h.rdNnz, h.m, h.n]
  simp only [Option.bind_some]
  push_cast at ep
  rw [ep]
  simp only [Option.bind_some]
  rw [ei]
  simp only [Option.bind_some]
  rw [ex]
  rfl

/-- `csc_pinv` on a permutation `P` of `0 … n-1` gives its inverse. -/
theorem pinv_aux {p : Buf ℤ} {n : ℕ} {P : ℕ → ℕ} (hp : Holds p n (fun k => (P k : ℤ))) (hlt : ∀ k < n, P k < n)
    (hinj : ∀ a < n, ∀ b < n, P a = P b → a = b) :
    ∃ (b : Buf ℤ) (Q : ℕ → ℕ), pinv p (n : ℤ) = some b ∧ Holds b n (fun k => ((Q k : ℕ) : ℤ)) ∧ (∀ k < n, Q k < n) ∧ (∀ k < n, Q (P k) = k) ∧ (∀ k < n, P (Q k) = k) := by
  obtain ⟨b, e, hs, hb⟩ := forI_zero (hi := n) (s := (Buf.fresh (n : ℤ) : Buf ℤ)) (f := fun k b => (p.rd k).bind fun t => b.wr t k)
    (fun k b => b.size = n ∧ ∀ t < k, b.cell (P t) = some (t : ℤ)) ⟨by simp, fun t ht => absurd ht (Nat.not_lt_zero t)⟩ (by
      intro k b hk ⟨h1, h2⟩
      rw [hp.rd hk]
      simp only [Option.bind_some]
      rw [Buf.wr_eq (by rw [h1]; exact hlt k hk)]
      refine ⟨_, rfl, h1, fun t ht => ?_⟩
      rw [Buf.set_cell]
      by_cases h3 : P t = P k
      · rw [if_pos h3, hinj t (by omega) k hk h3]
      · rw [if_neg h3]
        refine h2 t ?_
        have : t ≠ k := fun e => h3 (by rw [e])
        omega)
  have hsurj : ∀ k < n, ∃ t < n, P t = k := by
    have hbij : Function.Bijective (fun k : Fin n => (⟨P k, hlt k k.2⟩ : Fin n)) :=
      Finite.injective_iff_bijective.1 fun a b hab => Fin.ext (hinj a a.2 b b.2 (congrArg Fin.val hab))
    intro k hk
    obtain ⟨t, ht⟩ := hbij.2 ⟨k, hk⟩
    exact ⟨t, t.2, congrArg Fin.val ht⟩
  choose! Q hQ1 hQ2 using hsurj
  refine ⟨b, Q, e, ⟨by rw [hs], fun k hk => ?_⟩, hQ1, fun k hk => hinj _ (hQ1 _ (hlt k hk)) _ hk (hQ2 _ (hlt k hk)), hQ2⟩
  have := hb (Q k) (hQ1 k hk)
  rwa [hQ2 k hk] at this

end Osqp.Csc
