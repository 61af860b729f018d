import Verif.Csc.Prod

/-!
# Norms, diagonals and scalings of compressed-column matrices
-/

set_option linter.unusedSectionVars false
namespace Osqp.Csc
open Finset Spec

variable {K : Type*} [Field K] [LinearOrder K] [IsStrictOrderedRing K] {V : View K} {M : Csc K}

/-- Largest absolute value among the first `k` stored entries selected by `hit`. -/
def mx (x : ℕ → K) (hit : ℕ → Prop) [DecidablePred hit] : ℕ → K
  | 0 => 0
  | k + 1 => if hit k then max |x k| (mx x hit k) else mx x hit k

section mx
variable {x : ℕ → K} {hit : ℕ → Prop} [DecidablePred hit]

theorem mx_nonneg (k : ℕ) : 0 ≤ mx x hit k := by
  induction k with
  | zero => exact le_refl _
  | succ k ih => unfold mx; split_ifs; exacts [le_max_of_le_right ih, ih]

theorem mx_ge {k t : ℕ} (ht : t < k) (h : hit t) : |x t| ≤ mx x hit k := by
  induction k with
  | zero => omega
  | succ k ih =>
    unfold mx
    rcases Nat.lt_or_ge t k with h1 | h1
    · split_ifs; exacts [le_max_of_le_right (ih h1), ih h1]
    · have : t = k := by omega
      subst this; rw [if_pos h]; exact le_max_left _ _

theorem mx_attained (k : ℕ) : mx x hit k = 0 ∨ ∃ t < k, hit t ∧ |x t| = mx x hit k := by
  induction k with
  | zero => exact Or.inl rfl
  | succ k ih =>
    unfold mx
    by_cases h : hit k
    · rw [if_pos h]
      rcases le_total |x k| (mx x hit k) with h1 | h1
      · rw [max_eq_right h1]
        rcases ih with h2 | ⟨t, h2, h3⟩
        exacts [Or.inl h2, Or.inr ⟨t, by omega, h3⟩]
      · rw [max_eq_left h1]; exact Or.inr ⟨k, by omega, h, rfl⟩
    · rw [if_neg h]
      rcases ih with h2 | ⟨t, h2, h3⟩
      exacts [Or.inl h2, Or.inr ⟨t, by omega, h3⟩]

/-- The running maximum is the infinity norm of `v`, if every selected entry is a component of `v` and every nonzero
component of `v` is a selected entry. -/
theorem mx_norm {N n : ℕ} (v : Fin n → K) (h1 : ∀ t < N, hit t → ∃ i, v i = x t) (h2 : ∀ i, v i = 0 ∨ ∃ t < N, hit t ∧ x t = v i) :
    mx x hit N = normInf v := by
  symm
  refine normInf_eq_of v _ (mx_nonneg N) (fun i => ?_) ?_
  · rcases h2 i with h | ⟨t, ht, hh, e⟩
    · rw [h, abs_zero]; exact mx_nonneg N
    · rw [← e]; exact mx_ge ht hh
  · rcases mx_attained (x := x) (hit := hit) N with h | ⟨t, ht, hh, e⟩
    · exact Or.inl h
    · obtain ⟨i, hi⟩ := h1 t ht hh
      exact Or.inr ⟨i, by rw [hi, e]⟩

end mx

theorem maxInto_holds {E : Buf K} {m : ℕ} {F : ℕ → K} (hE : Holds E m F) {r : ℕ} (hr : r < m) (v : K) :
    ∃ E', maxInto E (r : ℤ) (cAbs v) = some E' ∧ Holds E' m (fun t => if r = t then max |v| (F t) else F t) := by
  refine ⟨E.set r (max |v| (F r)), ?_, (hE.set r _).congr fun t _ => ?_⟩
  · unfold maxInto; rw [hE.rd hr]; simp only [Option.bind_some]; rw [cAbs_eq, cMax_eq]; exact hE.wr hr _
  · rw [Function.update_apply]
    by_cases e : t = r
    · subst e; simp
    · rw [if_neg e, if_neg (fun h => e h.symm)]

/-- With no duplicates, a stored entry is the entry of the matrix at its position. -/
theorem View.NoDup.entry_eq (h : V.NoDup) {c k : ℕ} (hc : c < V.n) (h1 : V.p c ≤ k) (h2 : k < V.p (c + 1)) : V.entry (V.i k) c = V.x k := by
  unfold View.entry
  rw [sum_eq_single k]
  · simp
  · intro b hb hne
    rw [mem_Ico] at hb
    rw [if_neg (fun e => hne (h c hc b k hb.1 hb.2 h1 h2 e))]
  · intro hn; exact absurd (mem_Ico.2 ⟨h1, h2⟩) hn

/-- A position that is not stored holds zero. -/
theorem View.NoDup.entry_cases (h : V.NoDup) {r c : ℕ} (hc : c < V.n) :
    V.entry r c = 0 ∨ ∃ k, V.p c ≤ k ∧ k < V.p (c + 1) ∧ V.i k = r ∧ V.x k = V.entry r c := by
  by_cases hk : ∃ k, V.p c ≤ k ∧ k < V.p (c + 1) ∧ V.i k = r
  · obtain ⟨k, h1, h2, h3⟩ := hk
    exact Or.inr ⟨k, h1, h2, h3, by rw [← h3, h.entry_eq hc h1 h2]⟩
  · left
    refine sum_eq_zero fun k hk' => ?_
    rw [mem_Ico] at hk'
    rw [if_neg (fun e => hk ⟨k, hk'.1, hk'.2, e⟩)]

theorem Rep.colNorm_aux (h : Rep M V) {E : Buf K} (hs : V.n ≤ E.size) :
    ∃ E', colNormInf M E = some E' ∧ Holds E' V.n (fun c => mx V.x (fun k => V.col k = c) V.nnz) := by
  obtain ⟨E1, e1, _, h1⟩ := vecSet_holds (y := E) hs (0 : K)
  unfold colNormInf
  rw [show vecSet E 0 M.n = some E1 by rw [h.n]; exact e1]
  simp only [Option.bind_some]
  refine h.forCols_rule (fun k E => Holds E V.n (fun c => mx V.x (fun k => V.col k = c) k)) h1 ?_
  intro j k E hj _ _ hk hc hE
  rw [h.rdX hk]
  obtain ⟨E', e, h'⟩ := maxInto_holds hE hj (V.x k)
  refine ⟨E', e, h'.congr fun c _ => ?_⟩
  rw [mx, hc]

theorem Rep.rowNorm_aux (h : Rep M V) {E : Buf K} (hs : V.m ≤ E.size) :
    ∃ E', rowNormInf M E = some E' ∧ Holds E' V.m (fun r => mx V.x (fun k => V.i k = r) V.nnz) := by
  obtain ⟨E1, e1, _, h1⟩ := vecSet_holds (y := E) hs (0 : K)
  unfold rowNormInf
  rw [show vecSet E 0 M.m = some E1 by rw [h.m]; exact e1]
  simp only [Option.bind_some]
  refine h.forCols_rule (fun k E => Holds E V.m (fun c => mx V.x (fun k => V.i k = c) k)) h1 ?_
  intro j k E hj _ _ hk hc hE
  rw [h.rdX hk, h.rdI hk]
  obtain ⟨E', e, h'⟩ := maxInto_holds hE (h.valid.rows k hk) (V.x k)
  exact ⟨E', e, h'.congr fun c _ => by rw [mx]⟩

theorem Rep.rowNormSym_aux (h : Rep M V) (hsq : V.m = V.n) {E : Buf K} (hs : V.n ≤ E.size) :
    ∃ E', rowNormInfSymTriu M E = some E' ∧ Holds E' V.n (fun r => mx V.x (fun k => V.i k = r ∨ V.col k = r) V.nnz) := by
  obtain ⟨E1, e1, _, h1⟩ := vecSet_holds (y := E) hs (0 : K)
  unfold rowNormInfSymTriu
  rw [show vecSet E 0 M.m = some E1 by rw [h.m, hsq]; exact e1]
  simp only [Option.bind_some]
  refine h.forCols_rule (fun k E => Holds E V.n (fun c => mx V.x (fun k => V.i k = c ∨ V.col k = c) k)) h1 ?_
  intro j k E hj _ _ hk hc hE
  rw [h.rdX hk, h.rdI hk]
  simp only [Option.bind_some]
  obtain ⟨E2, e2, h2⟩ := maxInto_holds hE hj (V.x k)
  rw [e2]
  simp only [Option.bind_some]
  by_cases hd : V.i k = j
  · rw [if_neg (by simp [hd])]
    refine ⟨E2, rfl, h2.congr fun c _ => ?_⟩
    rw [mx, hc, hd]; simp
  · rw [if_pos (by exact_mod_cast hd)]
    obtain ⟨E3, e3, h3⟩ := maxInto_holds h2 (hsq ▸ h.valid.rows k hk : V.i k < V.n) (V.x k)
    refine ⟨E3, e3, h3.congr fun c _ => ?_⟩
    rw [mx, hc]
    by_cases h5 : V.i k = c
    · have : ¬ j = c := fun e => hd (h5.trans e.symm)
      simp [h5, this]
    · by_cases h6 : j = c <;> simp [h5, h6]

/-- Loops that multiply every stored value by a factor. -/
theorem Rep.mulEach (h : Rep M V) {body : ℤ → ℤ → Buf K → Option (Buf K)} (g : ℕ → ℕ → K)
    (hb : ∀ j k (x : Buf K) (v : K), j < V.n → k < V.nnz → x.rd (k : ℤ) = some v → body (j : ℤ) (k : ℤ) x = x.wr (k : ℤ) (v * g j k)) :
    ∃ x', forCols M.p M.n body M.x = some x' ∧ Holds x' V.nnz (fun k => V.x k * g (V.col k) k) := by
  obtain ⟨x', e, h'⟩ := h.forCols_rule (body := body) (s := M.x)
    (fun k x => Holds x V.nnz (fun t => if t < k then V.x t * g (V.col t) t else V.x t)) (h.x.congr (by simp)) (by
      intro j k x hj _ _ hk hc hx
      have e1 : x.rd (k : ℤ) = some (V.x k) := by rw [hx.rd hk]; simp
      refine ⟨x.set k (V.x k * g j k), ?_, (hx.set k _).congr fun t _ => ?_⟩
      · rw [hb j k x _ hj hk e1]; exact hx.wr hk _
      · rw [Function.update_apply]
        by_cases e2 : t = k
        · subst e2; rw [if_pos rfl, if_pos (by omega), hc]
        · rw [if_neg e2]
          by_cases e3 : t < k
          · rw [if_pos e3, if_pos (by omega)]
          · rw [if_neg e3, if_neg (by omega)])
  exact ⟨x', e, h'.congr fun t ht => by simp [ht]⟩

/-- `V` with other values. -/
def View.withX (V : View K) (x : ℕ → K) : View K := { V with x := x }

theorem Rep.withX (h : Rep M V) {x' : Buf K} {X : ℕ → K} (hx : Holds x' V.nnz X) : Rep { M with x := x' } (V.withX X) :=
  ⟨h.m, h.n, ⟨h.valid.zero, h.valid.mono, h.valid.rows⟩, h.p, h.i, hx⟩

theorem entry_withX (h : V.Valid) (g : ℕ → ℕ → K) {r c : ℕ} (hc : c < V.n) :
    (V.withX fun k => V.x k * g (V.col k) (V.i k)).entry r c = V.entry r c * g c r := by
  rw [sum_entry]
  unfold View.entry View.withX
  refine sum_congr rfl fun k hk => ?_
  simp only [mem_Ico] at hk
  simp only
  rw [h.col_eq hc hk.1 hk.2]
  by_cases e : V.i k = r
  · rw [if_pos e, if_pos e, e]
  · rw [if_neg e, if_neg e]

theorem Rep.extract_aux (h : Rep M V) (hd : V.NoDup) {d : Buf K} (hs : V.n ≤ d.size) :
    ∃ d', extractDiag M d = some d' ∧ Holds d' V.n (fun c => V.entry c c) := by
  obtain ⟨d1, e1, _, h1⟩ := vecSet_holds (y := d) hs (0 : K)
  unfold extractDiag
  rw [show vecSet d 0 M.n = some d1 by rw [h.n]; exact e1]
  simp only [Option.bind_some]
  obtain ⟨d', e, h'⟩ := h.forCols_rule (M := M) (V := V) (s := d1)
    (body := fun i ptr d => (M.i.rd ptr).bind fun r => if r = i then (M.x.rd ptr).bind fun v => d.wr i v else some d)
    (fun k d => Holds d V.n (fun c => if V.p (c + 1) ≤ k then V.entry c c else
      ∑ t ∈ Ico (V.p c) k, if V.i t = c then V.x t else 0)) (h1.congr fun c hc => by
        by_cases e : V.p (c + 1) ≤ 0
        · rw [if_pos e]; unfold View.entry
          rw [Ico_eq_empty (by omega)]; simp
        · rw [if_neg e, Ico_eq_empty (by omega)]; simp) (by
      intro j k d hj hk1 hk2 hk hc hh
      rw [h.rdI hk]
      simp only [Option.bind_some]
      have stay : ∀ c < V.n, c ≠ j → (if V.p (c + 1) ≤ k then V.entry c c else ∑ t ∈ Ico (V.p c) k, if V.i t = c then V.x t else 0) =
          (if V.p (c + 1) ≤ k + 1 then V.entry c c else ∑ t ∈ Ico (V.p c) (k + 1), if V.i t = c then V.x t else 0) := by
        intro c hcn hcj
        rcases Nat.lt_or_gt_of_ne hcj with hlt | hlt
        · have : V.p (c + 1) ≤ V.p j := h.valid.le (by omega) (by omega)
          rw [if_pos (by omega), if_pos (by omega)]
        · have h5 : V.p (j + 1) ≤ V.p c := h.valid.le (by omega) (by omega)
          by_cases h6 : V.p (c + 1) ≤ k
          · have := h.valid.mono c hcn; omega
          · rw [if_neg h6, Ico_eq_empty (by omega)]
            by_cases h7 : V.p (c + 1) ≤ k + 1
            · rw [if_pos h7]; unfold View.entry; rw [Ico_eq_empty (by have := h.valid.mono c hcn; omega)]
            · rw [if_neg h7, Ico_eq_empty (by omega)]
      have atj : (if V.p (j + 1) ≤ k + 1 then V.entry j j else ∑ t ∈ Ico (V.p j) (k + 1), if V.i t = j then V.x t else 0) =
          ∑ t ∈ Ico (V.p j) (k + 1), if V.i t = j then V.x t else 0 := by
        by_cases h6 : V.p (j + 1) ≤ k + 1
        · rw [if_pos h6]; unfold View.entry; rw [show V.p (j + 1) = k + 1 by omega]
        · rw [if_neg h6]
      by_cases hdg : V.i k = j
      · rw [if_pos (by exact_mod_cast hdg), h.rdX hk]
        refine ⟨d.set j (V.x k), hh.wr hj _, (hh.set j _).congr fun c hcn => ?_⟩
        rw [Function.update_apply]
        by_cases e2 : c = j
        · subst e2
          rw [if_pos rfl, atj, sum_eq_single k]
          · rw [if_pos hdg]
          · intro t ht hne
            rw [mem_Ico] at ht
            rw [if_neg (fun e => hne (hd c hj t k ht.1 (by omega) hk1 hk2 (e.trans hdg.symm)))]
          · intro hn; exact absurd (mem_Ico.2 ⟨hk1, by omega⟩) hn
        · rw [if_neg e2]; exact stay c hcn e2
      · rw [if_neg (by exact_mod_cast hdg)]
        refine ⟨d, rfl, hh.congr fun c hcn => ?_⟩
        by_cases e2 : c = j
        · subst e2
          rw [atj, if_neg (by omega), Finset.sum_Ico_succ_top hk1, if_neg hdg, add_zero]
        · exact stay c hcn e2)
  refine ⟨d', e, h'.congr fun c hc => ?_⟩
  have : V.p (c + 1) ≤ V.nnz := h.valid.le (by omega) (le_refl _)
  rw [if_pos this]

theorem Rep.atda_aux (h : Rep M V) {D d : Buf K} {W : ℕ → K} (hD : Holds D V.m W) (hs : V.n ≤ d.size) :
    ∃ d', atdaDiag M D d = some d' ∧ Holds d' V.n (fun c => ∑ k ∈ Ico (V.p c) (V.p (c + 1)), V.x k * V.x k * W (V.i k)) := by
  unfold atdaDiag
  rw [h.n]
  obtain ⟨d', e, -, h'⟩ := forI_zero (hi := V.n) (s := d) (f := fun j d =>
    (d.wr j 0).bind fun d => (M.p.rd j).bind fun a => (M.p.rd (j + 1)).bind fun b =>
    forI a b (fun i d => (d.rd j).bind fun dj => (M.x.rd i).bind fun v => (M.i.rd i).bind fun r => (D.rd r).bind fun w =>
      d.wr j (dj + v * v * w)) d)
    (fun j d' => d'.size = d.size ∧ Holds d' j (fun c => ∑ k ∈ Ico (V.p c) (V.p (c + 1)), V.x k * V.x k * W (V.i k)))
    ⟨rfl, Holds.zero⟩ (by
      intro j d1 hj hh
      have hsz : j < d1.size := by rw [hh.1]; omega
      rw [Buf.wr_eq hsz]
      simp only [Option.bind_some]
      rw [h.p.rd (k := j) (by omega), h.p.rd' (k := j + 1) (by push_cast; ring) (by omega)]
      simp only [Option.bind_some]
      obtain ⟨d2, e2, h2s, h2⟩ := forI_nat (lo := V.p j) (hi := V.p (j + 1)) (s := d1.set j 0)
        (f := fun i d => (d.rd (j : ℤ)).bind fun dj => (M.x.rd i).bind fun v => (M.i.rd i).bind fun r => (D.rd r).bind fun w =>
          d.wr (j : ℤ) (dj + v * v * w))
        (fun k d' => d'.size = d.size ∧ Holds d' (j + 1) (fun c => if c = j then ∑ k ∈ Ico (V.p j) k, V.x k * V.x k * W (V.i k) else
          ∑ k ∈ Ico (V.p c) (V.p (c + 1)), V.x k * V.x k * W (V.i k)))
        (h.valid.mono j hj)
        ⟨hh.1, by
          have h9 : Holds d1 j (fun c => if c = j then ∑ k ∈ Ico (V.p j) (V.p j), V.x k * V.x k * W (V.i k) else
            ∑ k ∈ Ico (V.p c) (V.p (c + 1)), V.x k * V.x k * W (V.i k)) := hh.2.congr fun c hc => by rw [if_neg (by omega)]
          exact h9.extend hsz 0 (by simp)⟩
        (by
          intro k d3 hk1 hk2 h3
          have hk := h.valid.lt_nnz hj hk2
          rw [h3.2.rd (k := j) (by omega), h.rdX hk, h.rdI hk]
          simp only [Option.bind_some]
          rw [hD.rd (h.valid.rows k hk)]
          simp only [Option.bind_some, if_true]
          refine ⟨d3.set j _, h3.2.wr (by omega) _, h3.1, (h3.2.set j _).congr fun c hc => ?_⟩
          rw [Function.update_apply]
          by_cases e5 : c = j
          · rw [if_pos e5, if_pos e5, Finset.sum_Ico_succ_top hk1]
          · rw [if_neg e5, if_neg e5, if_neg e5])
      refine ⟨d2, e2, h2s, h2.congr fun c hc => ?_⟩
      by_cases e5 : c = j
      · rw [if_pos e5, e5]
      · rw [if_neg e5])
  exact ⟨d', e, h'⟩

end Osqp.Csc
