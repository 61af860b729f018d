import Verif.Csc.Kkt
import Verif.Csc.Conv2

/-!
# The pieces of the KKT assembly: counting and filling
-/

set_option linter.unusedSectionVars false
namespace Osqp.Csc
open Finset

variable {K : Type*} [Field K] [LinearOrder K] {V : View K} {M : Csc K}

/-- The entry that stored entry `k` of a block gives. -/
def blkE (V : View K) (r0 c0 : ℕ) (tr : Bool) (k : ℕ) : Ent K :=
  if tr then ⟨V.i k + c0, V.col k + r0, V.x k⟩ else ⟨V.col k + c0, V.i k + r0, V.x k⟩

def blk (V : View K) (r0 c0 : ℕ) (tr : Bool) (k : ℕ) : List (Ent K) := [blkE V r0 c0 tr k]

/-- The last stored entry of column `j`, if any, is not on the diagonal. -/
def Missing (V : View K) (j : ℕ) : Prop := V.p j = V.p (j + 1) ∨ V.i (V.p (j + 1) - 1) ≠ j

instance (V : View K) (j : ℕ) : Decidable (Missing V j) := by unfold Missing; infer_instance

/-- The zero put for a missing diagonal entry. -/
def miss (V : View K) (j : ℕ) : List (Ent K) := if Missing V j then [⟨j, j, 0⟩] else []

/-- Diagonal zeros. -/
def dg (n t : ℕ) : List (Ent K) := [⟨t + n, t + n, 0⟩]

theorem blk_length (V : View K) (r0 c0 : ℕ) (tr : Bool) (k : ℕ) : (pre (blk V r0 c0 tr) k).length = k := pre_length_one (fun _ => rfl) k
theorem dg_length (n k : ℕ) : (pre (dg n) k : List (Ent K)).length = k := pre_length_one (fun _ => rfl) k

theorem diagMissing_eq (h : Rep M V) {j : ℕ} (hj : j < V.n) : diagMissing M (j : ℤ) = some (decide (Missing V j)) := by
  unfold diagMissing
  rw [h.p.rd (k := j) (by omega), h.p.rd' (k := j + 1) (by push_cast; ring) (by omega)]
  simp only [Option.bind_some]
  by_cases h1 : V.p j = V.p (j + 1)
  · rw [if_pos (by rw [h1])]
    simp [Missing, h1]
  · have hm := h.valid.mono j hj
    rw [if_neg (by intro h2; exact h1 (by exact_mod_cast h2))]
    have h2 : V.p (j + 1) - 1 < V.nnz := h.valid.lt_nnz hj (by omega)
    rw [h.i.rd' (k := V.p (j + 1) - 1) (by omega) h2]
    simp only [Option.bind_some, Missing, h1, false_or, Option.some.injEq]
    congr 1
    exact propext ⟨fun h h' => h (by rw [h']), fun h h' => h (by exact_mod_cast h')⟩

/-! ## Counting -/

variable {N : ℕ} {es : List (Ent K)} {p : Buf ℤ}

theorem colcountDiag_holds {n m : ℕ} (hN : n + m ≤ N) (hp : Holds p N (fun c => ((cnt es c : ℕ) : ℤ))) :
    ∃ p', colcountDiag p (n : ℤ) (m : ℤ) = some p' ∧ Holds p' N (fun c => ((cnt (es ++ pre (dg n) m) c : ℕ) : ℤ)) ∧ p'.size = p.size := by
  unfold colcountDiag
  obtain ⟨p', e, h1, h2⟩ := forI_nat (lo := n) (hi := n + m) (s := p) (f := fun j p => incr p j)
    (fun k p' => Holds p' N (fun c => ((cnt (es ++ pre (dg n) (k - n)) c : ℕ) : ℤ)) ∧ p'.size = p.size) (by omega) ⟨by simpa using hp, rfl⟩ (by
      intro k q hk1 hk2 ⟨h1, h2⟩
      obtain ⟨q', e, h3, h4⟩ := incr_holds (e := (⟨k, k, 0⟩ : Ent K)) h1 (by show k < N; omega) (i := (k : ℤ)) rfl
      refine ⟨q', e, ?_, by rw [h4, h2]⟩
      rw [show k + 1 - n = (k - n) + 1 by omega, pre_succ, ← List.append_assoc]
      have : (dg n (k - n) : List (Ent K)) = [⟨k, k, 0⟩] := by unfold dg; rw [show k - n + n = k by omega]
      rw [this]; exact h3)
  rw [Nat.add_sub_cancel_left] at h1
  push_cast at e
  exact ⟨p', e, h1, h2⟩

theorem colcountMissing_holds (h : Rep M V) (hN : V.n ≤ N) (hp : Holds p N (fun c => ((cnt es c : ℕ) : ℤ))) :
    ∃ p', colcountMissing p M 0 = some p' ∧ Holds p' N (fun c => ((cnt (es ++ pre (miss V) V.n) c : ℕ) : ℤ)) ∧ p'.size = p.size := by
  unfold colcountMissing
  rw [h.n]
  exact forI_zero (hi := V.n) (s := p) (f := fun j p => (diagMissing M j).bind fun b => if b then incr p (j + 0) else some p)
    (fun k p' => Holds p' N (fun c => ((cnt (es ++ pre (miss V) k) c : ℕ) : ℤ)) ∧ p'.size = p.size) ⟨by simpa using hp, rfl⟩ (by
      intro k q hk ⟨h1, h2⟩
      rw [diagMissing_eq h hk]
      simp only [Option.bind_some, decide_eq_true_eq]
      rw [pre_succ, ← List.append_assoc]
      unfold miss at *
      by_cases hm : Missing V k
      · rw [if_pos hm, if_pos hm]
        obtain ⟨q', e, h3, h4⟩ := incr_holds (e := (⟨k, k, 0⟩ : Ent K)) h1 (by show k < N; omega) (i := (k : ℤ) + 0) (by simp)
        exact ⟨q', e, h3, by rw [h4, h2]⟩
      · rw [if_neg hm, if_neg hm, List.append_nil]
        exact ⟨q, rfl, h1, h2⟩)

theorem cnt_blk_false (hv : V.Valid) (r0 c0 : ℕ) {j : ℕ} (hj : j < V.n) (c : ℕ) :
    cnt (pre (blk V r0 c0 false) (V.p (j + 1))) c = cnt (pre (blk V r0 c0 false) (V.p j)) c + if c = j + c0 then V.p (j + 1) - V.p j else 0 := by
  have hm := hv.mono j hj
  rw [cnt_pre, cnt_pre, range_eq_Ico, range_eq_Ico, ← sum_Ico_consecutive _ (Nat.zero_le _) hm]
  congr 1
  have : ∀ k ∈ Ico (V.p j) (V.p (j + 1)), cnt (blk V r0 c0 false k) c = if c = j + c0 then 1 else 0 := by
    intro k hk
    rw [mem_Ico] at hk
    unfold blk blkE
    rw [if_neg (by simp), cnt_cons, cnt_nil, add_zero, hv.col_eq hj hk.1 hk.2]
    by_cases h1 : c = j + c0
    · rw [if_pos h1, if_pos h1.symm]
    · rw [if_neg h1, if_neg (fun h => h1 h.symm)]
  rw [sum_congr rfl this, sum_const, Nat.card_Ico]
  split_ifs <;> simp

theorem colcountBlock_holds (h : Rep M V) (r0 : ℕ) {c0 : ℕ} {tr : Bool} (hN : (if tr then V.m else V.n) + c0 ≤ N)
    (hp : Holds p N (fun c => ((cnt es c : ℕ) : ℤ))) :
    ∃ p', colcountBlock p M (c0 : ℤ) tr = some p' ∧ Holds p' N (fun c => ((cnt (es ++ pre (blk V r0 c0 tr) V.nnz) c : ℕ) : ℤ)) ∧ p'.size = p.size := by
  unfold colcountBlock
  cases tr with
  | true =>
    simp only [if_true] at hN ⊢
    rw [h.rdNnz]
    simp only [Option.bind_some]
    exact forI_zero (hi := V.nnz) (s := p) (f := fun j p => (M.i.rd j).bind fun r => incr p (r + (c0 : ℤ)))
      (fun k p' => Holds p' N (fun c => ((cnt (es ++ pre (blk V r0 c0 true) k) c : ℕ) : ℤ)) ∧ p'.size = p.size) ⟨by simpa using hp, rfl⟩ (by
        intro k q hk ⟨h1, h2⟩
        rw [h.rdI hk]
        simp only [Option.bind_some]
        rw [pre_succ, ← List.append_assoc]
        obtain ⟨q', e, h3, h4⟩ := incr_holds (e := blkE V r0 c0 true k) h1 (by
          unfold blkE; simp only [if_true]; have := h.valid.rows k hk; omega) (i := (V.i k : ℤ) + (c0 : ℤ)) (by unfold blkE; simp)
        exact ⟨q', e, h3, by rw [h4, h2]⟩)
  | false =>
    simp only [Bool.false_eq_true, if_false] at hN ⊢
    rw [h.n]
    exact forI_zero (hi := V.n) (s := p)
      (f := fun j p => (M.p.rd (j + 1)).bind fun b => (M.p.rd j).bind fun a => (p.rd (j + (c0 : ℤ))).bind fun c => p.wr (j + (c0 : ℤ)) (c + (b - a)))
      (fun k p' => Holds p' N (fun c => ((cnt (es ++ pre (blk V r0 c0 false) (V.p k)) c : ℕ) : ℤ)) ∧ p'.size = p.size)
      ⟨by rw [h.valid.zero]; simpa using hp, rfl⟩ (by
        intro j q hj ⟨h1, h2⟩
        have hm := h.valid.mono j hj
        rw [h.p.rd (k := j) (by omega), h.p.rd' (k := j + 1) (by push_cast; ring) (by omega)]
        simp only [Option.bind_some]
        rw [h1.rd' (k := j + c0) (by push_cast; ring) (by omega)]
        simp only [Option.bind_some]
        have e1 : (j : ℤ) + (c0 : ℤ) = ((j + c0 : ℕ) : ℤ) := by push_cast; ring
        rw [e1, h1.wr (k := j + c0) (by omega)]
        refine ⟨_, rfl, (h1.set (j + c0) _).congr fun c _ => ?_, h2⟩
        rw [Function.update_apply, cnt_append, cnt_append, cnt_append, cnt_blk_false h.valid r0 c0 hj]
        by_cases h3 : c = j + c0
        · rw [if_pos h3, if_pos h3, h3]; push_cast [hm]; ring
        · rw [if_neg h3, if_neg h3]; simp)

theorem colptr_holds (hp : Holds p (N + 1) (fun c => ((cnt es c : ℕ) : ℤ))) :
    ∃ p', colcountToColptr p (N : ℤ) = some p' ∧ Holds p' (N + 1) (fun c => ((start es c : ℕ) : ℤ)) ∧ p'.size = p.size := by
  unfold colcountToColptr
  obtain ⟨s, e, h1, h2, h3⟩ := forI_zero (hi := N + 1) (s := (p, (0 : ℤ)))
    (f := fun j (s : Buf ℤ × ℤ) => (s.1.rd j).bind fun c => (s.1.wr j s.2).bind fun p => some (p, s.2 + c))
    (fun k s => s.2 = ((start es k : ℕ) : ℤ) ∧ Holds s.1 (N + 1) (fun c => if c < k then ((start es c : ℕ) : ℤ) else ((cnt es c : ℕ) : ℤ)) ∧ s.1.size = p.size)
    ⟨by simp, hp.congr (by simp), rfl⟩ (by
      intro k s hk ⟨h1, h2, h3⟩
      rw [h2.rd hk, if_neg (by omega)]
      simp only [Option.bind_some]
      rw [h2.wr hk]
      refine ⟨_, rfl, ?_, (h2.set k _).congr fun c _ => ?_, h3⟩
      · rw [h1, start_succ]; push_cast; ring
      · rw [Function.update_apply]
        by_cases h4 : c = k
        · rw [if_pos h4, if_pos (by omega), h1, h4]
        · rw [if_neg h4]
          by_cases h5 : c < k
          · rw [if_pos h5, if_pos (by omega)]
          · rw [if_neg h5, if_neg (by omega)])
  push_cast at e
  rw [e]
  exact ⟨s.1, rfl, h2.congr fun c hc => by rw [if_pos hc], h3⟩

theorem backshift_holds {all : List (Ent K)} (hp : Holds p (N + 1) (fun c => ((start all c + cnt all c : ℕ) : ℤ))) :
    ∃ p', backshift p (N : ℤ) = some p' ∧ Holds p' (N + 1) (fun c => ((start all c : ℕ) : ℤ)) ∧ p'.size = p.size := by
  unfold backshift
  obtain ⟨q, e, h1, h2⟩ := forI_zero (hi := N) (s := p) (f := fun t p => (p.rd ((N : ℤ) - t - 1)).bind fun v => p.wr ((N : ℤ) - t) v)
    (fun k q => Holds q (N + 1) (fun c => if N - k < c then ((start all c : ℕ) : ℤ) else ((start all c + cnt all c : ℕ) : ℤ)) ∧ q.size = p.size)
    ⟨hp.congr fun c hc => by rw [if_neg (by omega)], rfl⟩ (by
      intro k q hk ⟨h1, h2⟩
      rw [h1.rd' (k := N - k - 1) (by omega) (by omega), if_neg (by omega)]
      simp only [Option.bind_some]
      have e1 : (N : ℤ) - (k : ℤ) = ((N - k : ℕ) : ℤ) := by omega
      rw [e1, h1.wr (k := N - k) (by omega)]
      refine ⟨_, rfl, (h1.set (N - k) _).congr fun c hc => ?_, h2⟩
      rw [Function.update_apply]
      by_cases h4 : c = N - k
      · rw [if_pos h4, if_pos (by omega), ← start_succ, show N - k - 1 + 1 = c by omega]
      · rw [if_neg h4]
        by_cases h5 : N - k < c
        · rw [if_pos h5, if_pos (by omega)]
        · rw [if_neg h5, if_neg (by omega)])
  rw [e]
  simp only [Option.bind_some]
  have e0 : q.wr 0 0 = some (q.set 0 0) := h1.wr (k := 0) (by omega) 0
  refine ⟨_, e0, (h1.set 0 0).congr fun c hc => ?_, h2⟩
  rw [Function.update_apply]
  by_cases h4 : c = 0
  · rw [if_pos h4, h4]; rfl
  · rw [if_neg h4, if_pos (by omega)]

/-! ## Filling -/

variable {all rest : List (Ent K)} {s : Slots K}

/-- Sizes of the arrays and what they hold. -/
structure Filling (N : ℕ) (all es : List (Ent K)) (s0 s : Slots K) : Prop where
  f : Filled N all es s
  ps : s.p.size = s0.p.size
  is : s.i.size = s0.i.size
  xs : s.x.size = s0.x.size

theorem fillBlock_holds (h : Rep M V) {s0 : Slots K} {r0 c0 : ℕ} {tr : Bool} (hall : all = es ++ (pre (blk V r0 c0 tr) V.nnz ++ rest)) (ha : InCols N all)
    (hf : Filling N all es s0 s) {map : Option (Buf ℤ)} (hmap : MapFits map V.nnz) :
    ∃ s', fillBlock (s, map) M (r0 : ℤ) (c0 : ℤ) tr = some s' ∧ Filling N all (es ++ pre (blk V r0 c0 tr) V.nnz) s0 s'.1 ∧
      MapSet map s'.2 (· < V.nnz) (fun k => dest all (blkE V r0 c0 tr k) (es.length + k)) := by
  unfold fillBlock
  refine h.forCols_rule (s := (s, map)) (fun k s' => Filling N all (es ++ pre (blk V r0 c0 tr) k) s0 s'.1 ∧
      MapSet map s'.2 (· < k) (fun k => dest all (blkE V r0 c0 tr k) (es.length + k)))
    ⟨by simpa using hf, MapSet.refl _ (by simp) _⟩ ?_
  intro j k s' hj hk1 hk2 hk hcol ⟨h1, h2⟩
  rw [h.rdI hk, h.rdX hk]
  simp only [Option.bind_some]
  obtain ⟨rs, hrs⟩ := pre_split (blk V r0 c0 tr) hk
  have hall' : all = (es ++ pre (blk V r0 c0 tr) k) ++ blkE V r0 c0 tr k :: (rs ++ rest) := by
    rw [hall, hrs]; simp [blk, List.append_assoc]
  have hv : (blkE V r0 c0 tr k).v = V.x k := by unfold blkE; cases tr <;> rfl
  have hc : (if tr = true then (V.i k : ℤ) + (c0 : ℤ) else (j : ℤ) + (c0 : ℤ)) = ((blkE V r0 c0 tr k).c : ℤ) := by
    unfold blkE; cases tr <;> simp [hcol]
  have hr : (if tr = true then (j : ℤ) + (r0 : ℤ) else (V.i k : ℤ) + (r0 : ℤ)) = ((blkE V r0 c0 tr k).r : ℤ) := by
    unfold blkE; cases tr <;> simp [hcol]
  obtain ⟨s2, e, hf2, g1, g2, g3, _⟩ := h1.f.put ha hall' hc hr
  rw [hv] at e
  rw [e]
  simp only [Option.bind_some]
  rw [List.length_append, blk_length] at e ⊢
  obtain ⟨m', e2, hm2⟩ := h2.step hmap hk (d := ((dest all (blkE V r0 c0 tr k) (es.length + k) : ℕ) : ℤ)) rfl
  rw [e2]
  refine ⟨_, rfl, ⟨?_, by rw [g1, h1.ps], by rw [g2, h1.is], by rw [g3, h1.xs]⟩, hm2.congr (fun t => by omega) (fun _ _ => rfl)⟩
  rw [pre_succ, ← List.append_assoc]
  exact hf2

theorem fillMissing_holds (h : Rep M V) {s0 : Slots K} (hall : all = es ++ (pre (miss V) V.n ++ rest)) (ha : InCols N all)
    (hf : Filling N all es s0 s) : ∃ s', fillMissing s M 0 = some s' ∧ Filling N all (es ++ pre (miss V) V.n) s0 s' := by
  unfold fillMissing
  rw [h.n]
  refine forI_zero (hi := V.n) (s := s) (fun k s' => Filling N all (es ++ pre (miss V) k) s0 s') (by simpa using hf) ?_
  intro k s' hk h1
  rw [diagMissing_eq h hk]
  simp only [Option.bind_some, decide_eq_true_eq]
  by_cases hm : Missing V k
  · rw [if_pos hm]
    have em : miss V k = [⟨k, k, 0⟩] := if_pos hm
    obtain ⟨rs, hrs⟩ := pre_split (miss V) hk
    have hall' : all = (es ++ pre (miss V) k) ++ (⟨k, k, 0⟩ : Ent K) :: (rs ++ rest) := by rw [hall, hrs, em]; simp [List.append_assoc]
    obtain ⟨s2, e, hf2, g1, g2, g3, _⟩ := h1.f.put ha hall' (col := (k : ℤ)) (row := (k : ℤ)) rfl rfl
    refine ⟨s2, ?_, by rw [pre_succ, em, ← List.append_assoc]; exact hf2, by rw [g1, h1.ps], by rw [g2, h1.is], by rw [g3, h1.xs]⟩
    rw [add_zero]
    unfold Csc.put at e
    unfold incr
    have hk' : k < N := ha ⟨k, k, 0⟩ (by rw [hall']; simp)
    rw [h1.f.p.rd hk'] at e ⊢
    simp only [Option.bind_some] at e ⊢
    rw [h1.f.p.wr hk'] at e ⊢
    simp only [Option.bind_some] at e ⊢
    generalize s'.i.wr _ _ = oi at e ⊢
    cases oi with
    | none => simp at e
    | some i =>
      simp only [Option.bind_some] at e ⊢
      generalize s'.x.wr _ _ = ox at e ⊢
      cases ox with
      | none => simp at e
      | some x =>
        simp only [Option.bind_some] at e ⊢
        exact congrArg some (congrArg Prod.fst (Option.some.inj e))
  · rw [if_neg hm]
    have em : (miss V k : List (Ent K)) = [] := if_neg hm
    exact ⟨s', rfl, by rw [pre_succ, em, List.append_nil]; exact h1⟩

theorem fillDiag_holds {s0 : Slots K} {n m : ℕ} (hall : all = es ++ (pre (dg n) m ++ rest)) (ha : InCols N all)
    (hf : Filling N all es s0 s) {map : Option (Buf ℤ)} (hmap : MapFits map m) :
    ∃ s', fillDiagZeros (s, map) (n : ℤ) (m : ℤ) = some s' ∧ Filling N all (es ++ pre (dg n) m) s0 s'.1 ∧
      MapSet map s'.2 (· < m) (fun k => dest all ⟨k + n, k + n, 0⟩ (es.length + k)) := by
  unfold fillDiagZeros
  refine forI_zero (hi := m) (s := (s, map)) (fun k s' => Filling N all (es ++ pre (dg n) k) s0 s'.1 ∧
      MapSet map s'.2 (· < k) (fun k => dest all ⟨k + n, k + n, 0⟩ (es.length + k))) ⟨by simpa using hf, MapSet.refl _ (by simp) _⟩ ?_
  intro k s' hk ⟨h1, h2⟩
  obtain ⟨rs, hrs⟩ := pre_split (dg n : ℕ → List (Ent K)) hk
  have hall' : all = (es ++ pre (dg n) k) ++ (⟨k + n, k + n, 0⟩ : Ent K) :: (rs ++ rest) := by
    rw [hall, hrs]; simp [dg, List.append_assoc]
  obtain ⟨s2, e, hf2, g1, g2, g3, _⟩ := h1.f.put ha hall' (col := (k : ℤ) + (n : ℤ)) (row := (k : ℤ) + (n : ℤ)) (by simp) (by simp)
  rw [e]
  simp only [Option.bind_some]
  rw [List.length_append, dg_length] at e ⊢
  obtain ⟨m', e2, hm2⟩ := h2.step hmap hk (d := ((dest all (⟨k + n, k + n, 0⟩ : Ent K) (es.length + k) : ℕ) : ℤ)) rfl
  rw [e2]
  refine ⟨_, rfl, ⟨?_, by rw [g1, h1.ps], by rw [g2, h1.is], by rw [g3, h1.xs]⟩, hm2.congr (fun t => by omega) (fun _ _ => rfl)⟩
  rw [pre_succ, ← List.append_assoc]
  exact hf2

end Osqp.Csc
