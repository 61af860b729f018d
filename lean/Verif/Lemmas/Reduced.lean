import Verif.Spec.Polish
import Verif.Lemmas.Outcome

/-!
# The reduced KKT system of polishing: index bookkeeping
-/

set_option linter.unusedSectionVars false
namespace Osqp
open Spec Matrix
variable {K : Type*} [Field K] [LinearOrder K] [IsStrictOrderedRing K] {d : Dims}

theorem foldl_count {α : Type*} (p : α → Prop) [DecidablePred p] (l : List α) (c : ℕ) :
    l.foldl (fun c i => if p i then c + 1 else c) c = c + l.countP (fun i => decide (p i)) := by
  induction l generalizing c with
  | nil => rfl
  | cons a t ih =>
    rw [List.foldl_cons, ih, List.countP_cons]
    by_cases h : p a <;> simp [h]; omega

theorem countP_finRange {m : ℕ} (p : Fin m → Prop) [DecidablePred p] :
    (List.finRange m).countP (fun i => decide (p i)) = (Finset.univ.filter p).card := by
  rw [List.countP_eq_length_filter, ← List.toFinset_card_of_nodup ((List.nodup_finRange m).filter _)]
  congr 1
  ext i; simp

theorem redIdx_eq (flags : Fin d.m → ℤ) (j : Fin d.m) : redIdx flags j = rank flags j := by
  unfold redIdx rank
  rw [foldl_count (fun i => i < j ∧ flags i ≠ 0), zero_add, countP_finRange]

theorem nActive_eq (flags : Fin d.m → ℤ) : nActive flags = (Finset.univ.filter fun i => flags i ≠ 0).card := by
  unfold nActive
  rw [foldl_count (fun i => flags i ≠ 0), zero_add, countP_finRange]

theorem rank_lt {flags : Fin d.m → ℤ} {i j : Fin d.m} (h : i < j) (hi : flags i ≠ 0) : rank flags i < rank flags j := by
  unfold rank
  apply Finset.card_lt_card
  rw [Finset.ssubset_iff_of_subset]
  · exact ⟨i, by simp [h, hi], by simp⟩
  · intro k; simp only [Finset.mem_filter, Finset.mem_univ, true_and]
    exact fun ⟨a, b⟩ => ⟨a.trans h, b⟩

theorem rank_inj {flags : Fin d.m → ℤ} {i j : Fin d.m} (hi : flags i ≠ 0) (hj : flags j ≠ 0)
    (h : rank flags i = rank flags j) : i = j := by
  rcases lt_trichotomy i j with a | a | a
  · exact absurd h (rank_lt a hi).ne
  · exact a
  · exact absurd h (rank_lt a hj).ne'

theorem pairwise_finRange (m : ℕ) : (List.finRange m).Pairwise (· < ·) := List.pairwise_lt_finRange m

theorem ypol_fold (flags : Fin d.m → ℤ) (yred : ℕ → K) (l : List (Fin d.m)) (hl : l.Pairwise (· < ·)) (c : ℕ) (v : Vec K d.m) (j : Fin d.m) :
    (l.foldl (fun (st : ℕ × Vec K d.m) j =>
      if flags j = 0 then (st.1, Function.update st.2 j 0)
      else (st.1 + 1, Function.update st.2 j (yred st.1))) (c, v)).2 j =
    if j ∈ l then (if flags j = 0 then 0 else yred (c + l.countP (fun i => decide (i < j ∧ flags i ≠ 0)))) else v j := by
  induction l generalizing c v with
  | nil => simp
  | cons a t ih =>
    rw [List.pairwise_cons] at hl
    rw [List.foldl_cons]
    by_cases hja : j = a
    · subst hja
      have hnt : j ∉ t := fun h => lt_irrefl _ (hl.1 j h)
      have hc : t.countP (fun i => decide (i < j ∧ flags i ≠ 0)) = 0 := by
        rw [List.countP_eq_zero]; intro i hi; simp [(hl.1 i hi).le]
      by_cases hf : flags j = 0
      · rw [if_pos hf, ih hl.2, if_neg hnt]; simp [hf]
      · rw [if_neg hf, ih hl.2, if_neg hnt, List.countP_cons, hc]
        simp only [List.mem_cons, true_or, if_true, if_neg hf, lt_self_iff_false, false_and, decide_false, Bool.false_eq_true, if_false, add_zero]
        exact Function.update_self ..
    · by_cases hf : flags a = 0
      · rw [if_pos hf, ih hl.2]
        simp only [List.mem_cons, hja, false_or]
        by_cases hjt : j ∈ t
        · simp only [hjt, if_true]
          rw [List.countP_cons]; simp [hf]
        · simp [hjt, hja, Function.update_of_ne hja]
      · rw [if_neg hf, ih hl.2]
        simp only [List.mem_cons, hja, false_or]
        by_cases hjt : j ∈ t
        · simp only [hjt, if_true]
          rw [List.countP_cons]; simp only [hl.1 j hjt, hf, ne_eq, not_false_iff, and_self, decide_true, if_true]
          rw [show c + 1 + List.countP (fun i => decide (i < j ∧ flags i ≠ 0)) t = c + (List.countP (fun i => decide (i < j ∧ flags i ≠ 0)) t + 1) by omega]
        · simp [hjt, hja, Function.update_of_ne hja]

/-- `get_ypol_from_yred` puts the reduced multipliers back in place. -/
theorem ypol_apply (flags : Fin d.m → ℤ) (yred : ℕ → K) (j : Fin d.m) :
    ypolOfYred flags yred j = if flags j = 0 then 0 else yred (rank flags j) := by
  unfold ypolOfYred
  split_ifs with h0 h1 h1
  · rfl
  · rw [nActive_eq, Finset.card_eq_zero, Finset.filter_eq_empty_iff] at h0
    exact absurd (not_not.1 (h0 (Finset.mem_univ j))) h1
  · rw [ypol_fold _ _ _ (pairwise_finRange _)]; simp [h1]
  · rw [ypol_fold _ _ _ (pairwise_finRange _), if_pos (List.mem_finRange j), if_neg h1, zero_add, countP_finRange]; rfl

theorem rhs_fold_lt (D : Data d K) (flags : Fin d.m → ℤ) (l : List (Fin d.m)) (c : ℕ) (v : ℕ → K) (r : ℕ) (hr : r < c) :
    (l.foldl (fun (st : ℕ × (ℕ → K)) j =>
      if flags j = -1 then (st.1 + 1, Function.update st.2 st.1 (D.l j))
      else if flags j = 1 then (st.1 + 1, Function.update st.2 st.1 (D.u j))
      else st) (c, v)).2 r = v r := by
  induction l generalizing c v with
  | nil => rfl
  | cons a t ih =>
    rw [List.foldl_cons]
    split_ifs
    · rw [ih _ _ (by omega), Function.update_of_ne (by omega)]
    · rw [ih _ _ (by omega), Function.update_of_ne (by omega)]
    · exact ih _ _ hr

theorem rhs_fold (D : Data d K) (flags : Fin d.m → ℤ) (hf : ∀ i, flags i = -1 ∨ flags i = 0 ∨ flags i = 1) (l : List (Fin d.m))
    (hl : l.Pairwise (· < ·)) (c : ℕ) (v : ℕ → K) (j : Fin d.m) (hj : j ∈ l) (ha : flags j ≠ 0) :
    (l.foldl (fun (st : ℕ × (ℕ → K)) j =>
      if flags j = -1 then (st.1 + 1, Function.update st.2 st.1 (D.l j))
      else if flags j = 1 then (st.1 + 1, Function.update st.2 st.1 (D.u j))
      else st) (c, v)).2 (c + l.countP (fun i => decide (i < j ∧ flags i ≠ 0))) = if flags j = -1 then D.l j else D.u j := by
  induction l generalizing c v with
  | nil => cases hj
  | cons a t ih =>
    rw [List.pairwise_cons] at hl
    rw [List.foldl_cons, List.countP_cons]
    by_cases hja : j = a
    · subst hja
      have hc : t.countP (fun i => decide (i < j ∧ flags i ≠ 0)) = 0 := by
        rw [List.countP_eq_zero]; intro i hi; simp [(hl.1 i hi).le]
      rw [hc]
      simp only [lt_self_iff_false, false_and, decide_false, Bool.false_eq_true, if_false, add_zero]
      by_cases h1 : flags j = -1
      · rw [if_pos h1, if_pos h1, rhs_fold_lt _ _ _ _ _ _ (by omega)]; simp
      · have h2 : flags j = 1 := by rcases hf j with h | h | h; exacts [absurd h h1, absurd h ha, h]
        rw [if_neg h1, if_neg h1, if_pos h2, rhs_fold_lt _ _ _ _ _ _ (by omega)]; simp
    · have hjt : j ∈ t := by rcases List.mem_cons.1 hj with h | h; exacts [absurd h hja, h]
      have haj := hl.1 j hjt
      rcases hf a with h | h | h
      · rw [if_pos h]
        have := ih hl.2 (c + 1) (Function.update v c (D.l a)) hjt
        simp only [haj, h]
        rw [show c + (List.countP (fun i => decide (i < j ∧ flags i ≠ 0)) t + if decide (True ∧ (-1 : ℤ) ≠ 0) = true then 1 else 0) =
          c + 1 + List.countP (fun i => decide (i < j ∧ flags i ≠ 0)) t by simp; omega]
        exact this
      · rw [if_neg (by omega), if_neg (by omega)]
        have := ih hl.2 c v hjt
        simp only [h]
        simpa using this
      · rw [if_neg (by omega), if_pos h]
        have := ih hl.2 (c + 1) (Function.update v c (D.u a)) hjt
        simp only [haj, h]
        rw [show c + (List.countP (fun i => decide (i < j ∧ flags i ≠ 0)) t + if decide (True ∧ (1 : ℤ) ≠ 0) = true then 1 else 0) =
          c + 1 + List.countP (fun i => decide (i < j ∧ flags i ≠ 0)) t by simp; omega]
        exact this

theorem activeFlags_vals (l u z y : Vec K d.m) (i : Fin d.m) :
    activeFlags l u z y i = -1 ∨ activeFlags l u z y i = 0 ∨ activeFlags l u z y i = 1 := by
  unfold activeFlags; split_ifs <;> simp

theorem activeFlags_low (D : Data d K) (z y : Vec K d.m) (i : Fin d.m) : activeFlags D.l D.u z y i = -1 ↔ AtLower D z y i := by
  unfold activeFlags AtLower; split_ifs with h1 h2 <;> simp [h1]

theorem activeFlags_upp (D : Data d K) (z y : Vec K d.m) (i : Fin d.m) : activeFlags D.l D.u z y i = 1 ↔ AtUpper D z y i := by
  unfold activeFlags AtUpper AtLower
  split_ifs with h1 h2
  · simp [h1]
  · simp [h1, h2]
  · simp [h2]

/-- `form_rhs_red` puts the bound of each active constraint at its rank. -/
theorem rhs_apply (D : Data d K) (flags : Fin d.m → ℤ) (hf : ∀ i, flags i = -1 ∨ flags i = 0 ∨ flags i = 1) (j : Fin d.m) (ha : flags j ≠ 0) :
    (formRhsRed D flags).2 (rank flags j) = if flags j = -1 then D.l j else D.u j := by
  have := rhs_fold D flags hf (List.finRange d.m) (pairwise_finRange _) 0 (fun _ => 0) j (List.mem_finRange j) ha
  rw [zero_add, countP_finRange] at this
  exact this

theorem aredMul_rank (flags : Fin d.m → ℤ) (D : Data d K) (x : Vec K d.n) (i : Fin d.m) (hi : flags i ≠ 0) :
    aredMul flags D.A x (rank flags i) = ((ofData D).A *ᵥ x) i := by
  have e : ((ofData D).A *ᵥ x) i = spMul d.A D.A x i := by rw [spMul_eq]; rfl
  rw [e]
  unfold aredMul spMul
  refine Finset.sum_congr rfl fun k _ => ?_
  by_cases h : d.A.row k = i
  · rw [if_pos ⟨by rw [h]; exact hi, by rw [h, redIdx_eq]⟩, if_pos h]
  · rw [if_neg, if_neg h]
    rintro ⟨a, b⟩
    rw [redIdx_eq] at b
    exact h (rank_inj a hi b)

theorem aredMulT_eq (flags : Fin d.m → ℤ) (D : Data d K) (y : ℕ → K) (j : Fin d.n) :
    aredMulT flags D.A y j = ∑ i, (if flags i ≠ 0 then (ofData D).A i j * y (rank flags i) else 0) := by
  have e : ∑ i, (if flags i ≠ 0 then (ofData D).A i j * y (rank flags i) else 0) =
      spMulT d.A D.A (fun i => if flags i ≠ 0 then y (rank flags i) else 0) j := by
    rw [spMulT_eq]
    simp only [mulVec, dotProduct, transpose_apply, ofData]
    exact Finset.sum_congr rfl fun i _ => by split_ifs <;> simp
  rw [e]
  unfold aredMulT spMulT
  refine Finset.sum_congr rfl fun k _ => ?_
  by_cases h1 : flags (d.A.row k) = 0 <;> by_cases h2 : d.A.col k = j <;> simp [h1, h2, redIdx_eq]

/-- Zero residual in the refinement means the reduced system is solved. -/
theorem refineRhs_zero (D : Data d K) (flags : Fin d.m → ℤ) (b v : Vec K d.n × (ℕ → K)) :
    ((∀ j, (refineRhs D flags b v).1 j = 0) ∧ ∀ i, flags i ≠ 0 → (refineRhs D flags b v).2 (rank flags i) = 0) ↔ SolvesReduced D flags 0 v b := by
  unfold refineRhs SolvesReduced
  simp only [zero_mul, add_zero, sub_zero, symMul_eq, aredMulT_eq]
  refine and_congr (forall_congr' fun j => ?_) (forall_congr' fun i => forall_congr' fun hi => ?_)
  · rw [show denseSym d.P D.P = (ofData D).P from rfl]
    constructor <;> intro h <;> linarith
  · rw [aredMul_rank _ _ _ _ hi]; constructor <;> intro h <;> linarith

theorem reduced_solution (D : Data d K) (z y : Vec K d.m) (v : Vec K d.n × (ℕ → K))
    (h : SolvesReduced D (activeFlags D.l D.u z y) 0 v (formRhsRed D (activeFlags D.l D.u z y))) :
    ReducedSolution (ofData D) (AtLower D z y) (AtUpper D z y) v.1 (ypolOfYred (activeFlags D.l D.u z y) v.2) := by
  have hf := activeFlags_vals D.l D.u z y
  have hlow := activeFlags_low D z y
  have hupp := activeFlags_upp D z y
  generalize activeFlags D.l D.u z y = flags at *
  obtain ⟨h1, h2⟩ := h
  refine ⟨fun j => ?_, fun i hi => ?_, fun i hi => ?_, fun i a b => ?_⟩
  · have := h1 j
    have e : (formRhsRed D flags).1 j = -(D.q j) := rfl
    rw [e, zero_mul, add_zero] at this
    unfold QP.stat
    have e2 : ((ofData D).Aᵀ *ᵥ ypolOfYred flags v.2) j = ∑ i, (if flags i ≠ 0 then (ofData D).A i j * v.2 (rank flags i) else 0) := by
      simp only [mulVec, dotProduct, transpose_apply]
      refine Finset.sum_congr rfl fun i _ => ?_
      rw [ypol_apply]; split_ifs <;> simp_all
    rw [e2]
    have e3 : (ofData D).q j = D.q j := rfl
    rw [e3]; linarith
  · have h0 := (hlow i).2 hi
    have hn : flags i ≠ 0 := by rw [h0]; decide
    have := h2 i hn
    rw [rhs_apply D flags hf i hn, if_pos h0, zero_mul, sub_zero] at this
    exact this
  · have h0 := (hupp i).2 hi
    have hn : flags i ≠ 0 := by rw [h0]; decide
    have := h2 i hn
    rw [rhs_apply D flags hf i hn, if_neg (by rw [h0]; decide), zero_mul, sub_zero] at this
    exact this
  · have : flags i = 0 := by
      rcases hf i with h | h | h
      · exact absurd ((hlow i).1 h) a
      · exact h
      · exact absurd ((hupp i).1 h) b
    rw [ypol_apply, if_pos this]

/-- Exact solves stay exact under refinement. -/
theorem refine_exact {env : Env d K} (D : Data d K) (flags : Fin d.m → ℤ) (sigma : K) (b : Vec K d.n × (ℕ → K))
    (hex : ∀ r : Vec K d.n × (ℕ → K), SolvesReduced D flags 0 (env.polSolve D flags sigma r.1 r.2) r) (k : ℕ) :
    ∀ v, SolvesReduced D flags 0 v b → SolvesReduced D flags 0 (refineLoop env D flags sigma b k v) b := by
  induction k with
  | zero => exact fun v h => h
  | succ k ih =>
    intro v h
    unfold refineLoop
    apply ih
    have hr := (refineRhs_zero D flags b v).2 h
    have hd := hex (refineRhs D flags b v)
    obtain ⟨d1, d2⟩ := hd
    obtain ⟨v1, v2⟩ := h
    refine ⟨fun j => ?_, fun i hi => ?_⟩
    · have a := d1 j
      have c := v1 j
      rw [hr.1 j] at a
      rw [show (fun j => v.1 j + (env.polSolve D flags sigma (refineRhs D flags b v).1 (refineRhs D flags b v).2).1 j) =
        v.1 + (env.polSolve D flags sigma (refineRhs D flags b v).1 (refineRhs D flags b v).2).1 from rfl, mulVec_add, Pi.add_apply]
      have e : ∀ (p r : ℕ → K), ∑ i, (if flags i ≠ 0 then (ofData D).A i j * (p (rank flags i) + r (rank flags i)) else 0) =
          ∑ i, (if flags i ≠ 0 then (ofData D).A i j * p (rank flags i) else 0) + ∑ i, (if flags i ≠ 0 then (ofData D).A i j * r (rank flags i) else 0) := by
        intro p r; rw [← Finset.sum_add_distrib]
        refine Finset.sum_congr rfl fun i _ => ?_
        split_ifs
        · ring
        · simp
      rw [e]; linarith
    · have a := d2 i hi
      have c := v2 i hi
      rw [hr.2 i hi] at a
      rw [show (fun j => v.1 j + (env.polSolve D flags sigma (refineRhs D flags b v).1 (refineRhs D flags b v).2).1 j) =
        v.1 + (env.polSolve D flags sigma (refineRhs D flags b v).1 (refineRhs D flags b v).2).1 from rfl, mulVec_add, Pi.add_apply]
      linarith

/-- With exact regularised solves, a refinement step that changes nothing means the unregularised system is solved. -/
theorem refine_fixed {env : Env d K} (D : Data d K) (flags : Fin d.m → ℤ) (sigma : K) (b v : Vec K d.n × (ℕ → K))
    (hex : ∀ r : Vec K d.n × (ℕ → K), SolvesReduced D flags sigma (env.polSolve D flags sigma r.1 r.2) r)
    (h1 : (env.polSolve D flags sigma (refineRhs D flags b v).1 (refineRhs D flags b v).2).1 = 0)
    (h2 : ∀ i, flags i ≠ 0 → (env.polSolve D flags sigma (refineRhs D flags b v).1 (refineRhs D flags b v).2).2 (rank flags i) = 0) :
    SolvesReduced D flags 0 v b := by
  rw [← refineRhs_zero]
  obtain ⟨a, c⟩ := hex (refineRhs D flags b v)
  refine ⟨fun j => ?_, fun i hi => ?_⟩
  · rw [← a j, h1]
    have : ∑ i, (if flags i ≠ 0 then (ofData D).A i j * (env.polSolve D flags sigma (refineRhs D flags b v).1 (refineRhs D flags b v).2).2 (rank flags i) else 0) = 0 := by
      refine Finset.sum_eq_zero fun i _ => ?_
      split_ifs with hi
      · rw [h2 i hi, mul_zero]
      · rfl
    rw [this]; simp
  · rw [← c i hi, h1, h2 i hi]; simp

end Osqp
