import Verif.Spec.History

/-!
# `updateValues` and `copyValues` against the specification of a partial update
-/

set_option linter.unusedSectionVars false
namespace Osqp
open Spec
variable {K : Type*} [Field K] [LinearOrder K] {q : ℕ}

theorem idxAt_eq_position (idx : Option (List ℤ)) (i : ℕ) : idxAt idx i = position idx i := by
  cases idx <;> rfl

theorem overwrite_zero (v : Fin q → K) (new : List K) (idx : Option (List ℤ)) : overwrite v new idx 0 = v := rfl

theorem overwrite_succ (v : Fin q → K) (new : List K) (idx : Option (List ℤ)) (c : ℕ) (k : Fin q) :
    overwrite v new idx (c + 1) k =
      if position idx c = some ((k : ℕ) : ℤ) then new.getD c (v k) else overwrite v new idx c k := by
  unfold overwrite
  rw [List.range_succ, List.reverse_append, List.reverse_singleton, List.singleton_append, List.find?_cons]
  by_cases h : position idx c = some ((k : ℕ) : ℤ) <;> simp [h]

theorem writeAt_some {v v' : Vec K q} {k : ℤ} {x : K} (h : writeAt v k x = some v') :
    0 ≤ k ∧ k < q ∧ ∀ j : Fin q, v' j = if ((j : ℕ) : ℤ) = k then x else v j := by
  unfold writeAt at h
  split_ifs at h with hk
  cases h
  refine ⟨hk.1, by omega, fun j => ?_⟩
  by_cases hj : ((j : ℕ) : ℤ) = k
  · have : j = ⟨k.toNat, hk.2⟩ := Fin.ext (by simp; omega)
    rw [if_pos hj, this, Function.update_self]
  · have : j ≠ ⟨k.toNat, hk.2⟩ := by
      intro hc; apply hj; rw [hc]; simp [hk.1]
    rw [if_neg hj, Function.update_of_ne this]

theorem updateValues_spec {v : Vec K q} {new : List K} {idx : Option (List ℤ)} {c : ℕ} {v' : Vec K q}
    (h : updateValues v new idx c = some v') :
    v' = overwrite v new idx c ∧
    ∀ i < c, (∃ k : ℤ, position idx i = some k ∧ 0 ≤ k ∧ k < q) ∧ i < new.length := by
  induction c generalizing v' with
  | zero => simp [updateValues] at h; exact ⟨by rw [overwrite_zero, h], fun i hi => by omega⟩
  | succ c ih =>
    unfold updateValues at h ih
    rw [List.range_succ, List.foldlM_append] at h
    simp only [Option.bind_eq_bind, Option.bind_eq_some_iff] at h
    obtain ⟨v1, h1, h2⟩ := h
    obtain ⟨e1, e2⟩ := ih h1
    simp only [List.foldlM_cons, List.foldlM_nil, Option.bind_eq_bind, Option.bind_eq_some_iff] at h2
    obtain ⟨v2, h2, h3⟩ := h2
    cases h3
    rw [idxAt_eq_position] at h2
    cases hp : position idx c with
    | none => simp [hp] at h2
    | some k =>
      cases hx : new[c]? with
      | none => simp [hp, hx] at h2
      | some x =>
        simp only [hp, hx] at h2
        obtain ⟨a, b, e⟩ := writeAt_some h2
        refine ⟨?_, ?_⟩
        · funext j
          rw [e j, overwrite_succ, hp, e1]
          have hg : new.getD c (v j) = x := by simp [List.getD, hx]
          by_cases hj : ((j : ℕ) : ℤ) = k
          · rw [if_pos hj, if_pos (by rw [hj]), hg]
          · rw [if_neg hj, if_neg (by simpa using fun hc => hj hc.symm)]
        · intro i hi
          rcases Nat.lt_succ_iff_lt_or_eq.1 hi with hi | hi
          · exact e2 i hi
          · subst hi
            exact ⟨⟨k, hp, a, b⟩, (List.getElem?_eq_some_iff.1 hx).1⟩

/-- A call never performs an out-of-bounds access exactly when all indices are in range and the value array
is long enough. -/
theorem updateValues_isSome {v : Vec K q} {new : List K} {idx : Option (List ℤ)} {c : ℕ}
    (h : ∀ i < c, (∃ k : ℤ, position idx i = some k ∧ 0 ≤ k ∧ k < q) ∧ i < new.length) :
    (updateValues v new idx c).isSome = true := by
  induction c with
  | zero => simp [updateValues]
  | succ c ih =>
    have h1 := ih (fun i hi => h i (by omega))
    obtain ⟨v1, h1⟩ := Option.isSome_iff_exists.1 h1
    obtain ⟨⟨k, hk, a, b⟩, hl⟩ := h c (by omega)
    unfold updateValues at h1 ⊢
    rw [List.range_succ, List.foldlM_append, h1]
    have hx : new[c]? = some new[c] := by simp [hl]
    have hw : 0 ≤ k ∧ k.toNat < q := ⟨a, by omega⟩
    simp [idxAt_eq_position, hk, hx, writeAt, hw]

theorem copyValues_spec {dst src : Vec K q} {idx : Option (List ℤ)} {c : ℕ} {v' : Vec K q}
    (h : copyValues dst src idx c = some v') :
    ∀ j, v' j = if ∃ i < c, position idx i = some ((j : ℕ) : ℤ) then src j else dst j := by
  induction c generalizing v' with
  | zero => simp [copyValues] at h; intro j; simp [h]
  | succ c ih =>
    unfold copyValues at h ih
    rw [List.range_succ, List.foldlM_append] at h
    simp only [Option.bind_eq_bind, Option.bind_eq_some_iff] at h
    obtain ⟨v1, h1, h2⟩ := h
    have e1 := ih h1
    simp only [List.foldlM_cons, List.foldlM_nil, Option.bind_eq_bind, Option.bind_eq_some_iff] at h2
    obtain ⟨v2, h2, h3⟩ := h2
    cases h3
    rw [idxAt_eq_position] at h2
    cases hp : position idx c with
    | none => simp [hp] at h2
    | some k =>
      simp only [hp] at h2
      split_ifs at h2 with hk
      obtain ⟨a, b, e⟩ := writeAt_some h2
      intro j
      rw [e j, e1 j]
      by_cases hj : ((j : ℕ) : ℤ) = k
      · have hjj : j = ⟨k.toNat, hk.2⟩ := Fin.ext (by simp; omega)
        rw [if_pos hj, if_pos ⟨c, by omega, by rw [hp, hj]⟩, ← hjj]
      · rw [if_neg hj]
        have : (∃ i < c, position idx i = some ((j : ℕ) : ℤ)) ↔ (∃ i < c + 1, position idx i = some ((j : ℕ) : ℤ)) := by
          constructor
          · rintro ⟨i, hi, hh⟩; exact ⟨i, by omega, hh⟩
          · rintro ⟨i, hi, hh⟩
            rcases Nat.lt_succ_iff_lt_or_eq.1 hi with hi | hi
            · exact ⟨i, hi, hh⟩
            · subst hi; rw [hp] at hh; exact absurd (by simpa using hh.symm) hj
        simp only [this]

/-- Copying everything. -/
theorem copyValues_all {dst src : Vec K q} {v' : Vec K q} (h : copyValues dst src none q = some v') : v' = src := by
  funext j
  rw [copyValues_spec h j, if_pos ⟨j, j.isLt, rfl⟩]

theorem overwrite_untouched {v : Vec K q} {new : List K} {idx : Option (List ℤ)} {c : ℕ} {j : Fin q}
    (h : ¬ ∃ i < c, position idx i = some ((j : ℕ) : ℤ)) : overwrite v new idx c j = v j := by
  induction c with
  | zero => rfl
  | succ c ih =>
    rw [overwrite_succ, if_neg (fun hc => h ⟨c, by omega, hc⟩)]
    exact ih (fun ⟨i, hi, hh⟩ => h ⟨i, by omega, hh⟩)

/-- Copying exactly the entries that were overwritten re-establishes equality. -/
theorem copyValues_overwrite {v : Vec K q} {new : List K} {idx : Option (List ℤ)} {c : ℕ} {v' : Vec K q}
    (h : copyValues v (overwrite v new idx c) idx c = some v') : v' = overwrite v new idx c := by
  funext j
  rw [copyValues_spec h j]
  split_ifs with hh
  · rfl
  · rw [overwrite_untouched hh]

theorem copyValues_same {v : Vec K q} {idx : Option (List ℤ)} {c : ℕ} {v' : Vec K q}
    (h : copyValues v v idx c = some v') : v' = v := by
  funext j; rw [copyValues_spec h j]; split_ifs <;> rfl

end Osqp
