import Verif.Cuda.RowsLemmas

/-!
# Lemmas about the norms of the rows on the device
-/

set_option linter.unusedSectionVars false

namespace Osqp.Cuda
open Matrix Osqp.Spec

variable {K : Type*} [Field K] [LinearOrder K] [IsStrictOrderedRing K] {m n : ℕ}

/-- However a group is bracketed, the result is, up to sign, its largest absolute value. -/
theorem reduces_max {red : List K → K} (h : Reduces absMaximum red) : ∀ (k : ℕ) (l : List K), l.length ≤ k → l ≠ [] → (∀ v ∈ l, |v| ≤ |red l|) ∧ ∃ v ∈ l, |v| = |red l| := by
  intro k
  induction k with
  | zero => intro l hl hne; exact absurd (List.length_eq_zero_iff.1 (by omega)) hne
  | succ k ih =>
    intro l hl hne
    by_cases h2 : 2 ≤ l.length
    · obtain ⟨a, b, e, ha, hb, hr⟩ := h.2 l h2
      have la : 0 < a.length := List.length_pos_iff.2 ha
      have lb : 0 < b.length := List.length_pos_iff.2 hb
      have hlen : a.length + b.length = l.length := by rw [e, List.length_append]
      obtain ⟨a1, va, hva, ea⟩ := ih a (by omega) ha
      obtain ⟨b1, vb, hvb, eb⟩ := ih b (by omega) hb
      have habs : |red l| = max |red a| |red b| := by
        rw [hr]; unfold absMaximum
        exact abs_of_nonneg (le_max_of_le_left (abs_nonneg _))
      rw [habs]
      subst e
      constructor
      · intro v hv
        rcases List.mem_append.1 hv with hv | hv
        · exact (a1 v hv).trans (le_max_left _ _)
        · exact (b1 v hv).trans (le_max_right _ _)
      · rcases le_total |red a| |red b| with hc | hc
        · exact ⟨vb, List.mem_append_right _ hvb, by rw [max_eq_right hc, eb]⟩
        · exact ⟨va, List.mem_append_left _ hva, by rw [max_eq_left hc, ea]⟩
    · obtain ⟨v, rfl⟩ := List.length_eq_one_iff.1 (show l.length = 1 by have := List.length_pos_iff.2 hne; omega)
      rw [h.1]
      exact ⟨fun w hw => by rw [List.mem_singleton.1 hw], v, by simp, rfl⟩

/-- The groups of a list with keys in order: keys strictly increasing, and each group holds exactly the values with its key. -/
structure GroupsOf (l : List (ℕ × K)) (r : List (ℕ × List K)) : Prop where
  keys : (r.map Prod.fst).Pairwise (· < ·)
  mem : ∀ g ∈ r, g.2 ≠ [] ∧ ∀ v, v ∈ g.2 ↔ (g.1, v) ∈ l
  all : ∀ p ∈ l, ∃ g ∈ r, g.1 = p.1

theorem groups_ok : ∀ l : List (ℕ × K), (l.map Prod.fst).Pairwise (· ≤ ·) → GroupsOf l (groups l) := by
  intro l
  induction l with
  | nil => intro _; exact ⟨List.Pairwise.nil, by simp [groups], by simp⟩
  | cons a l ih =>
    obtain ⟨k, v⟩ := a
    intro hs
    rw [List.map_cons, List.pairwise_cons] at hs
    obtain ⟨hk, hs⟩ := hs
    have h := ih hs
    have hkl : ∀ p ∈ l, k ≤ p.1 := fun p hp => hk _ (List.mem_map.2 ⟨p, hp, rfl⟩)
    rw [groups]
    cases hg : groups l with
    | nil =>
      rw [hg] at h
      have hl : l = [] := by
        cases l with
        | nil => rfl
        | cons p l => obtain ⟨g, hg, _⟩ := h.all p (by simp); simp at hg
      subst hl
      refine ⟨by simp, ?_, ?_⟩
      · intro g hg
        rw [List.mem_singleton] at hg
        subst hg
        refine ⟨by simp, fun w => ?_⟩
        simp
      · intro p hp
        rw [List.mem_singleton] at hp
        subst hp
        exact ⟨_, List.mem_cons_self, rfl⟩
    | cons q r =>
      obtain ⟨k', g'⟩ := q
      rw [hg] at h
      have hq := h.mem (k', g') (by simp)
      have hkk : k ≤ k' := by
        obtain ⟨w, hw⟩ := List.exists_mem_of_ne_nil _ hq.1
        exact hkl _ ((hq.2 w).1 hw)
      have hkeys := h.keys
      rw [List.map_cons, List.pairwise_cons] at hkeys
      dsimp only
      by_cases e : k = k'
      · subst e
        rw [if_pos rfl]
        refine ⟨by rw [List.map_cons, List.pairwise_cons]; exact hkeys, ?_, ?_⟩
        · intro g hg
          rcases List.mem_cons.1 hg with hg | hg
          · subst hg
            refine ⟨by simp, fun w => ?_⟩
            have := hq.2 w
            simp only [List.mem_cons, Prod.mk.injEq, true_and] at this ⊢
            rw [this]
          · have := h.mem g (List.mem_cons_of_mem _ hg)
            refine ⟨this.1, fun w => ?_⟩
            have hlt : k < g.1 := hkeys.1 _ (List.mem_map.2 ⟨g, hg, rfl⟩)
            rw [this.2, List.mem_cons, Prod.mk.injEq]
            constructor
            · exact Or.inr
            · rintro (⟨h1, _⟩ | h1)
              · omega
              · exact h1
        · intro p hp
          rcases List.mem_cons.1 hp with hp | hp
          · subst hp; exact ⟨_, List.mem_cons_self, rfl⟩
          · obtain ⟨g, hg, e⟩ := h.all p hp
            rcases List.mem_cons.1 hg with hg | hg
            · subst hg; exact ⟨_, List.mem_cons_self, e⟩
            · exact ⟨g, by simp [hg], e⟩
      · have hlt : k < k' := by omega
        rw [if_neg e]
        refine ⟨?_, ?_, ?_⟩
        · rw [List.map_cons, List.map_cons, List.pairwise_cons]
          refine ⟨?_, List.pairwise_cons.2 hkeys⟩
          intro y hy
          rcases List.mem_cons.1 hy with hy | hy
          · omega
          · exact hlt.trans (hkeys.1 y hy)
        · intro g hg
          rcases List.mem_cons.1 hg with hg | hg
          · subst hg
            refine ⟨by simp, fun w => ?_⟩
            rw [List.mem_singleton, List.mem_cons, Prod.mk.injEq]
            simp only [true_and]
            constructor
            · exact Or.inl
            · rintro (h1 | h1)
              · exact h1
              · obtain ⟨g, hg, e⟩ := h.all _ h1
                dsimp only at e
                rcases List.mem_cons.1 hg with hg | hg
                · subst hg; dsimp only at e; omega
                · have := hkeys.1 _ (List.mem_map.2 ⟨g, hg, rfl⟩)
                  dsimp only at this
                  omega
          · have := h.mem g hg
            refine ⟨this.1, fun w => ?_⟩
            have hlt : k < g.1 := by
              rcases List.mem_cons.1 hg with hg | hg
              · subst hg; exact hlt
              · exact hlt.trans (hkeys.1 _ (List.mem_map.2 ⟨g, hg, rfl⟩))
            rw [this.2, List.mem_cons, Prod.mk.injEq]
            constructor
            · exact Or.inr
            · rintro (⟨h1, _⟩ | h1)
              · omega
              · exact h1
        · intro p hp
          rcases List.mem_cons.1 hp with hp | hp
          · subst hp; exact ⟨_, List.mem_cons_self, rfl⟩
          · obtain ⟨g, hg, e⟩ := h.all p hp
            exact ⟨g, List.mem_cons_of_mem _ hg, e⟩

/-- The routine on sorted rows: no write out of bounds, and for every row the largest absolute value of its entries. -/
theorem rowNormInf_some {N rows : ℕ} {red : List K → K} (hred : Reduces absMaximum red) (ord : ∀ k, Equiv.Perm (Fin k)) {row : Fin N → ℕ} {val : Fin N → Option K} {v : Fin N → K}
    (hN : N ≠ 0) (hv : ∀ e, val e = some (v e)) (hs : Monotone row) (hr : ∀ e, row e < rows) (res : Fin rows → Option K) :
    ∃ z : Fin rows → K, rowNormInf red ord row val res = some (fun i => some (z i)) ∧ ∀ i, (∀ e, row e = i.val → |v e| ≤ z i) ∧ ((z i = 0 ∧ ∀ e, row e ≠ i.val) ∨ ∃ e, row e = i.val ∧ |v e| = z i) := by
  set l : List (ℕ × K) := List.ofFn fun e => (row e, v e) with hl
  have hmem : ∀ k w, (k, w) ∈ l ↔ ∃ e, row e = k ∧ v e = w := by
    intro k w
    rw [hl, List.mem_ofFn]
    simp [Prod.ext_iff]
  have hsl : (l.map Prod.fst).Pairwise (· ≤ ·) := by
    rw [hl, List.map_ofFn, List.pairwise_ofFn]
    intro i j hij
    exact hs hij.le
  have G := groups_ok l hsl
  have hrange : ∀ g ∈ groups l, g.1 < rows := by
    intro g hg
    obtain ⟨w, hw⟩ := List.exists_mem_of_ne_nil _ (G.mem g hg).1
    obtain ⟨e, he, _⟩ := (hmem _ _).1 (((G.mem g hg).2 w).1 hw)
    rw [← he]; exact hr e
  have hlen : (groups l).length ≤ rows := by
    have h1 : ((groups l).map Prod.fst).Nodup := G.keys.imp fun h => ne_of_lt h
    have h2 : (groups l).map Prod.fst ⊆ List.range rows := by
      intro k hk
      obtain ⟨g, hg, rfl⟩ := List.mem_map.1 hk
      exact List.mem_range.2 (hrange g hg)
    have := (h1.subperm h2).length_le
    simpa using this
  have inj : Function.Injective fun e : Fin (groups l).length => ((groups l).get e).1 := by
    intro a b hab
    have h1 : ((groups l).map Prod.fst).Nodup := G.keys.imp fun h => ne_of_lt h
    have := (List.Nodup.getElem_inj_iff h1 (i := a.val) (j := b.val) (hi := by simp) (hj := by simp)).1 (by simpa using hab)
    exact Fin.ext this
  obtain ⟨out, o1, o2, o3⟩ := scatter_some (N := rows) (fun _ => some (0 : K)) (fun e : Fin (groups l).length => red ((groups l).get e).2) (fun e => ((groups l).get e).1) (ord _) inj
    fun e => hrange _ (List.get_mem _ _)
  have key : ∀ i : Fin rows, ∃ z, (out i).map (|·|) = some z ∧ (∀ e, row e = i.val → |v e| ≤ z) ∧ ((z = 0 ∧ ∀ e, row e ≠ i.val) ∨ ∃ e, row e = i.val ∧ |v e| = z) := by
    intro i
    by_cases hi : ∃ e : Fin (groups l).length, ((groups l).get e).1 = i.val
    · obtain ⟨e, he⟩ := hi
      have hi' : i = ⟨((groups l).get e).1, hrange _ (List.get_mem _ _)⟩ := Fin.ext he.symm
      have hg := G.mem _ (List.get_mem (groups l) e)
      obtain ⟨b1, w, hw, hb⟩ := reduces_max hred _ _ le_rfl hg.1
      refine ⟨|red ((groups l).get e).2|, by rw [hi', o2]; rfl, fun f hf => b1 _ ?_, Or.inr ?_⟩
      · rw [hg.2, hmem]; exact ⟨f, by rw [hf, he], rfl⟩
      · obtain ⟨f, hf, hfv⟩ := (hmem _ _).1 ((hg.2 w).1 hw)
        exact ⟨f, by rw [hf, he], by rw [hfv, hb]⟩
    · have hno : ∀ e, row e ≠ i.val := by
        intro e he
        obtain ⟨g, hg, hg1⟩ := G.all _ ((hmem (row e) (v e)).2 ⟨e, rfl, rfl⟩)
        obtain ⟨k, hk⟩ := List.get_of_mem hg
        exact hi ⟨k, by rw [hk, hg1, he]⟩
      refine ⟨0, ?_, fun e he => absurd he (hno e), Or.inl ⟨rfl, hno⟩⟩
      rw [o3 i fun e he => hi ⟨e, he⟩]
      simp
  choose z hz1 hz2 hz3 using key
  refine ⟨z, ?_, fun i => ⟨hz2 i, hz3 i⟩⟩
  unfold rowNormInf
  rw [if_neg hN, allSome_some hv, Option.bind_some]
  dsimp only
  rw [if_pos hlen, o1, Option.map_some]
  congr 1
  funext i
  exact hz1 i

end Osqp.Cuda
