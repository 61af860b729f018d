import Verif.Cuda.RedKernels

/-!
# The types of the constraints, and signed products
-/

set_option linter.unusedSectionVars false
namespace Osqp.Gpu
open Csc Vm
variable {K : Type} [Field K] [LinearOrder K] [IsStrictOrderedRing K]
variable {σ : Store K} {ζ : Store ℤ} {a b l u q ch res : Ref} {n : ℕ} {fa fb fl fu : Fin n → K}

theorem wr_has {α : Type} {τ : Store α} {x : Ref} {g : Fin n → α} (h : Has τ x n g) (k : Fin n) (v : α) :
    ∃ τ', wr τ x ((k : ℕ) : ℤ) v = some τ' ∧ Has τ' x n (Function.update g k v) ∧ OnlyAt x τ τ' := by
  refine ⟨_, wr_eq (n := n) h.room k.2 v, ⟨h.len, by rw [upd_size]; exact h.room, fun i => ?_⟩, fun b => by rw [upd_size], fun b j hj => ?_⟩
  · rw [upd_cell, Function.update_apply]
    by_cases e : i = k
    · subst e; rw [if_pos ⟨rfl, rfl⟩, if_pos rfl]
    · rw [if_neg e, if_neg (by rintro ⟨_, e'⟩; exact e (Fin.ext (by omega))), h.val]
  · rw [upd_cell, if_neg]
    rintro ⟨e, e'⟩
    have := h.len
    exact hj ⟨e, by omega, by omega⟩

/-! ## The types of the constraints -/

def typeAreas (ch : Ref) : Areas where
  roF _ _ := True
  accF _ _ := False
  roZ _ _ := False
  accZ b k := b = ch.blk ∧ k = ch.off
  fam f := f = (Int.lor · 1)

open Classical in
/-- 1 if `P` holds, else 0. -/
noncomputable def raised (P : Prop) : ℤ := if P then 1 else 0

theorem lor_raised (P : Prop) : Int.lor (raised P) 1 = 1 := by unfold raised; split_ifs <;> rfl

/-- The two memories agree outside `x` and `y`. -/
def Only2 (x y : Ref) (τ τ' : Store ℤ) : Prop :=
  (∀ b, (τ' b).size = (τ b).size) ∧ ∀ b k, ¬ (b = x.blk ∧ x.off ≤ k ∧ k < x.off + x.len) → ¬ (b = y.blk ∧ y.off ≤ k ∧ k < y.off + y.len) →
    (τ' b).cell k = (τ b).cell k

theorem boundsType_kernel {old : Fin n → ℤ} (hq : Has ζ q n old) (hc : Has ζ ch 1 fun _ => 0) (hqc : q.blk ≠ ch.blk) (hl : Has σ l n fl)
    (hu : Has σ u n fu) (infval tol : K) (ht : tol ≤ 2 * infval) :
    Always (grid n (boundsTypeK q l u infval tol ch)) (⟨σ, ζ⟩ : Dev K) fun m => m.f = σ ∧ Has m.z q n (vBoundsType fl fu tol infval) ∧
      (Has m.z ch 1 fun _ => raised (∃ i, vBoundsType fl fu tol infval i ≠ old i)) ∧ Only2 q ch ζ m.z := by
  classical
  set new := vBoundsType fl fu tol infval with hnew
  have hnd : (Finset.univ : Finset (Thread n)).toList.Nodup := Finset.nodup_toList _
  have hm : ∀ t, t ∈ (Finset.univ : Finset (Thread n)).toList := fun t => by simp
  have hp := mine_perm n (blocks n) threadsPerBlock (by unfold blocks threadsPerBlock; omega) hnd hm
  have htype : ∀ i, (if fu i - fl i < tol then (1 : ℤ) else if fl i < -infval ∧ fu i > infval then -1 else 0) = new i := by
    intro i
    rw [hnew]; unfold vBoundsType
    split_ifs with h1 h2 h2
    · exfalso; have := h2.1; have := h2.2; linarith
    all_goals rfl
  have key : ∀ (L : List ℕ) (S : Set ℕ) (ζ' : Store ℤ), L.Nodup → (∀ i ∈ L, i < n ∧ i ∉ S) →
      ((Has ζ' q n fun i => if (i : ℕ) ∈ S then new i else old i) ∧ (Has ζ' ch 1 fun _ => raised (∃ i : Fin n, (i : ℕ) ∈ S ∧ new i ≠ old i)) ∧ Only2 q ch ζ ζ') →
      ∃ ζ'', seqL (fun i (_ : Unit) => boundsTypeK q l u infval tol ch i) L () (⟨σ, ζ'⟩ : Dev K) = some ((), ⟨σ, ζ''⟩) ∧
        (Has ζ'' q n fun i => if (i : ℕ) ∈ S ∪ {i | i ∈ L} then new i else old i) ∧
        (Has ζ'' ch 1 fun _ => raised (∃ i : Fin n, (i : ℕ) ∈ S ∪ {i | i ∈ L} ∧ new i ≠ old i)) ∧ Only2 q ch ζ ζ'' := by
    intro L
    induction L with
    | nil => intro S ζ' _ _ h; exact ⟨ζ', rfl, by simpa using h⟩
    | cons i L ih =>
      intro S ζ' hnd' hi h
      have hi' := (hi i (by simp)).1
      have hiS := (hi i (by simp)).2
      have : ∃ ζ1, seq (boundsTypeK q l u infval tol ch i) (⟨σ, ζ'⟩ : Dev K) = some ((), ⟨σ, ζ1⟩) ∧
          (Has ζ1 q n fun j => if (j : ℕ) ∈ insert i S then new j else old j) ∧
          (Has ζ1 ch 1 fun _ => raised (∃ j : Fin n, (j : ℕ) ∈ insert i S ∧ new j ≠ old j)) ∧ Only2 q ch ζ ζ1 := by
        have e1 : rd σ l (i : ℤ) = some (fl ⟨i, hi'⟩) := hl.rd ⟨i, hi'⟩
        have e2 : rd σ u (i : ℤ) = some (fu ⟨i, hi'⟩) := hu.rd ⟨i, hi'⟩
        have e3 : rd ζ' q (i : ℤ) = some (old ⟨i, hi'⟩) := by
          have := h.1.rd ⟨i, hi'⟩
          rwa [if_neg hiS] at this
        simp only [boundsTypeK, bind_eq, seq_ld, seq_ldz, e1, e2, e3, Option.bind_some, htype]
        by_cases e : old ⟨i, hi'⟩ ≠ new ⟨i, hi'⟩
        · rw [if_pos e]
          obtain ⟨ζ1, w1, h1, h2⟩ := wr_has h.1 ⟨i, hi'⟩ (new ⟨i, hi'⟩)
          have hc1 := h2.has h.2.1 (.inl hqc)
          obtain ⟨ζ2, w2, h3, h4⟩ := wr_single hc1 1
          refine ⟨ζ2, ?_, ?_, ?_, ?_⟩
          · have w1' : wr ζ' q (i : ℤ) (new ⟨i, hi'⟩) = some ζ1 := w1
            rw [seq_stz, w1']
            simp only [Option.bind_some]
            rw [seq_or, rd_single hc1]
            simp only [Option.bind_some, lor_raised, w2, Option.map_some]
          · have := h4.has h1 (.inl hqc.symm)
            convert this using 2 with j
            rw [Function.update_apply]
            by_cases ej : j = ⟨i, hi'⟩
            · subst ej; simp
            · have : (j : ℕ) ≠ i := fun e => ej (Fin.ext e)
              rw [if_neg ej]; simp [this]
          · have : ∃ j : Fin n, (j : ℕ) ∈ insert i S ∧ new j ≠ old j := ⟨⟨i, hi'⟩, by simp, e.symm⟩
            simp only [raised, if_pos this]; exact h3
          · refine ⟨fun b => by rw [h4.1, h2.1, h.2.2.1], fun b k k1 k2 => ?_⟩
            rw [h4.2 b k k2, h2.2 b k k1, h.2.2.2 b k k1 k2]
        · rw [if_neg e]
          have e' : old ⟨i, hi'⟩ = new ⟨i, hi'⟩ := not_not.1 e
          refine ⟨ζ', rfl, ?_, ?_, h.2.2⟩
          · convert h.1 using 2 with j
            by_cases ej : (j : ℕ) = i
            · have : j = ⟨i, hi'⟩ := Fin.ext ej
              subst this; simp [hiS, e']
            · simp [ej]
          · have : (∃ j : Fin n, (j : ℕ) ∈ insert i S ∧ new j ≠ old j) ↔ ∃ j : Fin n, (j : ℕ) ∈ S ∧ new j ≠ old j := by
              constructor
              · rintro ⟨j, hj | hj, hb⟩
                · exact absurd (by rw [show j = (⟨i, hi'⟩ : Fin n) from Fin.ext hj]; exact e'.symm) hb
                · exact ⟨j, hj, hb⟩
              · rintro ⟨j, hj, hb⟩; exact ⟨j, Set.mem_insert_of_mem _ hj, hb⟩
            simp only [this]; exact h.2.1
      obtain ⟨ζ1, e1, h1⟩ := this
      rw [List.nodup_cons] at hnd'
      obtain ⟨ζ2, e2, h2⟩ := ih (insert i S) ζ1 hnd'.2 (fun j hj => ⟨(hi j (by simp [hj])).1, by
        rintro (rfl | h)
        · exact hnd'.1 hj
        · exact (hi j (by simp [hj])).2 h⟩) (by convert h1)
      refine ⟨ζ2, by simp only [seqL, e1, Option.bind_some]; exact e2, ?_⟩
      have : S ∪ {j | j ∈ i :: L} = insert i S ∪ {j | j ∈ L} := by
        ext j; simp only [List.mem_cons, Set.mem_union, Set.mem_setOf_eq, Set.mem_insert_iff]; tauto
      simp only [this]; convert h2
  obtain ⟨ζ', e, h1, h2, h3⟩ := key ((Finset.univ : Finset (Thread n)).toList.flatMap (mine n (blocks n) threadsPerBlock)) ∅ ζ
    (hp.nodup_iff.2 List.nodup_range) (fun i hi => ⟨List.mem_range.1 (hp.mem_iff.1 hi), by simp⟩)
    ⟨by simpa using hq, by simpa [raised] using hc, fun _ => rfl, fun _ _ _ _ => rfl⟩
  have hall : ∀ i : ℕ, i < n → i ∈ (∅ : Set ℕ) ∪ {i | i ∈ (Finset.univ : Finset (Thread n)).toList.flatMap (mine n (blocks n) threadsPerBlock)} :=
    fun i hi => .inr (by simp only [Set.mem_setOf_eq, hp.mem_iff, List.mem_range]; exact hi)
  have hal : Always (grid n (boundsTypeK q l u infval tol ch)) (⟨σ, ζ⟩ : Dev K) (· = ⟨σ, ζ'⟩) := by
    refine always_of_serial (Q := fun t => Touches (typeAreas ch) (fun _ _ => False) fun b k => ∃ i ∈ mine n (blocks n) threadsPerBlock t, ownAt q i b k)
      ?_ ?_ hnd hm ?_
    · intro s t hst β γ a b
      refine touches_comm ?_ ?_ ?_ ?_ ?_ ?_ ?_
      · exact fun _ _ h => absurd h id
      · rintro _ _ (h | h) <;> exact absurd h id
      · exact fun _ _ _ => id
      · rintro b k ⟨i, hi, _, e1⟩ ⟨j, hj, _, e2⟩
        have : i = j := by omega
        subst this
        rw [mem_mine] at hi hj
        exact hst (idx_inj (hi.2.symm.trans hj.2))
      · rintro b k (⟨i, _, e1, _⟩ | ⟨i, _, e1, _⟩) <;> exact ⟨id, fun h => hqc (e1.symm.trans h.1)⟩
      · exact fun _ _ h => absurd h id
      · rintro f g rfl rfl o; rfl
    · intro t'
      refine all_gridLoop _ _ _ fun j hj _ => ?_
      refine all_bind (all_ld (.inl trivial)) fun v => all_bind (all_ld (.inl trivial)) fun w =>
        all_bind (all_ldz (.inr ⟨j, hj, rfl, rfl⟩)) fun o => ?_
      have stored : ∀ t : ℤ, All (Touches (K := K) (typeAreas ch) (fun _ _ => False) fun b k => ∃ i ∈ mine n (blocks n) threadsPerBlock t', ownAt q i b k)
          ((stz q j t).bind fun _ => atomicOr ch 1) :=
        fun t => all_bind (all_stz ⟨j, hj, rfl, rfl⟩) fun _ => all_atomicOr ⟨rfl, by simp⟩ rfl
      by_cases ho : o ≠ (if v - w < tol then (1 : ℤ) else if w < -infval ∧ v > infval then -1 else 0)
      · rw [if_pos ho]; exact stored _
      · rw [if_neg ho]; trivial
    · unfold grid; rw [seqAll_strided, e]; rfl
  refine ⟨hal.safe, fun s c e' hf => ?_, hal.ends⟩
  rw [hal.result s c e' hf]
  refine ⟨rfl, ?_, ?_, h3⟩
  · convert h1 using 2 with i
    rw [if_pos (hall i i.2)]
  · have : (∃ i : Fin n, (i : ℕ) ∈ (∅ : Set ℕ) ∪ {i | i ∈ (Finset.univ : Finset (Thread n)).toList.flatMap (mine n (blocks n) threadsPerBlock)} ∧ new i ≠ old i) ↔
        ∃ i, new i ≠ old i := exists_congr fun i => ⟨fun h => h.2, fun h => ⟨hall i i.2, h⟩⟩
    simp only [this] at h2
    exact h2

/-! ## Signed products -/

def sumAreas (res : Ref) : Areas where
  roF b k := ¬ (b = res.blk ∧ k = res.off)
  accF b k := b = res.blk ∧ k = res.off
  roZ _ _ := False
  accZ _ _ := False
  fam _ := False

theorem seqL_sum {part : K → K} (ha : Has σ a n fa) (hb : Has σ b n fb) (L : List ℕ) (hL : ∀ i ∈ L, i < n) (s : K) :
    seqL (fun i s => do
      let v ← ld a i
      let w ← ld b i
      pure (s + v * part w)) L s (⟨σ, ζ⟩ : Dev K) =
      some (s + (L.map fun i => if h : i < n then fa ⟨i, h⟩ * part (fb ⟨i, h⟩) else 0).sum, ⟨σ, ζ⟩) := by
  induction L generalizing s with
  | nil => simp [seqL]
  | cons i L ih =>
    have hi := hL i (by simp)
    have e1 : rd σ a (i : ℤ) = some (fa ⟨i, hi⟩) := ha.rd ⟨i, hi⟩
    have e2 : rd σ b (i : ℤ) = some (fb ⟨i, hi⟩) := hb.rd ⟨i, hi⟩
    simp only [seqL, bind_eq, seq_ld, e1, e2, Option.bind_some, pure_eq, seq_ret]
    have := ih (fun j hj => hL j (by simp [hj])) (s + fa ⟨i, hi⟩ * part (fb ⟨i, hi⟩))
    simp only [bind_eq, pure_eq] at this
    rw [this]
    simp only [List.map_cons, List.sum_cons, dif_pos hi, add_assoc]

theorem prod_kernel {part : K → K} (ha : Has σ a n fa) (hb : Has σ b n fb) (hra : Apart res a) (hrb : Apart res b) (hres : Has σ res 1 fun _ => 0) :
    Always (prodK part a b res n (blocks n) threadsPerBlock) (⟨σ, ζ⟩ : Dev K) fun m =>
      (Has m.f res 1 fun _ => ∑ i, fa i * part (fb i)) ∧ OnlyAt res σ m.f ∧ m.z = ζ := by
  have hnd : (Finset.univ : Finset (Thread n)).toList.Nodup := Finset.nodup_toList _
  have hm : ∀ t, t ∈ (Finset.univ : Finset (Thread n)).toList := fun t => by simp
  have hp := mine_perm n (blocks n) threadsPerBlock (by unfold blocks threadsPerBlock; omega) hnd hm
  set w : ℕ → K := fun i => if h : i < n then fa ⟨i, h⟩ * part (fb ⟨i, h⟩) else 0 with hw
  have key : ∀ (T : List (Thread n)) (v : K) (σ' : Store K), (Has σ' res 1 fun _ => v) → OnlyAt res σ σ' →
      ∃ σ'', seqAll (prodK part a b res n (blocks n) threadsPerBlock) T (⟨σ', ζ⟩ : Dev K) = some ⟨σ'', ζ⟩ ∧
        (Has σ'' res 1 fun _ => v + ((T.flatMap (mine n (blocks n) threadsPerBlock)).map w).sum) ∧ OnlyAt res σ σ'' := by
    intro T
    induction T with
    | nil => intro v σ' h1 h2; exact ⟨σ', rfl, by simpa using h1, h2⟩
    | cons t T ih =>
      intro v σ' h1 h2
      have es := seqL_sum (ζ := ζ) (part := part) (h2.has ha hra) (h2.has hb hrb) (mine n (blocks n) threadsPerBlock t)
        (fun i hi => ((mem_mine t i).1 hi).1) 0
      obtain ⟨σ1, w1, h3, h4⟩ := wr_single h1 (v + (0 + ((mine n (blocks n) threadsPerBlock t).map w).sum))
      obtain ⟨σ2, e2, h5, h6⟩ := ih _ σ1 h3 (h2.trans h4)
      refine ⟨σ2, ?_, ?_, h6⟩
      · unfold seqAll prodK
        rw [bind_eq, seq_bind, seq_gridLoop]
        unfold mine at es
        rw [es]
        simp only [Option.bind_some]
        rw [seq_add, rd_single h1]
        simp only [Option.bind_some]
        unfold mine at w1
        rw [w1]
        exact e2
      · convert h5 using 2
        rw [List.flatMap_cons, List.map_append, List.sum_append]; ring
  obtain ⟨σ', e, h1, h2⟩ := key (Finset.univ : Finset (Thread n)).toList 0 σ hres OnlyAt.refl
  have hsum : 0 + (((Finset.univ : Finset (Thread n)).toList.flatMap (mine n (blocks n) threadsPerBlock)).map w).sum = ∑ i, fa i * part (fb i) := by
    rw [zero_add, (hp.map w).sum_eq, ← List.sum_toFinset _ List.nodup_range, List.toFinset_range, Finset.sum_range]
    exact Finset.sum_congr rfl fun i _ => dif_pos i.2
  have out : ∀ {v : Ref} {i : ℕ} {g : Fin n → K}, Has σ v n g → Apart res v → i < n → ¬ (v.blk = res.blk ∧ ((v.off : ℤ) + (i : ℤ)) = res.off) := by
    intro v i g hv hap hi
    have h1 := hv.len
    have h2 := hres.len
    rintro ⟨e1, e2⟩
    rcases hap with h | h | h
    · exact h e1.symm
    · omega
    · omega
  have hal : Always (prodK part a b res n (blocks n) threadsPerBlock) (⟨σ, ζ⟩ : Dev K) (· = ⟨σ', ζ⟩) := by
    refine always_of_serial (Q := fun t => Touches (sumAreas res) (fun _ _ => False) fun _ _ => False) ?_ ?_ hnd hm e
    · intro s t hst β γ a b
      refine touches_comm ?_ ?_ ?_ ?_ ?_ ?_ ?_
      · exact fun _ _ h => absurd h id
      · rintro _ _ (h | h) <;> exact absurd h id
      · exact fun _ _ h => h
      · exact fun _ _ h => absurd h id
      · rintro _ _ (h | h) <;> exact absurd h id
      · exact fun _ _ h => absurd h id
      · exact fun _ _ h => absurd h id
    · intro t
      refine all_bind (all_gridLoop _ _ _ fun j hj _ => ?_) fun s => all_atomicAdd ⟨rfl, by simp⟩
      have hj' := ((mem_mine t j).1 hj).1
      exact all_bind (all_ld (.inl (out ha hra hj'))) fun v => all_bind (all_ld (.inl (out hb hrb hj'))) fun w => trivial
  refine ⟨hal.safe, fun s c e' hf => ?_, hal.ends⟩
  rw [hal.result s c e' hf]
  refine ⟨?_, h2, rfl⟩
  rw [← hsum]; exact h1

end Osqp.Gpu
