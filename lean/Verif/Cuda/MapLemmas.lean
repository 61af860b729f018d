import Verif.Cuda.KernelLemmas
import Verif.Vm.AdmmLemmas
import Mathlib.Data.Fintype.Prod
import Mathlib.Data.Fintype.EquivFin

/-!
# Kernels that change a vector element by element, and kernels that reduce
-/

set_option linter.unusedSectionVars false
namespace Osqp.Gpu
open Csc Vm
variable {K : Type} {σ τ : Store K} {ζ : Store ℤ} {x a : Ref} {n : ℕ} {f g : Fin n → K}

/-! ## Single accesses of one thread -/

theorem seq_ld {γ : Type} (v : Ref) (i : ℤ) (k : K → Prog (Dev K) γ) (m : Dev K) :
    seq ((ld v i).bind k) m = (rd m.f v i).bind fun y => seq (k y) m := by
  unfold ld; rw [pbind_act, seq_act, Option.bind_map]; rfl
theorem seq_ldz {γ : Type} (v : Ref) (i : ℤ) (k : ℤ → Prog (Dev K) γ) (m : Dev K) :
    seq ((ldz v i).bind k) m = (rd m.z v i).bind fun y => seq (k y) m := by
  unfold ldz; rw [pbind_act, seq_act, Option.bind_map]; rfl
theorem seq_st (v : Ref) (i : ℤ) (y : K) (m : Dev K) : seq (st v i y) m = (wr m.f v i y).map fun s => ((), ⟨s, m.z⟩) := by
  unfold st; rw [seq_act, Option.bind_map]; cases wr m.f v i y <;> rfl
theorem seq_stz {γ : Type} (v : Ref) (i : ℤ) (y : ℤ) (k : Unit → Prog (Dev K) γ) (m : Dev K) :
    seq ((stz v i y).bind k) m = (wr m.z v i y).bind fun s => seq (k ()) ⟨m.f, s⟩ := by
  unfold stz; rw [pbind_act, seq_act, Option.bind_map]; rfl
theorem seq_and (v : Ref) (y : ℤ) (m : Dev K) :
    seq (atomicAnd v y) m = (rd m.z v 0).bind fun o => (wr m.z v 0 (Int.land o y)).map fun s => ((), ⟨m.f, s⟩) := by
  unfold atomicAnd; rw [seq_act, Option.bind_assoc]; congr 1; funext o; cases wr m.z v 0 (Int.land o y) <;> rfl
theorem seq_or (v : Ref) (y : ℤ) (m : Dev K) :
    seq (atomicOr v y) m = (rd m.z v 0).bind fun o => (wr m.z v 0 (Int.lor o y)).map fun s => ((), ⟨m.f, s⟩) := by
  unfold atomicOr; rw [seq_act, Option.bind_assoc]; congr 1; funext o; cases wr m.z v 0 (Int.lor o y) <;> rfl
theorem seq_add [Add K] (v : Ref) (y : K) (m : Dev K) :
    seq (atomicAdd v y) m = (rd m.f v 0).bind fun o => (wr m.f v 0 (o + y)).map fun s => ((), ⟨s, m.z⟩) := by
  unfold atomicAdd; rw [seq_act, Option.bind_assoc]; congr 1; funext o; cases wr m.f v 0 (o + y) <;> rfl

/-! ## Element by element -/

/-- The elements in `S` of vector `x` have their new values; everything else is as it was. -/
structure Done (σ : Store K) (x : Ref) (n : ℕ) (g : Fin n → K) (S : Set ℕ) (τ : Store K) : Prop where
  size : ∀ b, (τ b).size = (σ b).size
  done : ∀ i : Fin n, (i : ℕ) ∈ S → (τ x.blk).cell (x.off + i) = some (g i)
  rest : ∀ b j, ¬ (b = x.blk ∧ ∃ i ∈ S, j = x.off + i) → (τ b).cell j = (σ b).cell j

theorem Done.rd {S : Set ℕ} (h : Done σ x n g S τ) (hS : ∀ i ∈ S, i < n) (hx : x.len = n) (ha : Has σ a n f) (hp : Apart x a ∨ Same x a)
    {k : ℕ} (hk : k < n) (hn : k ∉ S) : rd τ a (k : ℤ) = some (f ⟨k, hk⟩) := by
  unfold Vm.rd Buf.rd
  have h1 := ha.room
  rw [if_pos ⟨by omega, by rw [h.size]; omega⟩]
  have : ((a.off : ℤ) + (k : ℤ)).toNat = a.off + k := by omega
  rw [this, h.rest]
  · exact ha.val ⟨k, hk⟩
  · rintro ⟨e, i, hi, e2⟩
    have := ha.len
    have := hS i hi
    rcases hp with (hp | hp | hp) | hp
    · exact hp e.symm
    · omega
    · omega
    · have := hp.2
      exact hn ((show i = k by omega) ▸ hi)

theorem Done.write {S : Set ℕ} (h : Done σ x n g S τ) (hr : Room σ x n) {k : ℕ} (hk : k < n) {v : K} (hv : v = g ⟨k, hk⟩) :
    ∃ τ', wr τ x (k : ℤ) v = some τ' ∧ Done σ x n g (insert k S) τ' := by
  subst hv
  refine ⟨_, wr_eq (n := n) (by rw [h.size]; exact hr.room) hk _, ⟨fun b => by rw [upd_size, h.size], fun i hi => ?_, fun b j hj => ?_⟩⟩
  · rw [upd_cell]
    by_cases e : (i : ℕ) = k
    · rw [if_pos ⟨rfl, by rw [e]⟩]; congr 2; exact Fin.ext e.symm
    · rw [if_neg (by rintro ⟨_, e'⟩; exact e (by omega))]
      rcases hi with hi | hi
      · exact absurd hi e
      · exact h.done i hi
  · rw [upd_cell, if_neg (by rintro ⟨e, e'⟩; exact hj ⟨e, k, Set.mem_insert _ _, e'⟩)]
    exact h.rest b j (by rintro ⟨e, i, hi, e2⟩; exact hj ⟨e, i, Set.mem_insert_of_mem _ hi, e2⟩)

theorem Done.keep {S : Set ℕ} (h : Done σ x n g S τ) (hS : ∀ i ∈ S, i < n) (hx : Has σ x n f) {k : ℕ} (hk : k < n) (hn : k ∉ S)
    (hv : f ⟨k, hk⟩ = g ⟨k, hk⟩) : Done σ x n g (insert k S) τ := by
  refine ⟨h.size, fun i hi => ?_, fun b j hj => h.rest b j (by rintro ⟨e, i, hi, e2⟩; exact hj ⟨e, i, Set.mem_insert_of_mem _ hi, e2⟩)⟩
  by_cases e : (i : ℕ) = k
  · have : i = ⟨k, hk⟩ := Fin.ext e
    subst this
    rw [h.rest _ _ (by rintro ⟨_, j, hj, e2⟩; exact hn ((show j = k by simp only at e2; omega) ▸ hj)), hx.val, hv]
  · rcases hi with hi | hi
    · exact absurd hi e
    · exact h.done i hi

theorem Done.nil : Done σ x n g ∅ σ := ⟨fun _ => rfl, fun _ hi => absurd hi (by simp), fun _ _ _ => rfl⟩

theorem Done.result {S : Set ℕ} {σ' : Store K} (hS : ∀ i, i ∈ S ↔ i < n) (h : Done σ x n g S σ') (hr : Room σ x n) : Has σ' x n g ∧ OnlyAt x σ σ' := by
  refine ⟨⟨hr.len, by rw [h.size]; exact hr.room, fun i => h.done i ((hS _).2 i.2)⟩, h.size, fun b k hk => h.rest b k ?_⟩
  rw [hr.len] at hk
  rintro ⟨e, i, hi, e2⟩
  have := (hS i).1 hi
  exact hk ⟨e, by omega, by omega⟩

/-- The memories a routine can leave that gives `x` the values `g`: only one. -/
theorem gives_unique {σ' τ' : Store K} (hr : Room σ x n) (h : Has σ' x n g ∧ OnlyAt x σ σ') (h' : Has τ' x n g ∧ OnlyAt x σ τ') : σ' = τ' := by
  refine store_ext (fun b => by rw [h.2.1, h'.2.1]) fun b k => ?_
  by_cases e : b = x.blk ∧ x.off ≤ k ∧ k < x.off + x.len
  · obtain ⟨rfl, e1, e2⟩ := e
    obtain ⟨j, rfl⟩ := Nat.exists_eq_add_of_le e1
    have hj : j < n := by have := hr.len; omega
    rw [h.1.val ⟨j, hj⟩, h'.1.val ⟨j, hj⟩]
  · rw [h.2.2 b k e, h'.2.2 b k e]

/-- Who owns what in an element-by-element kernel with result `x`. -/
def mapAreas (x : Ref) (n : ℕ) : Areas where
  roF b k := ¬ (b = x.blk ∧ (x.off : ℤ) ≤ k ∧ k < x.off + n)
  accF _ _ := False
  roZ _ _ := True
  accZ _ _ := False
  fam _ := False

/-- Element `i` of `x`. -/
def ownAt (x : Ref) (i : ℕ) (b : ℕ) (k : ℤ) : Prop := b = x.blk ∧ k = x.off + i

/-- The accesses of round `i` of an element-by-element kernel with result `x`. -/
abbrev MapBody [Add K] (x : Ref) (n i : ℕ) (p : Prog (Dev K) Unit) : Prop := All (Touches (mapAreas x n) (ownAt x i) fun _ _ => False) p

theorem reads [Add K] {i : ℕ} (hi : i < n) (hr : Room σ x n) (ha : Has σ a n f) (hp : Apart x a ∨ Same x a) :
    (mapAreas x n).roF a.blk (a.off + (i : ℤ)) ∨ ownAt x i a.blk (a.off + (i : ℤ)) := by
  have h1 := ha.len
  have h2 := hr.len
  rcases hp with (hp | hp | hp) | hp
  · exact .inl fun e => hp e.1.symm
  · exact .inl fun e => by have := e.2; omega
  · exact .inl fun e => by have := e.2; omega
  · exact .inr ⟨hp.1.symm, by have := hp.2; omega⟩

theorem mapped [AddCommSemigroup K] {body : ℕ → Prog (Dev K) Unit} {G B : ℕ} (hg : 0 < B * G) (hr : Room σ x n) (hA : ∀ i < n, MapBody x n i (body i))
    (hs : ∀ i (hi : i < n) S τ, (∀ j ∈ S, j < n) → i ∉ S → Done σ x n g S τ →
      ∃ τ', seq (body i) ⟨τ, ζ⟩ = some ((), ⟨τ', ζ⟩) ∧ Done σ x n g (insert i S) τ') :
    ∃ σ', (Has σ' x n g ∧ OnlyAt x σ σ') ∧ Always (strided n body G B) (⟨σ, ζ⟩ : Dev K) (· = ⟨σ', ζ⟩) := by
  have hnd : (Finset.univ : Finset (Fin G × Fin B)).toList.Nodup := Finset.nodup_toList _
  have hm : ∀ t, t ∈ (Finset.univ : Finset (Fin G × Fin B)).toList := fun t => by simp
  have hp := mine_perm n G B hg hnd hm
  -- one after the other
  have key : ∀ (L : List ℕ) (S : Set ℕ) (τ : Store K), L.Nodup → (∀ i ∈ L, i < n ∧ i ∉ S) → (∀ j ∈ S, j < n) → Done σ x n g S τ →
      ∃ τ', seqL (fun i (_ : Unit) => body i) L () (⟨τ, ζ⟩ : Dev K) = some ((), ⟨τ', ζ⟩) ∧ Done σ x n g (S ∪ {i | i ∈ L}) τ' := by
    intro L
    induction L with
    | nil => intro S τ _ _ _ h; exact ⟨τ, rfl, by simpa using h⟩
    | cons i L ih =>
      intro S τ hn hi hS h
      rw [List.nodup_cons] at hn
      obtain ⟨τ', e, h'⟩ := hs i (hi i (by simp)).1 S τ hS (hi i (by simp)).2 h
      obtain ⟨τ'', e', h''⟩ := ih (insert i S) τ' hn.2 (fun j hj => ⟨(hi j (by simp [hj])).1, by
        rintro (rfl | h3)
        · exact hn.1 hj
        · exact (hi j (by simp [hj])).2 h3⟩) (by rintro j (rfl | hj); exacts [(hi j (by simp)).1, hS j hj]) h'
      refine ⟨τ'', by simp only [seqL, e, Option.bind_some]; exact e', ?_⟩
      have : S ∪ {j | j ∈ i :: L} = insert i S ∪ {j | j ∈ L} := by
        ext j; simp only [List.mem_cons, Set.mem_union, Set.mem_setOf_eq, Set.mem_insert_iff]; tauto
      rw [this]; exact h''
  obtain ⟨σ', e, h⟩ := key ((Finset.univ : Finset (Fin G × Fin B)).toList.flatMap (mine n G B)) ∅ σ (hp.nodup_iff.2 List.nodup_range)
    (fun i hi => ⟨List.mem_range.1 (hp.mem_iff.1 hi), by simp⟩) (by simp) Done.nil
  refine ⟨σ', h.result (fun i => ?_) hr, ?_⟩
  · simp only [Set.empty_union, Set.mem_setOf_eq, hp.mem_iff, List.mem_range]
  · refine always_of_serial (Q := fun t => Touches (mapAreas x n) (fun b k => ∃ i ∈ mine n G B t, ownAt x i b k) fun _ _ => False) ?_ ?_ hnd hm ?_
    · intro s t hst β γ a b
      refine touches_comm ?_ ?_ ?_ ?_ ?_ ?_ ?_
      · rintro b k ⟨i, hi, h1⟩ ⟨j, hj, h2⟩
        have : i = j := by have := h1.2.symm.trans h2.2; omega
        subst this
        rw [mem_mine] at hi hj
        exact hst (idx_inj (hi.2.symm.trans hj.2))
      · rintro b k (⟨i, hi, h1⟩ | ⟨i, hi, h1⟩)
        · rw [mem_mine] at hi
          exact ⟨fun h => h ⟨h1.1, by rw [h1.2]; omega, by rw [h1.2]; omega⟩, id⟩
        · rw [mem_mine] at hi
          exact ⟨fun h => h ⟨h1.1, by rw [h1.2]; omega, by rw [h1.2]; omega⟩, id⟩
      · exact fun _ _ _ => id
      · exact fun _ _ h => absurd h id
      · rintro _ _ (h | h) <;> exact absurd h id
      · exact fun _ _ _ => id
      · exact fun _ _ h => absurd h id
    · intro t
      refine all_gridLoop _ _ _ fun j hj _ => ?_
      have hj' : j ∈ mine n G B t := hj
      exact All.mono (fun β a h => Touches.mono (fun b k h' => ⟨j, hj', h'⟩) (fun _ _ h => h) h) (hA j ((mem_mine t j).1 hj').1)
    · rw [seqAll_strided, e]; rfl

/-- The kernel, under every schedule, leaves the memory a routine `r` does that gives `x` the values `g`. -/
theorem kernel_gives [AddCommSemigroup K] {body : ℕ → Prog (Dev K) Unit} {r : Option (Store K)} (hr : Room σ x n) (hG : Gives σ r x n g)
    (hA : ∀ i < n, MapBody x n i (body i))
    (hs : ∀ i (hi : i < n) S τ, (∀ j ∈ S, j < n) → i ∉ S → Done σ x n g S τ →
      ∃ τ', seq (body i) ⟨τ, ζ⟩ = some ((), ⟨τ', ζ⟩) ∧ Done σ x n g (insert i S) τ') :
    ∃ σ', r = some σ' ∧ Always (grid n body) (⟨σ, ζ⟩ : Dev K) (· = ⟨σ', ζ⟩) := by
  obtain ⟨σ', h, hA⟩ := mapped (G := blocks n) (B := threadsPerBlock) (ζ := ζ) (by unfold blocks threadsPerBlock; omega) hr hA hs
  obtain ⟨σ'', e, h'⟩ := hG
  refine ⟨σ'', e, ?_⟩
  rw [gives_unique hr h' h]
  exact hA

end Osqp.Gpu
