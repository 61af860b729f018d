import Verif.Cuda.MapKernels
import Verif.Lemmas.Num
import Mathlib.Algebra.BigOperators.Fin

/-!
# The kernels that compute one number
-/

set_option linter.unusedSectionVars false
namespace Osqp.Gpu
open Csc Vm
variable {K : Type} [Field K] [LinearOrder K]
variable {σ : Store K} {ζ : Store ℤ} {x a b c l u y res : Ref} {n : ℕ} {f fa fb fc fl fu : Fin n → K}

/-- Writing the single element of a vector of length one. -/
theorem wr_single {α : Type} {τ : Store α} {g : Fin 1 → α} (h : Has τ res 1 g) (v : α) :
    ∃ τ', wr τ res 0 v = some τ' ∧ Has τ' res 1 (fun _ => v) ∧ OnlyAt res τ τ' := by
  obtain ⟨τ', e, h'⟩ := (Done.nil (σ := τ) (x := res) (n := 1) (g := fun _ => v)).write h.toRoom (k := 0) Nat.one_pos rfl
  exact ⟨τ', e, h'.result (fun i => by simp) h.toRoom⟩

theorem rd_single {α : Type} {τ : Store α} {g : Fin 1 → α} (h : Has τ res 1 g) : rd τ res 0 = some (g 0) := h.rd 0

theorem land_zero' (o : ℤ) : Int.land o 0 = 0 := by
  cases o with
  | ofNat k => simp [Int.land]
  | negSucc k => simp [Int.land, Nat.ldiff]

open Classical in
/-- 0 if `P` holds, else 1. -/
noncomputable def cleared (P : Prop) : ℤ := if P then 0 else 1

/-! ## A flag cleared by any thread -/

def flagAreas (res : Ref) : Areas where
  roF _ _ := True
  accF _ _ := False
  roZ _ _ := False
  accZ b k := b = res.blk ∧ k = res.off
  fam f := f = (Int.land · 0)

theorem flag {body : ℕ → Prog (Dev K) Unit} (bad : Fin n → Prop) [DecidablePred bad] (hres : Has ζ res 1 fun _ => 1)
    (hA : ∀ i < n, All (Touches (flagAreas res) (fun _ _ => False) fun _ _ => False) (body i))
    (hs : ∀ i (hi : i < n) ζ', seq (body i) ⟨σ, ζ'⟩ = if bad ⟨i, hi⟩ then seq (atomicAnd res 0) ⟨σ, ζ'⟩ else some ((), ⟨σ, ζ'⟩)) :
    Always (grid n body) (⟨σ, ζ⟩ : Dev K) fun m => m.f = σ ∧ (Has m.z res 1 fun _ => if ∀ i, ¬ bad i then 1 else 0) ∧ OnlyAt res ζ m.z := by
  classical
  have hnd : (Finset.univ : Finset (Thread n)).toList.Nodup := Finset.nodup_toList _
  have hm : ∀ t, t ∈ (Finset.univ : Finset (Thread n)).toList := fun t => by simp
  have hp := mine_perm n (blocks n) threadsPerBlock (by unfold blocks threadsPerBlock; omega) hnd hm
  have key : ∀ (L : List ℕ) (S : Set ℕ) (ζ' : Store ℤ), (∀ i ∈ L, i < n) →
      ((Has ζ' res 1 fun _ => cleared (∃ i : Fin n, (i : ℕ) ∈ S ∧ bad i)) ∧ OnlyAt res ζ ζ') →
      ∃ ζ'', seqL (fun i (_ : Unit) => body i) L () (⟨σ, ζ'⟩ : Dev K) = some ((), ⟨σ, ζ''⟩) ∧
        (Has ζ'' res 1 fun _ => cleared (∃ i : Fin n, (i : ℕ) ∈ S ∪ {i | i ∈ L} ∧ bad i)) ∧ OnlyAt res ζ ζ'' := by
    intro L
    induction L with
    | nil => intro S ζ' _ h; exact ⟨ζ', rfl, by simpa using h⟩
    | cons i L ih =>
      intro S ζ' hi h
      have hi' := hi i (by simp)
      have : ∃ ζ1, seq (body i) (⟨σ, ζ'⟩ : Dev K) = some ((), ⟨σ, ζ1⟩) ∧
          (Has ζ1 res 1 fun _ => cleared (∃ j : Fin n, (j : ℕ) ∈ insert i S ∧ bad j)) ∧ OnlyAt res ζ ζ1 := by
        rw [hs i hi']
        by_cases e : bad ⟨i, hi'⟩
        · rw [if_pos e]
          obtain ⟨ζ1, e1, h1, h2⟩ := wr_single h.1 0
          refine ⟨ζ1, ?_, ?_, h.2.trans h2⟩
          · rw [seq_and, rd_single h.1]
            simp only [Option.bind_some, land_zero', e1, Option.map_some]
          · unfold cleared; simp only [if_pos (⟨⟨i, hi'⟩, by simp, e⟩ : ∃ j : Fin n, (j : ℕ) ∈ insert i S ∧ bad j)]; exact h1
        · rw [if_neg e]
          refine ⟨ζ', rfl, ?_, h.2⟩
          have : (∃ j : Fin n, (j : ℕ) ∈ insert i S ∧ bad j) ↔ ∃ j : Fin n, (j : ℕ) ∈ S ∧ bad j := by
            constructor
            · rintro ⟨j, hj | hj, hb⟩
              · exact absurd (by rw [show (⟨i, hi'⟩ : Fin n) = j from Fin.ext hj.symm]; exact hb) e
              · exact ⟨j, hj, hb⟩
            · rintro ⟨j, hj, hb⟩; exact ⟨j, Set.mem_insert_of_mem _ hj, hb⟩
          simp only [this]; exact h.1
      obtain ⟨ζ1, e1, h1⟩ := this
      obtain ⟨ζ2, e2, h2⟩ := ih (insert i S) ζ1 (fun j hj => hi j (by simp [hj])) h1
      refine ⟨ζ2, by simp only [seqL, e1, Option.bind_some]; exact e2, ?_⟩
      have : S ∪ {j | j ∈ i :: L} = insert i S ∪ {j | j ∈ L} := by
        ext j; simp only [List.mem_cons, Set.mem_union, Set.mem_setOf_eq, Set.mem_insert_iff]; tauto
      rw [this]; exact h2
  obtain ⟨ζ', e, h1, h2⟩ := key ((Finset.univ : Finset (Thread n)).toList.flatMap (mine n (blocks n) threadsPerBlock)) ∅ ζ
    (fun i hi => List.mem_range.1 (hp.mem_iff.1 hi)) ⟨by simpa [cleared] using hres, OnlyAt.refl⟩
  have hal : Always (grid n body) (⟨σ, ζ⟩ : Dev K) (· = ⟨σ, ζ'⟩) := by
    refine always_of_serial (Q := fun t => Touches (flagAreas res) (fun _ _ => False) fun _ _ => False) ?_ ?_ hnd hm ?_
    · intro s t hst β γ a b
      refine touches_comm ?_ ?_ ?_ ?_ ?_ ?_ ?_
      · exact fun _ _ h => absurd h id
      · rintro _ _ (h | h) <;> exact absurd h id
      · exact fun _ _ _ => id
      · exact fun _ _ h => absurd h id
      · rintro _ _ (h | h) <;> exact absurd h id
      · exact fun _ _ h => absurd h id
      · rintro f g rfl rfl o; rfl
    · intro t
      exact all_gridLoop _ _ _ fun j hj _ => hA j ((mem_mine t j).1 hj).1
    · unfold grid; rw [seqAll_strided, e]; rfl
  refine ⟨hal.safe, fun s c e' hf => ?_, hal.ends⟩
  rw [hal.result s c e' hf]
  refine ⟨rfl, ?_, h2⟩
  have : (∃ i : Fin n, (i : ℕ) ∈ (∅ : Set ℕ) ∪ {i | i ∈ (Finset.univ : Finset (Thread n)).toList.flatMap (mine n (blocks n) threadsPerBlock)} ∧ bad i) ↔ ¬ ∀ i, ¬ bad i := by
    push Not
    constructor
    · rintro ⟨i, _, h⟩; exact ⟨i, h⟩
    · rintro ⟨i, h⟩
      exact ⟨i, .inr (by simp only [Set.mem_setOf_eq, hp.mem_iff, List.mem_range]; exact i.2), h⟩
  simp only [this, cleared, ite_not] at h1
  convert h1

theorem all_and : All (Touches (K := K) (flagAreas res) (fun _ _ => False) fun _ _ => False) (atomicAnd res 0) :=
  all_atomicAnd ⟨rfl, by simp⟩ rfl

theorem leq_kernel (hl : Has σ l n fl) (hu : Has σ u n fu) (hres : Has ζ res 1 fun _ => 1) :
    ∃ r, allLeq l u σ = some r ∧ Always (grid n (leqK l u res)) (⟨σ, ζ⟩ : Dev K)
      fun m => m.f = σ ∧ (Has m.z res 1 fun _ => if r then 1 else 0) ∧ OnlyAt res ζ m.z := by
  refine ⟨_, allLeq_holds hl hu, ?_⟩
  have := flag (σ := σ) (body := leqK l u res) (fun i => fl i > fu i) hres (fun i hi => ?_) fun i hi ζ' => ?_
  · convert this using 6
    simp [vAllLeq]
  · refine all_bind (all_ld (.inl trivial)) fun v => all_bind (all_ld (.inl trivial)) fun w => ?_
    split_ifs
    · exact all_and
    · trivial
  · have e1 : rd σ l (i : ℤ) = some (fl ⟨i, hi⟩) := hl.rd ⟨i, hi⟩
    have e2 : rd σ u (i : ℤ) = some (fu ⟨i, hi⟩) := hu.rd ⟨i, hi⟩
    simp only [leqK, bind_eq, seq_ld, e1, e2, Option.bind_some]
    split_ifs <;> rfl

theorem inReccone_kernel (hy : Has σ y n f) (hl : Has σ l n fl) (hu : Has σ u n fu) (infval tol : K) (hres : Has ζ res 1 fun _ => 1) :
    ∃ r, inReccone y l u infval tol σ = some r ∧ Always (grid n (inRecconeK y l u infval tol res)) (⟨σ, ζ⟩ : Dev K)
      fun m => m.f = σ ∧ (Has m.z res 1 fun _ => if r then 1 else 0) ∧ OnlyAt res ζ m.z := by
  refine ⟨_, inReccone_holds hy hl hu infval tol, ?_⟩
  have := flag (σ := σ) (body := inRecconeK y l u infval tol res)
    (fun i => (fu i < infval ∧ f i > tol) ∨ (fl i > -infval ∧ f i < -tol)) hres (fun i hi => ?_) fun i hi ζ' => ?_
  · convert this using 6
    refine if_congr ?_ rfl rfl
    simp only [vInReccone, List.all_eq_true, List.mem_finRange, true_implies, Bool.not_eq_true', ← Bool.not_eq_true, Bool.or_eq_true,
      Bool.and_eq_true, decide_eq_true_eq]
  · refine all_bind (all_ld (.inl trivial)) fun v => all_bind (all_ld (.inl trivial)) fun w => all_bind (all_ld (.inl trivial)) fun w' => ?_
    split_ifs
    · exact all_and
    · trivial
  · have e0 : rd σ y (i : ℤ) = some (f ⟨i, hi⟩) := hy.rd ⟨i, hi⟩
    have e1 : rd σ l (i : ℤ) = some (fl ⟨i, hi⟩) := hl.rd ⟨i, hi⟩
    have e2 : rd σ u (i : ℤ) = some (fu ⟨i, hi⟩) := hu.rd ⟨i, hi⟩
    simp only [inRecconeK, bind_eq, seq_ld, e0, e1, e2, Option.bind_some]
    split_ifs <;> rfl

end Osqp.Gpu
