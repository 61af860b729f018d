import Verif.Spec.Mats
import Mathlib.Algebra.BigOperators.Fin
import Mathlib.Order.Interval.Finset.Fin
import Mathlib.Tactic.Ring
import Mathlib.Tactic.LinearCombination

set_option linter.unusedSectionVars false

namespace Osqp.Cuda
open Osqp.Spec

variable {K : Type*} [Field K] {m n : ℕ}

/-! ### Gather and scatter -/

theorem gather_some {N k : ℕ} {src : Fin N → Option K} {ind : Fin k → ℕ} (h : ∀ e, ind e < N) : gather src ind = some fun e => src ⟨ind e, h e⟩ := by
  unfold gather; rw [dif_pos h]

theorem scatter_list {N k : ℕ} (inp : Fin k → K) (ind : Fin k → ℕ) (ord : Equiv.Perm (Fin k)) (inj : Function.Injective ind) (lt : ∀ e, ind e < N) :
    ∀ (l : List (Fin k)) (out : Fin N → Option K), l.Nodup →
      ∃ out', l.foldl (fun o e => o.bind fun out => scatterOne out (ind (ord e)) (inp (ord e))) (some out) = some out' ∧
        (∀ e ∈ l, out' ⟨ind (ord e), lt _⟩ = some (inp (ord e))) ∧ ∀ j : Fin N, (∀ e ∈ l, ind (ord e) ≠ j.val) → out' j = out j := by
  intro l
  induction l with
  | nil => intro out _; exact ⟨out, rfl, by simp, fun _ _ => rfl⟩
  | cons a l ih =>
    intro out nd
    obtain ⟨ha, nd⟩ := List.nodup_cons.1 nd
    obtain ⟨out', h1, h2, h3⟩ := ih (Function.update out ⟨ind (ord a), lt _⟩ (some (inp (ord a)))) nd
    refine ⟨out', ?_, ?_, ?_⟩
    · rw [List.foldl_cons, Option.bind_some, show scatterOne out (ind (ord a)) (inp (ord a)) = some (Function.update out ⟨ind (ord a), lt _⟩ (some (inp (ord a)))) from dif_pos (lt _)]
      exact h1
    · intro e he
      rcases List.mem_cons.1 he with rfl | he
      · rw [h3 _ fun e' he' h => ha (by have := ord.injective (inj h); rwa [← this]), Function.update_self]
      · exact h2 e he
    · intro j hj
      rw [h3 j fun e he => hj e (List.mem_cons_of_mem _ he), Function.update_of_ne]
      rintro rfl
      exact hj a List.mem_cons_self rfl

theorem scatter_some {N k : ℕ} (out : Fin N → Option K) (inp : Fin k → K) (ind : Fin k → ℕ) (ord : Equiv.Perm (Fin k)) (inj : Function.Injective ind) (lt : ∀ e, ind e < N) :
    ∃ out', scatter out inp ind ord = some out' ∧ (∀ e, out' ⟨ind e, lt _⟩ = some (inp e)) ∧ ∀ j : Fin N, (∀ e, ind e ≠ j.val) → out' j = out j := by
  obtain ⟨out', h1, h2, h3⟩ := scatter_list inp ind ord inj lt (List.finRange k) out (List.nodup_finRange k)
  refine ⟨out', h1, fun e => ?_, fun j hj => h3 j fun e _ => hj _⟩
  have := h2 (ord.symm e) (List.mem_finRange _)
  simpa using this

/-- A scatter of values over an array of values, as an array of values. -/
theorem scatter_values {N M k : ℕ} (h : N ≤ M) {v v' : Fin N → K} {out : Fin M → Option K} {inp : Fin k → K} {ind : Fin k → ℕ} (ord : Equiv.Perm (Fin k)) (hv : ∀ j : Fin N, out ⟨j, by omega⟩ = some (v j))
    (new : Overwritten v ind inp v') : ∃ out', scatter out inp ind ord = some out' ∧ (∀ j : Fin N, out' ⟨j, by omega⟩ = some (v' j)) ∧ ∀ j : Fin M, N ≤ j.val → out' j = out j := by
  obtain ⟨out', h1, h2, h3⟩ := scatter_some out inp ind ord new.inj (fun e => lt_of_lt_of_le (new.lt e) h)
  refine ⟨out', h1, fun j => ?_, fun j hj => h3 j fun e => ?_⟩
  · by_cases hj : ∃ e, ind e = j.val
    · obtain ⟨e, he⟩ := hj
      have : j = ⟨ind e, new.lt e⟩ := Fin.ext he.symm
      subst this
      rw [h2, new.at_idx]
    · rw [h3 _ fun e he => hj ⟨e, he⟩, hv, new.rest j fun e he => hj ⟨e, he⟩]
  · have := new.lt e; omega

/-! ### Sums over the positions of the full matrix -/

theorem sum_split {M : Type*} [AddCommMonoid M] (a b : ℕ) (f : Fin (2 * a + b) → M) :
    ∑ k, f k = ∑ e : Fin a, f ⟨e, by omega⟩ + ∑ e : Fin a, f ⟨a + e, by omega⟩ + ∑ j : Fin b, f ⟨2 * a + j, by omega⟩ := by
  have h : a + a + b = 2 * a + b := by omega
  rw [← (finCongr h).sum_comp, Fin.sum_univ_add, Fin.sum_univ_add]
  congr 1
  refine Finset.sum_congr rfl fun j _ => congrArg f (Fin.ext ?_)
  simp [two_mul]

theorem lower_iff {N n c : ℕ} {g : Fin N → ℕ} (mono : Monotone g) (card : (Finset.univ.filter fun i => g i < n).card = c) (i : Fin N) : i.val < c ↔ g i < n := by
  constructor
  · intro hi
    by_contra hn
    have : (Finset.univ.filter fun i => g i < n) ⊆ Finset.Iio i := by
      intro j hj
      have hj := (Finset.mem_filter.1 hj).2
      rw [Finset.mem_Iio]
      by_contra hlt
      have := mono (not_lt.1 hlt)
      omega
    have := Finset.card_le_card this
    rw [card, Fin.card_Iio] at this
    omega
  · intro hi
    have : Finset.Iic i ⊆ (Finset.univ.filter fun i => g i < n) := by
      intro j hj
      rw [Finset.mem_filter]
      exact ⟨Finset.mem_univ _, lt_of_le_of_lt (mono (Finset.mem_Iic.1 hj)) hi⟩
    have := Finset.card_le_card this
    rw [card, Fin.card_Iic] at this
    omega

theorem sum_first {M : Type*} [AddCommMonoid M] {N c : ℕ} (h : c ≤ N) (f : Fin N → M) : ∑ e : Fin c, f ⟨e, by omega⟩ = ∑ i : Fin N, if i.val < c then f i else 0 := by
  obtain ⟨d, rfl⟩ := Nat.exists_eq_add_of_le h
  rw [Fin.sum_univ_add]
  simp [Fin.castAdd, Fin.castLE]

theorem sorted_sum {M : Type*} [AddCommMonoid M] {N n c : ℕ} (h : c ≤ N) {r : Fin N → ℕ} {σ : Equiv.Perm (Fin N)} (mono : Monotone (r ∘ σ)) (card : (Finset.univ.filter fun k => r k < n).card = c)
    (f : Fin N → M) : (∀ i : Fin N, i.val < c ↔ r (σ i) < n) ∧ ∑ e : Fin c, f (σ ⟨e, by omega⟩) = ∑ k, if r k < n then f k else 0 := by
  have hc : (Finset.univ.filter fun i => (r ∘ σ) i < n).card = c := by
    rw [← card]
    refine Finset.card_bij (fun i _ => σ i) ?_ ?_ ?_
    · intro i hi; simpa using hi
    · intro i _ j _ hij; exact σ.injective hij
    · intro k hk; exact ⟨σ.symm k, by simpa using hk, by simp⟩
  have key : ∀ i : Fin N, i.val < c ↔ r (σ i) < n := lower_iff mono hc
  refine ⟨key, ?_⟩
  rw [sum_first h fun i => f (σ i), ← Equiv.sum_comp σ (fun k => if r k < n then f k else 0)]
  refine Finset.sum_congr rfl fun i _ => ?_
  by_cases hi : i.val < c
  · rw [if_pos hi, if_pos ((key i).1 hi)]
  · rw [if_neg hi, if_neg fun h => hi ((key i).2 h)]

/-! ### The structure of the full matrix -/

/-- No diagonal entry is given twice. -/
def DiagOnce (p : Pat n n) : Prop := ∀ k l, p.row k = p.col k → p.row l = p.col l → p.row k = p.row l → k = l

section
variable (p : Pat n n)

theorem fullRow_1 (e : Fin p.nnz) : fullRow p ⟨e, by omega⟩ = (p.col e).val ∧ fullCol p ⟨e, by omega⟩ = (p.row e).val := by
  unfold fullRow fullCol
  exact ⟨dif_pos e.2, dif_pos e.2⟩

theorem fullRow_2 (e : Fin p.nnz) : fullRow p ⟨p.nnz + e, by omega⟩ = (if p.col e = p.row e then (p.row e).val + n else (p.row e).val) ∧
    fullCol p ⟨p.nnz + e, by omega⟩ = if p.col e = p.row e then (p.col e).val + n else (p.col e).val := by
  unfold fullRow fullCol
  have h1 : ¬ p.nnz + e.val < p.nnz := by omega
  have h2 : p.nnz + e.val < 2 * p.nnz := by omega
  have h3 : (⟨p.nnz + e.val - p.nnz, by omega⟩ : Fin p.nnz) = e := Fin.ext (by simp)
  simp only [h1, h2, dite_false, dite_true, h3, and_self]

theorem fullRow_3 (j : Fin n) : fullRow p ⟨2 * p.nnz + j, by omega⟩ = (if hasDiag p j then j.val + n else j.val) ∧
    fullCol p ⟨2 * p.nnz + j, by omega⟩ = if hasDiag p j then j.val + n else j.val := by
  unfold fullRow fullCol
  have h1 : ¬ 2 * p.nnz + j.val < p.nnz := by omega
  have h2 : ¬ 2 * p.nnz + j.val < 2 * p.nnz := by omega
  have h3 : (⟨2 * p.nnz + j.val - 2 * p.nnz, by omega⟩ : Fin n) = j := Fin.ext (by simp)
  simp only [h1, h2, dite_false, h3, Nat.add_sub_cancel_left, and_self]

theorem nnzDiag_eq (once : DiagOnce p) : nnzDiag p = (Finset.univ.filter fun j => hasDiag p j = true).card := by
  unfold nnzDiag
  refine Finset.card_bij (fun k _ => p.row k) ?_ ?_ ?_
  · intro k hk
    have hk := (Finset.mem_filter.1 hk).2
    simp only [Finset.mem_filter, Finset.mem_univ, true_and, hasDiag, decide_eq_true_eq]
    exact ⟨k, rfl, hk.symm⟩
  · intro k hk l hl h
    exact once k l (Finset.mem_filter.1 hk).2 (Finset.mem_filter.1 hl).2 h
  · intro j hj
    simp only [Finset.mem_filter, Finset.mem_univ, true_and, hasDiag, decide_eq_true_eq] at hj
    obtain ⟨k, h1, h2⟩ := hj
    exact ⟨k, by simp [h1, h2], h1⟩

theorem card_real (once : DiagOnce p) : (Finset.univ.filter fun k => fullRow p k < n).card = fullNnz p := by
  rw [Finset.card_filter, sum_split]
  have s1 : ∑ e : Fin p.nnz, (if fullRow p ⟨e, by omega⟩ < n then 1 else 0) = p.nnz := by
    rw [Finset.sum_congr rfl fun e _ => if_pos (by rw [(fullRow_1 p e).1]; exact (p.col e).2)]
    simp
  have s2 : ∑ e : Fin p.nnz, (if fullRow p ⟨p.nnz + e, by omega⟩ < n then 1 else 0) + nnzDiag p = p.nnz := by
    have : ∑ e : Fin p.nnz, (if fullRow p ⟨p.nnz + e, by omega⟩ < n then 1 else 0) = (Finset.univ.filter fun k => ¬ p.row k = p.col k).card := by
      rw [Finset.card_filter]
      refine Finset.sum_congr rfl fun e _ => ?_
      rw [(fullRow_2 p e).1]
      by_cases h : p.row e = p.col e
      · simp [h]
      · simp [h, Ne.symm h]
    rw [this, nnzDiag, add_comm, Finset.card_filter_add_card_filter_not]
    simp
  have s3 : ∑ j : Fin n, (if fullRow p ⟨2 * p.nnz + j, by omega⟩ < n then 1 else 0) + nnzDiag p = n := by
    have : ∑ j : Fin n, (if fullRow p ⟨2 * p.nnz + j, by omega⟩ < n then 1 else 0) = (Finset.univ.filter fun j => ¬ hasDiag p j = true).card := by
      rw [Finset.card_filter]
      refine Finset.sum_congr rfl fun j _ => ?_
      rw [(fullRow_3 p j).1]
      by_cases h : hasDiag p j = true
      · simp [h]
      · simp [h]
    rw [this, nnzDiag_eq p once, add_comm, Finset.card_filter_add_card_filter_not]
    simp
  unfold fullNnz
  have h4 : nnzDiag p ≤ p.nnz := by unfold nnzDiag; exact (Finset.card_filter_le _ _).trans (by simp)
  omega

/-- The value that belongs at a position, given those of the triangle. -/
def extVal (v : Fin p.nnz → K) (k : Fin (2 * p.nnz + n)) : K :=
  if h : k.val < p.nnz then v ⟨k, h⟩ else if h2 : k.val < 2 * p.nnz then v ⟨k - p.nnz, by omega⟩ else 0

theorem reducePerm_lt (k : Fin (2 * p.nnz + n)) : reducePerm p.nnz k < p.nnz + 1 := by
  unfold reducePerm
  split
  · have := Nat.mod_lt k.val (by omega : 0 < p.nnz); omega
  · omega

theorem cell_eq (v : Fin p.nnz → K) (c : Option K) (k : Fin (2 * p.nnz + n)) (h : c = some 0 ∨ k.val < 2 * p.nnz) :
    withCell v c ⟨reducePerm p.nnz k, reducePerm_lt p k⟩ = some (extVal p v k) := by
  unfold withCell extVal reducePerm
  by_cases h1 : k.val < p.nnz
  · have h2 : k.val < 2 * p.nnz := by omega
    have h3 : k.val % p.nnz = k.val := Nat.mod_eq_of_lt h1
    simp only [h1, h2, h3, dite_true, if_true]
  · by_cases h2 : k.val < 2 * p.nnz
    · have h3 : k.val % p.nnz = k.val - p.nnz := by rw [Nat.mod_eq_sub_mod (by omega), Nat.mod_eq_of_lt (by omega)]
      have h4 : k.val - p.nnz < p.nnz := by omega
      simp only [h1, h2, h3, h4, dite_true, dite_false, if_true]
    · rcases h with h | h
      · simp [h1, h2, h]
      · exact absurd h h2

theorem real_sum (v : Fin p.nnz → K) (i j : Fin n) :
    (∑ k, if fullRow p k < n then (if fullRow p k = i.val ∧ fullCol p k = j.val then extVal p v k else 0) else 0) = denseSym p v i j := by
  rw [sum_split]
  have e3 : ∑ l : Fin n, (if fullRow p ⟨2 * p.nnz + l, by omega⟩ < n then (if fullRow p ⟨2 * p.nnz + l, by omega⟩ = i.val ∧ fullCol p ⟨2 * p.nnz + l, by omega⟩ = j.val then extVal p v ⟨2 * p.nnz + l, by omega⟩ else 0) else 0) = 0 := by
    refine Finset.sum_eq_zero fun l _ => ?_
    have : extVal p v ⟨2 * p.nnz + l, by omega⟩ = 0 := by
      unfold extVal
      have h1 : ¬ 2 * p.nnz + l.val < p.nnz := by omega
      have h2 : ¬ 2 * p.nnz + l.val < 2 * p.nnz := by omega
      simp only [h1, h2, dite_false]
    rw [this]; simp
  rw [e3, add_zero, ← Finset.sum_add_distrib]
  unfold denseSym
  refine Finset.sum_congr rfl fun e _ => ?_
  have x1 : extVal p v ⟨e, by omega⟩ = v e := by unfold extVal; exact dif_pos e.2
  have x2 : extVal p v ⟨p.nnz + e, by omega⟩ = v e := by
    unfold extVal
    have h1 : ¬ p.nnz + e.val < p.nnz := by omega
    have h2 : p.nnz + e.val < 2 * p.nnz := by omega
    have h3 : (⟨p.nnz + e.val - p.nnz, by omega⟩ : Fin p.nnz) = e := Fin.ext (by simp)
    simp only [h1, h2, dite_false, dite_true, h3]
  rw [x1, x2, (fullRow_1 p e).1, (fullRow_1 p e).2, (fullRow_2 p e).1, (fullRow_2 p e).2]
  by_cases h : p.col e = p.row e
  · simp only [h, if_true, Fin.is_lt, Fin.val_inj]
    have : ¬ (p.row e).val + n < n := by omega
    simp only [this, if_false, add_zero]
    by_cases h1 : p.row e = i <;> by_cases h2 : p.row e = j <;> simp [h1, h2]
  · simp only [h, if_false, Fin.is_lt, if_true, Fin.val_inj]
    by_cases h1 : p.col e = i ∧ p.row e = j
    · have h2 : ¬ (p.row e = i ∧ p.col e = j) := by
        rintro ⟨h3, h4⟩; exact h (h1.1.trans (h3.symm))
      rw [if_pos h1, if_neg h2, add_zero, if_pos (Or.inr ⟨h1.2, h1.1⟩)]
    · rw [if_neg h1, zero_add]
      by_cases h2 : p.row e = i ∧ p.col e = j
      · rw [if_pos h2, if_pos (Or.inl h2)]
      · rw [if_neg h2, if_neg]
        rintro (h3 | h3)
        · exact h2 h3
        · exact h1 ⟨h3.2, h3.1⟩

theorem pos_cases (k : Fin (2 * p.nnz + n)) : (∃ e : Fin p.nnz, k = ⟨e, by omega⟩) ∨ (∃ e : Fin p.nnz, k = ⟨p.nnz + e, by omega⟩) ∨ ∃ j : Fin n, k = ⟨2 * p.nnz + j, by omega⟩ := by
  by_cases h1 : k.val < p.nnz
  · exact Or.inl ⟨⟨k, h1⟩, rfl⟩
  · by_cases h2 : k.val < 2 * p.nnz
    · exact Or.inr (Or.inl ⟨⟨k - p.nnz, by omega⟩, Fin.ext (by simp; omega)⟩)
    · exact Or.inr (Or.inr ⟨⟨k - 2 * p.nnz, by omega⟩, Fin.ext (by simp; omega)⟩)

theorem real_col {k : Fin (2 * p.nnz + n)} (h : fullRow p k < n) : fullCol p k < n := by
  rcases pos_cases p k with ⟨e, rfl⟩ | ⟨e, rfl⟩ | ⟨j, rfl⟩
  · rw [(fullRow_1 p e).2]; exact (p.row e).2
  · rw [(fullRow_2 p e).1] at h
    rw [(fullRow_2 p e).2]
    split at h
    · omega
    · rename_i hn; rw [if_neg hn]; exact (p.col e).2
  · rw [(fullRow_3 p j).1] at h
    rw [(fullRow_3 p j).2]; exact h

theorem hasDiag_iff (j : Fin n) : hasDiag p j = true ↔ ∃ k, p.row k = j ∧ p.col k = j := by simp [hasDiag]

theorem real_lt (complete : ∀ j, ∃ k, p.row k = j ∧ p.col k = j) {k : Fin (2 * p.nnz + n)} (h : fullRow p k < n) : k.val < 2 * p.nnz := by
  rcases pos_cases p k with ⟨e, rfl⟩ | ⟨e, rfl⟩ | ⟨j, rfl⟩
  · have := e.2; simp only; omega
  · have := e.2; simp only; omega
  · rw [(fullRow_3 p j).1, if_pos ((hasDiag_iff p j).2 (complete j))] at h
    omega

theorem real_inj (upper : ∀ k, p.row k ≤ p.col k) (distinct : ∀ k l, p.row k = p.row l → p.col k = p.col l → k = l) {k l : Fin (2 * p.nnz + n)} (hk : fullRow p k < n) (hl : fullRow p l < n)
    (hr : fullRow p k = fullRow p l) (hc : fullCol p k = fullCol p l) : k = l := by
  have u (e : Fin p.nnz) : (p.row e).val ≤ (p.col e).val := upper e
  have strict (e : Fin p.nnz) (h : ¬ p.col e = p.row e) : (p.row e).val < (p.col e).val := lt_of_le_of_ne (u e) fun h' => h (Fin.ext h'.symm)
  have s2 {e : Fin p.nnz} (h : fullRow p ⟨p.nnz + e, by omega⟩ < n) : ¬ p.col e = p.row e := by
    intro h'; rw [(fullRow_2 p e).1, if_pos h'] at h; omega
  have s3 {j : Fin n} (h : fullRow p ⟨2 * p.nnz + j, by omega⟩ < n) : ¬ hasDiag p j = true := by
    intro h'; rw [(fullRow_3 p j).1, if_pos h'] at h; omega
  have dg {e : Fin p.nnz} {j : Fin n} (h1 : (p.col e).val = j.val) (h2 : (p.row e).val = j.val) : hasDiag p j = true := (hasDiag_iff p j).2 ⟨e, Fin.ext h2, Fin.ext h1⟩
  rcases pos_cases p k with ⟨e, rfl⟩ | ⟨e, rfl⟩ | ⟨j, rfl⟩ <;> rcases pos_cases p l with ⟨f, rfl⟩ | ⟨f, rfl⟩ | ⟨i, rfl⟩
  · rw [(fullRow_1 p e).1, (fullRow_1 p f).1] at hr
    rw [(fullRow_1 p e).2, (fullRow_1 p f).2] at hc
    rw [distinct e f (Fin.ext hc) (Fin.ext hr)]
  · have h := s2 hl
    rw [(fullRow_1 p e).1, (fullRow_2 p f).1, if_neg h] at hr
    rw [(fullRow_1 p e).2, (fullRow_2 p f).2, if_neg h] at hc
    have := strict f h; have := u e; omega
  · have h := s3 hl
    rw [(fullRow_1 p e).1, (fullRow_3 p i).1, if_neg h] at hr
    rw [(fullRow_1 p e).2, (fullRow_3 p i).2, if_neg h] at hc
    exact absurd (dg hr hc) h
  · have h := s2 hk
    rw [(fullRow_1 p f).1, (fullRow_2 p e).1, if_neg h] at hr
    rw [(fullRow_1 p f).2, (fullRow_2 p e).2, if_neg h] at hc
    have := strict e h; have := u f; omega
  · have h := s2 hk
    have h' := s2 hl
    rw [(fullRow_2 p f).1, (fullRow_2 p e).1, if_neg h, if_neg h'] at hr
    rw [(fullRow_2 p f).2, (fullRow_2 p e).2, if_neg h, if_neg h'] at hc
    rw [distinct e f (Fin.ext hr) (Fin.ext hc)]
  · have h := s2 hk
    have h' := s3 hl
    rw [(fullRow_3 p i).1, (fullRow_2 p e).1, if_neg h, if_neg h'] at hr
    rw [(fullRow_3 p i).2, (fullRow_2 p e).2, if_neg h, if_neg h'] at hc
    exact absurd (dg hc hr) h'
  · have h := s3 hk
    rw [(fullRow_1 p f).1, (fullRow_3 p j).1, if_neg h] at hr
    rw [(fullRow_1 p f).2, (fullRow_3 p j).2, if_neg h] at hc
    exact absurd (dg hr.symm hc.symm) h
  · have h := s3 hk
    have h' := s2 hl
    rw [(fullRow_3 p j).1, (fullRow_2 p f).1, if_neg h, if_neg h'] at hr
    rw [(fullRow_3 p j).2, (fullRow_2 p f).2, if_neg h, if_neg h'] at hc
    exact absurd (dg hc.symm hr.symm) h
  · have h := s3 hk
    have h' := s3 hl
    rw [(fullRow_3 p j).1, (fullRow_3 p i).1, if_neg h, if_neg h'] at hr
    exact Fin.ext (by simp only; omega)

/-- Every diagonal position is at some real position. -/
theorem real_diag (j : Fin n) : ∃ k, fullRow p k = j.val ∧ fullCol p k = j.val := by
  by_cases h : hasDiag p j = true
  · obtain ⟨k, h1, h2⟩ := (hasDiag_iff p j).1 h
    exact ⟨⟨k, by omega⟩, by rw [(fullRow_1 p k).1, h2], by rw [(fullRow_1 p k).2, h1]⟩
  · exact ⟨⟨2 * p.nnz + j, by omega⟩, by rw [(fullRow_3 p j).1, if_neg h], by rw [(fullRow_3 p j).2, if_neg h]⟩

end

/-! ### The history of the cost matrix -/

/-- The position in the unsorted arrays of a stored entry. -/
def posOf (sort : Sorter) (p : Pat n n) (e : Fin (fullNnz p)) : Fin (2 * p.nnz + n) :=
  sort (2 * p.nnz + n) (fullRow p) (fullCol p) ⟨e, lt_of_lt_of_le e.2 (fullNnz_le p)⟩

/-- `D`, by number. -/
def extD (D : Fin n → K) (i : ℕ) : K := if h : i < n then D ⟨i, h⟩ else 0

theorem extD_lt (D : Fin n → K) {i : ℕ} (h : i < n) : extD D i = D ⟨i, h⟩ := dif_pos h

structure InvP (sort : Sorter) (p : Pat n n) (M : SymMat n p.nnz (fullNnz p) K) (v : Fin p.nnz → K) (b : Bool) (c : K) (D : Fin n → K) : Prop where
  row : ∀ e, M.row e = fullRow p (posOf sort p e)
  col : ∀ e, M.col e = fullCol p (posOf sort p e)
  to_full : ∀ e, M.to_full e = reducePerm p.nnz (posOf sort p e)
  val : ∀ e, M.val e = some (c * (extD D (M.row e) * extVal p v (posOf sort p e) * extD D (M.col e)))
  triu : b = true → M.triu_val = withCell v (some 0)
  diag : ∃ ord, M.diag = diagIndices M.row M.col ord

variable {sort : Sorter} {p : Pat n n}

theorem pos_real (hs : SortsByRow sort) (once : DiagOnce p) (e : Fin (fullNnz p)) : fullRow p (posOf sort p e) < n :=
  ((sorted_sum (M := ℕ) (fullNnz_le p) (hs _ (fullRow p) (fullCol p)) (card_real p once) (fun _ => 0)).1 _).1 e.2

theorem pos_surj (hs : SortsByRow sort) (once : DiagOnce p) {k : Fin (2 * p.nnz + n)} (h : fullRow p k < n) : ∃ e, posOf sort p e = k := by
  have := ((sorted_sum (M := ℕ) (fullNnz_le p) (hs _ (fullRow p) (fullCol p)) (card_real p once) (fun _ => 0)).1 ((sort _ (fullRow p) (fullCol p)).symm k)).2 (by simpa using h)
  exact ⟨⟨_, this⟩, by unfold posOf; simp⟩

theorem pos_inj {e f : Fin (fullNnz p)} (h : posOf sort p e = posOf sort p f) : e = f := by
  unfold posOf at h
  have := (sort _ (fullRow p) (fullCol p)).injective h
  exact Fin.ext (Fin.mk.inj this)

theorem initP_some (p : Pat n n) (x : Fin p.nnz → K) (ord : Equiv.Perm (Fin (fullNnz p))) : initP sort p x ord =
    some ⟨fun e => fullRow p (posOf sort p e), fun e => fullCol p (posOf sort p e), fun e => withCell x (some 0) ⟨reducePerm p.nnz (posOf sort p e), reducePerm_lt p _⟩, withCell x (some 0),
      fun e => reducePerm p.nnz (posOf sort p e), diagIndices (fun e => fullRow p (posOf sort p e)) (fun e => fullCol p (posOf sort p e)) ord⟩ := by
  unfold initP
  show Option.map _ (gather _ fun e => reducePerm p.nnz (posOf sort p e)) = _
  rw [gather_some fun e => reducePerm_lt p _]
  rfl

theorem wholeP_some {M : SymMat n p.nnz (fullNnz p) K} {v b c} {D : Fin n → K} (h : InvP sort p M v b c D) (Px : Fin p.nnz → K) :
    updateWholeP M Px = some { M with val := fun e => withCell Px none ⟨reducePerm p.nnz (posOf sort p e), reducePerm_lt p _⟩ } := by
  unfold updateWholeP
  rw [gather_some fun e => by rw [h.to_full]; exact reducePerm_lt p _, Option.map_some]
  congr 2
  funext e
  exact congrArg _ (Fin.ext (h.to_full e))

theorem someP_some {M : SymMat n p.nnz (fullNnz p) K} {v v' : Fin p.nnz → K} (h : ∀ e, M.to_full e = reducePerm p.nnz (posOf sort p e)) (ht : M.triu_val = withCell v (some 0)) {k : ℕ} {Px : Fin k → K}
    {idx : Fin k → ℕ} (ord : Equiv.Perm (Fin k)) (new : Overwritten v idx Px v') :
    updateSomeP M Px idx ord = some { M with triu_val := withCell v' (some 0), val := fun e => withCell v' (some 0) ⟨reducePerm p.nnz (posOf sort p e), reducePerm_lt p _⟩ } := by
  obtain ⟨out, h1, h2, h3⟩ := scatter_values (N := p.nnz) (M := p.nnz + 1) (by omega) (out := M.triu_val) ord (fun j => by rw [ht]; unfold withCell; exact dif_pos j.2) new
  have ho : out = withCell v' (some 0) := by
    funext j
    unfold withCell
    by_cases hj : j.val < p.nnz
    · rw [dif_pos hj]; exact h2 ⟨j, hj⟩
    · rw [dif_neg hj, h3 j (by omega), ht]; unfold withCell; rw [dif_neg hj]
  unfold updateSomeP
  rw [h1, Option.bind_some, gather_some fun e => by rw [h]; exact reducePerm_lt p _, Option.map_some, ho]
  congr 2
  funext e
  exact congrArg _ (Fin.ext (h e))

theorem invP (hs : SortsByRow sort) (once : DiagOnce p) {M : SymMat n p.nnz (fullNnz p) K} {v b c} {D : Fin n → K} (hist : HistP sort p M v b c D) : InvP sort p M v b c D := by
  have rl := pos_real hs once (p := p)
  have one {M : SymMat n p.nnz (fullNnz p) K} (hr : ∀ e, M.row e = fullRow p (posOf sort p e)) (hc : ∀ e, M.col e = fullCol p (posOf sort p e)) (w : Fin p.nnz → K) (cell : Option K) (e : Fin (fullNnz p))
      (h : cell = some 0 ∨ (posOf sort p e).val < 2 * p.nnz) :
      withCell w cell ⟨reducePerm p.nnz (posOf sort p e), reducePerm_lt p _⟩ = some (1 * (extD (fun _ : Fin n => 1) (M.row e) * extVal p w (posOf sort p e) * extD (fun _ : Fin n => 1) (M.col e))) := by
    rw [cell_eq p w cell _ h, extD_lt _ (by rw [hr]; exact rl e), extD_lt _ (by rw [hc]; exact real_col p (rl e))]
    simp
  induction hist with
  | @init M x ord call =>
    rw [initP_some] at call
    cases call
    exact ⟨fun _ => rfl, fun _ => rfl, fun _ => rfl, fun e => one (M := ⟨_, _, fun _ => none, fun _ => none, fun _ => 0, fun _ => none⟩) (fun _ => rfl) (fun _ => rfl) x (some 0) e (Or.inl rfl), fun _ => rfl, ord, rfl⟩
  | @whole M M' v Px b c D _ complete call ih =>
    rw [wholeP_some ih] at call
    cases call
    exact ⟨ih.row, ih.col, ih.to_full, fun e => one ih.row ih.col Px none e (Or.inr (real_lt p complete (rl e))), by simp, ih.diag⟩
  | @part M M' v v' k Px idx ord _ new call ih =>
    rw [someP_some ih.to_full (ih.triu rfl) ord new] at call
    cases call
    exact ⟨ih.row, ih.col, ih.to_full, fun e => one ih.row ih.col v' (some 0) e (Or.inl rfl), fun _ => rfl, ih.diag⟩
  | scalar sc _ ih =>
    refine ⟨ih.row, ih.col, ih.to_full, fun e => ?_, ih.triu, ih.diag⟩
    simp only [multScP, ih.val e, Option.map_some]
    congr 1; ring
  | both d _ ih =>
    refine ⟨ih.row, ih.col, ih.to_full, fun e => ?_, ih.triu, ih.diag⟩
    have hr : fullRow p (posOf sort p e) < n := rl e
    have hc : fullCol p (posOf sort p e) < n := real_col p hr
    simp only [rmultP, lmultP, timesDiag, ih.val e, Option.map_some, ih.row, ih.col, hr, hc, dite_true, extD_lt _ hr, extD_lt _ hc]
    congr 1; ring

theorem diag_fold {N : ℕ} (row col : Fin N → ℕ) (ord : Equiv.Perm (Fin N)) (j : Fin n) : ∀ (l : List (Fin N)) (acc : Option ℕ),
    (∃ e, (row e = col e ∧ row e = j) ∧ l.foldl (fun acc e => if row (ord e) = col (ord e) ∧ row (ord e) = j then some (ord e).val else acc) acc = some e.val) ∨
    ((∀ e ∈ l, ¬ (row (ord e) = col (ord e) ∧ row (ord e) = j)) ∧ l.foldl (fun acc e => if row (ord e) = col (ord e) ∧ row (ord e) = j then some (ord e).val else acc) acc = acc) := by
  intro l
  induction l with
  | nil => intro acc; exact Or.inr ⟨by simp, rfl⟩
  | cons a l ih =>
    intro acc
    rw [List.foldl_cons]
    by_cases h : row (ord a) = col (ord a) ∧ row (ord a) = j
    · rw [if_pos h]
      rcases ih (some (ord a).val) with h1 | ⟨h1, h2⟩
      · exact Or.inl h1
      · exact Or.inl ⟨ord a, h, h2⟩
    · rw [if_neg h]
      rcases ih acc with h1 | ⟨h1, h2⟩
      · exact Or.inl h1
      · refine Or.inr ⟨fun e he => ?_, h2⟩
        rcases List.mem_cons.1 he with rfl | he
        · exact h
        · exact h1 e he

theorem diag_found {N : ℕ} {row col : Fin N → ℕ} (ord : Equiv.Perm (Fin N)) {j : Fin n} {e : Fin N} (h : row e = j ∧ col e = j) :
    ∃ f : Fin N, diagIndices row col ord j = some f.val ∧ row f = j ∧ col f = j := by
  rcases diag_fold row col ord j (List.finRange N) none with ⟨f, ⟨h1, h2⟩, h3⟩ | ⟨h1, -⟩
  · exact ⟨f, h3, h2, h1 ▸ h2⟩
  · exact absurd ⟨by simp [h.1, h.2], by simp [h.1]⟩ (h1 (ord.symm e) (List.mem_finRange _))

/-! ### The history of the constraint matrix -/

structure InvA (sort : Sorter) (p : Pat m n) (M : GenMat p.nnz K) (v : Fin p.nnz → K) : Prop where
  row : ∀ e, M.row e = p.row (sort p.nnz (fun k => (p.row k).val) (fun k => (p.col k).val) e)
  col : ∀ e, M.col e = p.col (sort p.nnz (fun k => (p.row k).val) (fun k => (p.col k).val) e)
  perm : ∀ e, M.perm e = sort p.nnz (fun k => (p.row k).val) (fun k => (p.col k).val) e
  rowT : ∀ e, M.rowT e = p.col e
  colT : ∀ e, M.colT e = p.row e
  valT : ∀ e, M.valT e = some (v e)
  val : ∀ e, M.val e = some (v (sort p.nnz (fun k => (p.row k).val) (fun k => (p.col k).val) e))

variable {q : Pat m n}

theorem wholeA_some {M : GenMat q.nnz K} {v : Fin q.nnz → K} (h : InvA sort q M v) (Ax : Fin q.nnz → K) :
    updateWholeA M Ax = some { M with valT := fun k => some (Ax k), val := fun e => some (Ax (sort q.nnz (fun k => (q.row k).val) (fun k => (q.col k).val) e)) } := by
  unfold updateWholeA
  dsimp only
  rw [gather_some fun e => by rw [h.perm]; exact Fin.is_lt _, Option.map_some]
  congr 2
  funext e
  exact congrArg (fun k => some (Ax k)) (Fin.ext (h.perm e))

theorem someA_some {M : GenMat q.nnz K} {v v' : Fin q.nnz → K} (h : InvA sort q M v) {k : ℕ} {Ax : Fin k → K} {idx : Fin k → ℕ} (ord : Equiv.Perm (Fin k)) (new : Overwritten v idx Ax v') :
    updateSomeA M Ax idx ord = some { M with valT := fun k => some (v' k), val := fun e => some (v' (sort q.nnz (fun k => (q.row k).val) (fun k => (q.col k).val) e)) } := by
  obtain ⟨out, h1, h2, -⟩ := scatter_values (N := q.nnz) (M := q.nnz) le_rfl (out := M.valT) ord (fun j => h.valT j) new
  have ho : out = fun k => some (v' k) := funext h2
  unfold updateSomeA
  rw [h1, Option.bind_some, gather_some fun e => by rw [h.perm]; exact Fin.is_lt _, Option.map_some, ho]
  congr 2
  funext e
  exact congrArg (fun k => some (v' k)) (Fin.ext (h.perm e))

theorem invA {M : GenMat q.nnz K} {v : Fin q.nnz → K} (hist : HistA sort q M v) : InvA sort q M v := by
  induction hist with
  | init x => exact ⟨fun _ => rfl, fun _ => rfl, fun _ => rfl, fun _ => rfl, fun _ => rfl, fun _ => rfl, fun _ => rfl⟩
  | whole _ call ih =>
    rw [wholeA_some ih] at call
    cases call
    exact ⟨ih.row, ih.col, ih.perm, ih.rowT, ih.colT, fun _ => rfl, fun _ => rfl⟩
  | @part M M' v v' k Ax idx ord _ new call ih =>
    rw [someA_some ih ord new] at call
    cases call
    exact ⟨ih.row, ih.col, ih.perm, ih.rowT, ih.colT, fun _ => rfl, fun _ => rfl⟩
  | scalar sc _ ih =>
    exact ⟨ih.row, ih.col, ih.perm, ih.rowT, ih.colT, fun e => by simp [multScA, ih.valT], fun e => by simp [multScA, ih.val]⟩
  | left d _ ih =>
    exact ⟨ih.row, ih.col, ih.perm, ih.rowT, ih.colT, fun e => by simp [lmultA, timesDiag, ih.valT, ih.colT, mul_comm], fun e => by simp [lmultA, timesDiag, ih.val, ih.row, mul_comm]⟩
  | right d _ ih =>
    exact ⟨ih.row, ih.col, ih.perm, ih.rowT, ih.colT, fun e => by simp [rmultA, timesDiag, ih.valT, ih.rowT], fun e => by simp [rmultA, timesDiag, ih.val, ih.col]⟩

end Osqp.Cuda
