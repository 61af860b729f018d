import Verif.Cuda.NormLemmas
import Mathlib.Order.Fin.Basic
import Mathlib.Data.Fintype.Sort

/-!
# Lemmas about the selection of rows on the device
-/

set_option linter.unusedSectionVars false

namespace Osqp.Cuda
open Matrix Osqp.Spec

variable {K : Type*} {m n : ℕ}

/-- The elements with predicate one, in order. -/
def sel {N : ℕ} (pred : Fin N → ℕ) : Fin (Finset.univ.filter fun e => pred e ≠ 0).card ↪o Fin N := (Finset.univ.filter fun e => pred e ≠ 0).orderEmbOfFin rfl

theorem sel_mem {N : ℕ} (pred : Fin N → ℕ) (w) : pred (sel pred w) ≠ 0 := by
  have := Finset.orderEmbOfFin_mem (Finset.univ.filter fun e => pred e ≠ 0) rfl w
  exact (Finset.mem_filter.1 this).2

theorem sel_surj {N : ℕ} (pred : Fin N → ℕ) {e : Fin N} (h : pred e ≠ 0) : ∃ w, sel pred w = e := by
  have : e ∈ Set.range (sel pred) := by
    unfold sel
    rw [Finset.range_orderEmbOfFin]
    simpa using h
  exact this

theorem scan_card {N : ℕ} {pred : Fin N → ℕ} (h1 : ∀ e, pred e ≤ 1) (e : Fin N) : scan pred e = (Finset.univ.filter fun e' => pred e' ≠ 0 ∧ e' ≤ e).card := by
  unfold scan
  rw [Finset.card_filter, Finset.sum_filter]
  refine Finset.sum_congr rfl fun f _ => ?_
  have := h1 f
  by_cases hf : f ≤ e
  · by_cases hp : pred f = 0
    · simp [hf, hp]
    · rw [if_pos hf, if_pos ⟨hp, hf⟩]; omega
  · simp [hf]

theorem total_card {N : ℕ} {pred : Fin N → ℕ} (h1 : ∀ e, pred e ≤ 1) (hN : N ≠ 0) : total pred hN = (Finset.univ.filter fun e => pred e ≠ 0).card := by
  unfold total
  rw [scan_card h1]
  congr 1
  ext e
  have : e ≤ (⟨N - 1, by omega⟩ : Fin N) := by rw [Fin.le_def]; dsimp only; omega
  simp [this]

/-- The scan numbers the selected elements from one. -/
theorem scan_sel {N : ℕ} {pred : Fin N → ℕ} (h1 : ∀ e, pred e ≤ 1) (w) : scan pred (sel pred w) = w.val + 1 := by
  rw [scan_card h1]
  have : (Finset.univ.filter fun e' => pred e' ≠ 0 ∧ e' ≤ sel pred w) = (Finset.Iic w).map (sel pred).toEmbedding := by
    ext e
    simp only [Finset.mem_filter, Finset.mem_univ, true_and, Finset.mem_map, Finset.mem_Iic]
    constructor
    · rintro ⟨he, hle⟩
      obtain ⟨u, rfl⟩ := sel_surj pred he
      exact ⟨u, (sel pred).le_iff_le.1 hle, rfl⟩
    · rintro ⟨u, hu, rfl⟩
      exact ⟨sel_mem pred u, (sel pred).le_iff_le.2 hu⟩
  rw [this, Finset.card_map, Fin.card_Iic]

theorem compact_list {α : Type*} {N : ℕ} {pred : Fin N → ℕ} (h1 : ∀ e, pred e ≤ 1) (data : Fin N → Option α) (ord : Equiv.Perm (Fin N)) :
    ∀ (l : List (Fin N)) (out : Fin (Finset.univ.filter fun e => pred e ≠ 0).card → Option α), ∃ out',
      l.foldl (fun o t => o.bind fun out => if pred (ord t) ≠ 0 then (if h : scan pred (ord t) - 1 < (Finset.univ.filter fun e => pred e ≠ 0).card then
        some (Function.update out ⟨scan pred (ord t) - 1, h⟩ (data (ord t))) else none) else some out) (some out) = some out' ∧
      ∀ w, ((∃ t ∈ l, ord t = sel pred w) → out' w = data (sel pred w)) ∧ ((∀ t ∈ l, ord t ≠ sel pred w) → out' w = out w) := by
  intro l
  induction l with
  | nil => intro out; exact ⟨out, rfl, fun w => ⟨by simp, fun _ => rfl⟩⟩
  | cons t l ih =>
    intro out
    rw [List.foldl_cons, Option.bind_some]
    by_cases hp : pred (ord t) ≠ 0
    · obtain ⟨u, hu⟩ := sel_surj pred hp
      have hsc : scan pred (ord t) - 1 = u.val := by rw [← hu, scan_sel h1]; rfl
      have hlt : scan pred (ord t) - 1 < (Finset.univ.filter fun e => pred e ≠ 0).card := by rw [hsc]; exact u.2
      rw [if_pos hp, dif_pos hlt]
      have hfin : (⟨scan pred (ord t) - 1, hlt⟩ : Fin (Finset.univ.filter fun e => pred e ≠ 0).card) = u := Fin.ext hsc
      rw [hfin]
      obtain ⟨out', h2, h3⟩ := ih (Function.update out u (data (ord t)))
      refine ⟨out', h2, fun w => ⟨?_, fun hw => ?_⟩⟩
      · rintro ⟨s, hs, he⟩
        by_cases hl : ∃ t ∈ l, ord t = sel pred w
        · exact (h3 w).1 hl
        · push Not at hl
          rw [(h3 w).2 hl]
          have hst : s = t := by
            rcases List.mem_cons.1 hs with hs | hs
            · exact hs
            · exact absurd he (hl s hs)
          subst hst
          have hwu : w = u := (sel pred).injective (by rw [← he, hu])
          rw [hwu, Function.update_self, hu]
      · rw [(h3 w).2 fun s hs => hw s (List.mem_cons_of_mem _ hs), Function.update_of_ne]
        intro hwu
        exact hw t List.mem_cons_self (by rw [hwu, hu])
    · rw [if_neg hp]
      obtain ⟨out', h2, h3⟩ := ih out
      refine ⟨out', h2, fun w => ⟨?_, fun hw => (h3 w).2 fun s hs => hw s (List.mem_cons_of_mem _ hs)⟩⟩
      rintro ⟨s, hs, he⟩
      refine (h3 w).1 ?_
      rcases List.mem_cons.1 hs with hs | hs
      · subst hs
        exact absurd (by rw [he]; exact sel_mem pred w) hp
      · exact ⟨s, hs, he⟩

/-- Whatever the order of the threads, the selected elements are moved together, in bounds. -/
theorem compactTo_some {α : Type*} {N : ℕ} {pred : Fin N → ℕ} (h1 : ∀ e, pred e ≤ 1) (data : Fin N → Option α) (ord : Equiv.Perm (Fin N)) :
    compactTo (Finset.univ.filter fun e => pred e ≠ 0).card data pred (scan pred) ord = some fun w => data (sel pred w) := by
  obtain ⟨out', h2, h3⟩ := compact_list h1 data ord (List.finRange N) fun _ => none
  unfold compactTo
  rw [h2]
  congr 1
  funext w
  exact (h3 w).1 ⟨ord.symm (sel pred w), List.mem_finRange _, by simp⟩

theorem cell_some (a : Fin m → ℕ) {r : ℕ} (h : r < m) : cell a r = some (a ⟨r, h⟩) := by unfold cell; rw [dif_pos h]

/-- The flags of the rows. -/
def rowPred (flags : Fin m → ℤ) : Fin m → ℕ := fun i => (flags i).natAbs

/-- The flags of the entries. -/
def entryPred {N : ℕ} {row : Fin N → ℕ} (hr : ∀ e, row e < m) (flags : Fin m → ℤ) : Fin N → ℕ := fun e => rowPred flags ⟨row e, hr e⟩

theorem lists_sel (flags : Fin m → ℤ) : Lists (sel (rowPred flags)) flags := by
  refine ⟨(sel _).strictMono, fun i => ?_⟩
  constructor
  · intro h
    exact sel_surj _ (by simpa [rowPred] using h)
  · rintro ⟨w, rfl⟩
    have := sel_mem (rowPred flags) w
    simpa [rowPred] using this

variable [Field K]

/-- What `cuda_submat_byrows` makes before the transposition. -/
def picked {N : ℕ} {row : Fin N → ℕ} (col : Fin N → ℕ) (val : Fin N → Option K) (hr : ∀ e, row e < m) (flags : Fin m → ℤ) (cols : ℕ) :
    CsrMat (Finset.univ.filter fun e => entryPred hr flags e ≠ 0).card K :=
  let s := sel (entryPred hr flags)
  let r := fun w => scan (rowPred flags) ⟨row (s w), hr _⟩ - 1
  let k := (Finset.univ.filter fun i => rowPred flags i ≠ 0).card
  { rows := k, cols := cols, ptr := compress r k, row := r, col := fun w => col (s w), val := fun w => val (s w) }

theorem submat_eq {sort : Sorter} {N : ℕ} {row col : Fin N → ℕ} {val : Fin N → Option K} (hr : ∀ e, row e < m) {flags : Fin m → ℤ} (hf : ∀ i, (flags i).natAbs ≤ 1) (cols : ℕ)
    (ord : Equiv.Perm (Fin N)) (hN : N ≠ 0) :
    submatByRows sort row col val flags cols ord = (csrTranspose sort (picked col val hr flags cols).rows cols (picked col val hr flags cols).ptr (picked col val hr flags cols).col
      (picked col val hr flags cols).val).map fun At => ⟨_, picked col val hr flags cols, At⟩ := by
  have hm : m ≠ 0 := by
    intro h
    have := hr ⟨0, by omega⟩
    omega
  have he : ∀ e, entryPred hr flags e ≤ 1 := fun e => hf _
  have a1 : (allSome fun e => cell (fun i => (flags i).natAbs) (row e)) = some (entryPred hr flags) := allSome_some fun e => cell_some _ (hr e)
  have a2 : total (entryPred hr flags) hN = (Finset.univ.filter fun e => entryPred hr flags e ≠ 0).card := total_card he hN
  have a3 : total (fun i => (flags i).natAbs) hm = (Finset.univ.filter fun i => rowPred flags i ≠ 0).card := total_card hf hm
  unfold submatByRows
  rw [dif_pos hm, dif_pos hN]
  dsimp only
  rw [a1, Option.bind_some, a2, a3, compactTo_some he, compactTo_some he, compactTo_some he]
  simp only [Option.bind_some]
  rw [allSome_some (g := fun w => scan (rowPred flags) ⟨row (sel (entryPred hr flags) w), hr _⟩ - 1) fun w => by rw [cell_some _ (hr _)]; rfl, Option.bind_some,
    allSome_some (g := fun w => col (sel (entryPred hr flags) w)) fun w => rfl, Option.bind_some]
  rfl

theorem picked_holds {N : ℕ} {row col : Fin N → ℕ} {val : Fin N → Option K} {B : Matrix (Fin m) (Fin n) K} (h : Stores row col val B) (hs : Monotone row) {flags : Fin m → ℤ}
    (hf : ∀ i, (flags i).natAbs ≤ 1) : HoldsRows (picked col val h.row_lt flags n) (B.submatrix (sel (rowPred flags)) id) := by
  obtain ⟨x, x1, x2⟩ := h.sums
  have hr1 : ∀ i, rowPred flags i ≤ 1 := hf
  -- the row of a selected entry
  have hrow : ∀ w, ∃ u, sel (rowPred flags) u = ⟨row (sel (entryPred h.row_lt flags) w), h.row_lt _⟩ := fun w => sel_surj _ (sel_mem (entryPred h.row_lt flags) w)
  choose u hu using hrow
  have hnum : ∀ w, (picked col val h.row_lt flags n).row w = (u w).val := by
    intro w
    change scan (rowPred flags) ⟨row (sel (entryPred h.row_lt flags) w), h.row_lt _⟩ - 1 = _
    rw [← hu w, scan_sel hr1]; rfl
  refine ⟨rfl, rfl, ⟨fun w => ?_, fun w => h.col_lt _, fun w => x (sel (entryPred h.row_lt flags) w), fun w => x1 _, fun i j => ?_⟩, ?_, fun i hi => compress_get _ hi⟩
  · rw [hnum]; exact (u w).2
  · rw [submatrix_apply, x2, id]
    have e1 : ∀ e : Fin N, e ∉ (Finset.univ.filter fun e => entryPred h.row_lt flags e ≠ 0) → (if row e = (sel (rowPred flags) i).val ∧ col e = j.val then x e else 0) = 0 := by
      intro e he
      rw [if_neg]
      rintro ⟨h1, _⟩
      refine he (Finset.mem_filter.2 ⟨Finset.mem_univ _, ?_⟩)
      have : (⟨row e, h.row_lt e⟩ : Fin m) = sel (rowPred flags) i := Fin.ext h1
      unfold entryPred
      rw [this]
      exact sel_mem _ i
    rw [← Finset.sum_subset (Finset.subset_univ _) fun e _ he => e1 e he]
    have e2 : (Finset.univ.filter fun e => entryPred h.row_lt flags e ≠ 0) = Finset.univ.map (sel (entryPred h.row_lt flags)).toEmbedding := by
      ext e
      simp only [Finset.mem_filter, Finset.mem_univ, true_and, Finset.mem_map]
      exact ⟨fun he => sel_surj _ he, by rintro ⟨w, rfl⟩; exact sel_mem _ w⟩
    refine (Finset.sum_congr e2 fun _ _ => rfl).trans ?_
    rw [Finset.sum_map]
    refine Finset.sum_congr rfl fun w _ => ?_
    refine if_congr ?_ rfl rfl
    rw [hnum]
    refine and_congr ?_ Iff.rfl
    constructor
    · intro h1
      have : sel (rowPred flags) (u w) = sel (rowPred flags) i := by rw [hu]; exact Fin.ext h1
      exact congrArg Fin.val ((sel (rowPred flags)).injective this)
    · intro h1
      have h2 : u w = i := Fin.ext h1
      have h3 := hu w
      rw [h2] at h3
      rw [h3]; rfl
  · intro a b hab
    rw [hnum, hnum]
    have h1 : row (sel (entryPred h.row_lt flags) a) ≤ row (sel (entryPred h.row_lt flags) b) := hs ((sel (entryPred h.row_lt flags)).monotone hab)
    have h2 : sel (rowPred flags) (u a) ≤ sel (rowPred flags) (u b) := by rw [hu, hu]; exact h1
    exact (sel (rowPred flags)).le_iff_le.1 h2

end Osqp.Cuda
