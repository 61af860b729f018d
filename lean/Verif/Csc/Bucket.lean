import Verif.Csc.Lemmas
import Mathlib.Algebra.BigOperators.Group.List.Basic
import Mathlib.Data.Fintype.EquivFin
import Mathlib.Data.Fintype.BigOperators
import Mathlib.Algebra.BigOperators.Fin
import Mathlib.Algebra.BigOperators.Group.Finset.Piecewise

/-!
# Filling a matrix column by column through running column pointers

`triplet_to_csc`, `csc_symperm` and the assembly of the KKT matrix all work the same way: count the entries of each
column, turn the counts into column starts, then put the entries one after the other at the running pointer of their
column.  Here: what that leaves in memory.
-/

set_option linter.unusedSectionVars false
namespace Osqp.Csc
open Finset

/-- An entry to be put into a matrix: column, row, value. -/
structure Ent (K : Type*) where
  c : ℕ
  r : ℕ
  v : K

variable {K : Type*}

/-- The matrix that a list of entries stands for. -/
def matOf [AddCommMonoid K] (es : List (Ent K)) (r c : ℕ) : K := (es.map fun e => if e.r = r ∧ e.c = c then e.v else 0).sum

/-- Number of entries in column `c`. -/
def cnt (es : List (Ent K)) (c : ℕ) : ℕ := es.countP fun e => e.c = c

/-- Start of column `c`. -/
def start (es : List (Ent K)) (c : ℕ) : ℕ := ∑ j ∈ range c, cnt es j

@[simp] theorem cnt_nil (c : ℕ) : cnt ([] : List (Ent K)) c = 0 := rfl
@[simp] theorem cnt_append (es fs : List (Ent K)) (c : ℕ) : cnt (es ++ fs) c = cnt es c + cnt fs c := by simp [cnt]
@[simp] theorem cnt_cons (e : Ent K) (es : List (Ent K)) (c : ℕ) : cnt (e :: es) c = (if e.c = c then 1 else 0) + cnt es c := by
  unfold cnt; rw [List.countP_cons]; by_cases h : e.c = c <;> simp [h, add_comm]

@[simp] theorem matOf_nil [AddCommMonoid K] (r c : ℕ) : matOf ([] : List (Ent K)) r c = 0 := rfl
@[simp] theorem matOf_append [AddCommMonoid K] (es fs : List (Ent K)) (r c : ℕ) : matOf (es ++ fs) r c = matOf es r c + matOf fs r c := by
  simp [matOf]
@[simp] theorem matOf_cons [AddCommMonoid K] (e : Ent K) (es : List (Ent K)) (r c : ℕ) :
    matOf (e :: es) r c = (if e.r = r ∧ e.c = c then e.v else 0) + matOf es r c := by simp [matOf]

theorem start_succ (es : List (Ent K)) (c : ℕ) : start es (c + 1) = start es c + cnt es c := by
  unfold start; rw [sum_range_succ]

@[simp] theorem start_zero (es : List (Ent K)) : start es 0 = 0 := rfl

theorem start_mono (es : List (Ent K)) {a b : ℕ} (h : a ≤ b) : start es a ≤ start es b :=
  sum_le_sum_of_subset (range_mono h)

/-- All entries lie in the first `n` columns. -/
def InCols (n : ℕ) (es : List (Ent K)) : Prop := ∀ e ∈ es, e.c < n

theorem start_all {n : ℕ} {es : List (Ent K)} (h : InCols n es) : start es n = es.length := by
  induction es with
  | nil => simp [start]
  | cons e es ih =>
    unfold start at *
    simp only [cnt_cons, sum_add_distrib, List.length_cons]
    rw [ih (fun x hx => h x (List.mem_cons_of_mem _ hx))]
    have : ∑ j ∈ range n, (if e.c = j then 1 else 0) = 1 := by
      rw [Finset.sum_ite_eq]; simp [h e (List.mem_cons_self ..)]
    omega

/-- Where entry number `k` goes. -/
def dest (es : List (Ent K)) (e : Ent K) (k : ℕ) : ℕ := start es e.c + cnt (es.take k) e.c

theorem dest_lt_succ {es : List (Ent K)} {k : ℕ} (hk : k < es.length) : dest es es[k] k < start es (es[k].c + 1) := by
  rw [start_succ]
  unfold dest
  have h : es.take k ++ es[k] :: es.drop (k + 1) = es := by simp
  have h2 : ∀ c, cnt es c = cnt (es.take k) c + cnt (es[k] :: es.drop (k + 1)) c := by
    intro c; rw [← cnt_append, h]
  have := h2 es[k].c
  rw [cnt_cons] at this
  simp at this
  omega

theorem dest_ge (es : List (Ent K)) (e : Ent K) (k : ℕ) : start es e.c ≤ dest es e k := Nat.le_add_right _ _

theorem dest_lt {n : ℕ} {es : List (Ent K)} (h : InCols n es) {k : ℕ} (hk : k < es.length) : dest es es[k] k < es.length := by
  rw [← start_all h]
  exact lt_of_lt_of_le (dest_lt_succ hk) (start_mono es (h _ (List.getElem_mem hk)))

theorem dest_inj {es : List (Ent K)} {k k' : ℕ} (hk : k < es.length) (hk' : k' < es.length)
    (h : dest es es[k] k = dest es es[k'] k') : k = k' := by
  have key : ∀ {k k' : ℕ} (hk : k < es.length) (hk' : k' < es.length), dest es es[k] k = dest es es[k'] k' → es[k].c = es[k'].c := by
    intro k k' hk hk' h
    rcases lt_trichotomy es[k].c es[k'].c with h1 | h1 | h1
    · have := dest_lt_succ hk
      have h2 := dest_ge es es[k'] k'
      have h3 := start_mono es (a := es[k].c + 1) (b := es[k'].c) (by omega)
      omega
    · exact h1
    · have := dest_lt_succ hk'
      have h2 := dest_ge es es[k] k
      have h3 := start_mono es (a := es[k'].c + 1) (b := es[k].c) (by omega)
      omega
  have hc := key hk hk' h
  have lt : ∀ {k k' : ℕ} (hk : k < es.length) (hk' : k' < es.length), k < k' → es[k].c = es[k'].c → dest es es[k] k < dest es es[k'] k' := by
    intro k k' hk hk' hlt hc
    unfold dest
    rw [← hc]
    have e1 : es.take k' = es.take k ++ es[k] :: (es.take k').drop (k + 1) := by
      have : (es.take k').take k = es.take k := by rw [List.take_take, min_eq_left hlt.le]
      conv_lhs => rw [← List.take_append_drop k (es.take k'), this]
      congr 1
      rw [List.drop_eq_getElem_cons (by simp; omega)]
      simp
    rw [e1, cnt_append, cnt_cons]
    simp
  rcases lt_trichotomy k k' with h1 | h1 | h1
  · have := lt hk hk' h1 hc; omega
  · exact h1
  · have := lt hk' hk h1 hc.symm; omega

/-- State of the arrays while filling: the running pointers, the row indices and the values. -/
structure Slots (K : Type*) where
  p : Buf ℤ
  i : Buf ℤ
  x : Buf K

/-- `dest = p[col]++; i[dest] = row; x[dest] = v;` -/
def put (s : Slots K) (col row : ℤ) (v : K) : Option (Slots K × ℤ) :=
  (s.p.rd col).bind fun d => (s.p.wr col (d + 1)).bind fun p => (s.i.wr d row).bind fun i => (s.x.wr d v).bind fun x =>
    some (⟨p, i, x⟩, d)

/-- The entries `es` (the first ones of `all`) have been put. -/
structure Filled (n : ℕ) (all es : List (Ent K)) (s : Slots K) : Prop where
  p : Holds s.p n (fun c => ((start all c + cnt es c : ℕ) : ℤ))
  isz : all.length ≤ s.i.size
  xsz : all.length ≤ s.x.size
  i : ∀ k (hk : k < all.length), k < es.length → s.i.cell (dest all all[k] k) = some (all[k].r : ℤ)
  x : ∀ k (hk : k < all.length), k < es.length → s.x.cell (dest all all[k] k) = some all[k].v

theorem Filled.put {n : ℕ} {all es rest : List (Ent K)} {e : Ent K} {s : Slots K} (h : Filled n all es s) (ha : InCols n all)
    (hall : all = es ++ e :: rest) {col row : ℤ} (hc : col = e.c) (hr : row = e.r) :
    ∃ s', Csc.put s col row e.v = some (s', ((dest all e es.length : ℕ) : ℤ)) ∧ Filled n all (es ++ [e]) s' ∧
      s'.p.size = s.p.size ∧ s'.i.size = s.i.size ∧ s'.x.size = s.x.size ∧ ∀ c, n ≤ c → s'.p.cell c = s.p.cell c := by
  have hk : es.length < all.length := by rw [hall]; simp
  have hget : all[es.length] = e := by simp [hall]
  have hcn : e.c < n := ha e (by rw [hall]; simp)
  have hd : dest all e es.length = start all e.c + cnt es e.c := by
    unfold dest; congr 2; rw [hall]; simp
  have hlt : dest all e es.length < all.length := by have := dest_lt ha hk; rw [hget] at this; exact this
  have e1 : s.p.rd col = some ((dest all e es.length : ℕ) : ℤ) := by rw [hc, h.p.rd hcn, hd]
  have hps : e.c < s.p.size := lt_of_lt_of_le hcn h.p.1
  have hne : ∀ k (hk' : k < all.length), k < es.length → dest all all[k] k ≠ dest all e es.length := by
    intro k hk' hlt2 heq
    rw [← hget] at heq
    have := dest_inj hk' hk (by rw [heq])
    omega
  refine ⟨⟨s.p.set e.c ((dest all e es.length : ℕ) + 1), s.i.set (dest all e es.length) e.r, s.x.set (dest all e es.length) e.v⟩,
    ?_, ⟨?_, h.isz, h.xsz, ?_, ?_⟩, rfl, rfl, rfl, ?_⟩
  · unfold Csc.put
    rw [e1]
    simp only [Option.bind_some]
    rw [hc, Buf.wr_eq hps, hr, Buf.wr_eq (lt_of_lt_of_le hlt h.isz), Buf.wr_eq (lt_of_lt_of_le hlt h.xsz)]
    rfl
  · refine (h.p.set e.c _).congr fun c _ => ?_
    rw [Function.update_apply]
    by_cases h1 : c = e.c
    · rw [if_pos h1, hd, h1, cnt_append, cnt_cons]; push_cast; simp; ring
    · rw [if_neg h1, cnt_append, cnt_cons, if_neg (fun h => h1 h.symm)]; simp
  · intro k hk' hlt2
    rw [Buf.set_cell]
    rcases Nat.lt_or_ge k es.length with h1 | h1
    · rw [if_neg (hne k hk' h1)]; exact h.i k hk' h1
    · have hk2 : k = es.length := by simp at hlt2; omega
      subst hk2
      rw [hget, if_pos rfl]
  · intro k hk' hlt2
    rw [Buf.set_cell]
    rcases Nat.lt_or_ge k es.length with h1 | h1
    · rw [if_neg (hne k hk' h1)]; exact h.x k hk' h1
    · have hk2 : k = es.length := by simp at hlt2; omega
      subst hk2
      rw [hget, if_pos rfl]
  · intro c hc'
    rw [Buf.set_cell, if_neg (by omega)]

theorem filled_start {n : ℕ} {all : List (Ent K)} {s : Slots K} (hp : Holds s.p n (fun c => ((start all c : ℕ) : ℤ))) (hi : all.length ≤ s.i.size)
    (hx : all.length ≤ s.x.size) : Filled n all [] s :=
  ⟨hp.congr (by simp), hi, hx, fun _ _ h => absurd h (Nat.not_lt_zero _), fun _ _ h => absurd h (Nat.not_lt_zero _)⟩

/-! ## The finished matrix -/

/-- `V` is the matrix obtained by putting all of `es`: column starts, position and contents of every entry. -/
structure Laid (m n : ℕ) (es : List (Ent K)) (V : View K) : Prop where
  vm : V.m = m
  vn : V.n = n
  p : ∀ c ≤ n, V.p c = start es c
  i : ∀ k (hk : k < es.length), V.i (dest es es[k] k) = es[k].r
  x : ∀ k (hk : k < es.length), V.x (dest es es[k] k) = es[k].v

/-- The map from entries to positions is a permutation. -/
noncomputable def destEquiv {n : ℕ} {es : List (Ent K)} (h : InCols n es) : Fin es.length ≃ Fin es.length :=
  Equiv.ofBijective (fun k => ⟨dest es es[k] k, dest_lt h k.2⟩)
    (Finite.injective_iff_bijective.1 fun a b hab => Fin.ext (dest_inj a.2 b.2 (congrArg Fin.val hab)))

/-- The view of a finished fill. -/
noncomputable def layout (m n : ℕ) {es : List (Ent K)} (h : InCols n es) [Zero K] : View K where
  m := m
  n := n
  p := start es
  i := fun t => if ht : t < es.length then (es.get ((destEquiv h).symm ⟨t, ht⟩)).r else 0
  x := fun t => if ht : t < es.length then (es.get ((destEquiv h).symm ⟨t, ht⟩)).v else 0

theorem layout_laid (m n : ℕ) {es : List (Ent K)} (h : InCols n es) [Zero K] : Laid m n es (layout m n h) := by
  have key : ∀ k (hk : k < es.length), (destEquiv h).symm ⟨dest es es[k] k, dest_lt h hk⟩ = ⟨k, hk⟩ := by
    intro k hk; rw [Equiv.symm_apply_eq]; rfl
  refine ⟨rfl, rfl, fun _ _ => rfl, fun k hk => ?_, fun k hk => ?_⟩
  · show (if ht : dest es es[k] k < es.length then _ else _) = _
    rw [dif_pos (dest_lt h hk), key k hk]; rfl
  · show (if ht : dest es es[k] k < es.length then _ else _) = _
    rw [dif_pos (dest_lt h hk), key k hk]; rfl

section laid
variable {m n : ℕ} {es : List (Ent K)} {V : View K}

theorem Laid.nnz (h : Laid m n es V) (hc : InCols n es) : V.nnz = es.length := by
  unfold View.nnz; rw [h.vn, h.p n (le_refl _), start_all hc]

/-- Every position is the position of an entry. -/
theorem Laid.pos (h : Laid m n es V) (hc : InCols n es) {t : ℕ} (ht : t < V.nnz) : ∃ k, ∃ hk : k < es.length, dest es es[k] k = t := by
  rw [h.nnz hc] at ht
  obtain ⟨k, hk⟩ := (destEquiv hc).surjective ⟨t, ht⟩
  exact ⟨k, k.2, congrArg Fin.val hk⟩

theorem Laid.valid (h : Laid m n es V) (hc : InCols n es) (hr : ∀ e ∈ es, e.r < m) : V.Valid := by
  refine ⟨by rw [h.p 0 (Nat.zero_le _)]; rfl, fun j hj => ?_, fun t ht => ?_⟩
  · rw [h.vn] at hj
    rw [h.p j hj.le, h.p (j + 1) hj]; exact start_mono es (Nat.le_succ j)
  · obtain ⟨k, hk, rfl⟩ := h.pos hc ht
    rw [h.i k hk, h.vm]; exact hr _ (List.getElem_mem hk)

theorem Laid.col (h : Laid m n es V) (hc : InCols n es) (hr : ∀ e ∈ es, e.r < m) {k : ℕ} (hk : k < es.length) : V.col (dest es es[k] k) = es[k].c := by
  have hcn := hc _ (List.getElem_mem hk)
  refine (h.valid hc hr).col_eq (by rw [h.vn]; exact hcn) ?_ ?_
  · rw [h.p _ hcn.le]; exact dest_ge es _ k
  · rw [h.p _ hcn]; exact dest_lt_succ hk

theorem matOf_sum [AddCommMonoid K] (es : List (Ent K)) (r c : ℕ) :
    matOf es r c = ∑ k : Fin es.length, if es[k].r = r ∧ es[k].c = c then es[k].v else 0 := by
  unfold matOf
  rw [← Fin.sum_univ_fun_getElem es (fun e => if e.r = r ∧ e.c = c then e.v else 0)]
  rfl

/-- The finished matrix denotes the sum of its entries. -/
theorem Laid.entry [AddCommMonoid K] (h : Laid m n es V) (hc : InCols n es) (hr : ∀ e ∈ es, e.r < m) {r c : ℕ} (hcn : c < n) :
    V.entry r c = matOf es r c := by
  have hv := h.valid hc hr
  have e1 : V.entry r c = ∑ t ∈ range V.nnz, if V.col t = c then (if V.i t = r then V.x t else 0) else 0 := by
    rw [hv.sum_cols (fun j t => if j = c then (if V.i t = r then V.x t else 0) else 0), Finset.sum_eq_single c]
    · unfold View.entry; exact sum_congr rfl fun t _ => by rw [if_pos rfl]
    · intro j _ hj; exact Finset.sum_eq_zero fun t _ => by rw [if_neg hj]
    · intro hn; rw [mem_range, h.vn] at hn; exact absurd hcn hn
  rw [e1, h.nnz hc, ← Fin.sum_univ_eq_sum_range (fun t => if V.col t = c then (if V.i t = r then V.x t else 0) else 0), matOf_sum,
    ← (destEquiv hc).sum_comp]
  refine sum_congr rfl fun k _ => ?_
  have e2 : ((destEquiv hc k : Fin es.length) : ℕ) = dest es es[(k : ℕ)] k := rfl
  rw [e2, h.col hc hr k.2, h.i k k.2, h.x k k.2]
  show _ = if es[(k : ℕ)].r = r ∧ es[(k : ℕ)].c = c then es[(k : ℕ)].v else 0
  by_cases h1 : es[(k : ℕ)].c = c <;> by_cases h2 : es[(k : ℕ)].r = r <;> simp [h1, h2]

end laid

theorem Filled.done {m n : ℕ} {all : List (Ent K)} {s : Slots K} (h : Filled n all all s) (hc : InCols n all) (hr : ∀ e ∈ all, e.r < m)
    {V : View K} (hV : Laid m n all V) : Holds s.i V.nnz (fun k => (V.i k : ℤ)) ∧ Holds s.x V.nnz V.x := by
  have hn := hV.nnz hc
  refine ⟨⟨by rw [hn]; exact h.isz, fun t ht => ?_⟩, ⟨by rw [hn]; exact h.xsz, fun t ht => ?_⟩⟩
  · obtain ⟨k, hk, rfl⟩ := hV.pos hc ht
    rw [h.i k hk hk, ← hV.i k hk]
  · obtain ⟨k, hk, rfl⟩ := hV.pos hc ht
    rw [h.x k hk hk, hV.x k hk]

end Osqp.Csc
