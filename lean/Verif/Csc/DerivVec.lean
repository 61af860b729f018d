import Verif.Csc.Deriv
import Verif.Csc.DerivSpec
import Verif.Csc.Rows
import Verif.Csc.Norms
import Mathlib.Data.List.GetD

/-!
# Vector operations used by the derivative code, and lists of selected rows
-/

set_option linter.unusedSectionVars false
namespace Osqp.Csc
open Finset

variable {K : Type*} [Field K] [LinearOrder K] {α : Type*}

/-- A loop that writes `g k` in cell `st + k`. -/
theorem writeLoop {b : Buf α} {st len : ℕ} (hs : st + len ≤ b.size) (g : ℕ → α) {f : ℤ → Buf α → Option (Buf α)}
    (hf : ∀ k (c : Buf α), k < len → c.size = b.size → (∀ j, j < st ∨ st + k ≤ j → c.cell j = b.cell j) → f (k : ℤ) c = c.wr ((st + k : ℕ) : ℤ) (g k)) :
    ∃ c, forI 0 (len : ℤ) f b = some c ∧ c.size = b.size ∧ ∀ j, c.cell j = if st ≤ j ∧ j < st + len then some (g (j - st)) else b.cell j := by
  obtain ⟨c, e, h1, h2⟩ := forI_zero (hi := len) (s := b) (f := f)
    (fun k c => c.size = b.size ∧ ∀ j, c.cell j = if st ≤ j ∧ j < st + k then some (g (j - st)) else b.cell j)
    ⟨rfl, fun j => by rw [if_neg (by omega)]⟩ (by
      intro k c hk ⟨h1, h2⟩
      rw [hf k c hk h1 (fun j hj => by rw [h2 j, if_neg (by omega)]), Buf.wr_eq (by omega)]
      refine ⟨_, rfl, h1, fun j => ?_⟩
      rw [Buf.set_cell, h2 j]
      by_cases e : j = st + k
      · rw [if_pos e, if_pos (by omega), e, Nat.add_sub_cancel_left]
      · rw [if_neg e]
        by_cases e2 : st ≤ j ∧ j < st + k
        · rw [if_pos e2, if_pos (by omega)]
        · rw [if_neg e2, if_neg (by omega)])
  exact ⟨c, e, h1, h2⟩

theorem subAssign_holds {A b : Buf K} {st len : ℕ} {g : ℕ → K} (hb : Holds b len g) (hs : st + len ≤ A.size) (mult : K) :
    ∃ A', subAssign A b (st : ℤ) (len : ℤ) mult = some A' ∧ A'.size = A.size ∧
      ∀ j, A'.cell j = if st ≤ j ∧ j < st + len then some (mult * g (j - st)) else A.cell j := by
  unfold subAssign
  refine writeLoop hs (fun k => mult * g k) (fun k c hk _ _ => ?_)
  rw [hb.rd hk]; simp only [Option.bind_some]; push_cast; rfl

theorem subAssignScalar_holds {A : Buf K} {st len : ℕ} (hs : st + len ≤ A.size) (sc : K) :
    ∃ A', subAssignScalar A sc (st : ℤ) (len : ℤ) = some A' ∧ A'.size = A.size ∧
      ∀ j, A'.cell j = if st ≤ j ∧ j < st + len then some sc else A.cell j := by
  unfold subAssignScalar
  exact writeLoop hs (fun _ => sc) (fun k c hk _ _ => by push_cast; rfl)

/-- A loop from the start of the array. -/
theorem writeLoop0 {b : Buf α} {len : ℕ} (hs : len ≤ b.size) (g : ℕ → α) {f : ℤ → Buf α → Option (Buf α)}
    (hf : ∀ k (c : Buf α), k < len → c.size = b.size → (∀ j, k ≤ j → c.cell j = b.cell j) → f (k : ℤ) c = c.wr (k : ℤ) (g k)) :
    ∃ c, forI 0 (len : ℤ) f b = some c ∧ c.size = b.size ∧ Holds c len g := by
  obtain ⟨c, e, h1, h2⟩ := writeLoop (b := b) (st := 0) (len := len) (by omega) g (f := f) (fun k c hk h1 h2 => by
    rw [hf k c hk h1 (fun j hj => h2 j (Or.inr (by omega)))]; simp)
  exact ⟨c, e, h1, by omega, fun k hk => by rw [h2 k, if_pos (by omega)]; simp⟩

theorem fromRaw_holds {b av : Buf α} {f : ℕ → α} (h : Holds av b.size f) : ∃ c, fromRaw b av = some c ∧ c.size = b.size ∧ Holds c b.size f := by
  unfold fromRaw
  exact writeLoop0 (le_refl _) f (fun k c hk _ _ => by rw [h.rd hk]; rfl)

theorem newFrom_holds {a : Buf α} {n : ℕ} {f : ℕ → α} (h : Holds a n f) : ∃ c, newFrom a (n : ℤ) = some c ∧ c.size = n ∧ Holds c n f := by
  unfold newFrom
  have := fromRaw_holds (b := Buf.fresh (n : ℤ)) (av := a) (f := f) (by rw [fresh_size]; exact h)
  rwa [fresh_size] at this

theorem multScalar_holds {a : Buf K} {n : ℕ} {f : ℕ → K} (h : Holds a n f) (hn : a.size = n) (sc : K) :
    ∃ c, multScalar a sc = some c ∧ c.size = n ∧ Holds c n (fun k => f k * sc) := by
  unfold multScalar
  rw [hn]
  obtain ⟨c, e, h1, h2⟩ := writeLoop0 (b := a) (len := n) (by omega) (fun k => f k * sc)
    (f := fun i a => (a.rd i).bind fun v => a.wr i (v * sc)) (fun k c hk h1 h2 => by
      have : c.rd (k : ℤ) = some (f k) := by
        unfold Buf.rd; rw [if_pos ⟨by omega, by omega⟩, Int.toNat_natCast, h2 k (le_refl _), h.2 k hk]
      rw [this]; rfl)
  exact ⟨c, e, by omega, h2⟩

theorem ewProdInto_holds {c b : Buf K} {n : ℕ} {f g : ℕ → K} (h : Holds c n f) (hn : c.size = n) (hb : Holds b n g) :
    ∃ c', ewProdInto c b = some c' ∧ c'.size = n ∧ Holds c' n (fun k => f k * g k) := by
  unfold ewProdInto
  rw [hn]
  obtain ⟨c', e, h1, h2⟩ := writeLoop0 (b := c) (len := n) (by omega) (fun k => f k * g k)
    (f := fun i c => (c.rd i).bind fun v => (b.rd i).bind fun w => c.wr i (v * w)) (fun k c' hk h1 h2 => by
      have : c'.rd (k : ℤ) = some (f k) := by
        unfold Buf.rd; rw [if_pos ⟨by omega, by omega⟩, Int.toNat_natCast, h2 k (le_refl _), h.2 k hk]
      rw [this, hb.rd hk]; rfl)
  exact ⟨c', e, by omega, h2⟩

theorem ewVec_holds {c a b : Buf K} {n : ℕ} {f g : ℕ → K} (F : K → K → K) (ha : Holds a n f) (hn : a.size = n) (hb : Holds b n g) (hc : n ≤ c.size) :
    ∃ c', ewVec F c a b = some c' ∧ c'.size = c.size ∧ Holds c' n (fun k => F (f k) (g k)) := by
  unfold ewVec
  rw [hn]
  exact writeLoop0 hc (fun k => F (f k) (g k)) (fun k c' hk h1 h2 => by rw [ha.rd hk, hb.rd hk]; rfl)

theorem concat_holds {A B : Buf K} {n m : ℕ} {f g : ℕ → K} (hA : Holds A n f) (hn : A.size = n) (hB : Holds B m g) (hm : B.size = m) :
    ∃ o, concat A B = some o ∧ o.size = n + m ∧ (∀ k < n, o.cell k = some (f k)) ∧ ∀ k < m, o.cell (n + k) = some (g k) := by
  unfold concat
  rw [hn, hm]
  obtain ⟨o, e, h1, h2⟩ := writeLoop0 (b := Buf.fresh (((n + m : ℕ)) : ℤ)) (len := n) (by rw [fresh_size]; omega) f
    (f := fun i o => (A.rd i).bind fun v => o.wr i v) (fun k c hk _ _ => by rw [hA.rd hk]; rfl)
  rw [fresh_size] at h1
  obtain ⟨o', e', h1', h2'⟩ := writeLoop (b := o) (st := n) (len := m) (by omega) g
    (f := fun j o => (B.rd j).bind fun v => o.wr (j + (n : ℤ)) v) (fun k c hk _ _ => by
      rw [hB.rd hk]; simp only [Option.bind_some]; rw [add_comm]; push_cast; rfl)
  push_cast at e
  rw [e]
  refine ⟨o', e', by omega, fun k hk => ?_, fun k hk => ?_⟩
  · rw [h2' k, if_neg (by omega), h2.2 k hk]
  · rw [h2' (n + k), if_pos (by omega), Nat.add_sub_cancel_left]

/-! ## Selected rows -/

section
variable (p : ℕ → Prop) [DecidablePred p]

@[simp] theorem sel_zero : sel p 0 = [] := rfl
theorem sel_succ (m : ℕ) : sel p (m + 1) = sel p m ++ if p m then [m] else [] := by
  unfold sel
  rw [List.range_succ, List.filter_append]
  congr 1
  by_cases h : p m <;> simp [h]

@[simp] theorem idx_zero : idx p 0 = 0 := rfl
theorem idx_succ (r : ℕ) : idx p (r + 1) = idx p r + if p r then 1 else 0 := by
  unfold idx
  rw [range_add_one, filter_insert]
  split_ifs with h
  · rw [card_insert_of_notMem (by simp)]
  · rfl

theorem sel_length (m : ℕ) : (sel p m).length = idx p m := by
  induction m with
  | zero => rfl
  | succ m ih => rw [sel_succ, List.length_append, ih, idx_succ]; split_ifs <;> rfl

theorem idx_mono {a b : ℕ} (h : a ≤ b) : idx p a ≤ idx p b := card_le_card (filter_subset_filter _ (range_mono h))

theorem idx_le (m : ℕ) : idx p m ≤ m := by
  unfold idx; exact le_trans (card_filter_le _ _) (by rw [card_range])

theorem idx_lt {a b : ℕ} (h : a < b) (ha : p a) : idx p a < idx p b := by
  have h1 := idx_succ p a
  rw [if_pos ha] at h1
  have h2 := idx_mono p (show a + 1 ≤ b from h)
  omega

theorem idx_inj {a b : ℕ} (ha : p a) (hb : p b) (h : idx p a = idx p b) : a = b := by
  rcases lt_trichotomy a b with h1 | h1 | h1
  · have := idx_lt p h1 ha; omega
  · exact h1
  · have := idx_lt p h1 hb; omega

theorem nth_spec {m : ℕ} : ∀ {k : ℕ}, k < idx p m → nth p m k < m ∧ p (nth p m k) ∧ idx p (nth p m k) = k := by
  induction m with
  | zero => intro k h; simp at h
  | succ m ih =>
    intro k h
    rw [idx_succ] at h
    unfold nth
    rw [sel_succ]
    rcases Nat.lt_or_ge k (idx p m) with h1 | h1
    · rw [List.getD_append _ _ _ _ (by rw [sel_length]; exact h1)]
      obtain ⟨h2, h3, h4⟩ := ih h1
      exact ⟨Nat.lt_succ_of_lt h2, h3, h4⟩
    · have hp : p m := by by_contra hp; rw [if_neg hp] at h; omega
      rw [if_pos hp] at h ⊢
      have hk : k = idx p m := by omega
      rw [List.getD_append_right _ _ _ _ (by rw [sel_length]; exact h1), sel_length, hk, Nat.sub_self]
      exact ⟨Nat.lt_succ_self m, hp, rfl⟩

theorem nth_idx {m r : ℕ} (hr : r < m) (h : p r) : nth p m (idx p r) = r := by
  obtain ⟨_, h2, h3⟩ := nth_spec p (idx_lt p hr h)
  exact idx_inj p h2 h h3

theorem sum_idx {M : Type*} [AddCommMonoid M] (f : ℕ → M) (m : ℕ) : ∑ k ∈ range (idx p m), f k = ∑ r ∈ range m, if p r then f (idx p r) else 0 := by
  induction m with
  | zero => simp
  | succ m ih =>
    rw [idx_succ, sum_range_succ]
    split_ifs with h
    · rw [sum_range_succ, ih]
    · rw [add_zero, add_zero, ih]

theorem rank_eq_idx {F : ℕ → ℤ} {m : ℕ} (hF : ∀ r < m, F r = if p r then 1 else 0) : ∀ r ≤ m, rank F r = idx p r := by
  intro r
  induction r with
  | zero => intro _; rfl
  | succ r ih =>
    intro hr
    rw [rank_succ, idx_succ, ih (by omega), hF r (by omega)]
    by_cases h : p r <;> simp [h]
end

/-- The flags of a selection. -/
def flag (p : ℕ → Prop) [DecidablePred p] (r : ℕ) : ℤ := if p r then 1 else 0

theorem subByRows_holds (p : ℕ → Prop) [DecidablePred p] {A : Buf K} {rows : Buf ℤ} {m : ℕ} {f : ℕ → K} (hF : Holds rows m (flag p)) (hm : rows.size = m)
    (hA : Holds A m f) : ∃ o, subByRows A rows = some o ∧ o.size = idx p m ∧ Holds o (idx p m) (fun k => f (nth p m k)) := by
  unfold subByRows
  rw [hm]
  obtain ⟨len, e, h⟩ := forI_zero (hi := m) (s := (0 : ℤ)) (f := fun i (c : ℤ) => (rows.rd i).bind fun f => some (if f ≠ 0 then c + 1 else c))
    (fun k c => c = ((idx p k : ℕ) : ℤ)) (by simp) (by
      intro k c hk h
      rw [hF.rd hk]
      refine ⟨_, rfl, ?_⟩
      rw [idx_succ, flag, h]
      by_cases hp : p k <;> simp [hp])
  rw [e, h]
  simp only [Option.bind_some]
  obtain ⟨s, e', h1, h2, h3⟩ := forI_zero (hi := m) (s := ((Buf.fresh ((idx p m : ℕ) : ℤ) : Buf K), (0 : ℤ)))
    (f := fun i (s : Buf K × ℤ) => (rows.rd i).bind fun f => if f ≠ 0 then (A.rd i).bind fun v => (s.1.wr s.2 v).bind fun o => some (o, s.2 + 1) else some s)
    (fun k s => s.2 = ((idx p k : ℕ) : ℤ) ∧ s.1.size = idx p m ∧ Holds s.1 (idx p k) (fun t => f (nth p m t)))
    ⟨by simp, by simp, Holds.zero⟩ (by
      intro k s hk ⟨h1, h2, h3⟩
      rw [hF.rd hk]
      simp only [Option.bind_some, flag]
      by_cases hp : p k
      · rw [if_pos hp, if_pos (by decide), hA.rd hk]
        simp only [Option.bind_some]
        rw [h1, Buf.wr_eq (by rw [h2]; exact idx_lt p hk hp)]
        refine ⟨_, rfl, ?_, h2, ?_⟩
        · rw [idx_succ, if_pos hp]; push_cast; rfl
        · show Holds _ (idx p (k + 1)) _
          rw [idx_succ, if_pos hp]
          exact h3.extend (by rw [h2]; exact idx_lt p hk hp) _ (by rw [nth_idx p hk hp])
      · rw [if_neg hp, if_neg (by decide)]
        refine ⟨s, rfl, ?_, h2, ?_⟩
        · rw [idx_succ, if_neg hp, h1]; simp
        · rw [idx_succ, if_neg hp, add_zero]; exact h3)
  rw [e']
  exact ⟨s.1, rfl, h2, h3⟩

end Osqp.Csc
