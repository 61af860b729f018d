import Verif.Csc.Constr
import Verif.Csc.Demo

/-!
# Public matrix constructors (C47)
-/

set_option linter.unusedSectionVars false
namespace Osqp.Csc
open Finset

variable {K : Type*} [Field K] [LinearOrder K]

/-- The diagonal view of size `m × n`. -/
def diagV (m n : ℕ) (d : ℕ → K) : View K := ⟨m, n, fun c => min c m, fun k => k, d⟩

theorem diagV_valid (m n : ℕ) (d : ℕ → K) : (diagV m n d).Valid :=
  ⟨by simp [diagV], fun j _ => by simp only [diagV]; omega, fun k hk => by simp only [diagV, View.nnz] at hk ⊢; omega⟩

theorem diagV_entry (m n : ℕ) (d : ℕ → K) {r c : ℕ} (hr : r < m) : (diagV m n d).entry r c = if r = c then d r else 0 := by
  unfold View.entry diagV
  simp only
  by_cases h : r = c
  · subst h
    rw [if_pos rfl, sum_eq_single r]
    · rw [if_pos rfl]
    · intro k hk hne; rw [if_neg hne]
    · intro hk; exact absurd (mem_Ico.2 ⟨by omega, by omega⟩) hk
  · rw [if_neg h]
    refine sum_eq_zero fun k hk => ?_
    rw [mem_Ico] at hk
    rw [if_neg (by omega)]

theorem diagScalar_aux (m n : ℕ) (s : K) : ∃ M, diagScalar (m : ℤ) (n : ℤ) s = some M ∧ Rep M (diagV m n fun _ => s) ∧ M.nzmax = (min m n : ℕ) ∧ M.nz = -1 ∧
    M.p.size = n + 1 ∧ M.i.size = min m n ∧ M.x.size = min m n := by
  have hmin : (if (m : ℤ) < (n : ℤ) then (m : ℤ) else (n : ℤ)) = ((min m n : ℕ) : ℤ) := by
    by_cases h : m < n
    · rw [if_pos (by exact_mod_cast h)]; congr 1; omega
    · rw [if_neg (by exact_mod_cast h)]; congr 1; omega
  have key : ∀ f : ℤ → Buf ℤ → Option (Buf ℤ), (∀ (j : ℕ) (b : Buf ℤ), j < n → f (j : ℤ) b = b.wr (j : ℤ) ((min j m : ℕ) : ℤ)) →
      ∃ p, forI 0 (n : ℤ) f (Buf.zeroed ((n : ℤ) + 1) 0) = some p ∧ p.size = n + 1 ∧ Holds p n (fun c => ((min c m : ℕ) : ℤ)) := by
    intro f hf
    obtain ⟨p, e, h1, h2⟩ := forI_zero (hi := n) (f := f) (s := Buf.zeroed ((n : ℤ) + 1) 0) (fun j b => b.size = n + 1 ∧ Holds b j (fun c => ((min c m : ℕ) : ℤ)))
      ⟨by simp only [Buf.zeroed]; omega, Holds.zero⟩ (by
        rintro j b hj ⟨h1, h2⟩
        rw [hf j b hj, Buf.wr_eq (by omega)]
        exact ⟨_, rfl, h1, h2.extend (by omega) _ rfl⟩)
    exact ⟨p, e, h1, h2⟩
  obtain ⟨p, e1, hps, hp⟩ : ∃ p, (if (m : ℤ) < (n : ℤ) then forI 0 (n : ℤ) (fun i p => if i < (m : ℤ) then p.wr i i else p.wr i (m : ℤ)) (Buf.zeroed ((n : ℤ) + 1) 0)
      else forI 0 (n : ℤ) (fun i p => p.wr i i) (Buf.zeroed ((n : ℤ) + 1) 0)) = some p ∧ p.size = n + 1 ∧ Holds p n (fun c => ((min c m : ℕ) : ℤ)) := by
    by_cases h : m < n
    · rw [if_pos (by exact_mod_cast h)]
      refine key _ fun j b hj => ?_
      by_cases h1 : j < m
      · rw [if_pos (by exact_mod_cast h1), show min j m = j by omega]
      · rw [if_neg (by exact_mod_cast h1), show min j m = m by omega]
    · rw [if_neg (by exact_mod_cast h)]
      exact key _ fun j b hj => by rw [show min j m = j by omega]
  obtain ⟨s2, e2, h1, h2, h3, h4⟩ := forI_zero (hi := min m n) (f := fun i (t : Buf ℤ × Buf K) => (t.1.wr i i).bind fun a => (t.2.wr i s).bind fun b => some (a, b))
    (s := (Buf.fresh ((min m n : ℕ) : ℤ), Buf.fresh ((min m n : ℕ) : ℤ)))
    (fun j t => t.1.size = min m n ∧ t.2.size = min m n ∧ Holds t.1 j (fun k => (k : ℤ)) ∧ Holds t.2 j (fun _ => s))
    ⟨fresh_size _, fresh_size _, Holds.zero, Holds.zero⟩ (by
      rintro j t hj ⟨h1, h2, h3, h4⟩
      rw [Buf.wr_eq (by omega), Buf.wr_eq (by omega)]
      exact ⟨_, rfl, h1, h2, h3.extend (by omega) _ rfl, h4.extend (by omega) _ rfl⟩)
  refine ⟨⟨m, n, p.set n ((min m n : ℕ) : ℤ), s2.1, s2.2, ((min m n : ℕ) : ℤ), -1⟩, ?_, ⟨rfl, rfl, diagV_valid m n _, ?_, ?_, ?_⟩, rfl, rfl, hps, h1, h2⟩
  · unfold diagScalar
    simp only [hmin]
    rw [e1]
    simp only [Option.bind_some]
    rw [e2]
    simp only [Option.bind_some]
    rw [Buf.wr_eq (by omega)]
    rfl
  · exact hp.extend (by omega) _ (by show ((min n m : ℕ) : ℤ) = _; rw [Nat.min_comm])
  · have : (diagV m n fun _ => s).nnz = min m n := by simp only [View.nnz, diagV]; omega
    rw [this]; exact h3
  · have : (diagV m n fun _ => s).nnz = min m n := by simp only [View.nnz, diagV]; omega
    rw [this]; exact h4

/-- The struct is well formed, of the given size, owns exactly the cells it uses, and denotes the matrix `E`. -/
def Builds (M : Csc K) (m n : ℕ) (E : ℕ → ℕ → K) : Prop :=
  ∃ V, Rep M V ∧ V.m = m ∧ V.n = n ∧ M.nzmax = V.nnz ∧ M.nz = -1 ∧ M.p.size = n + 1 ∧ M.i.size = V.nnz ∧ M.x.size = V.nnz ∧ ∀ r < m, ∀ c < n, V.entry r c = E r c

/-- **C47** (scalar diagonal), for every size, square or not. -/
theorem c47_diag_scalar (m n : ℕ) (s : K) : ∃ M, diagScalar (m : ℤ) (n : ℤ) s = some M ∧ Builds M m n fun r c => if r = c then s else 0 := by
  obtain ⟨M, e, h1, h2, h3, h4, h5, h6⟩ := diagScalar_aux m n s
  have hz : (diagV m n fun _ => s).nnz = min m n := by simp only [View.nnz, diagV]; omega
  exact ⟨M, e, _, h1, rfl, rfl, by rw [h2, hz], h3, h4, by rw [h5, hz], by rw [h6, hz], fun r hr c _ => diagV_entry m n _ hr⟩

/-- **C47** (identity). -/
theorem c47_identity (m : ℕ) : ∃ M : Csc K, identity (m : ℤ) = some M ∧ Builds M m m fun r c => if r = c then 1 else 0 := c47_diag_scalar m m 1

/-- **C47** (vector diagonal): the first `min m n` elements of the vector become the diagonal; nothing else is read. -/
theorem c47_diag_vec (m n : ℕ) {v : Buf K} {d : ℕ → K} (hv : Holds v (min m n) d) :
    ∃ M, diagVec (m : ℤ) (n : ℤ) v = some M ∧ Builds M m n fun r c => if r = c then d r else 0 := by
  obtain ⟨M, e, h1, h2, h3, h4, h5, h6⟩ := diagScalar_aux m n (1 : K)
  have hz : ∀ f : ℕ → K, (diagV m n f).nnz = min m n := fun f => by simp only [View.nnz, diagV]; omega
  have hmin : (if (m : ℤ) < (n : ℤ) then (m : ℤ) else (n : ℤ)) = ((min m n : ℕ) : ℤ) := by
    by_cases h : m < n
    · rw [if_pos (by exact_mod_cast h)]; congr 1; omega
    · rw [if_neg (by exact_mod_cast h)]; congr 1; omega
  obtain ⟨x, e2, g1, g2⟩ := forI_zero (hi := min m n) (s := M.x) (f := fun i x => (v.rd i).bind fun a => x.wr i a)
    (fun j x => x.size = min m n ∧ Holds x j d) ⟨h6, Holds.zero⟩ (by
      rintro j x hj ⟨g1, g2⟩
      rw [hv.rd hj]
      simp only [Option.bind_some]
      rw [Buf.wr_eq (by omega)]
      exact ⟨_, rfl, g1, g2.extend (by omega) _ rfl⟩)
  refine ⟨{ M with x := x }, ?_, diagV m n d, ⟨h1.m, h1.n, diagV_valid m n d, h1.p, ?_, ?_⟩, rfl, rfl, by rw [hz]; exact h2, h3, h4, by rw [hz]; exact h5, by rw [hz]; exact g1,
    fun r hr c _ => diagV_entry m n d hr⟩
  · unfold diagVec
    simp only [hmin]
    rw [e]
    simp only [Option.bind_some]
    rw [e2]; rfl
  · have := h1.i; rw [hz] at this ⊢; exact this
  · rw [hz]; exact g2

/-- **C47** (zero matrix). -/
theorem c47_zeros (m n : ℕ) : Builds (zeros (m : ℤ) (n : ℤ) : Csc K) m n fun _ _ => 0 :=
  ⟨⟨m, n, fun _ => 0, fun _ => 0, fun _ => 0⟩,
    ⟨rfl, rfl, ⟨rfl, fun _ _ => le_refl _, fun k hk => absurd hk (Nat.not_lt_zero k)⟩, ⟨by simp only [zeros, Buf.zeroed]; omega, fun _ _ => rfl⟩, Holds.zero, Holds.zero⟩,
    rfl, rfl, rfl, rfl, by simp only [zeros, Buf.zeroed]; omega, rfl, rfl, fun _ _ _ _ => by simp [View.entry]⟩

/-- **C47** (wrapping the caller's arrays): the struct reads as the caller's arrays do. -/
theorem c47_set_data {V : View K} (hv : V.Valid) {p i : Buf ℤ} {x : Buf K} (hp : Holds p (V.n + 1) fun j => (V.p j : ℤ)) (hi : Holds i V.nnz fun k => (V.i k : ℤ))
    (hx : Holds x V.nnz V.x) (nzmax : ℤ) : Rep (setData V.m V.n nzmax x i p) V ∧ (setData (V.m : ℤ) V.n nzmax x i p).nzmax = nzmax :=
  ⟨⟨rfl, rfl, hv, hp, hi, hx⟩, rfl⟩

/-! ## The hypotheses are met -/

/-- Wide, tall and square diagonal matrices. -/
example : (∃ M, diagScalar ((2 : ℕ) : ℤ) ((3 : ℕ) : ℤ) (7 : ℚ) = some M ∧ Builds M 2 3 fun r c => if r = c then 7 else 0) ∧
    ∃ M, diagScalar ((3 : ℕ) : ℤ) ((2 : ℕ) : ℤ) (7 : ℚ) = some M ∧ Builds M 3 2 fun r c => if r = c then 7 else 0 := ⟨c47_diag_scalar 2 3 7, c47_diag_scalar 3 2 7⟩

example : ∃ M, diagVec ((2 : ℕ) : ℤ) ((3 : ℕ) : ℤ) Demo.v2 = some M ∧ Builds M 2 3 fun r c => if r = c then Demo.f2 r else 0 := c47_diag_vec 2 3 Demo.v2_holds

example : Rep (setData Demo.rectV.m Demo.rectV.n 2 Demo.rect.x Demo.rect.i Demo.rect.p) Demo.rectV :=
  (c47_set_data Demo.rect_valid Demo.rect_rep.p Demo.rect_rep.i Demo.rect_rep.x 2).1

end Osqp.Csc
