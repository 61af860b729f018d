import Verif.Amd.Order
import Verif.Csc.Demo
import Mathlib.Tactic.IntervalCases

/-!
# C69: the fill-reducing ordering

`Amd/Spec.lean` has the specification: `WellFormed`, `SortedCols` and `IsPermutation`. The model of `amd_order` is `Amd.order`
(`Amd/Model.lean`); its result is `none` when the program would access an array out of bounds, read a value that was never
written, or not leave a loop.
-/

namespace Osqp.Amd
open Csc

variable {n : ℕ} {Ap Ai P : Buf ℤ} {ap ai : ℕ → ℤ}

/-- **C69** (every pattern is ordered). For every square pattern that is well formed, sorted or not and with or without repeated entries, whatever the
dense-row threshold, the limit at which the marks are reset and the modulus of the hash function are, the ordering ends, accesses no
array out of bounds and reads nothing that was not written; it reports success (0 if the columns are sorted, 1 if not) and leaves a
permutation of `0, …, n-1` in the array of the caller. -/
theorem c69_order (hp : Holds Ap (n + 1) ap) (hi : ∀ j ≤ n, Holds Ai (ap j).toNat ai) (hP : n ≤ P.size) (wf : WellFormed n ap ai) (dense imax lim : ℤ) :
    ∃ st P', order n dense imax lim Ap Ai P = some (st, P') ∧ IsPermutation n P' ∧ (st = 0 ∨ st = 1) ∧ (0 < n → (st = 0 ↔ SortedCols n ap ai)) := by
  obtain ⟨fp, vp⟩ := full_of_holds hp
  have fi : ∀ j, 0 ≤ j → j ≤ (n : ℤ) → Full Ai (Ap j) := fun j j0 j1 => by
    obtain ⟨k, rfl⟩ := Int.eq_ofNat_of_zero_le j0
    rw [vp k (by omega)]
    exact (full_of_holds (hi k (by omega))).1.mono (by omega)
  obtain ⟨⟨st, P'⟩, e, h⟩ := order_ok (n := n) (P := P) (by omega) (by push_cast at fp; exact fp) fi (by omega) dense imax lim
  refine ⟨st, P', e, ?_⟩
  rcases h with ⟨h0, hs, _, hI⟩ | ⟨h1, hc, hs, _, hI⟩ | ⟨_, hc⟩
  · refine ⟨hI.perm, .inl h0, fun hn => ⟨fun _ => ?_, fun _ => h0⟩⟩
    rcases hs with hs | hs
    · omega
    · exact ((srt_iff hp hi).mp hs).2
  · refine ⟨hI.perm, .inr h1, fun hn => ⟨fun h => ?_, fun h => ?_⟩⟩
    · dsimp only at h1; omega
    · exact absurd ((srt_iff hp hi).mpr ⟨wf, h⟩) hs
  · exact absurd ((cols_iff hp hi).mpr wf) hc

/-- **C69** (a malformed pattern is reported). When the pattern is not well formed, and the index array is long enough for every column
pointer, the ordering reports the error and leaves the array of the caller as it was. -/
theorem c69_invalid (hp : Holds Ap (n + 1) ap) (hi : ∀ j ≤ n, Holds Ai (ap j).toNat ai) (hP : n ≤ P.size) (hn : 0 < n) (wf : ¬ WellFormed n ap ai) (dense imax lim : ℤ) :
    order n dense imax lim Ap Ai P = some (-2, P) := by
  obtain ⟨fp, vp⟩ := full_of_holds hp
  have fi : ∀ j, 0 ≤ j → j ≤ (n : ℤ) → Full Ai (Ap j) := fun j j0 j1 => by
    obtain ⟨k, rfl⟩ := Int.eq_ofNat_of_zero_le j0
    rw [vp k (by omega)]
    exact (full_of_holds (hi k (by omega))).1.mono (by omega)
  obtain ⟨⟨st, P'⟩, e, h⟩ := order_ok (n := n) (P := P) (by omega) (by push_cast at fp; exact fp) fi (by omega) dense imax lim
  rw [e]
  rcases h with ⟨_, hs, _⟩ | ⟨_, hc, _⟩ | ⟨h, _⟩
  · rcases hs with hs | hs
    · omega
    · exact absurd ((cols_iff hp hi).mp hs.toCols) wf
  · exact absurd ((cols_iff hp hi).mp hc) wf
  · rw [h]

/-- The check of the pattern reads the row indices of a column before it has compared its end with the number of entries, so the index array has to be
long enough for every column pointer, not only for the last: here the second column pointer is too large and the check reads behind the array. -/
theorem c69_overrun : order 2 10 (2 ^ 31 - 1) (2 ^ 32) (Demo.buf [0, 5, 1]) (Demo.buf [0]) (Buf.fresh 2) = none := by decide +kernel

/-! ## Cases -/

/-- The arrow matrix of order 6, with the last column unsorted: the last node, which is joined to all others, comes last. -/
example : ∃ P', order 6 10 (2 ^ 31 - 1) (2 ^ 32) (Demo.buf [0, 1, 2, 3, 4, 5, 11]) (Demo.buf [0, 1, 2, 3, 4, 5, 4, 3, 2, 1, 0]) (Buf.fresh 6) = some (1, P') := by
  have h : (order 6 10 (2 ^ 31 - 1) (2 ^ 32) (Demo.buf [0, 1, 2, 3, 4, 5, 11]) (Demo.buf [0, 1, 2, 3, 4, 5, 4, 3, 2, 1, 0]) (Buf.fresh 6)).map Prod.fst = some 1 := by decide +kernel
  obtain ⟨⟨st, P'⟩, e, h⟩ := Option.map_eq_some_iff.mp h
  exact ⟨P', by rw [e]; dsimp only at h; rw [h]⟩

def demoAp : List ℤ := [0, 1, 2, 3, 4, 6, 12]
def demoAi : List ℤ := [0, 1, 2, 3, 4, 0, 5, 4, 3, 2, 1, 0]
theorem demo_wf : WellFormed 6 (fun k => demoAp.getD k default) (fun k => demoAi.getD k default) := by
  refine ⟨by decide, by decide, fun p hp => ?_⟩
  have : p < 12 := by have : (p : ℤ) < 12 := hp; omega
  interval_cases p <;> decide
/-- The hypotheses of `c69_order` are met. -/
example : ∃ st P', order (6 : ℕ) 10 (2 ^ 31 - 1) (2 ^ 32) (Demo.buf demoAp) (Demo.buf demoAi) (Buf.fresh 6) = some (st, P') ∧ IsPermutation 6 P' := by
  obtain ⟨st, P', e, h, _⟩ := c69_order (n := 6) (P := Buf.fresh 6) (Demo.buf_holds demoAp) (fun j hj => (Demo.buf_holds demoAi).mono (by interval_cases j <;> decide)) le_rfl demo_wf 10 (2 ^ 31 - 1) (2 ^ 32)
  exact ⟨st, P', e, h⟩
example : (order 6 10 (2 ^ 31 - 1) (2 ^ 32) (Demo.buf demoAp) (Demo.buf demoAi) (Buf.fresh 6)).map (fun r => (r.1, (List.range 6).map fun k => r.2.rd (k : ℕ))) =
    some (1, [some 3, some 2, some 1, some 0, some 4, some 5]) := by decide +kernel
/-- … and those of `c69_invalid`: a row index that is out of range. -/
example : order (2 : ℕ) 10 (2 ^ 31 - 1) (2 ^ 32) (Demo.buf [0, 1, 2]) (Demo.buf [0, 2]) (Buf.fresh 2) = some (-2, Buf.fresh 2) :=
  c69_invalid (n := 2) (ap := fun k => [0, 1, 2].getD k default) (ai := fun k => [0, 2].getD k default) (Demo.buf_holds [0, 1, 2]) (fun j hj => (Demo.buf_holds [0, 2]).mono (by interval_cases j <;> decide)) le_rfl (by omega)
    (fun h => by have := (h.rows 1 (by decide)).2; revert this; decide) _ _ _

end Osqp.Amd
