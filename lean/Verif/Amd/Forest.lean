import Verif.Amd.Base
import Mathlib.Data.Int.Interval
import Mathlib.Algebra.BigOperators.Group.Finset.Basic

/-!
# The assembly forest

What the main loop of `AMD_2` leaves: every node of the forest is a pivot (`Nv > 0`) or a variable absorbed into one (`Nv = 0`). The first
step of the last part of `AMD_2` makes the absorbed variables point to their pivot.
-/

namespace Osqp.Amd
open Csc Finset
set_option linter.unusedSectionVars false

/-- `par` is the parent function of a forest on `0..n-1` (-1 at a root), `Nv` the number of variables a pivot stands for (0 if the node is not a
pivot), `rep` the pivot that a node belongs to (-1 for a variable set apart), `rank` increases towards the roots. -/
structure Forest (n : ℤ) (par Nv rep : ℤ → ℤ) (rank : ℤ → ℕ) : Prop where
  nv : ∀ i, 0 ≤ i → i < n → 0 ≤ Nv i
  pr : ∀ i, 0 ≤ i → i < n → par i = -1 ∨ (0 ≤ par i ∧ par i < n ∧ rank i < rank (par i))
  elt : ∀ i, 0 ≤ i → i < n → 0 < Nv i → par i ≠ -1 → 0 < Nv (par i)
  self : ∀ i, 0 ≤ i → i < n → 0 < Nv i → rep i = i
  up : ∀ i, 0 ≤ i → i < n → Nv i = 0 → par i ≠ -1 → rep i = rep (par i)
  apart : ∀ i, 0 ≤ i → i < n → Nv i = 0 → par i = -1 → rep i = -1
  joined : ∀ i, 0 ≤ i → i < n → Nv i = 0 → par i ≠ -1 → rep i ≠ -1
  cnt : ∀ i, 0 ≤ i → i < n → 0 < Nv i → Nv i = ((Ico (0 : ℤ) n).filter fun x => rep x = i).card

/-- The number of nodes of higher rank. -/
def height (n : ℤ) (rank : ℤ → ℕ) (j : ℤ) : ℕ := ((Ico (0 : ℤ) n).filter fun x => rank j < rank x).card

theorem height_le (n : ℤ) (rank : ℤ → ℕ) (j : ℤ) : height n rank j ≤ n.toNat := by
  unfold height
  refine le_trans (card_filter_le _ _) ?_
  simp

theorem height_lt {n : ℤ} {rank : ℤ → ℕ} {j k : ℤ} (hk0 : 0 ≤ k) (hk : k < n) (h : rank j < rank k) : height n rank k < height n rank j := by
  unfold height
  refine card_lt_card ⟨fun x hx => ?_, fun hsub => ?_⟩
  · rw [mem_filter] at hx ⊢; exact ⟨hx.1, by omega⟩
  · have : k ∈ (Ico (0 : ℤ) n).filter fun x => rank j < rank x := by rw [mem_filter, mem_Ico]; exact ⟨⟨hk0, hk⟩, h⟩
    have := hsub this
    rw [mem_filter] at this
    omega

variable {n : ℤ} {par nv rep : ℤ → ℤ} {rank : ℤ → ℕ}

/-- A joined node belongs to a pivot above it. -/
theorem Forest.rep_spec (F : Forest n par nv rep rank) : ∀ (h : ℕ) (i : ℤ), height n rank i ≤ h → 0 ≤ i → i < n → rep i ≠ -1 →
    0 ≤ rep i ∧ rep i < n ∧ 0 < nv (rep i) ∧ rank i ≤ rank (rep i) ∧ (nv i = 0 → rank i < rank (rep i)) := by
  intro h
  induction h with
  | zero =>
    intro i hh h0 h1 hr
    by_cases hv : 0 < nv i
    · rw [F.self i h0 h1 hv]; exact ⟨h0, h1, hv, le_rfl, fun e => by omega⟩
    · have hz : nv i = 0 := by have := F.nv i h0 h1; omega
      have hp : par i ≠ -1 := fun e => hr (F.apart i h0 h1 hz e)
      rcases F.pr i h0 h1 with e | ⟨p0, p1, hlt⟩
      · exact absurd e hp
      · have := height_lt (n := n) p0 p1 hlt; omega
  | succ h ih =>
    intro i hh h0 h1 hr
    by_cases hv : 0 < nv i
    · rw [F.self i h0 h1 hv]; exact ⟨h0, h1, hv, le_rfl, fun e => by omega⟩
    · have hz : nv i = 0 := by have := F.nv i h0 h1; omega
      have hp : par i ≠ -1 := fun e => hr (F.apart i h0 h1 hz e)
      rcases F.pr i h0 h1 with e | ⟨p0, p1, hlt⟩
      · exact absurd e hp
      · have hl := height_lt (n := n) p0 p1 hlt
        have hu := F.up i h0 h1 hz hp
        obtain ⟨a, b, c, d, _⟩ := ih (par i) (by omega) p0 p1 (by rw [← hu]; exact hr)
        rw [hu]
        exact ⟨a, b, c, by omega, fun _ => by omega⟩

theorem Forest.rep_ok (F : Forest n par nv rep rank) {i : ℤ} (h0 : 0 ≤ i) (h1 : i < n) (hr : rep i ≠ -1) :
    0 ≤ rep i ∧ rep i < n ∧ 0 < nv (rep i) ∧ rank i ≤ rank (rep i) ∧ (nv i = 0 → rank i < rank (rep i)) :=
  F.rep_spec _ i le_rfl h0 h1 hr

/-- The loop invariant of `compressPaths`: parents of pivots are unchanged; an absorbed variable has its parent or its pivot. -/
structure Paths (n : ℤ) (par nv rep : ℤ → ℤ) (upto : ℤ) (Pe : Buf ℤ) : Prop where
  full : Full Pe n
  piv : ∀ i, 0 ≤ i → i < n → 0 < nv i → Pe i = par i
  var : ∀ i, 0 ≤ i → i < n → nv i = 0 → Pe i = par i ∨ (rep i ≠ -1 ∧ Pe i = rep i)
  done : ∀ i, 0 ≤ i → i < upto → i < n → nv i = 0 → Pe i = rep i

theorem Paths.step (F : Forest n par nv rep rank) {k : ℤ} {Pe : Buf ℤ} (h : Paths n par nv rep k Pe) {j : ℤ} (h0 : 0 ≤ j) (h1 : j < n)
    (hz : nv j = 0) (hr : rep j ≠ -1) : 0 ≤ Pe j ∧ Pe j < n ∧ rank j < rank (Pe j) ∧ rep (Pe j) = rep j := by
  have hp : par j ≠ -1 := fun e => hr (F.apart j h0 h1 hz e)
  rcases h.var j h0 h1 hz with e | ⟨_, e⟩
  · rcases F.pr j h0 h1 with e' | ⟨p0, p1, hlt⟩
    · exact absurd e' hp
    · rw [e]; exact ⟨p0, p1, hlt, (F.up j h0 h1 hz hp).symm⟩
  · obtain ⟨a, b, c, _, d⟩ := F.rep_ok h0 h1 hr
    rw [e]; exact ⟨a, b, d hz, F.self _ a b c⟩

/-- `compressPaths` makes every absorbed variable point to its pivot. -/
theorem compressPaths_ok {Nv Pe : Buf ℤ} (hn : 0 ≤ n) (hNv : Full Nv n) (hPe : Full Pe n) (F : Forest n Pe Nv rep rank) :
    Ens (compressPaths n Nv Pe) (fun Q => Full Q n ∧ (∀ i, 0 ≤ i → i < n → 0 < Nv i → Q i = Pe i) ∧
      (∀ i, 0 ≤ i → i < n → Nv i = 0 → Q i = rep i)) := by
  unfold compressPaths
  refine Ens.imp (Ens.forI (fun k Q => Paths n Pe Nv rep k Q) hn ?_ ?_) (fun Q h => ⟨h.full, h.piv, fun i h0 h1 hz => h.done i h0 h1 h1 hz⟩)
  · exact ⟨hPe, fun _ _ _ _ => rfl, fun _ _ _ _ => .inl rfl, fun i h0 h1 => by omega⟩
  · intro i Q h0 h1 h
    refine Ens.rd hNv h0 h1 ?_
    by_cases hz : Nv i = 0
    swap
    · rw [if_neg hz]
      exact Ens.pure ⟨h.full, h.piv, h.var, fun x hx0 hx1 hxn hxz => h.done x hx0 (by
        rcases eq_or_ne x i with e | e
        · rw [e] at hxz; exact absurd hxz hz
        · omega) hxn hxz⟩
    rw [if_pos hz]
    refine Ens.rd h.full h0 h1 ?_
    by_cases hr : rep i = -1
    · have hq : Q i = -1 := by
        rcases h.var i h0 h1 hz with e | ⟨e, _⟩
        · rw [e]
          by_contra hp
          exact F.joined i h0 h1 hz hp hr
        · exact absurd hr e
      rw [if_pos hq]
      exact Ens.pure ⟨h.full, h.piv, h.var, fun x hx0 hx1 hxn hxz => by
        rcases eq_or_ne x i with e | e
        · rw [e, hq, hr]
        · exact h.done x hx0 (by omega) hxn hxz⟩
    obtain ⟨q0, q1, qr, qrep⟩ := h.step F h0 h1 hz hr
    rw [if_neg (by omega)]
    refine Ens.bind (P := fun e => e = rep i) ?_ ?_
    · refine Ens.loop (fun j => 0 ≤ j ∧ j < n ∧ rep j = rep i) (fun e => e = rep i) (fun j => height n rank j) ?_ _ _ ⟨q0, q1, qrep⟩ ?_
      · rintro j ⟨j0, j1, jr⟩
        refine Ens.rd hNv j0 j1 ?_
        by_cases hjz : Nv j = 0
        · rw [if_pos hjz]
          obtain ⟨a, b, c, d⟩ := h.step F j0 j1 hjz (by rw [jr]; exact hr)
          exact Ens.rd h.full j0 j1 (Ens.pure ⟨⟨a, b, by rw [d, jr]⟩, height_lt a b c⟩)
        · rw [if_neg hjz]
          have : 0 < Nv j := by have := F.nv j j0 j1; omega
          exact Ens.pure (by rw [← jr]; exact (F.self j j0 j1 this).symm)
      · have := height_le n rank (Q i); omega
    · rintro e rfl
      obtain ⟨r0, r1, rp, _, _⟩ := F.rep_ok h0 h1 hr
      refine Ens.imp (Ens.loop (fun (s : Buf ℤ × ℤ) => Paths n Pe Nv rep i s.1 ∧ 0 ≤ s.2 ∧ s.2 < n ∧ rep s.2 = rep i ∧ (s.2 = i ∨ s.1 i = rep i))
        (fun Q' => Paths n Pe Nv rep i Q' ∧ Q' i = rep i) (fun s => height n rank s.2) ?_ _ _ ⟨h, h0, h1, rfl, .inl rfl⟩ ?_) ?_
      · rintro ⟨R, j⟩ ⟨hR, j0, j1, jr, hj⟩
        dsimp only at *
        refine Ens.rd hNv j0 j1 ?_
        by_cases hjz : Nv j = 0
        · rw [if_pos hjz]
          obtain ⟨a, b, c, d⟩ := hR.step F j0 j1 hjz (by rw [jr]; exact hr)
          refine Ens.rd hR.full j0 j1 (Ens.wr j0 (by have := hR.full.1; omega) (Ens.pure ?_))
          refine ⟨⟨⟨hR.full.upd _ _, fun x x0 x1 xv => ?_, fun x x0 x1 xz => ?_, fun x x0 xi x1 xz => ?_⟩, a, b, by rw [d, jr], ?_⟩, height_lt a b c⟩
          · rw [upd_ne _ j0 (by rintro rfl; omega)]; exact hR.piv x x0 x1 xv
          · by_cases e : x = j
            · rw [e, upd_same _ j0, jr]; exact .inr ⟨hr, rfl⟩
            · rw [upd_ne _ j0 e]; exact hR.var x x0 x1 xz
          · by_cases e : x = j
            · rw [e, upd_same _ j0, jr]
            · rw [upd_ne _ j0 e]; exact hR.done x x0 xi x1 xz
          · dsimp only
            by_cases e : i = j
            · rw [e, upd_same _ j0, jr, e]; exact .inr rfl
            · rw [upd_ne _ j0 e]
              rcases hj with hj | hj
              · exact absurd hj.symm e
              · exact .inr hj
        · rw [if_neg hjz]
          refine Ens.pure ⟨hR, ?_⟩
          rcases hj with hj | hj
          · rw [hj] at hjz; exact absurd hz hjz
          · exact hj
      · have := height_le n rank i; dsimp only; omega
      · rintro Q' ⟨hQ, hi⟩
        exact ⟨hQ.full, hQ.piv, hQ.var, fun x hx0 hx1 hxn hxz => by
          rcases eq_or_ne x i with e | e
          · rw [e, hi]
          · exact hQ.done x hx0 (by omega) hxn hxz⟩

end Osqp.Amd
