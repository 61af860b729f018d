import Verif.Amd.Valid
import Verif.Amd.Spec

/-!
# `AMD_order`
-/

namespace Osqp.Amd
open Csc Finset
set_option linter.unusedSectionVars false

variable {n : ℤ} {Ap Ai P : Buf ℤ}

theorem fresh_size (n0 : 0 ≤ n) : n ≤ ((Buf.fresh n : Buf ℤ).size : ℤ) := by show n ≤ (n.toNat : ℤ); omega

/-- The end of `AMD_order`. -/
theorem tail_ok {Cp Ci Len Pinv : Buf ℤ} (n0 : 0 ≤ n) (S : Srt n Cp Ci) (hL : n ≤ Len.size) (hI : n ≤ Pinv.size) (hP : n ≤ P.size) (dense0 imax lim status : ℤ) :
    Ens (do
      let (nzaat, Len, P) ← aat n Cp Ci Len P
      let slen := nzaat + nzaat / 5 + 7 * n
      let (_, P) ← amd1 n dense0 imax lim Cp Ci P Pinv Len slen
      (pure (status, P) : Option (ℤ × Buf ℤ))) (fun r => r.1 = status ∧ ∃ Pinv, Inverse n r.2 Pinv) := by
  refine Ens.bind (aat_ok S n0 hL hP) ?_
  rintro ⟨nz, Len, P⟩ ⟨e, hP, l, nd, mem, hC⟩
  dsimp only at e hP hC ⊢
  have pos : 0 ≤ ∑ x ∈ Ico (0 : ℤ) n, Len x := sum_nonneg fun x hx => by rw [mem_Ico] at hx; rw [hC.v x hx.1 hx.2]; omega
  refine Ens.bind (amd1_ok S n0 nd mem hC hP hI (by omega) dense0 imax lim) ?_
  rintro ⟨Q, P⟩ h
  exact Ens.pure ⟨rfl, Q, h⟩

theorem order_ok (n0 : 0 ≤ n) (fp : Full Ap (n + 1)) (fi : ∀ j, 0 ≤ j → j ≤ n → Full Ai (Ap j)) (hP : n ≤ P.size) (dense0 imax lim : ℤ) :
    Ens (order n dense0 imax lim Ap Ai P) (fun r => (r.1 = 0 ∧ (n = 0 ∨ Srt n Ap Ai) ∧ ∃ Pinv, Inverse n r.2 Pinv) ∨ (r.1 = 1 ∧ Cols n Ap Ai ∧ ¬ Srt n Ap Ai ∧ ∃ Pinv, Inverse n r.2 Pinv) ∨
      (r = (-2, P) ∧ ¬ Cols n Ap Ai)) := by
  unfold order
  rw [if_neg (by omega)]
  by_cases z : n = 0
  · rw [if_pos z]
    subst z
    exact Ens.pure (.inl ⟨rfl, .inl rfl, P, ⟨Full.none _, Full.none _, fun k k0 k1 => by omega, fun k k0 k1 => by omega⟩⟩)
  rw [if_neg z]
  refine Ens.rd fp n0 (by omega) ?_
  by_cases c : Ap n < 0
  · rw [if_pos c]
    exact Ens.pure (.inr (.inr ⟨rfl, fun h => by have := h.nonneg n0 le_rfl; omega⟩))
  rw [if_neg c]
  refine Ens.bind (valid_ok n0 fp fi) ?_
  rintro st (⟨rfl, S⟩ | ⟨rfl, C, nS⟩ | ⟨rfl, nC⟩)
  · rw [if_neg (by decide), if_neg (by decide)]
    refine Ens.imp (tail_ok n0 S (fresh_size n0) (fresh_size n0) hP dense0 imax lim 0) (fun r h => .inl ⟨h.1, .inr S, h.2⟩)
  · rw [if_neg (by decide), if_pos rfl]
    obtain ⟨⟨Rp, Ri, W, Flag⟩, e, S, hW, hF, _⟩ := preprocess_ok C n0 (fresh_size n0) (fresh_size n0)
    rw [e]
    exact Ens.imp (tail_ok n0 S hW hF hP dense0 imax lim 1) (fun r h => .inr (.inl ⟨h.1, C, nS, h.2⟩))
  · rw [if_pos rfl]
    exact Ens.pure (.inr (.inr ⟨rfl, nC⟩))

/-! ## In terms of the specification -/

theorem Inverse.perm {m : ℕ} {Pinv : Buf ℤ} (h : Inverse (m : ℤ) P Pinv) : IsPermutation m P := by
  have l : ∀ k : Fin m, (P (k : ℕ)).toNat < m := fun k => by have := h.left (k : ℕ) (by omega) (by have := k.2; omega); omega
  have r : ∀ k : Fin m, (Pinv (k : ℕ)).toNat < m := fun k => by have := h.right (k : ℕ) (by omega) (by have := k.2; omega); omega
  refine ⟨⟨fun k => ⟨_, l k⟩, fun k => ⟨_, r k⟩, fun k => ?_, fun k => ?_⟩, fun k => ?_⟩
  · have a := h.left (k : ℕ) (by omega) (by have := k.2; omega)
    apply Fin.ext
    dsimp only
    rw [Int.toNat_of_nonneg a.1, a.2.2]; rfl
  · have a := h.right (k : ℕ) (by omega) (by have := k.2; omega)
    apply Fin.ext
    dsimp only
    rw [Int.toNat_of_nonneg a.1, a.2.2]; rfl
  · have a := h.left (k : ℕ) (by omega) (by have := k.2; omega)
    rw [h.fullP.rd (by omega) (by have := k.2; omega)]
    show _ = some (((P (k : ℕ)).toNat : ℕ) : ℤ)
    rw [Int.toNat_of_nonneg a.1]

theorem cols_iff {m : ℕ} {ap ai : ℕ → ℤ} (hp : Holds Ap (m + 1) ap) (hi : ∀ j ≤ m, Holds Ai (ap j).toNat ai) : Cols (m : ℤ) Ap Ai ↔ WellFormed m ap ai := by
  obtain ⟨fp, vp⟩ := full_of_holds hp
  have vi : ∀ p : ℕ, (p : ℤ) < ap m → Ai (p : ℤ) = ai p := fun p h => (full_of_holds (hi m le_rfl)).2 p (by omega)
  have vm : Ap (m : ℤ) = ap m := vp m (by omega)
  constructor
  · intro h
    refine ⟨?_, fun j hj => ?_, fun p hpm => ?_⟩
    · rw [← vp 0 (by omega)]; exact h.zero
    · have := h.mono j (by omega) (by omega)
      rw [← vp j (by omega), ← vp (j + 1) (by omega)]; push_cast; exact this
    · rw [← vi p hpm]; exact h.rng p (by omega) (by omega)
  · intro h
    refine ⟨by push_cast at fp; exact fp, ?_, fun j j0 j1 => ?_, ?_, fun p p0 p1 => ?_⟩
    · have := vp 0 (by omega); push_cast at this; rw [this]; exact h.zero
    · obtain ⟨k, rfl⟩ := Int.eq_ofNat_of_zero_le j0
      have := h.mono k (by omega)
      rw [vp k (by omega), show ((k : ℤ) + 1) = ((k + 1 : ℕ) : ℤ) by push_cast; rfl, vp (k + 1) (by omega)]; exact this
    · have := (full_of_holds (hi m le_rfl)).1
      rw [vm]
      exact this.mono (by omega)
    · obtain ⟨k, rfl⟩ := Int.eq_ofNat_of_zero_le p0
      rw [vi k (by omega)]; exact h.rows k (by omega)

theorem srt_iff {m : ℕ} {ap ai : ℕ → ℤ} (hp : Holds Ap (m + 1) ap) (hi : ∀ j ≤ m, Holds Ai (ap j).toNat ai) : Srt (m : ℤ) Ap Ai ↔ WellFormed m ap ai ∧ SortedCols m ap ai := by
  rw [← cols_iff hp hi]
  obtain ⟨fp, vp⟩ := full_of_holds hp
  have vi : ∀ (j : ℕ) (_ : j ≤ m) (p : ℕ), (p : ℤ) < ap j → Ai (p : ℤ) = ai p := fun j hj p h => (full_of_holds (hi j hj)).2 p (by omega)
  constructor
  · intro h
    refine ⟨h.toCols, fun j hj p p0 p1 => ?_⟩
    have e := vp (j + 1) (by omega)
    push_cast at e
    have := h.inc j p (by omega) (by omega) (by rw [vp j (by omega)]; exact p0) (by rw [e]; exact p1)
    rw [← vi (j + 1) (by omega) p (by omega), ← vi (j + 1) (by omega) (p + 1) (by push_cast; omega)]
    push_cast; exact this
  · rintro ⟨C, S⟩
    refine ⟨C, fun j p j0 j1 p0 p1 => ?_⟩
    have q0 := C.nonneg j0 j1.le
    obtain ⟨k, rfl⟩ := Int.eq_ofNat_of_zero_le j0
    obtain ⟨q, rfl⟩ := Int.eq_ofNat_of_zero_le (le_trans q0 p0)
    have e := vp (k + 1) (by omega)
    push_cast at e
    rw [vp k (by omega)] at p0
    rw [e] at p1
    have := S k (by omega) q p0 p1
    rw [vi (k + 1) (by omega) q (by omega), show ((q : ℤ) + 1) = ((q + 1 : ℕ) : ℤ) by push_cast; rfl, vi (k + 1) (by omega) (q + 1) (by push_cast; omega)]
    exact this

end Osqp.Amd
