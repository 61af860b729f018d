import Verif.Csc.DerivVec
import Verif.Csc.DerivSpec

/-!
# The classification loop
-/

set_option linter.unusedSectionVars false
namespace Osqp.Csc
open Finset

variable {K : Type*} [Field K] [LinearOrder K]

/-- The sign recorded for an equality row. -/
def signOf (y : K) : ℤ := if y ≥ 0 then 1 else -1

/-- After `k` rounds of the loop over `m` rows. -/
structure ClassAt (m : ℕ) (L U Y : ℕ → K) (k : ℕ) (s : Lists) : Prop where
  nl : s.nl = ((idx (LoRow L U) k : ℕ) : ℤ)
  nu : s.nu = ((idx (UpRow L U) k : ℕ) : ℤ)
  ne : s.ne = ((idx (EqRow L U) k : ℕ) : ℤ)
  lIdx : Holds s.lIdx (idx (LoRow L U) k) (fun t => ((nth (LoRow L U) m t : ℕ) : ℤ))
  uIdx : Holds s.uIdx (idx (UpRow L U) k) (fun t => ((nth (UpRow L U) m t : ℕ) : ℤ))
  eqIdx : Holds s.eqIdx (idx (EqRow L U) k) (fun t => ((nth (EqRow L U) m t : ℕ) : ℤ))
  nuSign : Holds s.nuSign (idx (EqRow L U) k) (fun t => signOf (Y (nth (EqRow L U) m t)))
  ineqL : Holds s.ineqL k (flag (LoRow L U))
  ineqU : Holds s.ineqU k (flag (UpRow L U))
  eq : Holds s.eq k (flag (EqRow L U))
  sl : s.lIdx.size = m
  su : s.uIdx.size = m
  se : s.eqIdx.size = m
  sn : s.nuSign.size = m
  fl : s.ineqL.size = m
  fu : s.ineqU.size = m
  fe : s.eq.size = m

theorem classStep_at {l u y : Buf K} {m : ℕ} {L U Y : ℕ → K} (hl : Holds l m L) (hu : Holds u m U) (hy : Holds y m Y) {k : ℕ} {s : Lists} (hk : k < m)
    (h : ClassAt m L U Y k s) : ∃ s', classStep l u y (k : ℤ) s = some s' ∧ ClassAt m L U Y (k + 1) s' := by
  unfold classStep
  rw [hl.rd hk, hu.rd hk]
  simp only [Option.bind_some]
  by_cases h1 : L k < U k
  · rw [if_pos h1, Buf.wr_eq (by rw [h.fe]; exact hk)]
    simp only [Option.bind_some]
    have he : ¬ EqRow L U k := fun h2 => h2 h1
    have hE : idx (EqRow L U) (k + 1) = idx (EqRow L U) k := by rw [idx_succ, if_neg he, add_zero]
    have hFe : Holds (s.eq.set k 0) (k + 1) (flag (EqRow L U)) := h.eq.extend (by rw [h.fe]; exact hk) 0 (by rw [flag, if_neg he])
    obtain ⟨s1, e1, h2⟩ : ∃ s1 : Lists, (if L k > -Const.infval K then
        (s.lIdx.wr s.nl k).bind fun lIdx => (s.ineqL.wr k 1).bind fun ineqL => some { s with eq := s.eq.set k 0, lIdx := lIdx, ineqL := ineqL, nl := s.nl + 1 }
      else (s.ineqL.wr k 0).bind fun ineqL => some { s with eq := s.eq.set k 0, ineqL := ineqL }) = some s1 ∧
      s1.nl = ((idx (LoRow L U) (k + 1) : ℕ) : ℤ) ∧ s1.nu = s.nu ∧ s1.ne = s.ne ∧ Holds s1.lIdx (idx (LoRow L U) (k + 1)) (fun t => ((nth (LoRow L U) m t : ℕ) : ℤ)) ∧
      s1.uIdx = s.uIdx ∧ s1.eqIdx = s.eqIdx ∧ s1.nuSign = s.nuSign ∧ Holds s1.ineqL (k + 1) (flag (LoRow L U)) ∧ s1.ineqU = s.ineqU ∧ s1.eq = s.eq.set k 0 ∧
      s1.lIdx.size = m ∧ s1.ineqL.size = m := by
      by_cases h2 : L k > -Const.infval K
      · have hp : LoRow L U k := ⟨h1, h2⟩
        rw [if_pos h2, h.nl, Buf.wr_eq (by rw [h.sl]; have := idx_le (LoRow L U) k; omega), Buf.wr_eq (by rw [h.fl]; exact hk)]
        refine ⟨_, rfl, ?_, rfl, rfl, ?_, rfl, rfl, rfl, ?_, rfl, rfl, h.sl, h.fl⟩
        · rw [idx_succ, if_pos hp]; push_cast; rfl
        · rw [idx_succ, if_pos hp]
          exact h.lIdx.extend (by rw [h.sl]; have := idx_le (LoRow L U) k; omega) _ (by rw [nth_idx _ hk hp])
        · exact h.ineqL.extend (by rw [h.fl]; exact hk) 1 (by rw [flag, if_pos hp])
      · have hp : ¬ LoRow L U k := fun h3 => h2 h3.2
        rw [if_neg h2, Buf.wr_eq (by rw [h.fl]; exact hk)]
        refine ⟨_, rfl, ?_, rfl, rfl, ?_, rfl, rfl, rfl, ?_, rfl, rfl, h.sl, h.fl⟩
        · rw [idx_succ, if_neg hp, add_zero]; exact h.nl
        · rw [idx_succ, if_neg hp, add_zero]; exact h.lIdx
        · exact h.ineqL.extend (by rw [h.fl]; exact hk) 0 (by rw [flag, if_neg hp])
    rw [e1]
    simp only [Option.bind_some]
    obtain ⟨a1, a2, a3, a4, a5, a6, a7, a8, a9, a10, a11, a12⟩ := h2
    by_cases h2 : U k < Const.infval K
    · have hp : UpRow L U k := ⟨h1, h2⟩
      rw [if_pos h2, a2, a5, a9, h.nu, Buf.wr_eq (by rw [h.su]; have := idx_le (UpRow L U) k; omega), Buf.wr_eq (by rw [h.fu]; exact hk)]
      refine ⟨_, rfl, ⟨a1, ?_, ?_, a4, ?_, ?_, ?_, a8, ?_, ?_, a11, h.su, ?_, ?_, a12, h.fu, ?_⟩⟩
      · show ((idx (UpRow L U) k : ℕ) : ℤ) + 1 = _
        rw [idx_succ (UpRow L U), if_pos hp]; push_cast; rfl
      · show s1.ne = _; rw [a3, hE]; exact h.ne
      · show Holds (s.uIdx.set _ _) _ _
        rw [idx_succ (UpRow L U), if_pos hp]
        exact h.uIdx.extend (by rw [h.su]; have := idx_le (UpRow L U) k; omega) _ (by rw [nth_idx _ hk hp])
      · show Holds s1.eqIdx _ _; rw [a6, hE]; exact h.eqIdx
      · show Holds s1.nuSign _ _; rw [a7, hE]; exact h.nuSign
      · exact h.ineqU.extend (by rw [h.fu]; exact hk) 1 (by rw [flag, if_pos hp])
      · show Holds s1.eq _ _; rw [a10]; exact hFe
      · show s1.eqIdx.size = m; rw [a6]; exact h.se
      · show s1.nuSign.size = m; rw [a7]; exact h.sn
      · show s1.eq.size = m; rw [a10]; exact h.fe
    · have hp : ¬ UpRow L U k := fun h3 => h2 h3.2
      rw [if_neg h2, a9, Buf.wr_eq (by rw [h.fu]; exact hk)]
      refine ⟨_, rfl, ⟨a1, ?_, ?_, a4, ?_, ?_, ?_, a8, ?_, ?_, a11, ?_, ?_, ?_, a12, h.fu, ?_⟩⟩
      · show s1.nu = _
        rw [a2, idx_succ (UpRow L U), if_neg hp, add_zero]; exact h.nu
      · show s1.ne = _; rw [a3, hE]; exact h.ne
      · show Holds s1.uIdx _ _
        rw [a5, idx_succ (UpRow L U), if_neg hp, add_zero]; exact h.uIdx
      · show Holds s1.eqIdx _ _; rw [a6, hE]; exact h.eqIdx
      · show Holds s1.nuSign _ _; rw [a7, hE]; exact h.nuSign
      · exact h.ineqU.extend (by rw [h.fu]; exact hk) 0 (by rw [flag, if_neg hp])
      · show Holds s1.eq _ _; rw [a10]; exact hFe
      · show s1.uIdx.size = m; rw [a5]; exact h.su
      · show s1.eqIdx.size = m; rw [a6]; exact h.se
      · show s1.nuSign.size = m; rw [a7]; exact h.sn
      · show s1.eq.size = m; rw [a10]; exact h.fe
  · have he : EqRow L U k := h1
    have hlo : ¬ LoRow L U k := fun h2 => h1 h2.1
    have hup : ¬ UpRow L U k := fun h2 => h1 h2.1
    have hlt : idx (EqRow L U) k < m := by have := idx_le (EqRow L U) k; omega
    rw [if_neg h1, h.ne, Buf.wr_eq (by rw [h.se]; exact hlt), Buf.wr_eq (by rw [h.fe]; exact hk), Buf.wr_eq (by rw [h.fl]; exact hk),
      Buf.wr_eq (by rw [h.fu]; exact hk), hy.rd hk]
    simp only [Option.bind_some]
    rw [Buf.wr_eq (by rw [h.sn]; exact hlt)]
    refine ⟨_, rfl, ⟨?_, ?_, ?_, ?_, ?_, ?_, ?_, ?_, ?_, ?_, h.sl, h.su, h.se, h.sn, h.fl, h.fu, h.fe⟩⟩
    · show s.nl = _; rw [idx_succ (LoRow L U), if_neg hlo, add_zero]; exact h.nl
    · show s.nu = _; rw [idx_succ (UpRow L U), if_neg hup, add_zero]; exact h.nu
    · show ((idx (EqRow L U) k : ℕ) : ℤ) + 1 = _
      rw [idx_succ (EqRow L U), if_pos he]; push_cast; rfl
    · rw [idx_succ (LoRow L U), if_neg hlo, add_zero]; exact h.lIdx
    · rw [idx_succ (UpRow L U), if_neg hup, add_zero]; exact h.uIdx
    · rw [idx_succ (EqRow L U), if_pos he]
      exact h.eqIdx.extend (by rw [h.se]; exact hlt) _ (by rw [nth_idx _ hk he])
    · rw [idx_succ (EqRow L U), if_pos he]
      exact h.nuSign.extend (by rw [h.sn]; exact hlt) _ (by rw [nth_idx _ hk he]; rfl)
    · exact h.ineqL.extend (by rw [h.fl]; exact hk) 0 (by rw [flag, if_neg hlo])
    · exact h.ineqU.extend (by rw [h.fu]; exact hk) 0 (by rw [flag, if_neg hup])
    · exact h.eq.extend (by rw [h.fe]; exact hk) 1 (by rw [flag, if_pos he])

theorem classify_at {l u y : Buf K} {m : ℕ} {L U Y : ℕ → K} (hl : Holds l m L) (hu : Holds u m U) (hy : Holds y m Y) :
    ∃ s, classify l u y (m : ℤ) = some s ∧ ClassAt m L U Y m s := by
  unfold classify
  refine forI_zero (ClassAt m L U Y) ?_ (fun k s hk h => classStep_at hl hu hy hk h)
  exact ⟨by simp [Lists.start], by simp [Lists.start], by simp [Lists.start], Holds.zero, Holds.zero, Holds.zero, Holds.zero, Holds.zero, Holds.zero, Holds.zero,
    fresh_size _, fresh_size _, fresh_size _, fresh_size _, fresh_size _, fresh_size _, fresh_size _⟩

/-- The three kinds of rows give at most `n + 2m` unknowns. -/
theorem counts_le (L U : ℕ → K) (m : ℕ) : idx (LoRow L U) m + idx (UpRow L U) m + idx (EqRow L U) m ≤ 2 * m := by
  induction m with
  | zero => simp
  | succ m ih =>
    rw [idx_succ, idx_succ, idx_succ]
    by_cases h : L m < U m
    · rw [if_neg (show ¬ EqRow L U m from fun h2 => h2 h)]
      have : (if LoRow L U m then 1 else 0) ≤ 1 := by split_ifs <;> omega
      have : (if UpRow L U m then 1 else 0) ≤ 1 := by split_ifs <;> omega
      omega
    · rw [if_neg (show ¬ LoRow L U m from fun h2 => h h2.1), if_neg (show ¬ UpRow L U m from fun h2 => h h2.1), if_pos (show EqRow L U m from h)]
      omega

end Osqp.Csc
