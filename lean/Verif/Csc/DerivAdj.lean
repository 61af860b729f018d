import Verif.Csc.DerivRun
import Mathlib.Tactic.LinearCombination

/-!
# The adjoint identity

If the linear system with matrix `[[I, M], [M', 0]]` is solved exactly, the solution gives the derivative of every function of
the solution.
-/

set_option linter.unusedSectionVars false
namespace Osqp.Csc
open Finset

variable {K : Type*} [Field K] [LinearOrder K] [IsStrictOrderedRing K] (p : Prob K)

theorem sum_N (f : ℕ → K) : ∑ c ∈ range p.N, f c = (∑ j ∈ range p.n, f j) + ∑ r ∈ range p.m,
    ((if p.Lo r then f (p.n + idx p.Lo r) else 0) + (if p.Up r then f (p.n + p.nl + idx p.Up r) else 0) + if p.Eq r then f (p.n + p.nl + p.nu + idx p.Eq r) else 0) := by
  have h1 := sum_range_add f (p.n + p.nl + p.nu) p.ne
  have h2 := sum_range_add f (p.n + p.nl) p.nu
  have h3 := sum_range_add f p.n p.nl
  unfold Prob.N
  rw [h1, h2, h3]
  unfold Prob.nl Prob.nu Prob.ne
  rw [sum_idx p.Lo (fun k => f (p.n + k)), sum_idx p.Up (fun k => f (p.n + idx p.Lo p.m + k)), sum_idx p.Eq (fun k => f (p.n + idx p.Lo p.m + idx p.Up p.m + k)),
    sum_add_distrib, sum_add_distrib]
  ring

section
variable {p} {r : ℕ} (hr : r < p.m)
include hr

theorem lo_lt (h : p.Lo r) : idx p.Lo r < p.nl := idx_lt p.Lo hr h
theorem up_lt (h : p.Up r) : idx p.Up r < p.nu := idx_lt p.Up hr h
theorem eq_lt (h : p.Eq r) : idx p.Eq r < p.ne := idx_lt p.Eq hr h
theorem lo_idx (h : p.Lo r) : p.lo (idx p.Lo r) = r := nth_idx p.Lo hr h
theorem up_idx (h : p.Up r) : p.up (idx p.Up r) = r := nth_idx p.Up hr h
theorem eq_idx (h : p.Eq r) : p.eq (idx p.Eq r) = r := nth_idx p.Eq hr h

theorem gA_lo (h : p.Lo r) (c : ℕ) : p.gA (idx p.Lo r) c = -p.A r c := by
  unfold Prob.gA; rw [if_pos (lo_lt hr h), lo_idx hr h]
theorem gLam_lo (h : p.Lo r) : p.gLam (idx p.Lo r) = p.yl r := by
  unfold Prob.gLam; rw [if_pos (lo_lt hr h), lo_idx hr h]
theorem gS_lo (h : p.Lo r) : p.gS (idx p.Lo r) = p.l r - p.Ax r := by
  unfold Prob.gS; rw [if_pos (lo_lt hr h), lo_idx hr h]
theorem gA_up (h : p.Up r) (c : ℕ) : p.gA (p.nl + idx p.Up r) c = p.A r c := by
  unfold Prob.gA; rw [if_neg (by omega), Nat.add_sub_cancel_left, up_idx hr h]
theorem gLam_up (h : p.Up r) : p.gLam (p.nl + idx p.Up r) = p.yu r := by
  unfold Prob.gLam; rw [if_neg (by omega), Nat.add_sub_cancel_left, up_idx hr h]
theorem gS_up (h : p.Up r) : p.gS (p.nl + idx p.Up r) = p.Ax r - p.u r := by
  unfold Prob.gS; rw [if_neg (by omega), Nat.add_sub_cancel_left, up_idx hr h]

theorem M_x_lo {i : ℕ} (hi : i < p.n) (h : p.Lo r) : p.M i (p.n + idx p.Lo r) = p.yl r * -p.A r i := by
  have := lo_lt hr h
  unfold Prob.M
  rw [if_pos hi, if_neg (by omega), if_pos (by omega), Nat.add_sub_cancel_left, gLam_lo hr h, gA_lo hr h]
theorem M_x_up {i : ℕ} (hi : i < p.n) (h : p.Up r) : p.M i (p.n + p.nl + idx p.Up r) = p.yu r * p.A r i := by
  have := up_lt hr h
  unfold Prob.M
  rw [if_pos hi, if_neg (by omega), if_pos (by omega), show p.n + p.nl + idx p.Up r - p.n = p.nl + idx p.Up r by omega, gLam_up hr h, gA_up hr h]
theorem M_x_eq {i : ℕ} (hi : i < p.n) (h : p.Eq r) : p.M i (p.n + p.nl + p.nu + idx p.Eq r) = p.A r i := by
  unfold Prob.M
  rw [if_pos hi, if_neg (by omega), if_neg (by omega), Nat.add_sub_cancel_left, eq_idx hr h]
theorem M_lo_x {j : ℕ} (hj : j < p.n) (h : p.Lo r) : p.M (p.n + idx p.Lo r) j = -p.A r j := by
  have := lo_lt hr h
  unfold Prob.M
  rw [if_neg (by omega), if_pos (by omega), if_pos hj, Nat.add_sub_cancel_left, gA_lo hr h]
theorem M_up_x {j : ℕ} (hj : j < p.n) (h : p.Up r) : p.M (p.n + p.nl + idx p.Up r) j = p.A r j := by
  have := up_lt hr h
  unfold Prob.M
  rw [if_neg (by omega), if_pos (by omega), if_pos hj, show p.n + p.nl + idx p.Up r - p.n = p.nl + idx p.Up r by omega, gA_up hr h]
theorem M_eq_x {j : ℕ} (hj : j < p.n) (h : p.Eq r) : p.M (p.n + p.nl + p.nu + idx p.Eq r) j = p.A r j := by
  unfold Prob.M
  rw [if_neg (by omega), if_neg (by omega), if_pos hj, Nat.add_sub_cancel_left, eq_idx hr h]
theorem M_lo_diag (h : p.Lo r) : p.M (p.n + idx p.Lo r) (p.n + idx p.Lo r) = p.l r - p.Ax r := by
  have := lo_lt hr h
  unfold Prob.M
  rw [if_neg (by omega), if_pos (by omega), if_neg (by omega), if_pos rfl, Nat.add_sub_cancel_left, gS_lo hr h]
theorem M_up_diag (h : p.Up r) : p.M (p.n + p.nl + idx p.Up r) (p.n + p.nl + idx p.Up r) = p.Ax r - p.u r := by
  have := up_lt hr h
  unfold Prob.M
  rw [if_neg (by omega), if_pos (by omega), if_neg (by omega), if_pos rfl, show p.n + p.nl + idx p.Up r - p.n = p.nl + idx p.Up r by omega, gS_up hr h]
end

theorem M_off {r c : ℕ} (hr : p.n ≤ r) (hc : p.n ≤ c) (hne : r ≠ c) : p.M r c = 0 := by
  unfold Prob.M
  rw [if_neg (by omega)]
  split_ifs with h1 h2 h3 h4
  · omega
  · exact absurd h3.symm hne
  · rfl
  · omega
  · rfl

theorem M_eqrow {r c : ℕ} (hr : p.n + p.nl + p.nu ≤ r) (hc : p.n ≤ c) : p.M r c = 0 := by
  unfold Prob.M
  rw [if_neg (by omega), if_neg (by omega), if_neg (by omega)]

/-- The parts of a vector of unknowns that belong to row `r`. -/
def Prob.wl (p : Prob K) (W : ℕ → K) (r : ℕ) : K := if p.Lo r then W (p.n + idx p.Lo r) else 0
def Prob.wu (p : Prob K) (W : ℕ → K) (r : ℕ) : K := if p.Up r then W (p.n + p.nl + idx p.Up r) else 0
def Prob.we (p : Prob K) (W : ℕ → K) (r : ℕ) : K := if p.Eq r then W (p.n + p.nl + p.nu + idx p.Eq r) else 0

theorem M_row_x (W : ℕ → K) {i : ℕ} (hi : i < p.n) : ∑ c ∈ range p.N, p.M i c * W c =
    (∑ j ∈ range p.n, p.P i j * W j) + ∑ r ∈ range p.m, p.A r i * (p.yu r * p.wu W r - p.yl r * p.wl W r + p.we W r) := by
  rw [sum_N]
  congr 1
  · refine sum_congr rfl fun j hj => ?_
    unfold Prob.M; rw [if_pos hi, if_pos (mem_range.1 hj)]
  · refine sum_congr rfl fun r hr => ?_
    have hr := mem_range.1 hr
    unfold Prob.wl Prob.wu Prob.we
    by_cases h1 : p.Lo r
    · rw [if_pos h1, if_pos h1, M_x_lo hr hi h1]
      by_cases h2 : p.Up r
      · rw [if_pos h2, if_pos h2, M_x_up hr hi h2]
        by_cases h3 : p.Eq r
        · rw [if_pos h3, if_pos h3, M_x_eq hr hi h3]; ring
        · rw [if_neg h3, if_neg h3]; ring
      · rw [if_neg h2, if_neg h2]
        by_cases h3 : p.Eq r
        · rw [if_pos h3, if_pos h3, M_x_eq hr hi h3]; ring
        · rw [if_neg h3, if_neg h3]; ring
    · rw [if_neg h1, if_neg h1]
      by_cases h2 : p.Up r
      · rw [if_pos h2, if_pos h2, M_x_up hr hi h2]
        by_cases h3 : p.Eq r
        · rw [if_pos h3, if_pos h3, M_x_eq hr hi h3]; ring
        · rw [if_neg h3, if_neg h3]; ring
      · rw [if_neg h2, if_neg h2]
        by_cases h3 : p.Eq r
        · rw [if_pos h3, if_pos h3, M_x_eq hr hi h3]; ring
        · rw [if_neg h3, if_neg h3]; ring

theorem M_col_x (W : ℕ → K) {j : ℕ} (hj : j < p.n) : ∑ c ∈ range p.N, p.M c j * W c =
    (∑ i ∈ range p.n, p.P i j * W i) + ∑ r ∈ range p.m, p.A r j * (p.wu W r - p.wl W r + p.we W r) := by
  rw [sum_N]
  congr 1
  · refine sum_congr rfl fun i hi => ?_
    unfold Prob.M; rw [if_pos (mem_range.1 hi), if_pos hj]
  · refine sum_congr rfl fun r hr => ?_
    have hr := mem_range.1 hr
    unfold Prob.wl Prob.wu Prob.we
    by_cases h1 : p.Lo r
    · rw [if_pos h1, if_pos h1, M_lo_x hr hj h1]
      by_cases h2 : p.Up r
      · rw [if_pos h2, if_pos h2, M_up_x hr hj h2]
        by_cases h3 : p.Eq r
        · rw [if_pos h3, if_pos h3, M_eq_x hr hj h3]; ring
        · rw [if_neg h3, if_neg h3]; ring
      · rw [if_neg h2, if_neg h2]
        by_cases h3 : p.Eq r
        · rw [if_pos h3, if_pos h3, M_eq_x hr hj h3]; ring
        · rw [if_neg h3, if_neg h3]; ring
    · rw [if_neg h1, if_neg h1]
      by_cases h2 : p.Up r
      · rw [if_pos h2, if_pos h2, M_up_x hr hj h2]
        by_cases h3 : p.Eq r
        · rw [if_pos h3, if_pos h3, M_eq_x hr hj h3]; ring
        · rw [if_neg h3, if_neg h3]; ring
      · rw [if_neg h2, if_neg h2]
        by_cases h3 : p.Eq r
        · rw [if_pos h3, if_pos h3, M_eq_x hr hj h3]; ring
        · rw [if_neg h3, if_neg h3]; ring

/-- A row (or column) of `M` below the variables: the part for the variables and one diagonal entry. -/
theorem sum_low {f : ℕ → K} {k : ℕ} (hk : p.n ≤ k) (hkN : k < p.N) (hf : ∀ c, p.n ≤ c → c < p.N → c ≠ k → f c = 0) :
    ∑ c ∈ range p.N, f c = (∑ j ∈ range p.n, f j) + f k := by
  have hN : p.N = p.n + (p.N - p.n) := by unfold Prob.N; omega
  rw [hN, sum_range_add]
  congr 1
  rw [sum_eq_single (k - p.n)]
  · rw [Nat.add_sub_cancel' hk]
  · intro c hc hne
    rw [mem_range] at hc
    exact hf _ (by omega) (by omega) (by omega)
  · intro h; exact absurd (mem_range.2 (by omega)) h

section
variable {p} {r : ℕ} (hr : r < p.m) (W : ℕ → K)
include hr

theorem M_row_lo (h : p.Lo r) : ∑ c ∈ range p.N, p.M (p.n + idx p.Lo r) c * W c = -(∑ j ∈ range p.n, p.A r j * W j) + (p.l r - p.Ax r) * W (p.n + idx p.Lo r) := by
  have := lo_lt hr h
  rw [sum_low p (k := p.n + idx p.Lo r) (by omega) (by unfold Prob.N; omega) (fun c h1 _ h3 => by rw [M_off p (by omega) h1 h3.symm, zero_mul]), M_lo_diag hr h, ← sum_neg_distrib]
  congr 1
  exact sum_congr rfl fun j hj => by rw [M_lo_x hr (mem_range.1 hj) h]; ring
theorem M_row_up (h : p.Up r) : ∑ c ∈ range p.N, p.M (p.n + p.nl + idx p.Up r) c * W c = (∑ j ∈ range p.n, p.A r j * W j) + (p.Ax r - p.u r) * W (p.n + p.nl + idx p.Up r) := by
  have := up_lt hr h
  rw [sum_low p (k := p.n + p.nl + idx p.Up r) (by omega) (by unfold Prob.N; omega) (fun c h1 _ h3 => by rw [M_off p (by omega) h1 h3.symm, zero_mul]), M_up_diag hr h]
  congr 1
  exact sum_congr rfl fun j hj => by rw [M_up_x hr (mem_range.1 hj) h]
theorem M_row_eq (h : p.Eq r) : ∑ c ∈ range p.N, p.M (p.n + p.nl + p.nu + idx p.Eq r) c * W c = ∑ j ∈ range p.n, p.A r j * W j := by
  have := eq_lt hr h
  rw [sum_low p (k := p.n + p.nl + p.nu + idx p.Eq r) (by omega) (by unfold Prob.N; omega) (fun c h1 _ h3 => by rw [M_off p (by omega) h1 h3.symm, zero_mul]),
    M_eqrow p (by omega) (by omega), zero_mul, add_zero]
  exact sum_congr rfl fun j hj => by rw [M_eq_x hr (mem_range.1 hj) h]
theorem M_col_lo (h : p.Lo r) : ∑ c ∈ range p.N, p.M c (p.n + idx p.Lo r) * W c = p.yl r * -(∑ j ∈ range p.n, p.A r j * W j) + (p.l r - p.Ax r) * W (p.n + idx p.Lo r) := by
  have := lo_lt hr h
  rw [sum_low p (k := p.n + idx p.Lo r) (by omega) (by unfold Prob.N; omega) (fun c h1 _ h3 => by rw [M_off p h1 (by omega) h3, zero_mul]), M_lo_diag hr h, ← sum_neg_distrib, mul_sum]
  congr 1
  exact sum_congr rfl fun j hj => by rw [M_x_lo hr (mem_range.1 hj) h]; ring
theorem M_col_up (h : p.Up r) : ∑ c ∈ range p.N, p.M c (p.n + p.nl + idx p.Up r) * W c = p.yu r * (∑ j ∈ range p.n, p.A r j * W j) + (p.Ax r - p.u r) * W (p.n + p.nl + idx p.Up r) := by
  have := up_lt hr h
  rw [sum_low p (k := p.n + p.nl + idx p.Up r) (by omega) (by unfold Prob.N; omega) (fun c h1 _ h3 => by rw [M_off p h1 (by omega) h3, zero_mul]), M_up_diag hr h, mul_sum]
  congr 1
  exact sum_congr rfl fun j hj => by rw [M_x_up hr (mem_range.1 hj) h]; ring
theorem M_col_eq (h : p.Eq r) : ∑ c ∈ range p.N, p.M c (p.n + p.nl + p.nu + idx p.Eq r) * W c = ∑ j ∈ range p.n, p.A r j * W j := by
  have := eq_lt hr h
  rw [sum_low p (k := p.n + p.nl + p.nu + idx p.Eq r) (by omega) (by unfold Prob.N; omega) (fun c h1 _ h3 => by rw [M_off p h1 (by omega) h3, zero_mul]),
    M_eqrow p (by omega) (by omega), zero_mul, add_zero]
  exact sum_congr rfl fun j hj => by rw [M_x_eq hr (mem_range.1 hj) h]
end

theorem eq_not_lo {r : ℕ} (h : p.Eq r) : ¬ p.Lo r := fun h2 => h h2.1
theorem eq_not_up {r : ℕ} (h : p.Eq r) : ¬ p.Up r := fun h2 => h h2.1

/-- The system, split: `z1 + M z2 = R1`, `M' z1 = R2`. -/
theorem adj_top (Z : ℕ → K) {k : ℕ} (hk : k < p.N) : ∑ c ∈ range (2 * p.N), p.adj k c * Z c = Z k + ∑ c ∈ range p.N, p.M k c * Z (p.N + c) := by
  rw [two_mul, sum_range_add]
  congr 1
  · rw [sum_eq_single k]
    · unfold Prob.adj; rw [if_pos hk, if_pos hk, if_pos rfl, one_mul]
    · intro c hc hne
      unfold Prob.adj; rw [if_pos hk, if_pos (mem_range.1 hc), if_neg (Ne.symm hne), zero_mul]
    · intro h; exact absurd (mem_range.2 hk) h
  · refine sum_congr rfl fun c _ => ?_
    unfold Prob.adj; rw [if_pos hk, if_neg (by omega), Nat.add_sub_cancel_left]

theorem adj_bot (Z : ℕ → K) {k : ℕ} : ∑ c ∈ range (2 * p.N), p.adj (p.N + k) c * Z c = ∑ c ∈ range p.N, p.M c k * Z c := by
  rw [two_mul, sum_range_add, sum_eq_zero (s := range p.N) (f := fun c => p.adj (p.N + k) (p.N + c) * Z (p.N + c)), add_zero]
  · refine sum_congr rfl fun c hc => ?_
    unfold Prob.adj; rw [if_neg (by omega), if_pos (mem_range.1 hc), Nat.add_sub_cancel_left]
  · intro c _
    unfold Prob.adj; rw [if_neg (by omega), if_neg (by omega), zero_mul]

/-- With a regular problem the first half of the solution vanishes. -/
theorem z1_zero (hsym : ∀ i < p.n, ∀ j < p.n, p.P i j = p.P j i) (hreg : p.Regular) {W : ℕ → K} (hW : ∀ k < p.N, ∑ c ∈ range p.N, p.M c k * W c = 0) :
    ∀ k < p.N, W k = 0 := by
  have hlin : Linearised p Dir.zero ⟨W, fun r => if p.Eq r then (if p.y r ≥ 0 then 0 else -p.we W r) else p.wl W r,
      fun r => if p.Eq r then (if p.y r ≥ 0 then p.we W r else 0) else p.wu W r⟩ := by
    refine ⟨fun i hi => ?_, fun r hr h => ?_, fun r hr h => ?_, fun r hr h => ?_, fun r hr h1 h2 => ?_, fun r hr h1 h2 => ?_, fun r hr h1 h2 => ?_, fun r hr h1 h2 => ?_⟩
    · have h1 := hW i (by unfold Prob.N; omega)
      rw [M_col_x p W hi] at h1
      refine Eq.trans ?_ h1
      simp only [Dir.zero, zero_mul, add_zero]
      congr 1
      · exact sum_congr rfl fun j hj => by rw [hsym i hi j (mem_range.1 hj)]
      · refine sum_congr rfl fun r hr => ?_
        congr 1
        by_cases h2 : p.Eq r
        · unfold Prob.wl Prob.wu
          rw [if_pos h2, if_pos h2, if_neg (eq_not_lo p h2), if_neg (eq_not_up p h2)]
          by_cases h3 : p.y r ≥ 0
          · rw [if_pos h3, if_pos h3]; ring
          · rw [if_neg h3, if_neg h3]; ring
        · rw [if_neg h2, if_neg h2]
          unfold Prob.we
          rw [if_neg h2]; ring
    · have h0 := lo_lt hr h
      have h1 := hW (p.n + idx p.Lo r) (by unfold Prob.N; omega)
      rw [M_col_lo hr W h] at h1
      have h2 : ¬ p.Eq r := fun h2 => eq_not_lo p h2 h
      simp only [Dir.zero, zero_mul, add_zero, zero_sub, if_neg h2, Prob.wl, if_pos h]
      exact h1
    · have h0 := up_lt hr h
      have h1 := hW (p.n + p.nl + idx p.Up r) (by unfold Prob.N; omega)
      rw [M_col_up hr W h] at h1
      have h2 : ¬ p.Eq r := fun h2 => eq_not_up p h2 h
      simp only [Dir.zero, zero_mul, add_zero, sub_zero, if_neg h2, Prob.wu, if_pos h]
      exact h1
    · have h0 := eq_lt hr h
      have h1 := hW (p.n + p.nl + p.nu + idx p.Eq r) (by unfold Prob.N; omega)
      rw [M_col_eq hr W h] at h1
      simp only [Dir.zero, zero_mul, add_zero]
      exact h1
    · show (if p.Eq r then _ else p.wl W r) = 0
      rw [if_neg h1]; unfold Prob.wl; rw [if_neg h2]
    · show (if p.Eq r then _ else p.wu W r) = 0
      rw [if_neg h1]; unfold Prob.wu; rw [if_neg h2]
    · show (if p.Eq r then (if p.y r ≥ 0 then (0 : K) else _) else _) = 0
      rw [if_pos h1, if_pos h2]
    · show (if p.Eq r then (if p.y r ≥ 0 then _ else (0 : K)) else _) = 0
      rw [if_pos h1, if_neg (not_le.2 h2)]
  obtain ⟨h1, h2⟩ := hreg _ hlin
  simp only at h1 h2
  intro k hk
  by_cases k1 : k < p.n
  · exact h1 k k1
  by_cases k2 : k < p.n + p.nl
  · obtain ⟨g1, g2, g3⟩ := nth_spec p.Lo (m := p.m) (k := k - p.n) (show k - p.n < p.nl by omega)
    have := (h2 _ g1).1
    rw [if_neg (fun h => eq_not_lo p h g2)] at this
    unfold Prob.wl at this
    rw [if_pos g2, g3, show p.n + (k - p.n) = k by omega] at this
    exact this
  by_cases k3 : k < p.n + p.nl + p.nu
  · obtain ⟨g1, g2, g3⟩ := nth_spec p.Up (m := p.m) (k := k - (p.n + p.nl)) (show k - (p.n + p.nl) < p.nu by omega)
    have := (h2 _ g1).2
    rw [if_neg (fun h => eq_not_up p h g2)] at this
    unfold Prob.wu at this
    rw [if_pos g2, g3, show p.n + p.nl + (k - (p.n + p.nl)) = k by omega] at this
    exact this
  · obtain ⟨g1, g2, g3⟩ := nth_spec p.Eq (m := p.m) (k := k - (p.n + p.nl + p.nu)) (show k - (p.n + p.nl + p.nu) < p.ne by unfold Prob.N at hk; omega)
    have h3 := h2 _ g1
    rw [if_pos g2, if_pos g2] at h3
    have h4 : p.we W (nth p.Eq p.m (k - (p.n + p.nl + p.nu))) = 0 := by
      by_cases h5 : p.y (nth p.Eq p.m (k - (p.n + p.nl + p.nu))) ≥ 0
      · have := h3.2; rw [if_pos h5] at this; exact this
      · have := h3.1; rw [if_neg h5] at this; linarith
    unfold Prob.we at h4
    rw [if_pos g2, g3, show p.n + p.nl + p.nu + (k - (p.n + p.nl + p.nu)) = k by omega] at h4
    exact h4

/-- What the change of the data contributes through row `r`. -/
def Prob.rowDot (p : Prob K) (Z : ℕ → K) (d : Dir K) (r : ℕ) : K :=
  (if p.Lo r then p.zl Z r * p.yl r * (d.l r - ∑ j ∈ range p.n, d.A r j * p.x j) else 0) -
  (if p.Up r then p.zu Z r * p.yu r * (d.u r - ∑ j ∈ range p.n, d.A r j * p.x j) else 0) -
  (if p.Eq r then p.ze Z r * (d.l r - ∑ j ∈ range p.n, d.A r j * p.x j) else 0)

/-- The right-hand side, row by row. -/
theorem rhsF_x {DX DL DU : ℕ → K} {i : ℕ} (hi : i < p.n) : p.rhsF DX DL DU i = -DX i := by unfold Prob.rhsF; rw [if_pos hi]
theorem rhsF_lo {DX DL DU : ℕ → K} {r : ℕ} (hr : r < p.m) (h : p.Lo r) : p.rhsF DX DL DU (p.n + idx p.Lo r) = -DL r := by
  have := lo_lt hr h
  unfold Prob.rhsF; rw [if_neg (by omega), if_pos (by omega), Nat.add_sub_cancel_left, lo_idx hr h]
theorem rhsF_up {DX DL DU : ℕ → K} {r : ℕ} (hr : r < p.m) (h : p.Up r) : p.rhsF DX DL DU (p.n + p.nl + idx p.Up r) = -DU r := by
  have := up_lt hr h
  unfold Prob.rhsF; rw [if_neg (by omega), if_neg (by omega), if_pos (by omega), Nat.add_sub_cancel_left, up_idx hr h]
theorem rhsF_eq {DX DL DU : ℕ → K} {r : ℕ} (hr : r < p.m) (h : p.Eq r) : p.rhsF DX DL DU (p.n + p.nl + p.nu + idx p.Eq r) = -p.dNu DL DU r := by
  have := eq_lt hr h
  unfold Prob.rhsF
  rw [if_neg (by omega), if_neg (by omega), if_neg (by omega), if_pos (by unfold Prob.N; omega), Nat.add_sub_cancel_left, eq_idx hr h]
theorem rhsF_bot {DX DL DU : ℕ → K} (k : ℕ) : p.rhsF DX DL DU (p.N + k) = 0 := by
  unfold Prob.rhsF
  rw [if_neg (by unfold Prob.N; omega), if_neg (by unfold Prob.N; omega), if_neg (by unfold Prob.N; omega), if_neg (by omega)]

theorem adjoint_top (hsym : ∀ i < p.n, ∀ j < p.n, p.P i j = p.P j i) {DX DL DU Z : ℕ → K}
    (htop : ∀ k < p.N, ∑ c ∈ range p.N, p.M k c * Z (p.N + c) = p.rhsF DX DL DU k) {d : Dir K} {t : Tan K} (ht : Linearised p d t) :
    p.lossDot DX DL DU t = (∑ i ∈ range p.n, p.zx Z i * ((∑ j ∈ range p.n, d.P i j * p.x j) + d.q i + ∑ r ∈ range p.m, d.A r i * p.y r)) +
      ∑ r ∈ range p.m, p.rowDot Z d r := by
  set W : ℕ → K := fun c => Z (p.N + c) with hWdef
  -- the four kinds of equations
  have ex : ∀ i < p.n, DX i = -((∑ j ∈ range p.n, p.P i j * p.zx Z j) + ∑ r ∈ range p.m, p.A r i * (p.yu r * p.wu W r - p.yl r * p.wl W r + p.we W r)) := by
    intro i hi
    have := htop i (by unfold Prob.N; omega)
    rw [show (∑ c ∈ range p.N, p.M i c * Z (p.N + c)) = ∑ c ∈ range p.N, p.M i c * W c from rfl, M_row_x p W hi, rhsF_x p hi] at this
    rw [show (∑ j ∈ range p.n, p.P i j * p.zx Z j) = ∑ j ∈ range p.n, p.P i j * W j from rfl]
    linear_combination this
  have el : ∀ r < p.m, p.Lo r → DL r = (∑ j ∈ range p.n, p.A r j * p.zx Z j) - (p.l r - p.Ax r) * p.wl W r := by
    intro r hr h
    have h0 := lo_lt hr h
    have := htop (p.n + idx p.Lo r) (by unfold Prob.N; omega)
    rw [show (∑ c ∈ range p.N, p.M (p.n + idx p.Lo r) c * Z (p.N + c)) = ∑ c ∈ range p.N, p.M (p.n + idx p.Lo r) c * W c from rfl, M_row_lo hr W h, rhsF_lo p hr h] at this
    unfold Prob.wl
    rw [if_pos h, show (∑ j ∈ range p.n, p.A r j * p.zx Z j) = ∑ j ∈ range p.n, p.A r j * W j from rfl]
    linear_combination this
  have eu : ∀ r < p.m, p.Up r → DU r = -(∑ j ∈ range p.n, p.A r j * p.zx Z j) - (p.Ax r - p.u r) * p.wu W r := by
    intro r hr h
    have h0 := up_lt hr h
    have := htop (p.n + p.nl + idx p.Up r) (by unfold Prob.N; omega)
    rw [show (∑ c ∈ range p.N, p.M (p.n + p.nl + idx p.Up r) c * Z (p.N + c)) = ∑ c ∈ range p.N, p.M (p.n + p.nl + idx p.Up r) c * W c from rfl, M_row_up hr W h, rhsF_up p hr h] at this
    unfold Prob.wu
    rw [if_pos h, show (∑ j ∈ range p.n, p.A r j * p.zx Z j) = ∑ j ∈ range p.n, p.A r j * W j from rfl]
    linear_combination this
  have ee : ∀ r < p.m, p.Eq r → p.dNu DL DU r = -(∑ j ∈ range p.n, p.A r j * p.zx Z j) := by
    intro r hr h
    have h0 := eq_lt hr h
    have := htop (p.n + p.nl + p.nu + idx p.Eq r) (by unfold Prob.N; omega)
    rw [show (∑ c ∈ range p.N, p.M (p.n + p.nl + p.nu + idx p.Eq r) c * Z (p.N + c)) = ∑ c ∈ range p.N, p.M (p.n + p.nl + p.nu + idx p.Eq r) c * W c from rfl,
      M_row_eq hr W h, rhsF_eq p hr h] at this
    rw [show (∑ j ∈ range p.n, p.A r j * p.zx Z j) = ∑ j ∈ range p.n, p.A r j * W j from rfl]
    linear_combination this
  have hwl : ∀ r, p.Lo r → p.wl W r = p.zl Z r := fun r h => by
    unfold Prob.wl Prob.zl; rw [if_pos h]; simp only [hWdef]; congr 1; omega
  have hwu : ∀ r, p.Up r → p.wu W r = p.zu Z r := fun r h => by
    unfold Prob.wu Prob.zu; rw [if_pos h]; simp only [hWdef]; congr 1; omega
  have hwe : ∀ r, p.Eq r → p.we W r = p.ze Z r := fun r h => by
    unfold Prob.we Prob.ze; rw [if_pos h]; simp only [hWdef]; congr 1; omega
  -- the rows
  have hrow : ∀ r < p.m, DL r * t.yl r + DU r * t.yu r - (p.yu r * p.wu W r - p.yl r * p.wl W r + p.we W r) * (∑ j ∈ range p.n, p.A r j * t.x j) =
      p.rowDot Z d r - (t.yu r - t.yl r) * (∑ j ∈ range p.n, p.A r j * p.zx Z j) := by
    intro r hr
    have hsplit : ∑ j ∈ range p.n, (p.A r j * t.x j + d.A r j * p.x j) = (∑ j ∈ range p.n, p.A r j * t.x j) + ∑ j ∈ range p.n, d.A r j * p.x j := sum_add_distrib
    unfold Prob.rowDot
    by_cases h3 : p.Eq r
    · have h1 := eq_not_lo p h3
      have h2 := eq_not_up p h3
      have e1 := ee r hr h3
      have e2 := ht.eq r hr h3
      rw [hsplit] at e2
      rw [if_neg h1, if_neg h2, if_pos h3, hwe r h3]
      unfold Prob.wl Prob.wu
      rw [if_neg h1, if_neg h2]
      unfold Prob.dNu at e1
      by_cases h4 : p.y r ≥ 0
      · rw [if_pos h4] at e1
        rw [ht.eqPos r hr h3 h4, e1]
        linear_combination -(p.ze Z r) * e2
      · rw [if_neg h4] at e1
        rw [ht.eqNeg r hr h3 (not_le.1 h4), show DL r = ∑ j ∈ range p.n, p.A r j * p.zx Z j by linear_combination -e1]
        linear_combination -(p.ze Z r) * e2
    · have he : p.we W r = 0 := by unfold Prob.we; rw [if_neg h3]
      rw [if_neg h3, he]
      by_cases h1 : p.Lo r
      · have l1 := el r hr h1
        have l2 := ht.lower r hr h1
        rw [hsplit] at l2
        rw [if_pos h1, hwl r h1, l1, hwl r h1]
        by_cases h2 : p.Up r
        · have u1 := eu r hr h2
          have u2 := ht.upper r hr h2
          rw [hsplit] at u2
          rw [if_pos h2, hwu r h2, u1, hwu r h2]
          linear_combination -(p.zl Z r) * l2 - (p.zu Z r) * u2
        · rw [if_neg h2, ht.noUpper r hr h3 h2]
          unfold Prob.wu
          rw [if_neg h2]
          linear_combination -(p.zl Z r) * l2
      · rw [if_neg h1, ht.noLower r hr h3 h1]
        have hl0 : p.wl W r = 0 := by unfold Prob.wl; rw [if_neg h1]
        rw [hl0]
        by_cases h2 : p.Up r
        · have u1 := eu r hr h2
          have u2 := ht.upper r hr h2
          rw [hsplit] at u2
          rw [if_pos h2, hwu r h2, u1, hwu r h2]
          linear_combination -(p.zu Z r) * u2
        · rw [if_neg h2, ht.noUpper r hr h3 h2]
          unfold Prob.wu
          rw [if_neg h2]
          ring
  -- the variables
  have hA : ∀ (v : ℕ → K) (w : ℕ → K), ∑ i ∈ range p.n, v i * (∑ r ∈ range p.m, p.A r i * w r) = ∑ r ∈ range p.m, w r * ∑ j ∈ range p.n, p.A r j * v j := by
    intro v w
    simp only [mul_sum]
    rw [sum_comm]
    exact sum_congr rfl fun r _ => sum_congr rfl fun j _ => by ring
  have hP : ∑ i ∈ range p.n, t.x i * (∑ j ∈ range p.n, p.P i j * p.zx Z j) = ∑ i ∈ range p.n, p.zx Z i * ∑ j ∈ range p.n, p.P i j * t.x j := by
    simp only [mul_sum]
    rw [sum_comm]
    exact sum_congr rfl fun r hr => sum_congr rfl fun j hj => by rw [hsym j (mem_range.1 hj) r (mem_range.1 hr)]; ring
  have hx : ∑ i ∈ range p.n, DX i * t.x i = -(∑ i ∈ range p.n, p.zx Z i * ∑ j ∈ range p.n, p.P i j * t.x j) -
      ∑ r ∈ range p.m, (p.yu r * p.wu W r - p.yl r * p.wl W r + p.we W r) * ∑ j ∈ range p.n, p.A r j * t.x j := by
    rw [← hP, ← hA t.x, ← sum_neg_distrib, ← sum_sub_distrib]
    exact sum_congr rfl fun i hi => by rw [ex i (mem_range.1 hi)]; ring
  have hstat : ∑ i ∈ range p.n, p.zx Z i * ((∑ j ∈ range p.n, d.P i j * p.x j) + d.q i + ∑ r ∈ range p.m, d.A r i * p.y r) =
      -(∑ i ∈ range p.n, p.zx Z i * ∑ j ∈ range p.n, p.P i j * t.x j) - ∑ r ∈ range p.m, (t.yu r - t.yl r) * ∑ j ∈ range p.n, p.A r j * p.zx Z j := by
    rw [← hA (p.zx Z), ← sum_neg_distrib, ← sum_sub_distrib]
    refine sum_congr rfl fun i hi => ?_
    have := ht.stat i (mem_range.1 hi)
    rw [sum_add_distrib, sum_add_distrib] at this
    linear_combination (p.zx Z i) * this
  unfold Prob.lossDot
  rw [hx, hstat]
  have hrows : ∑ r ∈ range p.m, (DL r * t.yl r + DU r * t.yu r) - ∑ r ∈ range p.m, (p.yu r * p.wu W r - p.yl r * p.wl W r + p.we W r) * (∑ j ∈ range p.n, p.A r j * t.x j) =
      ∑ r ∈ range p.m, p.rowDot Z d r - ∑ r ∈ range p.m, (t.yu r - t.yl r) * (∑ j ∈ range p.n, p.A r j * p.zx Z j) := by
    rw [← sum_sub_distrib, ← sum_sub_distrib]
    exact sum_congr rfl fun r hr => hrow r (mem_range.1 hr)
  linear_combination hrows

end Osqp.Csc
