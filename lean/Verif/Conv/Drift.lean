import Mathlib.Analysis.InnerProductSpace.Basic
import Mathlib.Analysis.Normed.Module.FiniteDimension
import Mathlib.Analysis.InnerProductSpace.Continuous
import Mathlib.Analysis.Asymptotics.SpecificAsymptotics
import Mathlib.Analysis.SpecificLimits.Basic

/-!
# Differences of an averaged iteration converge

If the distance between any two points of an orbit decreases by at least a multiple of the squared difference of their steps, the
steps `w (n + 1) - w n` converge. (Pazy; Baillon, Bruck and Reich; the proof with functionals is that of Kohlberg and Neyman.)
-/

namespace Osqp.Conv
open Filter Topology

variable {E : Type*} [NormedAddCommGroup E] [InnerProductSpace ℝ E]

/-- A functional that grows as fast as the sequence. -/
theorem exists_functional [FiniteDimensional ℝ E] {v : ℕ → E} {r : ℝ} (h1 : ∀ n k, k ≤ n → ‖v n - v k‖ ≤ ‖v (n - k)‖) (h2 : ∀ n : ℕ, n * r ≤ ‖v n‖) :
    ∃ u : E, ‖u‖ ≤ 1 ∧ ∀ k : ℕ, k * r ≤ inner ℝ u (v k) := by
  have key : ∀ j : ℕ, ∃ U : E, ‖U‖ ≤ 1 ∧ ∀ k ≤ j, (k : ℝ) * (r - 1 / ((j : ℝ) + 1)) ≤ inner ℝ U (v k) := by
    intro j
    set ε : ℝ := 1 / ((j : ℝ) + 1) with hε
    have hε0 : 0 < ε := by positivity
    have ht : Tendsto (fun n : ℕ => ‖v n‖ - n * (r - ε)) atTop atTop := by
      refine tendsto_atTop_mono (fun n => ?_) (tendsto_natCast_atTop_atTop.atTop_mul_const hε0)
      have := h2 n
      show (n : ℝ) * ε ≤ _
      linarith [mul_sub (n : ℝ) r ε]
    obtain ⟨N, hN, hr⟩ := high_scores ht j
    refine ⟨(‖v N‖)⁻¹ • v N, ?_, fun k hk => ?_⟩
    · rw [norm_smul, norm_inv, norm_norm]
      exact inv_mul_le_one
    · have e1 : inner ℝ ((‖v N‖)⁻¹ • v N) (v N) = ‖v N‖ := by
        rw [real_inner_smul_left, real_inner_self_eq_norm_sq]
        rcases eq_or_ne ‖v N‖ 0 with h | h
        · rw [h]; simp
        · field_simp
      have e2 : inner ℝ ((‖v N‖)⁻¹ • v N) (v N - v k) ≤ ‖v (N - k)‖ := by
        refine (real_inner_le_norm _ _).trans ?_
        have a : ‖(‖v N‖)⁻¹ • v N‖ ≤ 1 := by rw [norm_smul, norm_inv, norm_norm]; exact inv_mul_le_one
        calc _ ≤ 1 * ‖v N - v k‖ := mul_le_mul_of_nonneg_right a (norm_nonneg _)
          _ ≤ _ := by rw [one_mul]; exact h1 N k (hk.trans hN)
      rw [inner_sub_right, e1] at e2
      have e3 : ‖v (N - k)‖ - ((N - k : ℕ) : ℝ) * (r - ε) ≤ ‖v N‖ - N * (r - ε) := by
        rcases Nat.eq_zero_or_pos k with h | h
        · rw [h, Nat.sub_zero]
        · exact (hr (N - k) (by omega)).le
      rw [Nat.cast_sub (hk.trans hN)] at e3
      have : ((N : ℝ) - k) * (r - ε) = N * (r - ε) - k * (r - ε) := by ring
      linarith
  choose U hU1 hU2 using key
  obtain ⟨u, hu, φ, hφ, hlim⟩ := (isCompact_closedBall (0 : E) 1).tendsto_subseq (x := U) fun j => by simpa using hU1 j
  refine ⟨u, by simpa using hu, fun k => ?_⟩
  have l1 : Tendsto (fun j : ℕ => (k : ℝ) * (r - 1 / ((φ j : ℝ) + 1))) atTop (𝓝 (k * (r - 0))) :=
    ((tendsto_one_div_add_atTop_nhds_zero_nat.comp hφ.tendsto_atTop).const_sub r).const_mul _
  have l2 : Tendsto (fun j => inner ℝ (U (φ j)) (v k)) atTop (𝓝 (inner ℝ u (v k))) := hlim.inner tendsto_const_nhds
  rw [sub_zero] at l1
  refine le_of_tendsto_of_tendsto l1 l2 ?_
  filter_upwards [hφ.tendsto_atTop.eventually_ge_atTop k] with j hj
  exact hU2 _ k hj

/-- **The steps converge.** -/
theorem steps_converge [FiniteDimensional ℝ E] {w : ℕ → E} {c : ℝ} (hc : 0 < c)
    (hN : ∀ i j, ‖w (i + 1) - w (j + 1)‖ ^ 2 + c * ‖(w (i + 1) - w i) - (w (j + 1) - w j)‖ ^ 2 ≤ ‖w i - w j‖ ^ 2) :
    ∃ δ, Tendsto (fun n => w (n + 1) - w n) atTop (𝓝 δ) := by
  set D : ℕ → E := fun n => w (n + 1) - w n with hD
  have non1 : ∀ i j, ‖w (i + 1) - w (j + 1)‖ ≤ ‖w i - w j‖ := fun i j => by
    refine le_of_sq_le_sq ?_ (norm_nonneg _)
    have := mul_nonneg hc.le (sq_nonneg ‖(w (i + 1) - w i) - (w (j + 1) - w j)‖)
    linarith [hN i j]
  have non : ∀ k i j, ‖w (i + k) - w (j + k)‖ ≤ ‖w i - w j‖ := by
    intro k
    induction k with
    | zero => exact fun i j => le_rfl
    | succ k ih => exact fun i j => (non1 (i + k) (j + k)).trans (ih i j)
  have anti : ∀ k, Antitone fun n => ‖w (n + k) - w n‖ := fun k => antitone_nat_of_succ_le fun n => by
    have := non1 (n + k) n
    rwa [show n + k + 1 = n + 1 + k by omega] at this
  obtain ⟨r, hr⟩ : ∃ r, Tendsto (fun n => ‖D n‖) atTop (𝓝 r) :=
    ⟨_, tendsto_atTop_ciInf (anti 1) ⟨0, by rintro _ ⟨n, rfl⟩; exact norm_nonneg _⟩⟩
  have hr0 : 0 ≤ r := ge_of_tendsto' hr fun n => norm_nonneg _
  have hDD : Tendsto (fun n => D (n + 1) - D n) atTop (𝓝 0) := by
    have s1 : Tendsto (fun n => (‖D n‖ ^ 2 - ‖D (n + 1)‖ ^ 2) / c) atTop (𝓝 0) := by
      have := ((hr.pow 2).sub (((tendsto_add_atTop_iff_nat 1).2 hr).pow 2)).div_const c
      simpa using this
    have s2 : Tendsto (fun n => ‖D (n + 1) - D n‖ ^ 2) atTop (𝓝 0) := by
      refine squeeze_zero (fun n => sq_nonneg _) (fun n => ?_) s1
      rw [le_div_iff₀ hc]
      have := hN (n + 1) n
      have e : w (n + 1 + 1) - w (n + 1) = D (n + 1) := rfl
      have e' : w (n + 1) - w n = D n := rfl
      rw [e, e'] at this
      linarith
    rw [tendsto_zero_iff_norm_tendsto_zero]
    have := s2.sqrt
    simpa [Real.sqrt_sq] using this
  have hDk : ∀ k, Tendsto (fun n => D (n + k) - D n) atTop (𝓝 0) := by
    intro k
    induction k with
    | zero => simp
    | succ k ih =>
      have := ((tendsto_add_atTop_iff_nat k).2 hDD).add ih
      rw [zero_add] at this
      refine this.congr fun n => ?_
      rw [show n + (k + 1) = n + k + 1 by omega]
      abel
  have hW : ∀ k : ℕ, Tendsto (fun n => (w (n + k) - w n) - (k : ℝ) • D n) atTop (𝓝 0) := by
    intro k
    induction k with
    | zero => simp
    | succ k ih =>
      have := ih.add (hDk k)
      rw [zero_add] at this
      refine this.congr fun n => ?_
      rw [hD]
      push_cast
      rw [add_smul, one_smul]
      rw [show n + (k + 1) = n + k + 1 by omega]
      abel
  have hge : ∀ (k n : ℕ), (k : ℝ) * r ≤ ‖w (n + k) - w n‖ := by
    intro k n
    have l : Tendsto (fun n => ‖w (n + k) - w n‖) atTop (𝓝 (k * r)) := by
      have a : Tendsto (fun n => ‖(k : ℝ) • D n‖) atTop (𝓝 (k * r)) := by
        refine (hr.const_mul (k : ℝ)).congr fun n => ?_
        rw [norm_smul]; simp
      have b : Tendsto (fun n => ‖w (n + k) - w n‖ - ‖(k : ℝ) • D n‖) atTop (𝓝 0) :=
        squeeze_zero_norm (fun n => by rw [Real.norm_eq_abs]; exact abs_norm_sub_norm_le _ _) (tendsto_zero_iff_norm_tendsto_zero.1 (hW k))
      have := b.add a
      rw [zero_add] at this
      exact this.congr fun n => by ring
    exact (anti k).le_of_tendsto l n
  rcases hr0.eq_or_lt with h0 | h0
  · exact ⟨0, tendsto_zero_iff_norm_tendsto_zero.2 (h0 ▸ hr)⟩
  -- the functional of the orbit from `i`
  have hf : ∀ i, ∃ u : E, ‖u‖ ≤ 1 ∧ ∀ k : ℕ, k * r ≤ inner ℝ u (w (i + k) - w i) := fun i => by
    refine exists_functional (v := fun k => w (i + k) - w i) (fun n k hk => ?_) fun n => hge n i
    have := non k (i + (n - k)) i
    rw [show i + (n - k) + k = i + n by omega] at this
    simpa using this
  choose u hu1 hu2 using hf
  have havg : ∀ i, Tendsto (fun k : ℕ => (k : ℝ)⁻¹ • (w (i + k) - w i)) atTop (𝓝 (r • u i)) := by
    intro i
    have hces : Tendsto (fun k : ℕ => (k : ℝ)⁻¹ * ∑ j ∈ Finset.range k, ‖D (i + j)‖) atTop (𝓝 r) := by
      have : Tendsto (fun j => ‖D (i + j)‖) atTop (𝓝 r) := by
        have := (tendsto_add_atTop_iff_nat i).2 hr
        exact this.congr fun n => by rw [Nat.add_comm]
      exact this.cesaro
    have hle : ∀ k : ℕ, ‖w (i + k) - w i‖ ≤ ∑ j ∈ Finset.range k, ‖D (i + j)‖ := by
      intro k
      induction k with
      | zero => simp
      | succ k ih =>
        rw [Finset.sum_range_succ]
        have e : w (i + (k + 1)) - w i = (w (i + k) - w i) + D (i + k) := by
          rw [hD]; simp only; rw [show i + (k + 1) = i + k + 1 by omega]; abel
        rw [e]
        exact (norm_add_le _ _).trans (add_le_add ih le_rfl)
    rw [tendsto_iff_norm_sub_tendsto_zero]
    have hb : Tendsto (fun k : ℕ => ((k : ℝ)⁻¹ * ∑ j ∈ Finset.range k, ‖D (i + j)‖) ^ 2 - r ^ 2) atTop (𝓝 0) := by
      have := (hces.pow 2).sub_const (r ^ 2)
      simpa using this
    have hs : Tendsto (fun k : ℕ => ‖(k : ℝ)⁻¹ • (w (i + k) - w i) - r • u i‖ ^ 2) atTop (𝓝 0) := by
      refine squeeze_zero' (Eventually.of_forall fun n => sq_nonneg _) ?_ hb
      filter_upwards [eventually_ge_atTop 1] with k hk
      have hk0 : (0 : ℝ) < k := by exact_mod_cast hk
      rw [norm_sub_sq_real, real_inner_smul_left, real_inner_smul_right, norm_smul, norm_smul]
      have a := hu2 i k
      rw [real_inner_comm] at a
      have a' : r ≤ (k : ℝ)⁻¹ * inner ℝ (w (i + k) - w i) (u i) := by
        rw [inv_mul_eq_div, le_div_iff₀ hk0, mul_comm]; exact a
      have b : ‖(k : ℝ)⁻¹‖ * ‖w (i + k) - w i‖ ≤ (k : ℝ)⁻¹ * ∑ j ∈ Finset.range k, ‖D (i + j)‖ := by
        rw [Real.norm_of_nonneg (by positivity)]
        exact mul_le_mul_of_nonneg_left (hle k) (by positivity)
      have b2 : (‖(k : ℝ)⁻¹‖ * ‖w (i + k) - w i‖) ^ 2 ≤ ((k : ℝ)⁻¹ * ∑ j ∈ Finset.range k, ‖D (i + j)‖) ^ 2 :=
        pow_le_pow_left₀ (by positivity) b 2
      have c1 : (‖r‖ * ‖u i‖) ^ 2 ≤ r ^ 2 := by
        rw [Real.norm_of_nonneg hr0]
        exact pow_le_pow_left₀ (by positivity) (mul_le_of_le_one_right hr0 (hu1 i)) 2
      have d1 : r * r ≤ r * ((k : ℝ)⁻¹ * inner ℝ (w (i + k) - w i) (u i)) := mul_le_mul_of_nonneg_left a' hr0
      nlinarith
    have := hs.sqrt
    simpa [Real.sqrt_sq] using this
  have hsame : ∀ i, u i = u 0 := by
    intro i
    have l1 := (tendsto_add_atTop_iff_nat i).2 (havg 0)
    have l2 := havg i
    have hk : Tendsto (fun k : ℕ => ((k : ℝ) + i) / k) atTop (𝓝 1) := by
      have a : Tendsto (fun k : ℕ => 1 + (i : ℝ) / k) atTop (𝓝 (1 + 0)) := (tendsto_const_div_atTop_nhds_zero_nat (i : ℝ)).const_add 1
      rw [add_zero] at a
      refine a.congr' ?_
      filter_upwards [eventually_ge_atTop 1] with k hk
      have : (k : ℝ) ≠ 0 := by positivity
      field_simp
    have hc : Tendsto (fun k : ℕ => (k : ℝ)⁻¹ • (w i - w 0)) atTop (𝓝 ((0 : ℝ) • (w i - w 0))) :=
      tendsto_natCast_atTop_atTop.inv_tendsto_atTop.smul_const _
    have l3 := (hk.smul l1).sub hc
    rw [one_smul, zero_smul, sub_zero] at l3
    have l4 : Tendsto (fun k : ℕ => (k : ℝ)⁻¹ • (w (i + k) - w i)) atTop (𝓝 (r • u 0)) := by
      refine l3.congr' ?_
      filter_upwards [eventually_ge_atTop 1] with k hk
      have h1 : (k : ℝ) ≠ 0 := by positivity
      have h2 : (k : ℝ) + i ≠ 0 := by positivity
      rw [smul_smul]
      have e : ((k : ℝ) + i) / k * ((k + i : ℕ) : ℝ)⁻¹ = (k : ℝ)⁻¹ := by push_cast; field_simp
      rw [e, ← smul_sub, show 0 + (k + i) = i + k by omega]
      congr 1
      abel
    have := tendsto_nhds_unique l2 l4
    exact smul_right_injective E h0.ne' this
  refine ⟨r • u 0, ?_⟩
  rw [tendsto_iff_norm_sub_tendsto_zero]
  have hb : Tendsto (fun n : ℕ => ‖D n‖ ^ 2 - r ^ 2) atTop (𝓝 0) := by
    have := (hr.pow 2).sub_const (r ^ 2)
    simpa using this
  have hs : Tendsto (fun n : ℕ => ‖D n - r • u 0‖ ^ 2) atTop (𝓝 0) := by
    refine squeeze_zero (fun n => sq_nonneg _) (fun n => ?_) hb
    have a := hu2 n 1
    rw [hsame, real_inner_comm] at a
    simp only [Nat.cast_one, one_mul] at a
    rw [norm_sub_sq_real, real_inner_smul_right, norm_smul]
    have c1 : (‖r‖ * ‖u 0‖) ^ 2 ≤ r ^ 2 := by
      rw [Real.norm_of_nonneg hr0]
      exact pow_le_pow_left₀ (by positivity) (mul_le_of_le_one_right hr0 (hu1 0)) 2
    have d1 : r * r ≤ r * inner ℝ (D n) (u 0) := mul_le_mul_of_nonneg_left a hr0
    nlinarith
  have := hs.sqrt
  simpa [Real.sqrt_sq] using this

end Osqp.Conv
