import Verif.Conv.Admm
import Verif.Conv.Drift
import Verif.Lemmas.Num
import Mathlib.Analysis.InnerProductSpace.PiL2

/-!
# Limits of the ADMM steps

For every convex problem, feasible or not, the differences of successive iterates converge, and a limit that is not zero is a
certificate of infeasibility. (Banjac, Goulart, Stellato, Boyd: Infeasibility detection in ADMM.)
-/

set_option linter.unusedSectionVars false
namespace Osqp.Conv
open Matrix Spec Filter Topology
variable {n m : ℕ} {Q : QP n m ℝ} {σ α : ℝ} {ρ : Fin m → ℝ}

/-! ## Two steps -/

/-- Two steps bring two points closer. -/
theorem pair_descent {x xt x' u ut u' : Fin n → ℝ} {z y z' y' v r v' r' : Fin m → ℝ} (hs : Step Q σ α ρ x z y xt x' z' y') (hs2 : Step Q σ α ρ u v r ut u' v' r')
    (hP : PSD Q.P) (hα : 0 < α) (hρ : ∀ i, 0 < ρ i) (hc : InCone Q z y) (hc2 : InCone Q v r) :
    size σ ρ (fun j => x' j - u' j) (fun i => (z' i + y' i / ρ i) - (v' i + r' i / ρ i)) +
      α * (2 - α) * size σ ρ (fun j => (xt j - x j) - (ut j - u j)) (fun i => ((Q.A *ᵥ xt) i - z i) - ((Q.A *ᵥ ut) i - v i)) ≤
    size σ ρ (fun j => x j - u j) (fun i => (z i + y i / ρ i) - (v i + r i / ρ i)) := by
  set zt := Q.A *ᵥ xt with hzt
  set vt := Q.A *ᵥ ut with hvt
  set w : Fin m → ℝ := fun i => ρ i * (zt i - z i) + y i with hw
  set w2 : Fin m → ℝ := fun i => ρ i * (vt i - v i) + r i with hw2
  set e : Fin n → ℝ := fun j => xt j - ut j with he
  have eP : Q.P *ᵥ e = fun j => (Q.P *ᵥ xt) j - (Q.P *ᵥ ut) j := by
    rw [show e = xt - ut from rfl, mulVec_sub]; rfl
  have eA : Q.A *ᵥ e = fun i => zt i - vt i := by
    rw [show e = xt - ut from rfl, mulVec_sub]; rfl
  have eT : Q.Aᵀ *ᵥ (fun i => w i - w2 i) = fun j => (Q.Aᵀ *ᵥ w) j - (Q.Aᵀ *ᵥ w2) j := by
    rw [show (fun i => w i - w2 i) = w - w2 from rfl, mulVec_sub]; rfl
  have h1 : ∀ j, (Q.P *ᵥ e) j + σ * ((xt j - x j) - (ut j - u j)) + (Q.Aᵀ *ᵥ fun i => w i - w2 i) j = 0 := by
    intro j
    have a := hs.lin j
    have b := hs2.lin j
    rw [eP, eT]
    linear_combination a - b
  have h2 : e ⬝ᵥ (Q.P *ᵥ e) + ∑ j, σ * ((xt j - x j) - (ut j - u j)) * e j + ∑ i, (zt i - vt i) * (w i - w2 i) = 0 := by
    have c := dot_transpose Q.A e (fun i => w i - w2 i)
    rw [eA] at c
    rw [← c]
    have : e ⬝ᵥ (Q.P *ᵥ e) = ∑ j, e j * (Q.P *ᵥ e) j := rfl
    rw [this, ← Finset.sum_add_distrib, ← Finset.sum_add_distrib]
    refine Finset.sum_eq_zero fun j _ => ?_
    linear_combination e j * h1 j
  have hx : ∀ j, σ * (x' j - u' j) ^ 2 = σ * (x j - u j) ^ 2 - α * (2 - α) * (σ * ((xt j - x j) - (ut j - u j)) ^ 2) +
      2 * α * (σ * ((xt j - x j) - (ut j - u j)) * e j) := by
    intro j; rw [hs.hx j, hs2.hx j, he]; ring
  have hv : ∀ i, ρ i * ((z' i + y' i / ρ i) - (v' i + r' i / ρ i)) ^ 2 = ρ i * ((z i + y i / ρ i) - (v i + r i / ρ i)) ^ 2 -
      α * (2 - α) * (ρ i * ((zt i - z i) - (vt i - v i)) ^ 2) + 2 * α * ((zt i - vt i) * (w i - w2 i)) - 2 * α * ((z i - v i) * (y i - r i)) := by
    intro i
    have := (hρ i).ne'
    have e1 : z' i + y' i / ρ i = z i + y i / ρ i + α * (zt i - z i) := by
      rw [hs.hy i]; field_simp; ring
    have e2 : v' i + r' i / ρ i = v i + r i / ρ i + α * (vt i - v i) := by
      rw [hs2.hy i]; field_simp; ring
    rw [e1, e2, hw, hw2]; field_simp; ring
  have s1 : ∑ j, σ * (x' j - u' j) ^ 2 = ∑ j, σ * (x j - u j) ^ 2 - α * (2 - α) * ∑ j, σ * ((xt j - x j) - (ut j - u j)) ^ 2 +
      2 * α * ∑ j, σ * ((xt j - x j) - (ut j - u j)) * e j := by
    rw [Finset.mul_sum, Finset.mul_sum, ← Finset.sum_sub_distrib, ← Finset.sum_add_distrib]
    exact Finset.sum_congr rfl fun j _ => hx j
  have s2 : ∑ i, ρ i * ((z' i + y' i / ρ i) - (v' i + r' i / ρ i)) ^ 2 = ∑ i, ρ i * ((z i + y i / ρ i) - (v i + r i / ρ i)) ^ 2 -
      α * (2 - α) * ∑ i, ρ i * ((zt i - z i) - (vt i - v i)) ^ 2 + 2 * α * ∑ i, (zt i - vt i) * (w i - w2 i) - 2 * α * ∑ i, (z i - v i) * (y i - r i) := by
    rw [Finset.mul_sum, Finset.mul_sum, Finset.mul_sum, ← Finset.sum_sub_distrib, ← Finset.sum_add_distrib, ← Finset.sum_sub_distrib]
    exact Finset.sum_congr rfl fun i _ => hv i
  have p1 := mul_nonneg (mul_nonneg zero_le_two hα.le) (hP e)
  have p2 : 0 ≤ ∑ i, (z i - v i) * (y i - r i) := Finset.sum_nonneg fun i _ => cone_mono (hc.1 i) (hc.2 i) (hc2.1 i) (hc2.2 i)
  have p3 := mul_nonneg (mul_nonneg zero_le_two hα.le) p2
  unfold size
  rw [s1, s2]
  have := congrArg (fun t => 2 * α * t) h2
  simp only [mul_zero, mul_add] at this
  linarith

/-! ## Sequences -/

/-- Averages of a sequence whose differences converge. -/
theorem avg_of_diff {a : ℕ → ℝ} {d : ℝ} (h : Tendsto (fun k => a (k + 1) - a k) atTop (𝓝 d)) : Tendsto (fun k : ℕ => (k : ℝ)⁻¹ * a k) atTop (𝓝 d) := by
  have h1 := h.cesaro
  have h2 : Tendsto (fun k : ℕ => (k : ℝ)⁻¹ * a 0) atTop (𝓝 (0 * a 0)) := tendsto_natCast_atTop_atTop.inv_tendsto_atTop.mul_const _
  rw [zero_mul] at h2
  have h3 := h1.add h2
  rw [add_zero] at h3
  refine h3.congr fun k => ?_
  rw [Finset.sum_range_sub, ← mul_add]
  ring

theorem avg_zero {a : ℕ → ℝ} {b : ℝ} (h : Tendsto a atTop (𝓝 b)) : Tendsto (fun k : ℕ => (k : ℝ)⁻¹ * a k) atTop (𝓝 0) := by
  have := tendsto_natCast_atTop_atTop.inv_tendsto_atTop.mul h
  rwa [zero_mul] at this

theorem avg_bounded {a : ℕ → ℝ} {B : ℝ} (h : ∀ k, |a k| ≤ B) : Tendsto (fun k : ℕ => (k : ℝ)⁻¹ * a k) atTop (𝓝 0) := by
  have h2 : Tendsto (fun k : ℕ => (k : ℝ)⁻¹ * B) atTop (𝓝 (0 * B)) := tendsto_natCast_atTop_atTop.inv_tendsto_atTop.mul_const _
  rw [zero_mul] at h2
  refine squeeze_zero_norm (fun k => ?_) h2
  rw [Real.norm_eq_abs, abs_mul, abs_of_nonneg (by positivity : (0 : ℝ) ≤ (k : ℝ)⁻¹)]
  exact mul_le_mul_of_nonneg_left (h k) (by positivity)

theorem grows {a : ℕ → ℝ} {d : ℝ} (h : Tendsto (fun k => a (k + 1) - a k) atTop (𝓝 d)) (hd : 0 < d) : Tendsto a atTop atTop := by
  have h1 := (avg_of_diff h).pos_mul_atTop hd tendsto_natCast_atTop_atTop
  refine h1.congr' ?_
  filter_upwards [eventually_ge_atTop 1] with k hk
  have : (k : ℝ) ≠ 0 := by positivity
  field_simp

theorem tendsto_mulVec {a b : ℕ} (M : Matrix (Fin a) (Fin b) ℝ) {f : ℕ → Fin b → ℝ} {g : Fin b → ℝ} (h : ∀ j, Tendsto (fun k => f k j) atTop (𝓝 (g j))) (i : Fin a) :
    Tendsto (fun k => (M *ᵥ f k) i) atTop (𝓝 ((M *ᵥ g) i)) :=
  show Tendsto (fun k => ∑ j, M i j * f k j) atTop (𝓝 (∑ j, M i j * g j)) from tendsto_finset_sum _ fun j _ => (h j).const_mul (M i j)

theorem psd_null {P : Matrix (Fin n) (Fin n) ℝ} (hs : Pᵀ = P) (hP : PSD P) {x : Fin n → ℝ} (hx : x ⬝ᵥ (P *ᵥ x) = 0) : P *ᵥ x = 0 := by
  have key : ∀ y, y ⬝ᵥ (P *ᵥ x) = 0 := by
    intro y
    have sym : x ⬝ᵥ (P *ᵥ y) = y ⬝ᵥ (P *ᵥ x) := by
      rw [dotProduct_mulVec, ← mulVec_transpose, hs, dotProduct_comm]
    have h : ∀ t : ℝ, 0 ≤ 2 * t * (y ⬝ᵥ (P *ᵥ x)) + t ^ 2 * (y ⬝ᵥ (P *ᵥ y)) := by
      intro t
      have := hP (x + t • y)
      rw [mulVec_add, mulVec_smul, dotProduct_add, add_dotProduct, add_dotProduct, smul_dotProduct, smul_dotProduct, dotProduct_smul, dotProduct_smul, hx, sym] at this
      simp only [smul_eq_mul] at this
      linarith
    set b := y ⬝ᵥ (P *ᵥ x) with hb
    set c := y ⬝ᵥ (P *ᵥ y) with hc
    have hc0 : 0 ≤ c := hP y
    by_contra hb0
    have h1 := h (-b / (c + 1))
    have hcp : 0 < c + 1 := by linarith
    have e : 2 * (-b / (c + 1)) * b + (-b / (c + 1)) ^ 2 * c = -(b ^ 2 * (c + 2)) / (c + 1) ^ 2 := by field_simp; ring
    rw [e] at h1
    have : 0 < b ^ 2 := by positivity
    have h3 : -(b ^ 2 * (c + 2)) / (c + 1) ^ 2 < 0 := div_neg_of_neg_of_pos (by nlinarith) (by positivity)
    linarith
  funext j
  have := key (Pi.single j 1)
  rwa [single_one_dotProduct] at this

/-! ## The limits -/

/-- What the steps of an ADMM sequence tend to. -/
structure Drifts (Q : QP n m ℝ) (σ α : ℝ) (ρ : Fin m → ℝ) (X : ℕ → Fin n → ℝ) (Z Y : ℕ → Fin m → ℝ) (dx : Fin n → ℝ) (dy : Fin m → ℝ) : Prop where
  x : ∀ j, Tendsto (fun k => X (k + 1) j - X k j) atTop (𝓝 (dx j))
  y : ∀ i, Tendsto (fun k => Y (k + 1) i - Y k i) atTop (𝓝 (dy i))
  gap : ∀ i, Tendsto (fun k => (Q.A *ᵥ X k) i - Z k i) atTop (𝓝 (dy i / (α * ρ i)))
  stat : ∀ j, Tendsto (fun k => Q.stat (X k) (Y k) j) atTop (𝓝 (-(σ * dx j / α)))
  P : Q.P *ᵥ dx = 0
  A : Q.A *ᵥ dx = 0
  At : Q.Aᵀ *ᵥ dy = 0
  support : Q.support dy = -∑ i, dy i ^ 2 / (α * ρ i)
  q : Q.q ⬝ᵥ dx = -(σ * ∑ j, dx j ^ 2 / α)

theorem drifts (hP : PSD Q.P) (hsym : Q.Pᵀ = Q.P) (hσ : 0 < σ) (hα : 0 < α) (hα2 : α < 2) (hρ : ∀ i, 0 < ρ i)
    {X Xt : ℕ → Fin n → ℝ} {Z Y : ℕ → Fin m → ℝ} (step : ∀ k, Step Q σ α ρ (X k) (Z k) (Y k) (Xt k) (X (k + 1)) (Z (k + 1)) (Y (k + 1)))
    (cone : ∀ k, InCone Q (Z k) (Y k)) : ∃ dx dy, Drifts Q σ α ρ X Z Y dx dy := by
  set V : ℕ → Fin m → ℝ := fun k i => Z k i + Y k i / ρ i with hV
  -- the state in the metric of the iteration
  set w : ℕ → EuclideanSpace ℝ (Fin n ⊕ Fin m) := fun k => WithLp.toLp 2 (Sum.elim (fun j => √σ * X k j) fun i => √(ρ i) * V k i) with hw
  have nrm : ∀ (a : Fin n → ℝ) (b : Fin m → ℝ) (e : EuclideanSpace ℝ (Fin n ⊕ Fin m)), (∀ j, e (Sum.inl j) = √σ * a j) → (∀ i, e (Sum.inr i) = √(ρ i) * b i) →
      ‖e‖ ^ 2 = size σ ρ a b := by
    intro a b e h1 h2
    rw [EuclideanSpace.norm_sq_eq, Fintype.sum_sum_type]
    unfold size
    congr 1
    · refine Finset.sum_congr rfl fun j _ => ?_
      rw [h1, Real.norm_eq_abs, sq_abs, mul_pow, Real.sq_sqrt hσ.le]
    · refine Finset.sum_congr rfl fun i _ => ?_
      rw [h2, Real.norm_eq_abs, sq_abs, mul_pow, Real.sq_sqrt (hρ i).le]
  have hVs : ∀ k i, V (k + 1) i - V k i = α * ((Q.A *ᵥ Xt k) i - Z k i) := by
    intro k i
    have := (hρ i).ne'
    rw [hV]
    simp only
    rw [(step k).hy i]; field_simp; ring
  have hXs : ∀ k j, X (k + 1) j - X k j = α * (Xt k j - X k j) := fun k j => by rw [(step k).hx j]; ring
  obtain ⟨δ, hδ⟩ : ∃ δ, Tendsto (fun k => w (k + 1) - w k) atTop (𝓝 δ) := by
    refine steps_converge (c := (2 - α) / α) (div_pos (by linarith) hα) fun i j => ?_
    rw [nrm (fun t => X (i + 1) t - X (j + 1) t) (fun t => V (i + 1) t - V (j + 1) t) (w (i + 1) - w (j + 1)) (fun t => by simp [hw]; ring) (fun t => by simp [hw]; ring),
      nrm (fun t => X i t - X j t) (fun t => V i t - V j t) (w i - w j) (fun t => by simp [hw]; ring) (fun t => by simp [hw]; ring),
      nrm (fun t => (X (i + 1) t - X i t) - (X (j + 1) t - X j t)) (fun t => (V (i + 1) t - V i t) - (V (j + 1) t - V j t)) ((w (i + 1) - w i) - (w (j + 1) - w j)) (fun t => by simp [hw]; ring)
        (fun t => by simp [hw]; ring)]
    have := pair_descent (step i) (step j) hP hα hρ (cone i) (cone j)
    refine le_trans (le_of_eq ?_) this
    congr 1
    have e1 : size σ ρ (fun t => (X (i + 1) t - X i t) - (X (j + 1) t - X j t)) (fun t => (V (i + 1) t - V i t) - (V (j + 1) t - V j t)) =
        α ^ 2 * size σ ρ (fun t => (Xt i t - X i t) - (Xt j t - X j t)) (fun t => ((Q.A *ᵥ Xt i) t - Z i t) - ((Q.A *ᵥ Xt j) t - Z j t)) := by
      unfold size
      rw [mul_add, Finset.mul_sum, Finset.mul_sum]
      congr 1
      · refine Finset.sum_congr rfl fun t _ => ?_
        simp only [hXs]; ring
      · refine Finset.sum_congr rfl fun t _ => ?_
        simp only [hVs]; ring
    rw [e1]
    field_simp
  have comp : ∀ a, Tendsto (fun k => w (k + 1) a - w k a) atTop (𝓝 (δ a)) := fun a => by
    have := (continuous_apply a).tendsto _ |>.comp ((PiLp.continuous_ofLp 2 _).tendsto δ |>.comp hδ)
    exact this
  set dx : Fin n → ℝ := fun j => δ (Sum.inl j) / √σ with hdx
  set dv : Fin m → ℝ := fun i => δ (Sum.inr i) / √(ρ i) with hdv
  have lx : ∀ j, Tendsto (fun k => X (k + 1) j - X k j) atTop (𝓝 (dx j)) := fun j => by
    refine ((comp (Sum.inl j)).div_const (√σ)).congr fun k => ?_
    have : √σ ≠ 0 := (Real.sqrt_pos.2 hσ).ne'
    simp only [hw, Sum.elim_inl]
    field_simp
  have lv : ∀ i, Tendsto (fun k => V (k + 1) i - V k i) atTop (𝓝 (dv i)) := fun i => by
    refine ((comp (Sum.inr i)).div_const (√(ρ i))).congr fun k => ?_
    have : √(ρ i) ≠ 0 := (Real.sqrt_pos.2 (hρ i)).ne'
    simp only [hw, Sum.elim_inr]
    field_simp
  have lxt : ∀ j, Tendsto (fun k => Xt k j - X k j) atTop (𝓝 (dx j / α)) := fun j =>
    ((lx j).div_const α).congr fun k => by rw [hXs]; field_simp
  have lzt : ∀ i, Tendsto (fun k => (Q.A *ᵥ Xt k) i - Z k i) atTop (𝓝 (dv i / α)) := fun i =>
    ((lv i).div_const α).congr fun k => by rw [hVs]; field_simp
  -- `Z` is the projection of `V`
  have hZ : ∀ k i, Z k i = min (max (V k i) (Q.l i)) (Q.u i) := fun k i => (proj_of_cone (hρ i) ((cone k).1 i) ((cone k).2 i)).symm
  have hup : ∀ i, 0 < dv i → ∀ᶠ k in atTop, Z k i = Q.u i := fun i hi => by
    filter_upwards [(grows (a := fun k => V k i) (lv i) hi).eventually_ge_atTop (max (Q.u i) (Q.l i))] with k hk
    rw [hZ, max_eq_left (le_trans (le_max_right _ _) hk), min_eq_right (le_trans (le_max_left _ _) hk)]
  have hlo : ∀ i, dv i < 0 → ∀ᶠ k in atTop, Z k i = Q.l i := fun i hi => by
    have g : Tendsto (fun k => -V k i) atTop atTop := by
      refine grows (d := -dv i) ?_ (by linarith)
      exact (lv i).neg.congr fun k => by ring
    filter_upwards [g.eventually_ge_atTop (-(Q.l i))] with k hk
    rw [hZ, max_eq_right (by linarith), min_eq_left (((cone k).1 i).1.trans ((cone k).1 i).2)]
  have lz : ∀ i, Tendsto (fun k => Z (k + 1) i - Z k i) atTop (𝓝 0) := fun i => by
    rcases lt_trichotomy (dv i) 0 with h | h | h
    · refine tendsto_const_nhds.congr' ?_
      filter_upwards [hlo i h, (tendsto_add_atTop_nat 1).eventually (hlo i h)] with k a b
      rw [a, b, sub_self]
    · refine squeeze_zero_norm (fun k => ?_) (tendsto_zero_iff_norm_tendsto_zero.1 (h ▸ lv i))
      rw [Real.norm_eq_abs, Real.norm_eq_abs, hZ, hZ]
      exact proj_nonexp _ _ _ _
    · refine tendsto_const_nhds.congr' ?_
      filter_upwards [hup i h, (tendsto_add_atTop_nat 1).eventually (hup i h)] with k a b
      rw [a, b, sub_self]
  have ly : ∀ i, Tendsto (fun k => Y (k + 1) i - Y k i) atTop (𝓝 (ρ i * dv i)) := fun i => by
    have := ((lv i).sub (lz i)).const_mul (ρ i)
    rw [sub_zero] at this
    refine this.congr fun k => ?_
    have := (hρ i).ne'
    rw [hV]; field_simp; ring
  -- averages
  have az : ∀ i, Tendsto (fun k : ℕ => (k : ℝ)⁻¹ * Z k i) atTop (𝓝 0) := fun i =>
    avg_bounded (B := max |Q.l i| |Q.u i|) fun k => abs_le_max_abs_abs ((cone k).1 i).1 ((cone k).1 i).2
  have axt : ∀ j, Tendsto (fun k : ℕ => (k : ℝ)⁻¹ * Xt k j) atTop (𝓝 (dx j)) := fun j => by
    have := (avg_of_diff (a := fun k => X k j) (lx j)).add (avg_zero (lxt j))
    rw [add_zero] at this
    exact this.congr fun k => by ring
  have ay : ∀ i, Tendsto (fun k : ℕ => (k : ℝ)⁻¹ * Y k i) atTop (𝓝 (ρ i * dv i)) := fun i => avg_of_diff (a := fun k => Y k i) (ly i)
  have mul_avg : ∀ {a b : ℕ} (M : Matrix (Fin a) (Fin b) ℝ) (f : ℕ → Fin b → ℝ) (k : ℕ) (i : Fin a),
      (M *ᵥ fun j => (k : ℝ)⁻¹ * f k j) i = (k : ℝ)⁻¹ * (M *ᵥ f k) i := by
    intro a b M f k i
    rw [show (fun j => (k : ℝ)⁻¹ * f k j) = (k : ℝ)⁻¹ • f k from rfl, mulVec_smul]; rfl
  have hA : Q.A *ᵥ dx = 0 := by
    funext i
    have l1 := tendsto_mulVec Q.A axt i
    have l2 := (avg_zero (lzt i)).add (az i)
    rw [add_zero] at l2
    refine tendsto_nhds_unique (l1.congr fun k => ?_) l2
    rw [mul_avg]; ring
  have hPA : ∀ j, (Q.P *ᵥ dx) j + (Q.Aᵀ *ᵥ fun i => ρ i * dv i) j = 0 := by
    intro j
    have l1 := tendsto_mulVec Q.P axt j
    have l2 : Tendsto (fun k : ℕ => (k : ℝ)⁻¹ * (σ * (Xt k j - X k j))) atTop (𝓝 0) := avg_zero ((lxt j).const_mul σ)
    have l3 : Tendsto (fun k : ℕ => (k : ℝ)⁻¹ * Q.q j) atTop (𝓝 0) := avg_zero tendsto_const_nhds
    have l4 : Tendsto (fun k : ℕ => (Q.Aᵀ *ᵥ fun i => (k : ℝ)⁻¹ * (ρ i * ((Q.A *ᵥ Xt k) i - Z k i) + Y k i)) j) atTop
        (𝓝 ((Q.Aᵀ *ᵥ fun i => ρ i * dv i) j)) := by
      refine tendsto_mulVec Q.Aᵀ (fun i => ?_) j
      have := (avg_zero ((lzt i).const_mul (ρ i))).add (ay i)
      rw [zero_add] at this
      exact this.congr fun k => by ring
    have l5 := ((l1.add l2).add l3).add l4
    rw [add_zero, add_zero] at l5
    refine tendsto_nhds_unique (l5.congr fun k => ?_) (tendsto_const_nhds (x := (0 : ℝ)))
    rw [mul_avg, mul_avg Q.Aᵀ fun k i => ρ i * ((Q.A *ᵥ Xt k) i - Z k i) + Y k i]
    have := (step k).lin j
    linear_combination (k : ℝ)⁻¹ * this
  have hPx : Q.P *ᵥ dx = 0 := by
    refine psd_null hsym hP ?_
    have c := dot_transpose Q.A dx fun i => ρ i * dv i
    rw [hA] at c
    simp only [Pi.zero_apply, zero_mul, Finset.sum_const_zero] at c
    have : dx ⬝ᵥ (Q.P *ᵥ dx) = ∑ j, dx j * (Q.P *ᵥ dx) j := rfl
    have e : ∑ j, dx j * (Q.P *ᵥ dx) j + ∑ j, dx j * (Q.Aᵀ *ᵥ fun i => ρ i * dv i) j = 0 := by
      rw [← Finset.sum_add_distrib]
      refine Finset.sum_eq_zero fun j _ => ?_
      rw [← mul_add, hPA, mul_zero]
    rw [this]
    rwa [c, add_zero] at e
  have hAt : (Q.Aᵀ *ᵥ fun i => ρ i * dv i) = 0 := by
    funext j
    have := hPA j
    rw [hPx] at this
    simpa using this
  have hq : Q.q ⬝ᵥ dx = -(σ * ∑ j, dx j ^ 2 / α) := by
    have l1 : Tendsto (fun k => -(σ * ∑ j, (Xt k j - X k j) * dx j)) atTop (𝓝 (-(σ * ∑ j, dx j / α * dx j))) :=
      ((tendsto_finset_sum _ fun j _ => (lxt j).mul_const (dx j)).const_mul σ).neg
    have e : ∀ k, -(σ * ∑ j, (Xt k j - X k j) * dx j) = Q.q ⬝ᵥ dx := by
      intro k
      have c := dot_transpose Q.A dx fun i => ρ i * ((Q.A *ᵥ Xt k) i - Z k i) + Y k i
      rw [hA] at c
      simp only [Pi.zero_apply, zero_mul, Finset.sum_const_zero] at c
      have c2 : ∑ j, dx j * (Q.P *ᵥ Xt k) j = 0 := by
        have : dx ⬝ᵥ (Q.P *ᵥ Xt k) = 0 := by
          rw [dotProduct_mulVec, ← mulVec_transpose, hsym, hPx, zero_dotProduct]
        exact this
      have c3 : ∑ j, dx j * ((Q.P *ᵥ Xt k) j + σ * Xt k j + (Q.Aᵀ *ᵥ fun i => ρ i * ((Q.A *ᵥ Xt k) i - Z k i) + Y k i) j - (σ * X k j - Q.q j)) = 0 :=
        Finset.sum_eq_zero fun j _ => by rw [(step k).lin j, sub_self, mul_zero]
      have c4 : ∑ j, dx j * ((Q.P *ᵥ Xt k) j + σ * Xt k j + (Q.Aᵀ *ᵥ fun i => ρ i * ((Q.A *ᵥ Xt k) i - Z k i) + Y k i) j - (σ * X k j - Q.q j)) =
          ∑ j, dx j * (Q.P *ᵥ Xt k) j + ∑ j, dx j * (Q.Aᵀ *ᵥ fun i => ρ i * ((Q.A *ᵥ Xt k) i - Z k i) + Y k i) j +
            σ * ∑ j, (Xt k j - X k j) * dx j + ∑ j, Q.q j * dx j := by
        rw [Finset.mul_sum, ← Finset.sum_add_distrib, ← Finset.sum_add_distrib, ← Finset.sum_add_distrib]
        exact Finset.sum_congr rfl fun j _ => by ring
      rw [c3, c2, c] at c4
      show _ = ∑ j, Q.q j * dx j
      linarith
    have := tendsto_nhds_unique (l1.congr e) tendsto_const_nhds
    rw [← this]
    congr 2
    exact Finset.sum_congr rfl fun j _ => by ring
  have hsup : Q.support (fun i => ρ i * dv i) = -∑ i, (ρ i * dv i) ^ 2 / (α * ρ i) := by
    have l1 : Tendsto (fun k => -∑ i, ρ i * dv i * ((Q.A *ᵥ Xt k) i - Z k i)) atTop (𝓝 (-∑ i, ρ i * dv i * (dv i / α))) :=
      (tendsto_finset_sum _ fun i _ => (lzt i).const_mul _).neg
    have l2 : Tendsto (fun k => -∑ i, ρ i * dv i * ((Q.A *ᵥ Xt k) i - Z k i)) atTop (𝓝 (Q.support fun i => ρ i * dv i)) := by
      have e : ∀ k, -∑ i, ρ i * dv i * ((Q.A *ᵥ Xt k) i - Z k i) = ∑ i, ρ i * dv i * Z k i := by
        intro k
        have c := dot_transpose Q.A (Xt k) fun i => ρ i * dv i
        rw [hAt] at c
        simp only [Pi.zero_apply, mul_zero, Finset.sum_const_zero] at c
        have : ∑ i, ρ i * dv i * ((Q.A *ᵥ Xt k) i - Z k i) = ∑ i, (Q.A *ᵥ Xt k) i * (ρ i * dv i) - ∑ i, ρ i * dv i * Z k i := by
          rw [← Finset.sum_sub_distrib]
          exact Finset.sum_congr rfl fun i _ => by ring
        rw [this, ← c]; ring
      refine Tendsto.congr (fun k => (e k).symm) ?_
      refine tendsto_finset_sum _ fun i _ => ?_
      rcases lt_trichotomy (dv i) 0 with h | h | h
      · have hn : ρ i * dv i < 0 := mul_neg_of_pos_of_neg (hρ i) h
        rw [max_eq_right hn.le, min_eq_left hn.le, mul_zero, zero_add, mul_comm]
        refine tendsto_const_nhds.congr' ?_
        filter_upwards [hlo i h] with k a
        rw [a, mul_comm]
      · simp [h]
      · have hn : 0 < ρ i * dv i := mul_pos (hρ i) h
        rw [max_eq_left hn.le, min_eq_right hn.le, mul_zero, add_zero, mul_comm]
        refine tendsto_const_nhds.congr' ?_
        filter_upwards [hup i h] with k a
        rw [a, mul_comm]
    rw [← tendsto_nhds_unique l1 l2]
    congr 1
    refine Finset.sum_congr rfl fun i _ => ?_
    have := (hρ i).ne'
    field_simp
  have lgap : ∀ i, Tendsto (fun k => (Q.A *ᵥ X k) i - Z k i) atTop (𝓝 (dv i / α)) := fun i => by
    have l1 := tendsto_mulVec Q.A (f := fun k j => Xt k j - X k j) (g := fun j => dx j / α) lxt i
    have e0 : (Q.A *ᵥ fun j => dx j / α) i = 0 := by
      rw [show (fun j => dx j / α) = α⁻¹ • dx by funext j; simp [div_eq_inv_mul], mulVec_smul, hA]; simp
    rw [e0] at l1
    have := (lzt i).sub l1
    rw [sub_zero] at this
    refine this.congr fun k => ?_
    rw [show (fun j => Xt k j - X k j) = Xt k - X k from rfl, mulVec_sub, Pi.sub_apply]; ring
  have lstat : ∀ j, Tendsto (fun k => Q.stat (X k) (Y k) j) atTop (𝓝 (-(σ * dx j / α))) := fun j => by
    have l1 := tendsto_mulVec Q.P (f := fun k j => Xt k j - X k j) (g := fun j => dx j / α) lxt j
    have e0 : (Q.P *ᵥ fun j => dx j / α) j = 0 := by
      rw [show (fun j => dx j / α) = α⁻¹ • dx by funext j; simp [div_eq_inv_mul], mulVec_smul, hPx]; simp
    rw [e0] at l1
    have l2 := tendsto_mulVec Q.Aᵀ (f := fun k i => ρ i * ((Q.A *ᵥ Xt k) i - Z k i)) (g := fun i => ρ i * (dv i / α)) (fun i => (lzt i).const_mul (ρ i)) j
    have e1 : (Q.Aᵀ *ᵥ fun i => ρ i * (dv i / α)) j = 0 := by
      rw [show (fun i => ρ i * (dv i / α)) = α⁻¹ • fun i => ρ i * dv i by funext i; simp [div_eq_inv_mul]; ring, mulVec_smul, hAt]; simp
    rw [e1] at l2
    have := (((lxt j).const_mul σ).neg.sub l1).sub l2
    rw [sub_zero, sub_zero, ← mul_div_assoc] at this
    refine this.congr fun k => ?_
    have a := (step k).lin j
    unfold QP.stat
    rw [show (fun j => Xt k j - X k j) = Xt k - X k from rfl, mulVec_sub, Pi.sub_apply]
    have b : (Q.Aᵀ *ᵥ fun i => ρ i * ((Q.A *ᵥ Xt k) i - Z k i) + Y k i) j = (Q.Aᵀ *ᵥ fun i => ρ i * ((Q.A *ᵥ Xt k) i - Z k i)) j + (Q.Aᵀ *ᵥ Y k) j := by
      rw [show (fun i => ρ i * ((Q.A *ᵥ Xt k) i - Z k i) + Y k i) = (fun i => ρ i * ((Q.A *ᵥ Xt k) i - Z k i)) + Y k from rfl, mulVec_add]; rfl
    rw [b] at a
    linear_combination -a
  refine ⟨dx, fun i => ρ i * dv i, lx, ly, fun i => ?_, lstat, hPx, hA, hAt, hsup, hq⟩
  have : ρ i * dv i / (α * ρ i) = dv i / α := by
    have := (hρ i).ne'
    field_simp
  rw [this]
  exact lgap i

/-- The limit of the dual steps is normal to the box at the box point of every nearest pair. -/
theorem Drifts.nearest {X : ℕ → Fin n → ℝ} {Z Y : ℕ → Fin m → ℝ} {dx : Fin n → ℝ} {dy : Fin m → ℝ} (h : Drifts Q σ α ρ X Z Y dx dy)
    (hα : 0 < α) (hρ : ∀ i, 0 < ρ i) (hbox : ∀ k, Q.InBox (Z k)) {x : Fin n → ℝ} {z : Fin m → ℝ} (hz : Q.InBox z)
    (hmin : ∀ x' z', Q.InBox z' → ∑ i, ρ i * ((Q.A *ᵥ x) i - z i) ^ 2 ≤ ∑ i, ρ i * ((Q.A *ᵥ x') i - z' i) ^ 2) (i : Fin m) :
    (0 < dy i → z i = Q.u i) ∧ (dy i < 0 → z i = Q.l i) := by
  set G : Fin m → ℝ := fun i => (Q.A *ᵥ x) i - z i with hG
  set g : Fin m → ℝ := fun i => dy i / (α * ρ i) with hg
  have hdy : ∀ i, dy i = α * ρ i * g i := fun i => by rw [hg]; field_simp [(hρ i).ne', hα.ne']
  have lim : Tendsto (fun k => ∑ i, ρ i * ((Q.A *ᵥ X k) i - Z k i) ^ 2) atTop (𝓝 (∑ i, ρ i * g i ^ 2)) :=
    tendsto_finset_sum _ fun i _ => ((h.gap i).pow 2).const_mul (ρ i)
  have a1 : ∑ i, ρ i * G i ^ 2 ≤ ∑ i, ρ i * g i ^ 2 := ge_of_tendsto' lim fun k => hmin _ _ (hbox k)
  have term : ∀ i, dy i * z i ≤ Q.u i * max (dy i) 0 + Q.l i * min (dy i) 0 := fun i => by
    rcases le_total 0 (dy i) with p | p
    · rw [max_eq_left p, min_eq_right p, mul_zero, add_zero, mul_comm]; exact mul_le_mul_of_nonneg_right (hz i).2 p
    · rw [max_eq_right p, min_eq_left p, mul_zero, zero_add, mul_comm]; exact mul_le_mul_of_nonpos_right (hz i).1 p
  have sup : Q.support dy = -(α * ∑ i, ρ i * g i ^ 2) := by
    rw [h.support, Finset.mul_sum]
    congr 1
    refine Finset.sum_congr rfl fun i _ => ?_
    rw [hdy i]; field_simp [(hρ i).ne', hα.ne']
  have dot0 : ∑ i, dy i * (Q.A *ᵥ x) i = 0 := by
    have : dy ⬝ᵥ (Q.A *ᵥ x) = 0 := by rw [dotProduct_mulVec, ← mulVec_transpose, h.At, zero_dotProduct]
    exact this
  have a2 : ∑ i, dy i * z i = -(α * ∑ i, ρ i * (g i * G i)) := by
    have : ∑ i, dy i * z i = ∑ i, dy i * (Q.A *ᵥ x) i - ∑ i, dy i * G i := by
      rw [← Finset.sum_sub_distrib]; exact Finset.sum_congr rfl fun i _ => by rw [hG]; ring
    rw [this, dot0, zero_sub, Finset.mul_sum]
    congr 1
    exact Finset.sum_congr rfl fun i _ => by rw [hdy i]; ring
  have a3 : ∑ i, dy i * z i ≤ Q.support dy := Finset.sum_le_sum fun i _ => term i
  have a4 : ∑ i, ρ i * g i ^ 2 ≤ ∑ i, ρ i * (g i * G i) := by
    rw [a2, sup] at a3
    have := neg_le_neg_iff.1 a3
    exact le_of_mul_le_mul_left this hα
  have a5 : ∑ i, ρ i * (g i - G i) ^ 2 = ∑ i, ρ i * g i ^ 2 - 2 * ∑ i, ρ i * (g i * G i) + ∑ i, ρ i * G i ^ 2 := by
    rw [Finset.mul_sum, ← Finset.sum_sub_distrib, ← Finset.sum_add_distrib]
    exact Finset.sum_congr rfl fun i _ => by ring
  have a6 : ∑ i, ρ i * (g i - G i) ^ 2 ≤ 0 := by rw [a5]; linarith
  have a7 : ∀ i, g i = G i := fun i => by
    have nn : ∀ i ∈ Finset.univ, 0 ≤ ρ i * (g i - G i) ^ 2 := fun i _ => mul_nonneg (hρ i).le (sq_nonneg _)
    have := (Finset.sum_eq_zero_iff_of_nonneg nn).1 (le_antisymm a6 (Finset.sum_nonneg nn)) i (Finset.mem_univ i)
    rcases mul_eq_zero.1 this with q | q
    · exact absurd q (hρ i).ne'
    · exact sub_eq_zero.1 (pow_eq_zero_iff two_ne_zero |>.1 q)
  have a8 : ∑ i, dy i * z i = ∑ i, (Q.u i * max (dy i) 0 + Q.l i * min (dy i) 0) := by
    rw [a2]
    refine Eq.trans ?_ sup.symm
    congr 2
    exact Finset.sum_congr rfl fun i _ => by rw [← a7 i]; ring
  have a9 := (Finset.sum_eq_sum_iff_of_le fun i _ => term i).1 a8 i (Finset.mem_univ i)
  constructor
  · intro p
    rw [max_eq_left p.le, min_eq_right p.le, mul_zero, add_zero, mul_comm] at a9
    exact mul_right_cancel₀ p.ne' a9
  · intro p
    rw [max_eq_right p.le, min_eq_left p.le, mul_zero, zero_add, mul_comm] at a9
    exact mul_right_cancel₀ p.ne a9

theorem tendsto_normInf {a : ℕ} {f : ℕ → Fin a → ℝ} {g : Fin a → ℝ} (h : ∀ j, Tendsto (fun k => f k j) atTop (𝓝 (g j))) :
    Tendsto (fun k => normInf (f k)) atTop (𝓝 (normInf g)) := by
  rw [Metric.tendsto_atTop]
  intro ε hε
  have : ∀ j, ∃ N, ∀ k ≥ N, |f k j - g j| < ε / 2 := fun j => by
    have := Metric.tendsto_atTop.1 (h j) (ε / 2) (half_pos hε)
    simpa [Real.dist_eq] using this
  choose N hN using this
  refine ⟨Finset.univ.sup N, fun k hk => ?_⟩
  have b : ∀ j, |f k j - g j| < ε / 2 := fun j => hN j k (le_trans (Finset.le_sup (Finset.mem_univ j)) hk)
  rw [Real.dist_eq]
  have e1 : normInf (f k) ≤ normInf g + ε / 2 := by
    rw [normInf_le_iff]
    refine ⟨add_nonneg (normInf_nonneg _) (half_pos hε).le, fun j => ?_⟩
    have : f k j = g j + (f k j - g j) := by ring
    rw [this]
    exact (abs_add_le _ _).trans (add_le_add (le_normInf g j) (b j).le)
  have e2 : normInf g ≤ normInf (f k) + ε / 2 := by
    rw [normInf_le_iff]
    refine ⟨add_nonneg (normInf_nonneg _) (half_pos hε).le, fun j => ?_⟩
    have : g j = f k j - (f k j - g j) := by ring
    rw [this]
    exact (abs_sub _ _).trans (add_le_add (le_normInf _ j) (b j).le)
  rw [abs_lt]
  constructor <;> linarith

end Osqp.Conv
