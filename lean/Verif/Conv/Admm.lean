import Mathlib.Algebra.Order.BigOperators.Group.Finset
import Mathlib.Algebra.Order.Archimedean.Basic
import Mathlib.Algebra.Order.Field.Basic
import Mathlib.Algebra.Order.Group.MinMax
import Mathlib.Algebra.BigOperators.Fin
import Mathlib.Tactic.Linarith
import Mathlib.Tactic.LinearCombination
import Mathlib.Tactic.FieldSimp
import Verif.Spec.Basic

/-!
# Convergence of the relaxed ADMM iteration

Nothing here mentions the code: the iteration is described by its equations, over any Archimedean ordered field.
-/

set_option linter.unusedSectionVars false
namespace Osqp.Conv
open Matrix Spec
variable {K : Type*} [Field K] [LinearOrder K] [IsStrictOrderedRing K] {n m : ℕ}

/-- One relaxed ADMM iteration from `(x, z, y)` to `(x', z', y')` for the problem `Q` with parameters `σ`, `α`, `ρ`; `xt` solves the
linear system and `zt = A xt`. -/
structure Step (Q : QP n m K) (σ α : K) (ρ : Fin m → K) (x : Fin n → K) (z y : Fin m → K) (xt : Fin n → K) (x' : Fin n → K) (z' y' : Fin m → K) : Prop where
  lin : ∀ j, (Q.P *ᵥ xt) j + σ * xt j + (Q.Aᵀ *ᵥ fun i => ρ i * ((Q.A *ᵥ xt) i - z i) + y i) j = σ * x j - Q.q j
  hx : ∀ j, x' j = α * xt j + (1 - α) * x j
  hz : ∀ i, z' i = min (max (α * (Q.A *ᵥ xt) i + (1 - α) * z i + y i / ρ i) (Q.l i)) (Q.u i)
  hy : ∀ i, y' i = y i + ρ i * (α * (Q.A *ᵥ xt) i + (1 - α) * z i - z' i)

/-- `z` in the box and `y` normal to it. -/
def InCone (Q : QP n m K) (z y : Fin m → K) : Prop := Q.InBox z ∧ Q.NormalCone z y

/-- Distance to a KKT point in the metric of the iteration. -/
def dist (σ : K) (ρ : Fin m → K) (xs : Fin n → K) (zs ys : Fin m → K) (x : Fin n → K) (z y : Fin m → K) : K :=
  ∑ j, σ * (x j - xs j) ^ 2 + ∑ i, ρ i * (z i + y i / ρ i - (zs i + ys i / ρ i)) ^ 2

/-- Size of a step. -/
def size (σ : K) (ρ : Fin m → K) (dx : Fin n → K) (dz : Fin m → K) : K := ∑ j, σ * dx j ^ 2 + ∑ i, ρ i * dz i ^ 2

theorem cone_mono {l u z zs y ys : K} (hz : l ≤ z ∧ z ≤ u) (hy : (0 < y → z = u) ∧ (y < 0 → z = l)) (hzs : l ≤ zs ∧ zs ≤ u)
    (hys : (0 < ys → zs = u) ∧ (ys < 0 → zs = l)) : 0 ≤ (z - zs) * (y - ys) := by
  have a : 0 ≤ (z - zs) * y := by
    rcases lt_trichotomy y 0 with h | h | h
    · exact mul_nonneg_of_nonpos_of_nonpos (by rw [hy.2 h]; linarith) h.le
    · rw [h, mul_zero]
    · exact mul_nonneg (by rw [hy.1 h]; linarith) h.le
  have b : (z - zs) * ys ≤ 0 := by
    rcases lt_trichotomy ys 0 with h | h | h
    · exact mul_nonpos_of_nonneg_of_nonpos (by rw [hys.2 h]; linarith) h.le
    · rw [h, mul_zero]
    · exact mul_nonpos_of_nonpos_of_nonneg (by rw [hys.1 h]; linarith) h.le
  linarith [mul_sub (z - zs) y ys]

variable {Q : QP n m K} {σ α : K} {ρ : Fin m → K} {x xt x' xs : Fin n → K} {z y z' y' ys : Fin m → K}

/-- Sum of `e j * (Aᵀ w) j`. -/
theorem dot_transpose (A : Matrix (Fin m) (Fin n) K) (e : Fin n → K) (w : Fin m → K) : ∑ j, e j * (Aᵀ *ᵥ w) j = ∑ i, (A *ᵥ e) i * w i := by
  have := dotProduct_mulVec e Aᵀ w
  rw [vecMul_transpose] at this
  exact this

/-- The step identity. -/
theorem step_identity (hs : Step Q σ α ρ x z y xt x' z' y') (hρ : ∀ i, 0 < ρ i) (hk : ∀ j, Q.stat xs ys j = 0) :
    dist σ ρ xs (Q.A *ᵥ xs) ys x' z' y' = dist σ ρ xs (Q.A *ᵥ xs) ys x z y -
      α * (2 - α) * size σ ρ (fun j => xt j - x j) (fun i => (Q.A *ᵥ xt) i - z i) -
      2 * α * ((fun j => xt j - xs j) ⬝ᵥ (Q.P *ᵥ fun j => xt j - xs j)) - 2 * α * ∑ i, (z i - (Q.A *ᵥ xs) i) * (y i - ys i) := by
  set zt := Q.A *ᵥ xt with hzt
  set zs := Q.A *ᵥ xs with hzs
  set w : Fin m → K := fun i => ρ i * (zt i - z i) + y i with hw
  set e : Fin n → K := fun j => xt j - xs j with he
  have eP : Q.P *ᵥ e = fun j => (Q.P *ᵥ xt) j - (Q.P *ᵥ xs) j := by
    rw [show e = xt - xs from rfl, mulVec_sub]; rfl
  have eA : Q.A *ᵥ e = fun i => zt i - zs i := by
    rw [show e = xt - xs from rfl, mulVec_sub]; rfl
  have eT : Q.Aᵀ *ᵥ (fun i => w i - ys i) = fun j => (Q.Aᵀ *ᵥ w) j - (Q.Aᵀ *ᵥ ys) j := by
    rw [show (fun i => w i - ys i) = w - ys from rfl, mulVec_sub]; rfl
  have h1 : ∀ j, (Q.P *ᵥ e) j + σ * (xt j - x j) + (Q.Aᵀ *ᵥ fun i => w i - ys i) j = 0 := by
    intro j
    have a := hs.lin j
    have b := hk j
    unfold QP.stat at b
    rw [eP, eT]
    linear_combination a - b
  have h2 : e ⬝ᵥ (Q.P *ᵥ e) + ∑ j, σ * (xt j - x j) * e j + ∑ i, (zt i - zs i) * (w i - ys i) = 0 := by
    have c := dot_transpose Q.A e (fun i => w i - ys i)
    rw [eA] at c
    rw [← c]
    have : e ⬝ᵥ (Q.P *ᵥ e) = ∑ j, e j * (Q.P *ᵥ e) j := rfl
    rw [this, ← Finset.sum_add_distrib, ← Finset.sum_add_distrib]
    refine Finset.sum_eq_zero fun j _ => ?_
    linear_combination e j * h1 j
  have hx : ∀ j, σ * (x' j - xs j) ^ 2 = σ * (x j - xs j) ^ 2 - α * (2 - α) * (σ * (xt j - x j) ^ 2) + 2 * α * (σ * (xt j - x j) * e j) := by
    intro j; rw [hs.hx j, he]; ring
  have hv : ∀ i, ρ i * (z' i + y' i / ρ i - (zs i + ys i / ρ i)) ^ 2 = ρ i * (z i + y i / ρ i - (zs i + ys i / ρ i)) ^ 2 -
      α * (2 - α) * (ρ i * (zt i - z i) ^ 2) + 2 * α * ((zt i - zs i) * (w i - ys i)) - 2 * α * ((z i - zs i) * (y i - ys i)) := by
    intro i
    have := (hρ i).ne'
    have e1 : z' i + y' i / ρ i = z i + y i / ρ i + α * (zt i - z i) := by
      rw [hs.hy i]; field_simp; ring
    rw [e1, hw]; field_simp; ring
  have s1 : ∑ j, σ * (x' j - xs j) ^ 2 = ∑ j, σ * (x j - xs j) ^ 2 - α * (2 - α) * ∑ j, σ * (xt j - x j) ^ 2 + 2 * α * ∑ j, σ * (xt j - x j) * e j := by
    rw [Finset.mul_sum, Finset.mul_sum, ← Finset.sum_sub_distrib, ← Finset.sum_add_distrib]
    exact Finset.sum_congr rfl fun j _ => hx j
  have s2 : ∑ i, ρ i * (z' i + y' i / ρ i - (zs i + ys i / ρ i)) ^ 2 = ∑ i, ρ i * (z i + y i / ρ i - (zs i + ys i / ρ i)) ^ 2 -
      α * (2 - α) * ∑ i, ρ i * (zt i - z i) ^ 2 + 2 * α * ∑ i, (zt i - zs i) * (w i - ys i) - 2 * α * ∑ i, (z i - zs i) * (y i - ys i) := by
    rw [Finset.mul_sum, Finset.mul_sum, Finset.mul_sum, ← Finset.sum_sub_distrib, ← Finset.sum_add_distrib, ← Finset.sum_sub_distrib]
    exact Finset.sum_congr rfl fun i _ => hv i
  unfold dist size
  rw [s1, s2]
  linear_combination (2 * α) * h2

/-- The distance to a KKT point decreases by at least a multiple of the size of the step. -/
theorem descent (hs : Step Q σ α ρ x z y xt x' z' y') (hP : PSD Q.P) (hα : 0 < α) (hρ : ∀ i, 0 < ρ i)
    (hk : Q.KKT xs ys) (hc : InCone Q z y) :
    dist σ ρ xs (Q.A *ᵥ xs) ys x' z' y' + α * (2 - α) * size σ ρ (fun j => xt j - x j) (fun i => (Q.A *ᵥ xt) i - z i) ≤
      dist σ ρ xs (Q.A *ᵥ xs) ys x z y := by
  rw [step_identity hs hρ hk.2.2]
  have h1 := mul_nonneg (mul_nonneg zero_le_two hα.le) (hP fun j => xt j - xs j)
  have h2 : 0 ≤ ∑ i, (z i - (Q.A *ᵥ xs) i) * (y i - ys i) :=
    Finset.sum_nonneg fun i _ => cone_mono (hc.1 i) (hc.2 i) (hk.1 i) (hk.2.1 i)
  have h3 := mul_nonneg (mul_nonneg zero_le_two hα.le) h2
  linarith

theorem dist_nonneg (hσ : 0 < σ) (hρ : ∀ i, 0 < ρ i) (zs : Fin m → K) : 0 ≤ dist σ ρ xs zs ys x z y :=
  add_nonneg (Finset.sum_nonneg fun _ _ => mul_nonneg hσ.le (sq_nonneg _)) (Finset.sum_nonneg fun i _ => mul_nonneg (hρ i).le (sq_nonneg _))

theorem size_nonneg (hσ : 0 < σ) (hρ : ∀ i, 0 < ρ i) (dx : Fin n → K) (dz : Fin m → K) : 0 ≤ size σ ρ dx dz :=
  add_nonneg (Finset.sum_nonneg fun _ _ => mul_nonneg hσ.le (sq_nonneg _)) (Finset.sum_nonneg fun i _ => mul_nonneg (hρ i).le (sq_nonneg _))

/-- A small size bounds the components. -/
theorem comps_of_size (hσ : 0 < σ) (hρ : ∀ i, 0 < ρ i) {κ δ : K} (hκ : 0 < κ) (h1 : κ ≤ σ) (h2 : ∀ i, κ ≤ ρ i) (hδ : 0 ≤ δ) {dx : Fin n → K} {dz : Fin m → K}
    (h : size σ ρ dx dz ≤ κ * δ ^ 2) : (∀ j, |dx j| ≤ δ) ∧ ∀ i, |dz i| ≤ δ := by
  have n1 : ∀ j ∈ Finset.univ, 0 ≤ σ * dx j ^ 2 := fun j _ => mul_nonneg hσ.le (sq_nonneg _)
  have n2 : ∀ i ∈ Finset.univ, 0 ≤ ρ i * dz i ^ 2 := fun i _ => mul_nonneg (hρ i).le (sq_nonneg _)
  have p1 := Finset.sum_nonneg n1
  have p2 := Finset.sum_nonneg n2
  unfold size at h
  constructor
  · intro j
    have a := Finset.single_le_sum n1 (Finset.mem_univ j)
    have b : κ * dx j ^ 2 ≤ κ * δ ^ 2 := (mul_le_mul_of_nonneg_right h1 (sq_nonneg _)).trans (by linarith)
    exact abs_le_of_sq_le_sq (le_of_mul_le_mul_left b hκ) hδ
  · intro i
    have a := Finset.single_le_sum n2 (Finset.mem_univ i)
    have b : κ * dz i ^ 2 ≤ κ * δ ^ 2 := (mul_le_mul_of_nonneg_right (h2 i) (sq_nonneg _)).trans (by linarith)
    exact abs_le_of_sq_le_sq (le_of_mul_le_mul_left b hκ) hδ

/-! ## Residuals -/

theorem proj_of_cone {l u z y r : K} (hr : 0 < r) (hz : l ≤ z ∧ z ≤ u) (hy : (0 < y → z = u) ∧ (y < 0 → z = l)) : min (max (z + y / r) l) u = z := by
  rcases lt_trichotomy y 0 with h | h | h
  · have : y / r < 0 := div_neg_of_neg_of_pos h hr
    have e := hy.2 h
    rw [max_eq_right (by linarith), min_eq_left (by linarith), e]
  · rw [h, zero_div, add_zero, max_eq_left hz.1, min_eq_left hz.2]
  · have : 0 < y / r := div_pos h hr
    have e := hy.1 h
    rw [max_eq_left (by linarith), min_eq_right (by linarith), e]

theorem proj_nonexp (a b l u : K) : |min (max a l) u - min (max b l) u| ≤ |a - b| :=
  (abs_min_sub_min_le_max _ _ _ _).trans (by
    rw [sub_self, abs_zero, max_eq_left (abs_nonneg _)]
    exact (abs_max_sub_max_le_max _ _ _ _).trans (by rw [sub_self, abs_zero, max_eq_left (abs_nonneg _)]))

/-- Sum of the absolute values of the entries. -/
def total {a b : ℕ} (M : Matrix (Fin a) (Fin b) K) : K := ∑ i, ∑ j, |M i j|

theorem total_nonneg {a b : ℕ} (M : Matrix (Fin a) (Fin b) K) : 0 ≤ total M :=
  Finset.sum_nonneg fun _ _ => Finset.sum_nonneg fun _ _ => abs_nonneg _

theorem mulVec_le {a b : ℕ} (M : Matrix (Fin a) (Fin b) K) {v : Fin b → K} {c : K} (h : ∀ j, |v j| ≤ c) (i : Fin a) : |(M *ᵥ v) i| ≤ total M * c := by
  have h1 : |(M *ᵥ v) i| ≤ (∑ j, |M i j|) * c := by
    rw [Finset.sum_mul]
    have a : |∑ j, M i j * v j| ≤ ∑ j, |M i j * v j| := Finset.abs_sum_le_sum_abs _ _
    refine le_trans a (Finset.sum_le_sum fun j _ => ?_)
    rw [abs_mul]; exact mul_le_mul_of_nonneg_left (h j) (abs_nonneg _)
  rcases (Finset.univ : Finset (Fin b)).eq_empty_or_nonempty with he | ⟨j, _⟩
  · have e0 : (M *ᵥ v) i = 0 := by
      show ∑ j, M i j * v j = 0
      rw [he, Finset.sum_empty]
    have e1 : total M = 0 := by unfold total; rw [he]; simp
    rw [e0, e1]; simp
  · have hc : 0 ≤ c := (abs_nonneg _).trans (h j)
    refine h1.trans (mul_le_mul_of_nonneg_right ?_ hc)
    exact Finset.single_le_sum (f := fun i => ∑ j, |M i j|) (fun i _ => Finset.sum_nonneg fun _ _ => abs_nonneg _) (Finset.mem_univ i)

/-- The residuals after a small step are small. -/
theorem residual_le (hs : Step Q σ α ρ x z y xt x' z' y') (hα : 0 < α) (hσ : 0 < σ) (hρ : ∀ i, 0 < ρ i) (hc : InCone Q z y)
    {R δ : K} (hR : ∀ i, ρ i ≤ R) (hR0 : 0 ≤ R) (h1 : ∀ j, |xt j - x j| ≤ δ) (h2 : ∀ i, |(Q.A *ᵥ xt) i - z i| ≤ δ) :
    (∀ i, |(Q.A *ᵥ x') i - z' i| ≤ (1 + α + |1 - α| * total Q.A) * δ) ∧
    ∀ j, |Q.stat x' y' j| ≤ (|1 - α| * total Q.P + σ + total Q.Aᵀ * (R * (α + |1 - α|))) * δ := by
  set zt := Q.A *ᵥ xt with hzt
  set dx : Fin n → K := fun j => xt j - x j with hdx
  have ex : x' = xt - (1 - α) • dx := by
    funext j
    simp only [Pi.sub_apply, Pi.smul_apply, smul_eq_mul, hdx]
    rw [hs.hx j]; ring
  have eA : ∀ i, (Q.A *ᵥ x') i = zt i - (1 - α) * (Q.A *ᵥ dx) i := by
    intro i; rw [ex, mulVec_sub, mulVec_smul]; rfl
  have eP : ∀ j, (Q.P *ᵥ x') j = (Q.P *ᵥ xt) j - (1 - α) * (Q.P *ᵥ dx) j := by
    intro j; rw [ex, mulVec_sub, mulVec_smul]; rfl
  have hz : ∀ i, |z' i - z i| ≤ α * |zt i - z i| := by
    intro i
    have e := proj_of_cone (hρ i) (hc.1 i) (hc.2 i)
    have := proj_nonexp (α * zt i + (1 - α) * z i + y i / ρ i) (z i + y i / ρ i) (Q.l i) (Q.u i)
    rw [← hs.hz i, e] at this
    refine this.trans (le_of_eq ?_)
    rw [show α * zt i + (1 - α) * z i + y i / ρ i - (z i + y i / ρ i) = α * (zt i - z i) by ring, abs_mul, abs_of_pos hα]
  have hz' : ∀ i, |z' i - z i| ≤ α * δ := fun i => (hz i).trans (mul_le_mul_of_nonneg_left (h2 i) hα.le)
  constructor
  · intro i
    have e : (Q.A *ᵥ x') i - z' i = (zt i - z i) - (z' i - z i) - (1 - α) * (Q.A *ᵥ dx) i := by rw [eA]; ring
    have a := mulVec_le Q.A h1 i
    have b : |(1 - α) * (Q.A *ᵥ dx) i| ≤ |1 - α| * (total Q.A * δ) := by
      rw [abs_mul]; exact mul_le_mul_of_nonneg_left a (abs_nonneg _)
    rw [e]
    calc |(zt i - z i) - (z' i - z i) - (1 - α) * (Q.A *ᵥ dx) i|
        ≤ |(zt i - z i) - (z' i - z i)| + |(1 - α) * (Q.A *ᵥ dx) i| := abs_sub _ _
      _ ≤ |zt i - z i| + |z' i - z i| + |(1 - α) * (Q.A *ᵥ dx) i| := by linarith [abs_sub (zt i - z i) (z' i - z i)]
      _ ≤ δ + α * δ + |1 - α| * (total Q.A * δ) := by linarith [h2 i, hz' i]
      _ = _ := by ring
  · intro j
    set v : Fin m → K := fun i => ρ i * ((z i - z' i) - (1 - α) * (zt i - z i)) with hv
    have ev : y' = (fun i => ρ i * (zt i - z i) + y i) + v := by
      funext i; simp only [Pi.add_apply, hv]; rw [hs.hy i]; ring
    have e : Q.stat x' y' j = -((1 - α) * (Q.P *ᵥ dx) j) - σ * dx j + (Q.Aᵀ *ᵥ v) j := by
      unfold QP.stat
      rw [eP, ev, mulVec_add, Pi.add_apply]
      linear_combination hs.lin j
    have a := mulVec_le Q.P h1 j
    have b : |(1 - α) * (Q.P *ᵥ dx) j| ≤ |1 - α| * (total Q.P * δ) := by
      rw [abs_mul]; exact mul_le_mul_of_nonneg_left a (abs_nonneg _)
    have c : |σ * dx j| ≤ σ * δ := by
      rw [abs_mul, abs_of_pos hσ]; exact mul_le_mul_of_nonneg_left (h1 j) hσ.le
    have hvi : ∀ i, |v i| ≤ R * (α + |1 - α|) * δ := by
      intro i
      have g : |(z i - z' i) - (1 - α) * (zt i - z i)| ≤ (α + |1 - α|) * δ := by
        refine (abs_sub _ _).trans ?_
        rw [abs_sub_comm (z i), abs_mul]
        have := mul_le_mul_of_nonneg_left (h2 i) (abs_nonneg (1 - α))
        linarith [hz' i]
      rw [hv, abs_mul, abs_of_pos (hρ i), mul_assoc]
      exact mul_le_mul (hR i) g (abs_nonneg _) hR0
    have f := mulVec_le Q.Aᵀ hvi j
    rw [e]
    calc |-((1 - α) * (Q.P *ᵥ dx) j) - σ * dx j + (Q.Aᵀ *ᵥ v) j|
        ≤ |-((1 - α) * (Q.P *ᵥ dx) j) - σ * dx j| + |(Q.Aᵀ *ᵥ v) j| := abs_add_le _ _
      _ ≤ |(1 - α) * (Q.P *ᵥ dx) j| + |σ * dx j| + |(Q.Aᵀ *ᵥ v) j| := by
        have := abs_sub (-((1 - α) * (Q.P *ᵥ dx) j)) (σ * dx j)
        rw [abs_neg] at this; linarith
      _ ≤ |1 - α| * (total Q.P * δ) + σ * δ + total Q.Aᵀ * (R * (α + |1 - α|) * δ) := by linarith
      _ = _ := by ring

/-! ## Sequences -/

/-- A non-negative sequence with bounded partial sums becomes and stays small. -/
theorem tail_small [Archimedean K] {D : ℕ → K} (h0 : ∀ k, 0 ≤ D k) {B : K} (hB : ∀ N, ∑ k ∈ Finset.range N, D k ≤ B) {ε : K} (hε : 0 < ε) :
    ∃ N, ∀ k ≥ N, D k ≤ ε := by
  by_contra hcon
  push Not at hcon
  have key : ∀ c : ℕ, ∃ M, (c : K) * ε ≤ ∑ k ∈ Finset.range M, D k := by
    intro c
    induction c with
    | zero => exact ⟨0, by simp⟩
    | succ c ih =>
      obtain ⟨M, hM⟩ := ih
      obtain ⟨k, hk, hD⟩ := hcon M
      refine ⟨k + 1, ?_⟩
      rw [Finset.sum_range_succ]
      have : ∑ k ∈ Finset.range M, D k ≤ ∑ i ∈ Finset.range k, D i :=
        Finset.sum_le_sum_of_subset_of_nonneg (Finset.range_subset_range.2 hk) fun i _ _ => h0 i
      push_cast; linarith
  obtain ⟨c, hc⟩ := exists_nat_gt (B / ε)
  obtain ⟨M, hM⟩ := key c
  rw [div_lt_iff₀ hε] at hc
  linarith [hB M]

/-- **Convergence of ADMM**: along any sequence of iterations the primal and the dual residual tend to zero. -/
theorem admm_converges [Archimedean K] (hP : PSD Q.P) (hσ : 0 < σ) (hα : 0 < α) (hα2 : α < 2) (hρ : ∀ i, 0 < ρ i) (hk : Q.KKT xs ys)
    {X Xt : ℕ → Fin n → K} {Z Y : ℕ → Fin m → K} (step : ∀ k, Step Q σ α ρ (X k) (Z k) (Y k) (Xt k) (X (k + 1)) (Z (k + 1)) (Y (k + 1)))
    (cone : ∀ k, InCone Q (Z (k + 1)) (Y (k + 1))) {ε : K} (hε : 0 < ε) :
    ∃ N, ∀ k ≥ N, (∀ i, |(Q.A *ᵥ X k) i - Z k i| ≤ ε) ∧ ∀ j, |Q.stat (X k) (Y k) j| ≤ ε := by
  set c := α * (2 - α) with hc
  have hc0 : 0 < c := mul_pos hα (by linarith)
  let S : ℕ → K := fun k => size σ ρ (fun j => Xt (k + 1) j - X (k + 1) j) (fun i => (Q.A *ᵥ Xt (k + 1)) i - Z (k + 1) i)
  let V : ℕ → K := fun k => dist σ ρ xs (Q.A *ᵥ xs) ys (X (k + 1)) (Z (k + 1)) (Y (k + 1))
  have hS : ∀ k, 0 ≤ S k := fun k => size_nonneg hσ hρ _ _
  have hV : ∀ k, 0 ≤ V k := fun k => dist_nonneg hσ hρ _
  have hd : ∀ k, V (k + 1) + c * S k ≤ V k := fun k => descent (step (k + 1)) hP hα hρ hk (cone k)
  have hsum : ∀ N, V N + c * ∑ k ∈ Finset.range N, S k ≤ V 0 := by
    intro N
    induction N with
    | zero => simp
    | succ N ih => rw [Finset.sum_range_succ, mul_add]; linarith [hd N]
  have hB : ∀ N, ∑ k ∈ Finset.range N, S k ≤ V 0 / c := fun N => by
    rw [le_div_iff₀ hc0]; linarith [hsum N, hV N]
  -- common lower and upper bounds of the weights
  obtain ⟨κ, hκ, hκσ, hκρ⟩ : ∃ κ, 0 < κ ∧ κ ≤ σ ∧ ∀ i, κ ≤ ρ i := by
    have : ∀ s : Finset (Fin m), ∃ κ, 0 < κ ∧ κ ≤ σ ∧ ∀ i ∈ s, κ ≤ ρ i := by
      intro s
      induction s using Finset.induction_on with
      | empty => exact ⟨σ, hσ, le_rfl, by simp⟩
      | insert a s _ ih =>
        obtain ⟨κ, h1, h2, h3⟩ := ih
        refine ⟨min κ (ρ a), lt_min h1 (hρ a), (min_le_left _ _).trans h2, fun i hi => ?_⟩
        rcases Finset.mem_insert.1 hi with rfl | hi
        · exact min_le_right _ _
        · exact (min_le_left _ _).trans (h3 i hi)
    obtain ⟨κ, h1, h2, h3⟩ := this Finset.univ
    exact ⟨κ, h1, h2, fun i => h3 i (Finset.mem_univ i)⟩
  set R := ∑ i, ρ i with hR
  have hR0 : 0 ≤ R := Finset.sum_nonneg fun i _ => (hρ i).le
  have hRi : ∀ i, ρ i ≤ R := fun i => Finset.single_le_sum (fun i _ => (hρ i).le) (Finset.mem_univ i)
  set C := 1 + α + |1 - α| * total Q.A + (|1 - α| * total Q.P + σ + total Q.Aᵀ * (R * (α + |1 - α|))) with hC
  have t1 := mul_nonneg (abs_nonneg (1 - α)) (total_nonneg Q.A)
  have t2 : 0 ≤ |1 - α| * total Q.P + σ + total Q.Aᵀ * (R * (α + |1 - α|)) :=
    add_nonneg (add_nonneg (mul_nonneg (abs_nonneg _) (total_nonneg _)) hσ.le) (mul_nonneg (total_nonneg _) (mul_nonneg hR0 (add_nonneg hα.le (abs_nonneg _))))
  have hC0 : 0 < C := by linarith
  set δ := ε / C with hδ
  have hδ0 : 0 < δ := div_pos hε hC0
  obtain ⟨N, hN⟩ := tail_small hS hB (mul_pos hκ (pow_pos hδ0 2))
  refine ⟨N + 2, fun k hk2 => ?_⟩
  obtain ⟨k, rfl⟩ : ∃ k', k = k' + 2 := ⟨k - 2, by omega⟩
  have hk' : k ≥ N := by omega
  obtain ⟨c1, c2⟩ := comps_of_size hσ hρ hκ hκσ hκρ hδ0.le (hN k hk')
  obtain ⟨r1, r2⟩ := residual_le (step (k + 1)) hα hσ hρ (cone k) hRi hR0 c1 c2
  have hCδ : C * δ = ε := by rw [hδ]; field_simp
  constructor
  · intro i
    refine (r1 i).trans ?_
    rw [← hCδ]
    exact mul_le_mul_of_nonneg_right (by linarith) hδ0.le
  · intro j
    refine (r2 j).trans ?_
    rw [← hCδ]
    exact mul_le_mul_of_nonneg_right (by linarith) hδ0.le

end Osqp.Conv
