import Verif.Lemmas.Frame
import Verif.Lemmas.Scaling

/-!
# One ADMM iteration: box and normal cone
-/

set_option linter.unusedSectionVars false
namespace Osqp
open Spec
variable {K : Type*} [Field K] [LinearOrder K] [IsStrictOrderedRing K] {d : Dims}

/-- `z` in the box and `y` in its normal cone at `z`, on the solver's (scaled) data. -/
def Cone (D : Data d K) (z y : Vec K d.m) : Prop :=
  ∀ i, (D.l i ≤ z i ∧ z i ≤ D.u i) ∧ (0 < y i → z i = D.u i) ∧ (y i < 0 → z i = D.l i)

/-- The step sizes used by the iteration are positive and the stored inverses exact. -/
structure RhoOK (s : Solver d K) : Prop where
  vec : s.settings.rho_is_vec ≠ 0 → ∀ i, 0 < s.work.rho_vec i ∧ s.work.rho_inv_vec i = 1 / s.work.rho_vec i
  sca : s.settings.rho_is_vec = 0 → 0 < s.settings.rho ∧ s.work.rho_inv = 1 / s.settings.rho

theorem cone_scalar {l u w r z y : K} (hlu : l ≤ u) (hr : 0 < r) (hz : z = min (max w l) u)
    (hy : y = r * (w - z)) : (l ≤ z ∧ z ≤ u) ∧ (0 < y → z = u) ∧ (y < 0 → z = l) := by
  subst hy
  refine ⟨⟨?_, ?_⟩, ?_, ?_⟩
  · rw [hz]; exact le_min (le_max_right _ _) hlu
  · rw [hz]; exact min_le_right _ _
  · intro h
    have h1 : z < w := by
      by_contra hc
      have : r * (w - z) ≤ 0 := mul_nonpos_of_nonneg_of_nonpos hr.le (sub_nonpos.2 (not_lt.1 hc))
      exact absurd h (not_lt.2 this)
    rw [hz] at h1 ⊢
    rcases le_total (max w l) u with h2 | h2
    · rw [min_eq_left h2] at h1
      exact absurd (le_max_left w l) (not_le.2 h1)
    · exact min_eq_right h2
  · intro h
    have h1 : w < z := by
      by_contra hc
      have : 0 ≤ r * (w - z) := mul_nonneg hr.le (sub_nonneg.2 (not_lt.1 hc))
      exact absurd h (not_lt.2 this)
    rw [hz] at h1 ⊢
    rcases le_total w l with h2 | h2
    · rw [max_eq_right h2]; exact min_eq_left hlu
    · rw [max_eq_left h2] at h1
      exact absurd (min_le_left w u) (not_le.2 h1)

/-- Values of the iterates after one iteration. -/
theorem admmStep_z (env : Env d K) (s : Solver d K) (i : Fin d.m) :
    let t := updateXZTilde env (swapIterates s)
    let al := s.settings.alpha
    let ri := if s.settings.rho_is_vec ≠ 0 then s.work.rho_inv_vec i else s.work.rho_inv
    (admmStep env s).work.z i =
      min (max (ri * s.work.y i + al * t.2 i + (1 - al) * s.work.z i) (s.work.data.l i)) (s.work.data.u i) := by
  intro t al ri
  have : (admmStep env s).work.z = (updateZ t.2 (updateX t.1 (swapIterates s))).work.z := rfl
  rw [this]
  unfold updateZ
  dsimp only
  rw [vBound_apply]
  by_cases h : s.settings.rho_is_vec ≠ 0
  · have h' : (updateX t.1 (swapIterates s)).settings.rho_is_vec ≠ 0 := h
    rw [if_pos h']
    simp only [ri, if_pos h]
    simp [vAddScaled3, vEwProd, swapIterates, updateX, al]
  · have h' : ¬ (updateX t.1 (swapIterates s)).settings.rho_is_vec ≠ 0 := h
    rw [if_neg h']
    simp only [ri, if_neg h]
    simp only [vAddScaled3, swapIterates, updateX, al]
    congr 2; ring

theorem admmStep_y (env : Env d K) (s : Solver d K) (i : Fin d.m) :
    let t := updateXZTilde env (swapIterates s)
    let al := s.settings.alpha
    let r := if s.settings.rho_is_vec ≠ 0 then s.work.rho_vec i else s.settings.rho
    (admmStep env s).work.y i = s.work.y i + r * (al * t.2 i + (1 - al) * s.work.z i - (admmStep env s).work.z i) := by
  intro t al r
  have h1 : (admmStep env s).work.y = (updateY t.2 (updateZ t.2 (updateX t.1 (swapIterates s)))).work.y := rfl
  have h2 : (admmStep env s).work.z = (updateZ t.2 (updateX t.1 (swapIterates s))).work.z := rfl
  rw [h1, h2]
  generalize hs : updateZ t.2 (updateX t.1 (swapIterates s)) = s'
  have e1 : s'.work.y = s.work.y := by rw [← hs]; rfl
  have e2 : s'.work.z_prev = s.work.z := by rw [← hs]; rfl
  have e3 : s'.settings = s.settings := by rw [← hs]; rfl
  have e4 : s'.work.rho_vec = s.work.rho_vec := by rw [← hs]; rfl
  unfold updateY
  simp only [e1, e2, e3, e4, vPlus]
  by_cases h : s.settings.rho_is_vec ≠ 0
  · simp only [if_pos h, r, vEwProd, vAddScaled3, al]; ring
  · simp only [if_neg h, r, vScale, vAddScaled3, al]; ring

theorem admmStep_cone (env : Env d K) (s : Solver d K) (hr : RhoOK s)
    (hb : ∀ i, s.work.data.l i ≤ s.work.data.u i) :
    Cone s.work.data (admmStep env s).work.z (admmStep env s).work.y := by
  intro i
  have hz := admmStep_z env s i
  have hy := admmStep_y env s i
  dsimp only at hz hy
  by_cases h : s.settings.rho_is_vec ≠ 0
  · simp only [if_pos h] at hz hy
    obtain ⟨h1, h2⟩ := hr.vec h i
    refine cone_scalar (hb i) h1 hz ?_
    rw [hy, h2]; field_simp; ring
  · simp only [if_neg h] at hz hy
    obtain ⟨h1, h2⟩ := hr.sca (not_not.1 h)
    refine cone_scalar (hb i) h1 hz ?_
    rw [hy, h2]; field_simp; ring

/-- `z` is in the box after an iteration whatever the step sizes are. -/
theorem admmStep_box (env : Env d K) (s : Solver d K) (hb : ∀ i, s.work.data.l i ≤ s.work.data.u i) (i : Fin d.m) :
    s.work.data.l i ≤ (admmStep env s).work.z i ∧ (admmStep env s).work.z i ≤ s.work.data.u i := by
  rw [admmStep_z]
  exact ⟨le_min (le_max_right _ _) (hb i), min_le_right _ _⟩

theorem RhoOK.of_eq {s s' : Solver d K} (h : RhoOK s) (h1 : s'.settings.rho_is_vec = s.settings.rho_is_vec)
    (h2 : s'.settings.rho = s.settings.rho) (h3 : s'.work.rho_vec = s.work.rho_vec)
    (h4 : s'.work.rho_inv_vec = s.work.rho_inv_vec) (h5 : s'.work.rho_inv = s.work.rho_inv) : RhoOK s' := by
  constructor
  · rw [h1, h3, h4]; exact h.vec
  · rw [h1, h2, h5]; exact h.sca

end Osqp
