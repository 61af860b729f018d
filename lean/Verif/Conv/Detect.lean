import Verif.Conv.Limit
import Verif.Conv.Link
import Verif.Props.Converge
import Verif.Spec.Detect

/-!
# The iterates of the model on an infeasible problem
-/

set_option linter.unusedSectionVars false
namespace Osqp
open Spec Matrix Conv Filter Topology
variable {d : Dims} {cfg : Cfg} {env : Env d ℝ} {D₀ U : Data d ℝ} {st₀ : Settings ℝ} {s s1 s' : Solver d ℝ}

/-- The differences of the iterates converge, in the solver's units. -/
theorem held_drifts (h : Inv cfg st₀ U s) (ok : RhoStartOK st₀) (exact_solve : ExactOn env s.work.linsys) (convex : PSD (ofData U).P) :
    ∃ dx dy, Drifts (ofData s.work.data) s.settings.sigma s.settings.alpha (steps s)
      (fun k => (iterate env (solveEntry cfg s).s (k + 1)).work.x) (fun k => (iterate env (solveEntry cfg s).s (k + 1)).work.z)
      (fun k => (iterate env (solveEntry cfg s).s (k + 1)).work.y) dx dy ∧
      ∀ k, (ofData s.work.data).InBox (iterate env (solveEntry cfg s).s (k + 1)).work.z := by
  have hs := h.sync.congr (entry_core cfg s)
  have hr := (h.rinv ok).congr (entry_core cfg s)
  have hd : (solveEntry cfg s).s.work.data = s.work.data := by simp
  have hse : (solveEntry cfg s).s.settings = s.settings := by simp
  have hst : steps (solveEntry cfg s).s = steps s := steps_core (entry_core cfg s)
  have hl : (solveEntry cfg s).s.work.linsys = s.work.linsys := by simp
  have hb : ∀ i, s.work.data.l i ≤ s.work.data.u i := rep_bounds h.rep h.bounds
  generalize (solveEntry cfg s).s = t at *
  have hc : ∀ k, core (iterate env t k) = core t := fun k => (iterate_frame t k).1
  have hsk : ∀ k, (iterate env t k).settings = s.settings := fun k => (iterate_frame t k).2.1.trans hse
  have hda : ∀ k, (iterate env t k).work.data = s.work.data := fun k => by
    have := hc k; simp only [core, Prod.mk.injEq] at this; exact this.2.2.2.1.trans hd
  have hls : ∀ k, (iterate env t k).work.linsys = s.work.linsys := fun k => by
    have := hc k; simp only [core, Prod.mk.injEq] at this; exact this.2.2.2.2.1.trans hl
  have cone : ∀ k, InCone (ofData s.work.data) (iterate env t (k + 1)).work.z (iterate env t (k + 1)).work.y := fun k => by
    have := admmStep_cone env (iterate env t k) ((hs.congr (hc k)).rhoOK (hr.congr (hc k))) (by rw [hda]; exact hb)
    rw [hda] at this
    rw [iterate_succ]
    exact ⟨fun i => (this i).1, fun i => (this i).2⟩
  have step : ∀ k, Step (ofData s.work.data) s.settings.sigma s.settings.alpha (steps s) (iterate env t (k + 1)).work.x (iterate env t (k + 1)).work.z
      (iterate env t (k + 1)).work.y (updateXZTilde env (swapIterates (iterate env t (k + 1)))).1 (iterate env t (k + 1 + 1)).work.x
      (iterate env t (k + 1 + 1)).work.z (iterate env t (k + 1 + 1)).work.y := fun k => by
    have := admm_is_step (env := env) (hs.congr (hc (k + 1))) (hr.congr (hc (k + 1))) (by rw [hls]; exact exact_solve)
    rw [hda, hsk, steps_core (hc (k + 1)), hst] at this
    rw [iterate_succ t (k + 1)]
    exact this
  have hsym : (ofData s.work.data).Pᵀ = (ofData s.work.data).P := by
    ext i j; exact (denseSym_symm _ _ _ _)
  obtain ⟨dx, dy, hdr⟩ := drifts (X := fun k => (iterate env t (k + 1)).work.x) (Z := fun k => (iterate env t (k + 1)).work.z)
    (Y := fun k => (iterate env t (k + 1)).work.y) (psd_held h convex) hsym (by rw [h.fixed.sigma]; exact h.valid0.sigma) h.live.alpha.1 h.live.alpha.2
    (steps_pos h.sync) step cone
  exact ⟨dx, dy, hdr, fun k => (cone k).1⟩

theorem exists_normInf {n : ℕ} {v : Fin n → ℝ} {c : ℝ} (hc : 0 < c) (h : c ≤ normInf v) : ∃ i, c ≤ |v i| := by
  by_contra hn
  push_neg at hn
  exact absurd ((normInf_lt_iff v c).2 ⟨hc, hn⟩) (not_lt.2 h)

/-- The projection of the dual step that the check applies, in the limit. -/
theorem tendsto_polar {m : ℕ} {f : ℕ → Fin m → ℝ} {g l u : Fin m → ℝ} {c : ℝ} (h : ∀ i, Tendsto (fun k => f k i) atTop (𝓝 (g i)))
    (hu : ∀ i, c < u i → g i ≤ 0) (hl : ∀ i, l i < -c → 0 ≤ g i) (i : Fin m) :
    Tendsto (fun k => vProjectPolar (f k) l u c i) atTop (𝓝 (g i)) := by
  unfold vProjectPolar
  by_cases h1 : u i > c <;> by_cases h2 : l i < -c
  · simp only [if_pos h1, if_pos h2]
    rw [le_antisymm (hu i h1) (hl i h2)]; exact tendsto_const_nhds
  · simp only [if_pos h1, if_neg h2, cMin_eq]
    have := (h i).min (tendsto_const_nhds (x := (0 : ℝ)))
    rwa [min_eq_left (hu i h1)] at this
  · simp only [if_neg h1, if_pos h2, cMax_eq]
    have := (h i).max (tendsto_const_nhds (x := (0 : ℝ)))
    rwa [max_eq_left (hl i h2)] at this
  · simp only [if_neg h1, if_neg h2]; exact h i

/-- `Ax − z` in both units. -/
theorem gap_user {sc : Scaling d ℝ} {D : Data d ℝ} (ok : ScalingOK sc) (is : IsScaled sc U D) (x : Vec ℝ d.n) (z : Vec ℝ d.m) (i : Fin d.m) :
    ((ofData U).A *ᵥ toX sc x) i - toZ sc z i = sc.Einv i * (((ofData D).A *ᵥ x) i - z i) := by
  have := toZ_A ok is x i
  rw [mul_sub]
  exact congrArg (· - toZ sc z i) this.symm

/-- Points of the box in both units. -/
theorem box_user {sc : Scaling d ℝ} {D : Data d ℝ} (ok : ScalingOK sc) (is : IsScaled sc U D) (z : Vec ℝ d.m) (h : (ofData D).InBox z) :
    (ofData U).InBox (toZ sc z) := fun i => by
  have hE := ok.E_pos i
  have a : D.l i ≤ z i := (h i).1
  have b : z i ≤ D.u i := (h i).2
  rw [is.l] at a
  rw [is.u] at b
  have e : toZ sc z i = z i / sc.E i := by unfold toZ; rw [ok.Einv]; ring
  show U.l i ≤ _ ∧ _ ≤ U.u i
  rw [e, le_div_iff₀ hE, div_le_iff₀ hE]
  constructor <;> linarith

/-- On a problem that is infeasible beyond the tolerances the primal infeasibility test eventually succeeds. -/
theorem prim_detect (h : Inv cfg st₀ U s) (ok : RhoStartOK st₀) (exact_solve : ExactOn env s.work.linsys) (convex : PSD (ofData U).P)
    {ea er eps : ℝ} (hea : 0 < ea) (her : 0 ≤ er) (heps : 0 < eps) (out : (ofData U).PrimalOut ea er)
    (scale : ∀ i, 1 / 10 ^ 30 < s.settings.alpha * steps s i * rowScale s i ^ 2 * ea)
    (fin : (ofData U).FiniteConflict (fun i => steps s i * rowScale s i ^ 2) (rowScale s)) :
    ∃ N, ∀ k ≥ N, ∀ t : Solver d ℝ, Represents t.settings t.work.scaling U t.work.data → UserCriteria t → t.work.data = s.work.data → effSc t = effSc s →
      (∀ i, t.work.delta_y i = (iterate env (solveEntry cfg s).s (k + 2)).work.y i - (iterate env (solveEntry cfg s).s (k + 1)).work.y i) →
      (isPrimalInfeasible t eps).2 = true := by
  obtain ⟨dx, dy, hdr, hbox⟩ := held_drifts (cfg := cfg) h ok exact_solve convex
  obtain ⟨sok, is⟩ := rep_eff h.rep
  have hα := h.live.alpha.1
  have hρ := steps_pos h.sync
  rw [rowScale_eff] at scale fin
  set X := fun k => (iterate env (solveEntry cfg s).s (k + 1)).work.x with hX
  set Z := fun k => (iterate env (solveEntry cfg s).s (k + 1)).work.z with hZ
  set Y := fun k => (iterate env (solveEntry cfg s).s (k + 1)).work.y with hY
  set sc := effSc s with hsc
  set ey : Fin d.m → ℝ := fun i => dy i * sc.E i with hey
  -- the signs
  have sign : (∀ i, (10 : ℝ) ^ 26 < s.work.data.u i → dy i ≤ 0) ∧ ∀ i, s.work.data.l i < -(10 : ℝ) ^ 26 → 0 ≤ dy i := by
    rcases fin with f | ⟨x, z, ⟨hz, hmin⟩, f⟩
    · refine ⟨fun i hi => ?_, fun i hi => ?_⟩
      · rw [is.u] at hi; exact absurd (f i).2 (not_le.2 hi)
      · rw [is.l] at hi; exact absurd (f i).1 (not_le.2 hi)
    · have hz' : (ofData s.work.data).InBox (fun i => sc.E i * z i) := fun i => by
        have hE := sok.E_pos i
        show s.work.data.l i ≤ _ ∧ _ ≤ s.work.data.u i
        rw [is.l, is.u]
        exact ⟨mul_le_mul_of_nonneg_left (hz i).1 hE.le, mul_le_mul_of_nonneg_left (hz i).2 hE.le⟩
      have near := hdr.nearest hα hρ hbox (x := scaledX sc x) (z := fun i => sc.E i * z i) hz' (fun x' z' hb => by
        have := hmin (toX sc x') (toZ sc z') (box_user sok is z' hb)
        have e1 : ∀ i, steps s i * sc.E i ^ 2 * (((ofData U).A *ᵥ toX sc x') i - toZ sc z' i) ^ 2 =
            steps s i * (((ofData s.work.data).A *ᵥ x') i - z' i) ^ 2 := fun i => by
          have hE := (sok.E_pos i).ne'
          rw [gap_user sok is, sok.Einv]; field_simp
        have e2 : ∀ i, steps s i * sc.E i ^ 2 * (((ofData U).A *ᵥ x) i - z i) ^ 2 =
            steps s i * (((ofData s.work.data).A *ᵥ scaledX sc x) i - sc.E i * z i) ^ 2 := fun i => by
          have hE := (sok.E_pos i).ne'
          have a := gap_user sok is (scaledX sc x) (fun i => sc.E i * z i) i
          have b : toZ sc (fun i => sc.E i * z i) i = z i := by unfold toZ; rw [sok.Einv]; field_simp
          rw [toX_scaledX sok, b] at a
          rw [a, sok.Einv]; field_simp
        simp only [e1, e2] at this
        exact this)
      refine ⟨fun i hi => ?_, fun i hi => ?_⟩
      · by_contra hn
        have a := (near i).1 (not_le.1 hn)
        have hE := sok.E_pos i
        rw [is.u] at hi
        have b := (f i).1 hi
        have a' : sc.E i * z i = s.work.data.u i := a
        rw [is.u] at a'
        exact absurd (mul_left_cancel₀ hE.ne' a') b.ne
      · by_contra hn
        have a := (near i).2 (not_le.1 hn)
        have hE := sok.E_pos i
        rw [is.l] at hi
        have b := (f i).2 hi
        have a' : sc.E i * z i = s.work.data.l i := a
        rw [is.l] at a'
        exact absurd (mul_left_cancel₀ hE.ne' a').symm b.ne
  -- the limit certificate
  have cert : ∀ i, Tendsto (fun k => vProjectPolar (fun i => Y (k + 1) i - Y k i) s.work.data.l s.work.data.u (Const.infval ℝ) i * sc.E i) atTop (𝓝 (ey i)) :=
    fun i => (tendsto_polar hdr.y (by rw [infval_eq]; exact sign.1) (by rw [infval_eq]; exact sign.2) i).mul_const _
  have limit_res : ∀ i, Tendsto (fun k => ((ofData U).A *ᵥ toX sc (X k)) i - toZ sc (Z k) i) atTop (𝓝 (sc.Einv i * (dy i / (s.settings.alpha * steps s i)))) := fun i => by
    simp only [gap_user sok is]
    exact (hdr.gap i).const_mul _
  have big : ea ≤ normInf (fun i => sc.Einv i * (dy i / (s.settings.alpha * steps s i))) := by
    refine ge_of_tendsto' (tendsto_normInf limit_res) fun k => ?_
    have := out (toX sc (X k)) (toZ sc (Z k)) (box_user sok is _ (hbox k))
    refine le_trans ?_ this
    unfold QP.primTol
    exact le_add_of_nonneg_right (mul_nonneg her (le_max_of_le_left (normInf_nonneg _)))
  obtain ⟨i₀, hi₀⟩ := exists_normInf hea big
  have c1 : 1 / 10 ^ 30 < normInf ey := by
    refine lt_of_lt_of_le (scale i₀) (le_trans ?_ (le_normInf ey i₀))
    have hE := sok.E_pos i₀
    have hk : 0 < s.settings.alpha * steps s i₀ * sc.E i₀ ^ 2 := mul_pos (mul_pos hα (hρ i₀)) (pow_pos hE 2)
    have e : ey i₀ = s.settings.alpha * steps s i₀ * sc.E i₀ ^ 2 * (sc.Einv i₀ * (dy i₀ / (s.settings.alpha * steps s i₀))) := by
      rw [hey, sok.Einv]
      have := (hρ i₀).ne'
      field_simp
    rw [e, abs_mul, abs_of_pos hk]
    exact mul_le_mul_of_nonneg_left hi₀ hk.le
  have hc := cinv_pos sok
  have etoY : toY sc dy = fun i => sc.cinv * ey i := by funext i; rw [hey]; unfold toY; ring
  have c2 : (ofData U).Aᵀ *ᵥ ey = 0 := by
    funext j
    have e := toY_AT sok is dy j
    have z : ((dense d.A s.work.data.A)ᵀ *ᵥ dy) j = 0 := congrFun hdr.At j
    rw [z, mul_zero, mul_zero, etoY, mulVec_smul'] at e
    rcases mul_eq_zero.1 e.symm with q | q
    · exact absurd q hc.ne'
    · exact q
  have c3 : (ofData U).support ey < 0 := by
    have e := support_user sok is dy
    rw [etoY, support_smul _ hc.le] at e
    have e2 : vDotPos s.work.data.u dy + vDotNeg s.work.data.l dy = (ofData s.work.data).support dy := by
      rw [vDotPos_eq, vDotNeg_eq, ← Finset.sum_add_distrib]; rfl
    rw [e2, mul_comm] at e
    rw [← mul_left_cancel₀ hc.ne' e, hdr.support]
    have : 0 < ∑ i, dy i ^ 2 / (s.settings.alpha * steps s i) := by
      refine Finset.sum_pos' (fun i _ => div_nonneg (sq_nonneg _) (mul_pos hα (hρ i)).le) ⟨i₀, Finset.mem_univ _, ?_⟩
      have hz : dy i₀ ≠ 0 := fun hz => by
        rw [hz] at hi₀; simp at hi₀; linarith
      exact div_pos (by positivity) (mul_pos hα (hρ i₀))
    linarith
  -- eventually
  have l1 := tendsto_normInf cert
  have l2 : Tendsto (fun k => (ofData U).support (fun i => vProjectPolar (fun i => Y (k + 1) i - Y k i) s.work.data.l s.work.data.u (Const.infval ℝ) i * sc.E i)) atTop (𝓝 ((ofData U).support ey)) := by
    unfold QP.support
    refine tendsto_finset_sum _ fun i _ => ?_
    exact ((((cert i).max tendsto_const_nhds)).const_mul _).add ((((cert i).min tendsto_const_nhds)).const_mul _)
  have l3 := tendsto_normInf (tendsto_mulVec (ofData U).Aᵀ cert)
  rw [c2] at l3
  have n0 : normInf (0 : Fin d.n → ℝ) = 0 := le_antisymm ((normInf_le_iff _ _).2 ⟨le_rfl, fun j => by simp⟩) (normInf_nonneg _)
  rw [n0] at l3
  have hpos : 0 < normInf ey := lt_trans (by positivity) c1
  have ev := ((l1.eventually_const_lt c1).and ((l2.eventually_lt_const c3).and (l3.eventually_lt (l1.const_mul eps) (mul_pos heps hpos))))
  obtain ⟨N, hN⟩ := eventually_atTop.1 ev
  refine ⟨N, fun k hk t hrep hu hdata heff hdel => ?_⟩
  have ec : certY t = fun i => vProjectPolar (fun i => Y (k + 1) i - Y k i) s.work.data.l s.work.data.u (Const.infval ℝ) i * sc.E i := by
    unfold certY
    rw [hdata, heff]
    have : t.work.delta_y = fun i => Y (k + 1) i - Y k i := funext hdel
    rw [this]
  rw [primInf_iff hrep hu, ec]
  exact hN k hk

/-- On a problem whose dual is infeasible beyond the tolerances the dual infeasibility test eventually succeeds. -/
theorem dual_detect (h : Inv cfg st₀ U s) (ok : RhoStartOK st₀) (exact_solve : ExactOn env s.work.linsys) (convex : PSD (ofData U).P)
    {ea er eps : ℝ} (hea : 0 < ea) (her : 0 ≤ er) (heps : 0 < eps) (out : (ofData U).DualOut ea er)
    (scale : ∀ j, 1 / 10 ^ 30 < s.settings.alpha / s.settings.sigma * (costScale s * colScale s j ^ 2) * ea) :
    ∃ N, ∀ k ≥ N, ∀ t : Solver d ℝ, Represents t.settings t.work.scaling U t.work.data → UserCriteria t → effSc t = effSc s →
      (∀ j, t.work.delta_x j = (iterate env (solveEntry cfg s).s (k + 2)).work.x j - (iterate env (solveEntry cfg s).s (k + 1)).work.x j) →
      isDualInfeasible t eps = true := by
  obtain ⟨dx, dy, hdr, hbox⟩ := held_drifts (cfg := cfg) h ok exact_solve convex
  obtain ⟨sok, is⟩ := rep_eff h.rep
  have hα := h.live.alpha.1
  have hσ : 0 < s.settings.sigma := by rw [h.fixed.sigma]; exact h.valid0.sigma
  have hcs : ∀ j, colScale s j = (effSc s).D j := fun j => by unfold colScale effSc; split_ifs <;> rfl
  simp only [hcs, costScale_eff] at scale
  set X := fun k => (iterate env (solveEntry cfg s).s (k + 1)).work.x with hX
  set Y := fun k => (iterate env (solveEntry cfg s).s (k + 1)).work.y with hY
  set sc := effSc s with hsc
  set ex : Fin d.n → ℝ := toX sc dx with hex
  have cert : ∀ j, Tendsto (fun k => (X (k + 1) j - X k j) * sc.D j) atTop (𝓝 (ex j)) := fun j => by
    have := (hdr.x j).mul_const (sc.D j)
    have e : ex j = dx j * sc.D j := by rw [hex]; unfold toX; ring
    rwa [e]
  have estat : ∀ x y j, (ofData U).stat (toX sc x) (toY sc y) j = sc.cinv * sc.Dinv j * (ofData s.work.data).stat x y j := fun x y j => by
    have a := toX_P sok is x j
    have b := toX_q sok is j
    have c := toY_AT sok is y j
    unfold QP.stat
    simp only [ofData]
    rw [← a, ← b, ← c]; ring
  have limit_res : ∀ j, Tendsto (fun k => (ofData U).stat (toX sc (X k)) (toY sc (Y k)) j) atTop (𝓝 (sc.cinv * sc.Dinv j * -(s.settings.sigma * dx j / s.settings.alpha))) := fun j => by
    simp only [estat]
    exact (hdr.stat j).const_mul _
  have big : ea ≤ normInf (fun j => sc.cinv * sc.Dinv j * -(s.settings.sigma * dx j / s.settings.alpha)) := by
    refine ge_of_tendsto' (tendsto_normInf limit_res) fun k => ?_
    refine le_trans ?_ (out (toX sc (X k)) (toY sc (Y k)))
    unfold QP.dualTol
    exact le_add_of_nonneg_right (mul_nonneg her (le_max_of_le_right (normInf_nonneg _)))
  obtain ⟨j₀, hj₀⟩ := exists_normInf hea big
  have hc := sok.c_pos
  have c1 : 1 / 10 ^ 30 < normInf ex := by
    refine lt_of_lt_of_le (scale j₀) (le_trans ?_ (le_normInf ex j₀))
    have hD := sok.D_pos j₀
    have hk : 0 < s.settings.alpha / s.settings.sigma * (sc.c * sc.D j₀ ^ 2) := by positivity
    have e : |ex j₀| = s.settings.alpha / s.settings.sigma * (sc.c * sc.D j₀ ^ 2) * |sc.cinv * sc.Dinv j₀ * -(s.settings.sigma * dx j₀ / s.settings.alpha)| := by
      rw [← abs_of_pos hk, ← abs_mul, ← abs_neg]
      congr 1
      rw [hex, sok.Dinv, sok.cinv]; unfold toX
      field_simp
    rw [e]
    exact mul_le_mul_of_nonneg_left hj₀ hk.le
  have hz : dx j₀ ≠ 0 := fun hz => by
    rw [hz] at hj₀; simp at hj₀; linarith
  have c2 : (ofData U).P *ᵥ ex = 0 := by
    funext j
    have e := toX_P sok is dx j
    have z : (denseSym d.P s.work.data.P *ᵥ dx) j = 0 := congrFun hdr.P j
    rw [z, mul_zero, mul_zero] at e
    exact e.symm
  have c3 : (ofData U).A *ᵥ ex = 0 := by
    funext i
    have e := toZ_A sok is dx i
    have z : (dense d.A s.work.data.A *ᵥ dx) i = 0 := congrFun hdr.A i
    rw [z, mul_zero] at e
    exact e.symm
  have c4 : U.q ⬝ᵥ ex < 0 := by
    have e := lin_user sok is dx
    have q : s.work.data.q ⬝ᵥ dx = _ := hdr.q
    rw [hex, ← e, q]
    refine mul_neg_of_neg_of_pos ?_ (cinv_pos sok)
    have : 0 < ∑ j, dx j ^ 2 / s.settings.alpha :=
      Finset.sum_pos' (fun j _ => div_nonneg (sq_nonneg _) hα.le) ⟨j₀, Finset.mem_univ _, div_pos (by positivity) hα⟩
    have := mul_pos hσ this
    linarith
  have n0 : ∀ {a : ℕ}, normInf (0 : Fin a → ℝ) = 0 := fun {a} => le_antisymm ((normInf_le_iff _ _).2 ⟨le_rfl, fun j => by simp⟩) (normInf_nonneg _)
  have l1 := tendsto_normInf cert
  have l2 : Tendsto (fun k => U.q ⬝ᵥ fun j => (X (k + 1) j - X k j) * sc.D j) atTop (𝓝 (U.q ⬝ᵥ ex)) :=
    tendsto_finset_sum _ fun j _ => (cert j).const_mul _
  have l3 := tendsto_normInf (tendsto_mulVec (ofData U).P cert)
  rw [c2, n0] at l3
  have l4 := tendsto_normInf (tendsto_mulVec (ofData U).A cert)
  rw [c3, n0] at l4
  have hpos : 0 < normInf ex := lt_trans (by positivity) c1
  have ev := ((l1.eventually_const_lt c1).and ((l2.eventually_lt_const c4).and ((l3.eventually_lt (l1.const_mul eps) (mul_pos heps hpos)).and
    (l4.eventually_lt (l1.const_mul eps) (mul_pos heps hpos)))))
  obtain ⟨N, hN⟩ := eventually_atTop.1 ev
  refine ⟨N, fun k hk t hrep hu heff hdel => ?_⟩
  have ec : certX t = fun j => (X (k + 1) j - X k j) * sc.D j := by
    unfold certX
    rw [heff]
    have : t.work.delta_x = fun j => X (k + 1) j - X k j := funext hdel
    rw [this]
  rw [dualInf_iff hrep hu, ec]
  obtain ⟨a, b, c, e⟩ := hN k hk
  refine ⟨a, b, c, fun i => ?_⟩
  have := abs_le.1 ((le_normInf _ i).trans e.le)
  exact ⟨fun _ => this.2, fun _ => this.1⟩

end Osqp
