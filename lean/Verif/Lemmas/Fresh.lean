import Verif.Lemmas.Step

/-!
# `updateInfo` computes the report of the current iterate
-/

set_option linter.unusedSectionVars false
namespace Osqp
open Spec Matrix
variable {K : Type*} [Field K] [LinearOrder K] [IsStrictOrderedRing K] {d : Dims}

/-- The multiplier used in the support function: polar projection and dead zone. -/
def gapY (D : Data d K) (y : Vec K d.m) : Vec K d.m :=
  vRoundToZero (vProjectPolar y D.l D.u (Const.infval K)) (Const.zeroDeadzone K)

/-- The products and norms stored in the workspace are those of the current iterate. -/
structure FreshW (s : Solver d K) : Prop where
  Ax : s.work.Ax = spMul d.A s.work.data.A s.work.x
  Px : s.work.Px = symMul d.P s.work.data.P s.work.x
  Aty : s.work.Aty = spMulT d.A s.work.data.A s.work.y
  xtPx : s.work.xtPx = vDot s.work.Px s.work.x
  qtx : s.work.qtx = vDot s.work.data.q s.work.x
  SC : s.work.SC = vDotPos s.work.data.u (gapY s.work.data s.work.y) + vDotNeg s.work.data.l (gapY s.work.data s.work.y)
  sgap : s.work.scaled_dual_gap = s.work.xtPx + s.work.qtx + s.work.SC
  spres : d.m ≠ 0 → s.work.scaled_prim_res = vNormInf (vMinus s.work.Ax s.work.z)
  sdres : s.work.scaled_dual_res = vNormInf (vPlus (vPlus s.work.data.q s.work.Px) s.work.Aty)

/-- Cost unscaling applied to reported objectives. -/
def costInv (s : Solver d K) : K := if s.settings.scaling ≠ 0 then s.work.scaling.cinv else 1

/-- The residuals in `info` are those of the current iterate. -/
structure FreshR (s : Solver d K) : Prop where
  pres : s.info.prim_res = if s.settings.unscaledTerm then
      vScaledNormInf s.work.scaling.Einv (vMinus (spMul d.A s.work.data.A s.work.x) s.work.z)
    else vNormInf (vMinus (spMul d.A s.work.data.A s.work.x) s.work.z)
  dres : s.info.dual_res = if s.settings.unscaledTerm then
      s.work.scaling.cinv * vScaledNormInf s.work.scaling.Dinv
        (vPlus (vPlus s.work.data.q (symMul d.P s.work.data.P s.work.x)) (spMulT d.A s.work.data.A s.work.y))
    else vNormInf (vPlus (vPlus s.work.data.q (symMul d.P s.work.data.P s.work.x)) (spMulT d.A s.work.data.A s.work.y))
  kkt : s.info.rel_kkt_error = max (max s.info.dual_res s.info.prim_res) ((s.work.xtPx + s.work.qtx + s.work.SC) * costInv s)

/-- The objective values in `info` are those of the current iterate. -/
structure FreshO (s : Solver d K) : Prop where
  obj : s.info.obj_val = (1 / 2 * s.work.xtPx + s.work.qtx) * costInv s
  dobj : s.info.dual_obj_val = (-(1 / 2) * s.work.xtPx - s.work.SC) * costInv s
  gap : s.info.duality_gap = (s.work.xtPx + s.work.qtx + s.work.SC) * costInv s

theorem spMulT_m0 (h : d.m = 0) (v : Vec K d.A.nnz) (y : Vec K d.m) : spMulT d.A v y = vSet 0 := by
  funext j
  simp only [spMulT, vSet]
  apply Finset.sum_eq_zero
  intro k _
  exact absurd (d.A.row k).isLt (by omega)

theorem vec_m0 {n : ℕ} (h : n = 0) (a b : Vec K n) : a = b := by
  subst h; exact Subsingleton.elim _ _

theorem vNormInf_m0 {n : ℕ} (h : n = 0) (v : Vec K n) : vNormInf v = 0 := by
  subst h; rfl

theorem vScaledNormInf_m0 {n : ℕ} (h : n = 0) (a v : Vec K n) : vScaledNormInf a v = 0 := by
  subst h; rfl

theorem vPlus_zero {n : ℕ} (v : Vec K n) : vPlus v (vSet 0) = v := by funext i; simp [vPlus, vSet]

theorem computeReport_state (s : Solver d K) (x : Vec K d.n) (z y : Vec K d.m) (h0 : d.m = 0 → s.work.Aty = vSet 0) :
    let s' := (computeReport s x z y).1
    s'.work.Ax = spMul d.A s.work.data.A x ∧
    s'.work.Px = symMul d.P s.work.data.P x ∧
    s'.work.Aty = spMulT d.A s.work.data.A y ∧
    s'.work.xtPx = vDot (symMul d.P s.work.data.P x) x ∧
    s'.work.qtx = vDot s.work.data.q x ∧
    s'.work.SC = vDotPos s.work.data.u (gapY s.work.data y) + vDotNeg s.work.data.l (gapY s.work.data y) ∧
    s'.work.scaled_dual_gap = s'.work.xtPx + s'.work.qtx + s'.work.SC ∧
    (d.m ≠ 0 → s'.work.scaled_prim_res = vNormInf (vMinus (spMul d.A s.work.data.A x) z)) ∧
    s'.work.scaled_dual_res = vNormInf (vPlus (vPlus s.work.data.q (symMul d.P s.work.data.P x)) (spMulT d.A s.work.data.A y)) := by
  by_cases hm : d.m = 0
  · simp only [computeReport, if_pos hm]
    simp only [computeObj, computeDualRes, hm, ne_eq, not_true, if_false]
    refine ⟨vec_m0 hm _ _, ?_, ?_, ?_, ?_, ?_, ?_, ?_, ?_⟩
    all_goals (try split_ifs) <;> simp [h0 hm, spMulT_m0 hm, gapY, vPlus_zero]
  · simp only [computeReport, if_neg hm]
    simp only [computeObj, computePrimRes, computeDualRes, hm, ne_eq, not_false_iff, if_true]
    refine ⟨?_, ?_, ?_, ?_, ?_, ?_, ?_, ?_, ?_⟩
    all_goals (try split_ifs) <;> simp [gapY]

theorem computeReport_val (s : Solver d K) (x : Vec K d.n) (z y : Vec K d.m) :
    let r := (computeReport s x z y).2
    let Px := symMul d.P s.work.data.P x
    let sup := vDotPos s.work.data.u (gapY s.work.data y) + vDotNeg s.work.data.l (gapY s.work.data y)
    r.pres = (if s.settings.unscaledTerm then
      vScaledNormInf s.work.scaling.Einv (vMinus (spMul d.A s.work.data.A x) z)
      else vNormInf (vMinus (spMul d.A s.work.data.A x) z)) ∧
    r.dres = (if s.settings.unscaledTerm then
      s.work.scaling.cinv * vScaledNormInf s.work.scaling.Dinv
        (vPlus (vPlus s.work.data.q Px) (spMulT d.A s.work.data.A y))
      else vNormInf (vPlus (vPlus s.work.data.q Px) (spMulT d.A s.work.data.A y))) ∧
    r.obj = (1 / 2 * vDot Px x + vDot s.work.data.q x) * costInv s ∧
    r.dobj = (-(1 / 2) * vDot Px x - sup) * costInv s ∧
    r.gap = (vDot Px x + vDot s.work.data.q x + sup) * costInv s := by
  by_cases hm : d.m = 0
  · simp only [computeReport, if_pos hm]
    simp only [computeObj, computeDualRes, hm, ne_eq, not_true, if_false]
    refine ⟨?_, ?_, ?_, ?_, ?_⟩
    · simp [vNormInf_m0 hm, vScaledNormInf_m0 hm]
    · simp only [spMulT_m0 hm, vPlus_zero]
    all_goals
      unfold costInv
      by_cases hs : s.settings.scaling = 0
      · simp [hs, gapY]
      · simp [hs, gapY, mul_comm]
  · simp only [computeReport, if_neg hm]
    simp only [computeObj, computePrimRes, computeDualRes, hm, ne_eq, not_false_iff, if_true]
    refine ⟨?_, ?_, ?_, ?_, ?_⟩
    · trivial
    · trivial
    all_goals
      unfold costInv
      by_cases hs : s.settings.scaling = 0
      · simp [hs, gapY]
      · simp [hs, gapY, mul_comm]

theorem updateInfo_eqs (cfg : Cfg) (env : Env d K) (iter : ℤ) (s : Solver d K) :
    (updateInfo cfg env iter s).work = (computeReport s s.work.x s.work.z s.work.y).1.work ∧
    (updateInfo cfg env iter s).info.prim_res = (computeReport s s.work.x s.work.z s.work.y).2.pres ∧
    (updateInfo cfg env iter s).info.dual_res = (computeReport s s.work.x s.work.z s.work.y).2.dres ∧
    (updateInfo cfg env iter s).info.obj_val = (computeReport s s.work.x s.work.z s.work.y).2.obj ∧
    (updateInfo cfg env iter s).info.dual_obj_val = (computeReport s s.work.x s.work.z s.work.y).2.dobj ∧
    (updateInfo cfg env iter s).info.duality_gap = (computeReport s s.work.x s.work.z s.work.y).2.gap ∧
    (updateInfo cfg env iter s).info.rel_kkt_error = relKkt (computeReport s s.work.x s.work.z s.work.y).2 ∧
    (updateInfo cfg env iter s).info.iter = iter := by
  unfold updateInfo; dsimp only; split_ifs <;> simp

theorem updateInfo_fresh (cfg : Cfg) (env : Env d K) (iter : ℤ) (s : Solver d K)
    (h0 : d.m = 0 → s.work.Aty = vSet 0) :
    FreshW (updateInfo cfg env iter s) ∧ FreshR (updateInfo cfg env iter s) ∧ FreshO (updateInfo cfg env iter s) := by
  obtain ⟨a1, a2, a3, a4, a5, a6, a7, a8, a9⟩ := computeReport_state s s.work.x s.work.z s.work.y h0
  obtain ⟨b1, b2, b3, b4, b5⟩ := computeReport_val s s.work.x s.work.z s.work.y
  obtain ⟨w, c1, c2, c3, c4, c5, c6, _⟩ := updateInfo_eqs cfg env iter s
  have hc : costInv (updateInfo cfg env iter s) = costInv s := by simp [costInv]
  refine ⟨?_, ?_, ?_⟩
  · constructor
    all_goals rw [w]
    · rw [a1]; simp
    · rw [a2]; simp
    · rw [a3]; simp
    · rw [a4, a2]; simp
    · rw [a5]; simp
    · rw [a6]; simp
    · exact a7
    · intro hm; rw [a8 hm, a1]; simp
    · rw [a9, a2, a3]; simp
  · constructor
    · rw [c1, b1]; simp
    · rw [c2, b2]; simp
    · rw [c6, c2, c1, hc, w, a4, a5, a6, relKkt, b5, cMax_eq, cMax_eq]
  · constructor
    · rw [c3, b3, hc, w, a4, a5]
    · rw [c4, b4, hc, w, a4, a6]
    · rw [c5, b5, hc, w, a4, a5, a6]

theorem FreshW.of_eq {s s' : Solver d K} (h : FreshW s) (e1 : s'.work.data = s.work.data) (e2 : s'.work.x = s.work.x)
    (e3 : s'.work.y = s.work.y) (e4 : s'.work.z = s.work.z) (e5 : s'.work.Ax = s.work.Ax) (e6 : s'.work.Px = s.work.Px)
    (e7 : s'.work.Aty = s.work.Aty) (e8 : s'.work.xtPx = s.work.xtPx) (e9 : s'.work.qtx = s.work.qtx)
    (e10 : s'.work.SC = s.work.SC) (e11 : s'.work.scaled_dual_gap = s.work.scaled_dual_gap)
    (e12 : s'.work.scaled_prim_res = s.work.scaled_prim_res) (e13 : s'.work.scaled_dual_res = s.work.scaled_dual_res) :
    FreshW s' := by
  constructor <;> simp only [e1, e2, e3, e4, e5, e6, e7, e8, e9, e10, e11, e12, e13]
  exacts [h.Ax, h.Px, h.Aty, h.xtPx, h.qtx, h.SC, h.sgap, h.spres, h.sdres]

theorem FreshR.of_eq {s s' : Solver d K} (h : FreshR s) (e1 : s'.work.data = s.work.data) (e2 : s'.work.x = s.work.x)
    (e3 : s'.work.y = s.work.y) (e4 : s'.work.z = s.work.z) (e5 : s'.work.scaling = s.work.scaling)
    (e6 : s'.settings.scaling = s.settings.scaling) (e7 : s'.settings.scaled_termination = s.settings.scaled_termination)
    (e8 : s'.info.prim_res = s.info.prim_res) (e9 : s'.info.dual_res = s.info.dual_res)
    (k1 : s'.work.xtPx = s.work.xtPx) (k2 : s'.work.qtx = s.work.qtx) (k3 : s'.work.SC = s.work.SC)
    (k4 : s'.info.rel_kkt_error = s.info.rel_kkt_error) : FreshR s' := by
  have eu : s'.settings.unscaledTerm = s.settings.unscaledTerm := by unfold Settings.unscaledTerm; rw [e6, e7]
  have h1 := h.pres
  have h2 := h.dres
  have ec : costInv s' = costInv s := by unfold costInv; rw [e5, e6]
  refine ⟨?_, ?_, by rw [k4, k1, k2, k3, e8, e9, ec]; exact h.kkt⟩
  · rw [e8, h1, e1, e2, e4, e5]; simp only [eu]
  · rw [e9, h2, e1, e2, e3, e5]; simp only [eu]

theorem FreshO.of_eq {s s' : Solver d K} (h : FreshO s) (e1 : s'.work.xtPx = s.work.xtPx) (e2 : s'.work.qtx = s.work.qtx)
    (e3 : s'.work.SC = s.work.SC) (e4 : s'.work.scaling = s.work.scaling) (e5 : s'.settings.scaling = s.settings.scaling)
    (e6 : s'.info.obj_val = s.info.obj_val) (e7 : s'.info.dual_obj_val = s.info.dual_obj_val)
    (e8 : s'.info.duality_gap = s.info.duality_gap) : FreshO s' := by
  have ec : costInv s' = costInv s := by unfold costInv; rw [e4, e5]
  constructor <;> simp only [e1, e2, e3, e6, e7, e8, ec]
  exacts [h.obj, h.dobj, h.gap]

theorem computeObj_vals (s : Solver d K) (x : Vec K d.n) (y : Vec K d.m) :
    (computeObj s x y).1.work.xtPx = vDot s.work.Px x ∧ (computeObj s x y).1.work.qtx = vDot s.work.data.q x ∧
    (computeObj s x y).1.work.SC = vDotPos s.work.data.u (gapY s.work.data y) + vDotNeg s.work.data.l (gapY s.work.data y) ∧
    (computeObj s x y).1.work.scaled_dual_gap = (computeObj s x y).1.work.xtPx + (computeObj s x y).1.work.qtx + (computeObj s x y).1.work.SC ∧
    (computeObj s x y).2.1 = (1 / 2 * (computeObj s x y).1.work.xtPx + (computeObj s x y).1.work.qtx) * costInv s ∧
    (computeObj s x y).2.2.1 = (-(1 / 2) * (computeObj s x y).1.work.xtPx - (computeObj s x y).1.work.SC) * costInv s ∧
    (computeObj s x y).2.2.2 = ((computeObj s x y).1.work.xtPx + (computeObj s x y).1.work.qtx + (computeObj s x y).1.work.SC) * costInv s := by
  unfold computeObj costInv gapY; dsimp only
  by_cases h : s.settings.scaling = 0 <;> simp [h, mul_comm]

/-- Recomputing the objective on a fresh workspace changes nothing but fills `info`. -/
theorem postObj_fresh {s : Solver d K} (h : FreshW s) :
    FreshW (postObj s) ∧ (hasSolution s.info = true → FreshO (postObj s)) := by
  unfold postObj
  by_cases hs : hasSolution s.info = true
  · simp only [hs, if_true]
    obtain ⟨a1, a2, a3, a4, a5, a6, a7⟩ := computeObj_vals s s.work.x s.work.y
    refine ⟨h.of_eq ?_ ?_ ?_ ?_ ?_ ?_ ?_ ?_ ?_ ?_ ?_ ?_ ?_, fun _ => ?_⟩ <;> (try simp; done)
    · exact a1.trans h.xtPx.symm
    · exact a2.trans h.qtx.symm
    · exact a3.trans h.SC.symm
    · dsimp only; rw [a4, a1, a2, a3, h.sgap, h.xtPx, h.qtx, h.SC]
    · constructor
      · dsimp only [costInv]; rw [a5]; simp [costInv]
      · dsimp only [costInv]; rw [a6]; simp [costInv]
      · dsimp only [costInv]; rw [a7]; simp [costInv]
  · simp only [hs]
    exact ⟨h, fun h => by cases h⟩

end Osqp
