import Verif.Model.Api

/-!
# Case analysis of `checkTermination`
-/

set_option linter.unusedSectionVars false
namespace Osqp
variable {K : Type*} [Field K] [LinearOrder K] {d : Dims}

/-- Tolerance factor of `check_termination`. -/
def ctK (approx : Bool) : K := if approx then 10 else 1

/-- State after the primal part of `checkTermination`. -/
def ctState (approx : Bool) (s : Solver d K) : Solver d K :=
  if d.m = 0 ∨ s.info.prim_res < primTol s (s.settings.eps_abs * ctK approx) (s.settings.eps_rel * ctK approx) then s
  else (isPrimalInfeasible s (s.settings.eps_prim_inf * ctK approx)).1

/-- The gap test of `checkTermination`. -/
def ctGap (approx : Bool) (s : Solver d K) : Prop :=
  s.settings.check_dualgap ≠ 0 →
    cAbs (if s.settings.unscaledTerm then s.info.duality_gap else s.work.scaled_dual_gap) <
      gapTol s (s.settings.eps_abs * ctK approx) (s.settings.eps_rel * ctK approx)

/-- The last part of `checkTermination`, given the outcome of the primal tests. -/
def ctTail (approx : Bool) (s1 : Solver d K) (primOk primInf dualOk dualInf gapOk : Bool) : Solver d K × Bool :=
  if primOk && dualOk && gapOk then
    (setStatus s1 (if approx then St.solvedInacc else St.solved), true)
  else if primInf then
    ({ setStatus s1 (if approx then St.primInfInacc else St.primInf) with
        info := { (setStatus s1 (if approx then St.primInfInacc else St.primInf)).info with obj_val := Const.infty K }
        work := if s1.settings.unscaledTerm then { s1.work with delta_y := vEwProd s1.work.delta_y s1.work.scaling.E } else s1.work }, true)
  else if dualInf then
    ({ setStatus s1 (if approx then St.dualInfInacc else St.dualInf) with
        info := { (setStatus s1 (if approx then St.dualInfInacc else St.dualInf)).info with obj_val := -Const.infty K }
        work := if s1.settings.unscaledTerm then { s1.work with delta_x := vEwProd s1.work.delta_x s1.work.scaling.D } else s1.work }, true)
  else (s1, false)

theorem isPrimalInfeasible_fst (s : Solver d K) (eps : K) : (isPrimalInfeasible s eps).1 =
    { s with work := { s.work with delta_y := vProjectPolar s.work.delta_y s.work.data.l s.work.data.u (Const.infval K) } } := by
  unfold isPrimalInfeasible; dsimp only; split_ifs <;> rfl

/-- Gap test as computed. -/
def ctGapB (approx : Bool) (s : Solver d K) : Bool :=
  if s.settings.check_dualgap ≠ 0 then
    if s.settings.unscaledTerm then decide (cAbs s.info.duality_gap < gapTol s (s.settings.eps_abs * ctK approx) (s.settings.eps_rel * ctK approx))
    else decide (cAbs s.work.scaled_dual_gap < gapTol s (s.settings.eps_abs * ctK approx) (s.settings.eps_rel * ctK approx))
  else true

theorem ctGapB_iff (approx : Bool) (s : Solver d K) : ctGapB approx s = true ↔ ctGap approx s := by
  unfold ctGapB ctGap
  by_cases h : s.settings.check_dualgap ≠ 0 <;> by_cases h2 : s.settings.unscaledTerm <;> simp [h, h2]

theorem checkTermination_tail (approx : Bool) (s : Solver d K)
    (hbig : ¬ (s.info.prim_res > Const.infty K ∨ s.info.dual_res > Const.infty K)) :
    let k : K := ctK approx
    let st := s.settings
    let primOk : Bool := decide (d.m = 0) || decide (s.info.prim_res < primTol s (st.eps_abs * k) (st.eps_rel * k))
    let dualOk : Bool := decide (s.info.dual_res < dualTol s (st.eps_abs * k) (st.eps_rel * k))
    checkTermination approx s =
      if primOk then ctTail approx s true false dualOk (if dualOk then false else isDualInfeasible s (st.eps_dual_inf * k)) (ctGapB approx s)
      else ctTail approx (isPrimalInfeasible s (st.eps_prim_inf * k)).1 false (isPrimalInfeasible s (st.eps_prim_inf * k)).2
        dualOk (if dualOk then false else isDualInfeasible s (st.eps_dual_inf * k)) (ctGapB approx s) := by
  intro k st primOk dualOk
  by_cases hp : primOk = true
  · rw [if_pos hp]
    unfold checkTermination
    rw [if_neg hbig]
    dsimp only
    rw [show (decide (d.m = 0) || decide (s.info.prim_res < primTol s (s.settings.eps_abs * if approx = true then 10 else 1)
              (s.settings.eps_rel * if approx = true then 10 else 1))) = true from hp]
    simp only [if_true]
    unfold ctTail
    by_cases hu : s.settings.unscaledTerm
    · simp only [hu, if_true, ctGapB]; rfl
    · simp only [hu, if_false, ctGapB]; rfl
  · rw [if_neg hp]
    have hp' : primOk = false := by simpa using hp
    unfold checkTermination
    rw [if_neg hbig]
    dsimp only
    rw [show (decide (d.m = 0) || decide (s.info.prim_res < primTol s (s.settings.eps_abs * if approx = true then 10 else 1)
              (s.settings.eps_rel * if approx = true then 10 else 1))) = false from hp']
    simp only [Bool.false_eq_true, if_false]
    rw [show (isPrimalInfeasible s (s.settings.eps_prim_inf * if approx = true then 10 else 1)).1 = _ from isPrimalInfeasible_fst s _]
    rw [show (isPrimalInfeasible s (st.eps_prim_inf * k)).1 = _ from isPrimalInfeasible_fst s _]
    unfold ctTail
    by_cases hu : s.settings.unscaledTerm
    · simp only [hu, if_true, ctGapB]; rfl
    · simp only [hu, if_false, ctGapB]; rfl

/-- The possible results of `checkTermination`, with the tests that led there. -/
theorem checkTermination_cases (approx : Bool) (s : Solver d K) :
    let s1 := ctState approx s
    let k : K := ctK approx
    let st := s.settings
    let primOk := d.m = 0 ∨ s.info.prim_res < primTol s (st.eps_abs * k) (st.eps_rel * k)
    let dualOk := s.info.dual_res < dualTol s (st.eps_abs * k) (st.eps_rel * k)
    let primInf := ¬ primOk ∧ (isPrimalInfeasible s (st.eps_prim_inf * k)).2 = true
    let dualInf := ¬ dualOk ∧ isDualInfeasible s (st.eps_dual_inf * k) = true
    ((s.info.prim_res > Const.infty K ∨ s.info.dual_res > Const.infty K) ∧
      checkTermination approx s = ({ s with info := { updateStatus s.info St.nonCvx with obj_val := Const.nan K } }, true)) ∨
    (¬ (s.info.prim_res > Const.infty K ∨ s.info.dual_res > Const.infty K) ∧
     ((primOk ∧ dualOk ∧ ctGap approx s ∧
      checkTermination approx s = (setStatus s (if approx then St.solvedInacc else St.solved), true)) ∨
     (primInf ∧
      checkTermination approx s = ({ setStatus s1 (if approx then St.primInfInacc else St.primInf) with
        info := { (setStatus s1 (if approx then St.primInfInacc else St.primInf)).info with obj_val := Const.infty K }
        work := if s1.settings.unscaledTerm then { s1.work with delta_y := vEwProd s1.work.delta_y s1.work.scaling.E } else s1.work }, true)) ∨
     (¬ primInf ∧ dualInf ∧
      checkTermination approx s = ({ setStatus s1 (if approx then St.dualInfInacc else St.dualInf) with
        info := { (setStatus s1 (if approx then St.dualInfInacc else St.dualInf)).info with obj_val := -Const.infty K }
        work := if s1.settings.unscaledTerm then { s1.work with delta_x := vEwProd s1.work.delta_x s1.work.scaling.D } else s1.work }, true)) ∨
     (¬ (primOk ∧ dualOk ∧ ctGap approx s) ∧ ¬ primInf ∧ ¬ dualInf ∧ checkTermination approx s = (s1, false)))) := by
  intro s1 k st primOk dualOk primInf dualInf
  by_cases hbig : s.info.prim_res > Const.infty K ∨ s.info.dual_res > Const.infty K
  · left; refine ⟨hbig, ?_⟩; unfold checkTermination; simp only [if_pos hbig]
  · right
    refine ⟨hbig, ?_⟩
    have e := checkTermination_tail approx s hbig
    dsimp only at e
    rw [e]; clear e
    have hg := ctGapB_iff approx s
    by_cases hp : primOk
    · have hs1 : s1 = s := by simp only [s1, ctState]; exact if_pos hp
      have hni : ¬ primInf := fun h => h.1 hp
      have hpb : (decide (d.m = 0) || decide (s.info.prim_res < primTol s (st.eps_abs * k) (st.eps_rel * k))) = true := by
        simpa [primOk] using hp
      rw [if_pos hpb, hs1]
      unfold ctTail
      split_ifs with h1 h2 h3 <;> grind
    · have hs1 : s1 = (isPrimalInfeasible s (st.eps_prim_inf * k)).1 := by simp only [s1, ctState]; exact if_neg hp
      have hpb : ¬ (decide (d.m = 0) || decide (s.info.prim_res < primTol s (st.eps_abs * k) (st.eps_rel * k))) = true := by
        simpa [primOk] using hp
      rw [if_neg hpb, hs1]
      unfold ctTail
      split_ifs with h1 h2 h3 <;> grind

end Osqp
