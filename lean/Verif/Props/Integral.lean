import Verif.Props.Observe
import Verif.Lemmas.Embed

/-!
# C84: the primal-dual integral is a running total
-/

set_option linter.unusedSectionVars false
namespace Osqp
open Spec
variable {K : Type*} [Field K] [LinearOrder K] [IsStrictOrderedRing K] {d : Dims} {cfg : Cfg} {env : Env d K} {s s' : Solver d K}

theorem integral_updateInfo (it : ℤ) (s : Solver d K) : s.info.primdual_int ≤ (updateInfo cfg env it s).info.primdual_int := by
  have e : (computeReport s s.work.x s.work.z s.work.y).1.info.primdual_int = s.info.primdual_int := by
    have : ∀ (p : Prop) [Decidable p] (a b : Solver d K × K), a.1.info = s.info → b.1.info = s.info → (if p then a else b).1.info = s.info := by
      intro p _ a b h1 h2; split_ifs <;> assumption
    unfold computeReport
    dsimp only
    rw [show ∀ (t : Solver d K) x y, (computeObj t x y).1.info = t.info from fun t x y => by unfold computeObj; dsimp only; split_ifs <;> rfl]
    rw [show ∀ (t : Solver d K) x y, (computeDualRes t x y).1.info = t.info from fun t x y => rfl]
    rw [this _ _ _ rfl rfl]
  have h : ∀ v : K, 0 ≤ cAbs v := fun v => by unfold cAbs; split_ifs <;> linarith
  unfold updateInfo
  dsimp only
  split_ifs
  · show _ ≤ (computeReport s s.work.x s.work.z s.work.y).1.info.primdual_int + _
    rw [e]; linarith [h (computeReport s s.work.x s.work.z s.work.y).2.gap]
  · show _ ≤ (computeReport s s.work.x s.work.z s.work.y).1.info.primdual_int + _
    rw [e]; linarith [h (computeReport s s.work.x s.work.z s.work.y).2.gap]

theorem integral_itTerm (it : ℤ) (L : LoopSt d K) : L.s.info.primdual_int ≤ (itTerm cfg env it L).1.info.primdual_int := by
  have h0 : (itDec cfg env it L).1.info.primdual_int = L.s.info.primdual_int := by simp [itDec, itTimed, itAdmm]
  have h1 : L.s.info.primdual_int ≤ (itInfo cfg env it L).info.primdual_int := by
    unfold itInfo
    split_ifs
    · rw [← h0]; exact integral_updateInfo it _
    · exact h0.ge
  unfold itTerm
  split_ifs
  · simpa using h1
  · exact h1

theorem integral_solve (s : Solver d K) : s.info.primdual_int ≤ (osqpSolve cfg env s).1.info.primdual_int := by
  have key := admmLoop_ind cfg env (fun _ L => s.info.primdual_int ≤ L.s.info.primdual_int) (by
    intro it L L' h e
    rw [iterBody_eq] at e
    split_ifs at e
    injection e with e
    rw [← e]
    show _ ≤ (adaptPhase cfg env _ _).1.info.primdual_int
    rw [adaptPhase_info_primdual_int]
    exact h.trans (integral_itTerm it L)) (solveEntry cfg s).s.settings.max_iter.toNat 1 (solveEntry cfg s) (by simp)
  have hfin : ∀ t : Solver d K, (finish cfg env t).1.info.primdual_int = t.info.primdual_int := by
    intro t; unfold finish; dsimp only; split_ifs <;> simp
  have hpost : ∀ it (L : LoopSt d K), L.s.info.primdual_int ≤ (postLoop cfg env it L).info.primdual_int := by
    intro it L
    have : L.s.info.primdual_int ≤ (postCheck cfg env it L).info.primdual_int := by
      unfold postCheck
      dsimp only
      split_ifs
      · simp
      · simpa using integral_updateInfo (it - 1) L.s
      · exact le_rfl
    simpa [postLoop] using this
  unfold osqpSolve
  dsimp only
  cases hl : admmLoop cfg env (solveEntry cfg s).s.settings.max_iter.toNat 1 (solveEntry cfg s) with
  | exit t =>
    obtain ⟨it, L0, -, -, hP, e⟩ := key.2 t hl
    show _ ≤ (endListener cfg t).info.primdual_int
    rw [endListener_info]
    rw [iterBody_eq] at e
    split_ifs at e <;> injection e with e <;> rw [← e]
    · simpa [itAdmm] using hP
    · rw [adaptPhase_info_primdual_int]; exact hP.trans (integral_itTerm it L0)
  | done it L =>
    show _ ≤ (finish cfg env (postLoop cfg env it L)).1.info.primdual_int
    rw [hfin]
    refine le_trans ?_ (hpost it L)
    rcases key.1 it L hl with ⟨-, h⟩ | ⟨-, -, L0, hP, e⟩
    · exact h
    · rw [iterBody_eq] at e
      split_ifs at e <;> injection e with e <;> rw [← e] <;>
        first | exact hP.trans (integral_itTerm it L0) | simpa [itTimed, itAdmm] using hP

theorem integral_resetInfo (i : Info K) : (resetInfo cfg i).primdual_int = i.primdual_int := by
  unfold resetInfo; dsimp only; split_ifs <;> rfl

theorem integral_vecTail (q : Option (Vec K d.n)) (b : Bool) (s : Solver d K) : (vecTail cfg env q b s).1.info.primdual_int = s.info.primdual_int := by
  unfold vecTail
  dsimp only
  have hr : (if (b && decide (s.settings.rho_is_vec ≠ 0)) = true then updateRhoVec env s else (s, 0)).1.info.primdual_int = s.info.primdual_int := by
    split_ifs <;> simp
  generalize (if (b && decide (s.settings.rho_is_vec ≠ 0)) = true then updateRhoVec env s else (s, 0)) = r at *
  cases q <;> dsimp only <;> by_cases hp : cfg.profiling = true
  all_goals first | rw [if_pos hp] | rw [if_neg hp]
  all_goals first | rw [addUpdateTime_info_primdual_int] | skip
  all_goals dsimp only
  all_goals rw [integral_resetInfo]
  all_goals exact hr

theorem integral_vec (q : Option (Vec K d.n)) (l u : Option (Vec K d.m)) (s : Solver d K) :
    (osqpUpdateDataVec cfg env s q l u).1.info.primdual_int = s.info.primdual_int := by
  have h0 : (if cfg.profiling = true then clearUpdateTime s else s).info.primdual_int = s.info.primdual_int := by split_ifs <;> simp
  have e : ∃ (bad r : Bool) (a b : Solver d K), osqpUpdateDataVec cfg env s q l u = (if bad then (a, Err.dataValidation) else vecTail cfg env q r b) ∧
      a.info = (if cfg.profiling = true then clearUpdateTime s else s).info ∧ b.info = (if cfg.profiling = true then clearUpdateTime s else s).info := by
    cases l <;> cases u
    · exact ⟨false, false, if cfg.profiling = true then clearUpdateTime s else s, _, rfl, rfl, rfl⟩
    · exact ⟨_, true, _, _, rfl, rfl, rfl⟩
    · exact ⟨_, true, _, _, rfl, rfl, rfl⟩
    · exact ⟨_, true, _, _, rfl, rfl, rfl⟩
  obtain ⟨bad, r, a, b, e, ea, eb⟩ := e
  rw [e]
  cases bad
  · rw [if_neg (by simp), integral_vecTail, eb, h0]
  · rw [if_pos rfl]; show a.info.primdual_int = _; rw [ea, h0]

theorem integral_mat (p a : MatUpd K) (s s' : Solver d K) (code : ℤ) (call : osqpUpdateDataMat cfg env s p a = some (s', code)) :
    s'.info.primdual_int = s.info.primdual_int := by
  have h0 : (if cfg.profiling = true then clearUpdateTime s else s).info.primdual_int = s.info.primdual_int := by split_ifs <;> simp
  unfold osqpUpdateDataMat at call
  extract_lets s0 D0 at call
  have h0 : s0.info.primdual_int = s.info.primdual_int := h0
  clear_value s0
  by_cases c1 : matUpdBad d.P.nnz p = true
  · rw [if_pos c1] at call; rw [← h0, ← (Prod.mk.inj (Option.some.inj call)).1]
  rw [if_neg c1] at call
  by_cases c2 : matUpdBad d.A.nnz a = true
  · rw [if_pos c2] at call; rw [← h0, ← (Prod.mk.inj (Option.some.inj call)).1]
  rw [if_neg c2] at call
  clear_value D0
  cases hP : matUpdApply D0.P p with
  | none => rw [hP] at call; cases call
  | some P =>
    cases hA : matUpdApply D0.A a with
    | none => rw [hP, hA] at call; cases call
    | some A =>
      rw [hP, hA] at call
      dsimp only at call
      split at call
      · obtain rfl := (Prod.mk.inj (Option.some.inj call)).1
        by_cases hp : cfg.profiling = true
        · rw [if_pos hp, addUpdateTime_info_primdual_int]; dsimp only; rw [integral_resetInfo, h0]
        · rw [if_neg hp]; dsimp only; rw [integral_resetInfo, h0]
      · cases call

theorem integral_setup {D : Data d K} {st : Settings K} (call : osqpSetup cfg env D st = .ok s) : s.info.primdual_int = 0 := by
  have hv1 : validateSettings cfg st true = false := by
    by_contra hv
    have hv' : validateSettings cfg st true = true := by simpa using hv
    unfold osqpSetup at call
    simp only [hv', if_true] at call
    split_ifs at call
  unfold osqpSetup at call
  by_cases hp : cfg.profiling = true <;> by_cases hr : st.rho_is_vec = 0 <;>
    simp only [hv1, hp, hr, ne_eq, not_true, not_false_iff, if_true, if_false] at call <;>
    split_ifs at call <;> cases call
  all_goals rfl

/-- **C84**.  No call makes the reported primal-dual integral smaller, and no call but `osqp_solve` changes it. -/
theorem c84_running_total {op : Op d K} {code : ℤ} (call : apiStep cfg env s op = some (s', code)) :
    s.info.primdual_int ≤ s'.info.primdual_int ∧ (op ≠ .solve → s'.info.primdual_int = s.info.primdual_int) := by
  cases op with
  | solve =>
    refine ⟨?_, fun h => absurd rfl h⟩
    have : s' = (osqpSolve cfg env s).1 := (congrArg Prod.fst (Option.some.inj call)).symm
    rw [this]; exact integral_solve s
  | updateDataVec q l u =>
    have e : s' = (osqpUpdateDataVec cfg env s q l u).1 := (congrArg Prod.fst (Option.some.inj call)).symm
    have h : s'.info.primdual_int = s.info.primdual_int := by rw [e]; exact integral_vec q l u s
    exact ⟨h.ge, fun _ => h⟩
  | updateDataMat p a =>
    have h : s'.info.primdual_int = s.info.primdual_int := integral_mat p a s s' code call
    exact ⟨h.ge, fun _ => h⟩
  | updateRho r =>
    have e : s' = (osqpUpdateRho cfg env s r).1 := (congrArg Prod.fst (Option.some.inj call)).symm
    have h : s'.info.primdual_int = s.info.primdual_int := by rw [e]; simp
    exact ⟨h.ge, fun _ => h⟩
  | updateSettings st =>
    have e : s' = (osqpUpdateSettings cfg s st).1 := (congrArg Prod.fst (Option.some.inj call)).symm
    have h : s'.info.primdual_int = s.info.primdual_int := by
      rw [e]; unfold osqpUpdateSettings
      cases st with
      | none => rfl
      | some n => dsimp only; split_ifs <;> rfl
    exact ⟨h.ge, fun _ => h⟩
  | warmStart x y =>
    have e : s' = (osqpWarmStart s x y).1 := (congrArg Prod.fst (Option.some.inj call)).symm
    have h : s'.info.primdual_int = s.info.primdual_int := by
      rw [e]; unfold osqpWarmStart
      cases x <;> cases y <;> dsimp only <;> split_ifs <;> rfl
    exact ⟨h.ge, fun _ => h⟩
  | coldStart =>
    have e : s' = coldStart s := (congrArg Prod.fst (Option.some.inj call)).symm
    have h : s'.info.primdual_int = s.info.primdual_int := by rw [e]; rfl
    exact ⟨h.ge, fun _ => h⟩
  | getSolution dst =>
    have e : s' = (osqpGetSolution s dst).1 := (congrArg Prod.fst (Option.some.inj call)).symm
    have h : s'.info.primdual_int = s.info.primdual_int := by
      rw [e]; unfold osqpGetSolution; simp
    exact ⟨h.ge, fun _ => h⟩

/-- **C84** (never negative).  The integral is not negative in any history of calls. -/
theorem c84_nonneg {D₀ U : Data d K} {st₀ : Settings K} (hist : Hist cfg env D₀ st₀ U s) : 0 ≤ s.info.primdual_int := by
  induction hist with
  | setup call => exact (integral_setup call).ge
  | step _ call ih => exact ih.trans (c84_running_total call).1

/-- **C84** (start).  After `osqp_setup` the integral is zero. -/
theorem c84_setup {D : Data d K} {st : Settings K} (call : osqpSetup cfg env D st = .ok s) : s.info.primdual_int = 0 := integral_setup call

/-! ## The hypotheses are met: a solve that enlarges the integral -/

example : (Demo.set (Demo.once 0)).info.primdual_int ≤ (Demo.run (Demo.set (Demo.once 0))).info.primdual_int ∧
    (Demo.set (Demo.once 0)).info.primdual_int < (Demo.run (Demo.set (Demo.once 0))).info.primdual_int :=
  ⟨(c84_running_total (cfg := Demo.cfg) (env := Demo.sCut.env) (s := Demo.set (Demo.once 0)) (op := .solve)
    (code := (osqpSolve Demo.cfg Demo.sCut.env (Demo.set (Demo.once 0))).2) rfl).1, by decide +kernel⟩

example : 0 ≤ (Demo.run (Demo.set (Demo.once 0))).info.primdual_int ∧ (Demo.run (Demo.set (Demo.once 0))).info.primdual_int ≠ 0 :=
  ⟨c84_nonneg (Demo.run_hist (Demo.set_hist (Demo.once 0))), by decide +kernel⟩

end Osqp
