import Verif.Lemmas.Adapt
import Verif.Lemmas.User
import Verif.Props.Limits

/-!
# C18, C19, C20, C21, C22: step sizes, their adaptation, and the linear system
-/

namespace Osqp
open Spec Matrix
variable {K : Type*} [Field K] [LinearOrder K] [IsStrictOrderedRing K] {d : Dims} {cfg : Cfg} {env : Env d K}
  {D₀ U : Data d K} {st₀ : Settings K} {s s' : Solver d K}

/-! ## C18 -/

theorem sync_steps_pos (h : Sync s) (i : Fin d.m) : 0 < steps s i := by
  unfold steps
  have hp : 0 < s.settings.rho := rhoMin_pos.trans_le h.rho_lo
  split_ifs with hv
  · rw [(h.vec hv).1]; exact rhoVecOf_pos hp i
  · exact hp

/-- **C18.** After any history of calls, `rho` is within `[1e-6, 1e6]` and every step size is positive. -/
theorem c18_rho_limits (hsq : SqrtPos env) (hist : Hist cfg env D₀ st₀ U s) :
    1 / 10 ^ 6 ≤ s.settings.rho ∧ s.settings.rho ≤ 10 ^ 6 ∧ ∀ i, 0 < steps s i := by
  have h := (hist_inv hsq hist).sync
  exact ⟨h.rho_lo, h.rho_hi, sync_steps_pos h⟩

/-- **C18.** The same holds in every iteration of every solve. -/
theorem c18_in_solve (hsq : SqrtPos env) (hist : Hist cfg env D₀ st₀ U s) {it : ℤ} {L : LoopSt d K}
    (run : Runs cfg env (solveEntry cfg s) it L) :
    1 / 10 ^ 6 ≤ L.s.settings.rho ∧ L.s.settings.rho ≤ 10 ^ 6 ∧ ∀ i, 0 < steps L.s i := by
  have h := (head_of_runs (hist_inv hsq hist) run).within.sync
  exact ⟨h.rho_lo, h.rho_hi, sync_steps_pos h⟩

/-- **C18.** The inverse step sizes used by the iteration are exact, provided the initial step size was within
the limits or `rho_is_vec` is set (see `c18_counterexample` for the excluded case). -/
theorem c18_inverse_partial (hsq : SqrtPos env) (hist : Hist cfg env D₀ st₀ U s)
    (start : st₀.rho_is_vec ≠ 0 ∨ (1 / 10 ^ 6 ≤ st₀.rho ∧ st₀.rho ≤ 10 ^ 6)) (i : Fin d.m) :
    invSteps s i = 1 / steps s i := by
  have h := hist_inv hsq hist
  have hr := h.rinv start
  unfold invSteps steps
  split_ifs with hv
  · rw [(h.sync.vec hv).2.1]; rfl
  · exact hr (not_not.1 hv)

example : Hist Demo.cfg Demo.sSolved.env Demo.sSolved.data Demo.sSolved.st Demo.sSolved.data (Demo.sSolved.done Demo.okSolved) ∧
    (Demo.sSolved.done Demo.okSolved).settings.rho = 1 / 10 ∧ steps (Demo.sSolved.done Demo.okSolved) Demo.i0 = 1 / 10 :=
  ⟨Demo.sSolved.hist_done Demo.okSolved, by decide +kernel, by unfold steps; decide +kernel⟩

/-! ## C19 -/

/-- **C19.** After setup, after bounds updates, and after any calls that follow (except an accepted matrix
update of a scaled problem, see `c19_counterexample`), each constraint has the documented step size and the
stored inverses are exact. -/
theorem c19_steps_partial (hsq : SqrtPos env) (hist : BoundsCurrent cfg env D₀ st₀ U s) (vec : s.settings.rho_is_vec ≠ 0) :
    StepsMatch U s := by
  obtain ⟨hH, ht⟩ := typed_current hsq hist
  have h := hist_inv hsq hH
  obtain ⟨a, b, _⟩ := h.sync.vec vec
  intro i
  refine ⟨?_, by rw [b]; rfl⟩
  have hl : s.work.data.l i = rowScale s i * U.l i := by
    rw [← scB_l h]; unfold scB rowScale; split_ifs <;> simp [vEwProd, mul_comm]
  have hu : s.work.data.u i = rowScale s i * U.u i := by
    rw [← scB_u h]; unfold scB rowScale; split_ifs <;> simp [vEwProd, mul_comm]
  have hi : Const.infval K = 10 ^ 26 := by
    unfold Const.infval Const.infty Const.minScaling
    rw [show (10 : K) ^ 30 = 10 ^ 26 * 10 ^ 4 by ring]; field_simp
  rw [a, ht vec, ← hl, ← hu]
  unfold rhoVecOf vSetCond vBoundsType stepOf
  rw [hi]
  unfold Const.rhoMin Const.rhoEqOverIneq Const.rhoTol
  by_cases h1 : s.work.data.l i < -10 ^ 26 ∧ s.work.data.u i > 10 ^ 26
  · simp [h1]
  · have h1' : ¬ (s.work.data.l i < -10 ^ 26 ∧ 10 ^ 26 < s.work.data.u i) := h1
    by_cases h2 : s.work.data.u i - s.work.data.l i < 1 / 10 ^ 4 <;> simp only [h1, h1', h2, if_true, if_false] <;> simp

/-- **C19.** Without scaling there is no exception: the steps are the documented ones after every history. -/
theorem c19_steps_unscaled (hsq : SqrtPos env) (hist : Hist cfg env D₀ st₀ U s) (unscaled : st₀.scaling = 0)
    (vec : s.settings.rho_is_vec ≠ 0) : StepsMatch U s := by
  have hb : BoundsCurrent cfg env D₀ st₀ U s := by
    clear vec
    induction hist with
    | setup e => exact .setup e
    | step _ e ih => exact .step ih (fun _ _ _ => Or.inl unscaled) e
  exact c19_steps_partial hsq hb vec

/-- **C19.** The linear-system solver uses the same inverse steps. -/
theorem c19_linsys (hsq : SqrtPos env) (hist : Hist cfg env D₀ st₀ U s) (vec : s.settings.rho_is_vec ≠ 0) :
    s.work.linsys.rho_inv_vec = some (fun i => 1 / s.work.rho_vec i) := ((hist_inv hsq hist).sync.vec vec).2.2

example : BoundsCurrent Demo.cfg Demo.sSolved.env Demo.sSolved.data Demo.sSolved.st Demo.sSolved.data (Demo.sSolved.done Demo.okSolved) ∧
    (Demo.sSolved.done Demo.okSolved).settings.rho_is_vec ≠ 0 :=
  ⟨.step (op := .solve) (.step (op := .warmStart (some fun _ => Demo.sSolved.x) (some fun _ => Demo.sSolved.y))
      (.setup (Demo.got_ok Demo.okSolved)) (by simp) rfl) (by simp) rfl, by decide +kernel⟩

/-! ## C20 and C21 -/

/-- **C20.** In every iteration of every solve, either no adaptation takes place (nothing changes), or it is
due, the estimate for the iterate is stored in `rho_estimate`, and `rho` is replaced by it exactly if it is far
enough from the current value; `rho_updates` grows by one in exactly this case. -/
theorem c20_rule (hsq : SqrtPos env) (hist : Hist cfg env D₀ st₀ U s) {it : ℤ} {L : LoopSt d K}
    (run : Runs cfg env (solveEntry cfg s) it L) (after : endState (iterBody cfg env it L) = s') :
    (s'.settings.rho = L.s.settings.rho ∧ s'.info.rho_updates = L.s.info.rho_updates ∧
      s'.info.rho_estimate = L.s.info.rho_estimate) ∨
    ∃ e, e = (ofData s.work.data).estimate env.sqrt L.s.settings.rho s'.work.x s'.work.z s'.work.y ∧
      AdaptDue it L.s s' ∧ s'.info.rho_estimate = e ∧
      (FarFrom s.settings.adaptive_rho_tolerance L.s.settings.rho e → s'.settings.rho = e ∧
        s'.settings.rho ≠ L.s.settings.rho ∧ s'.info.rho_updates = L.s.info.rho_updates + 1) ∧
      (¬ FarFrom s.settings.adaptive_rho_tolerance L.s.settings.rho e →
        s'.settings.rho = L.s.settings.rho ∧ s'.info.rho_updates = L.s.info.rho_updates) := by
  have h := hist_inv hsq hist
  rcases endState_eq (cfg := cfg) (env := env) it L with e | e | ⟨_, e⟩ | ⟨hf, e⟩
  · left; rw [← after, e]; simp [itAdmm]
  · left; rw [← after, e]; simp [itTimed, itAdmm]
  · left; rw [← after, e]; exact itTerm_rho it L
  · by_cases ha : attempts (itDec cfg env it L).2 (itTerm cfg env it L).1
    · right
      obtain ⟨a1, a2, a3, a4, a5⟩ := adapted h (spres0_hist hsq hist) run hf e ha
      rw [after] at a1 a2 a3 a4 a5
      exact ⟨_, rfl, a1, a2, fun hfar => ⟨(a3 hfar).1, a5 hfar, (a3 hfar).2⟩, a4⟩
    · left
      obtain ⟨_, _, _, r⟩ := adaptPhase_rule (cfg := cfg) (env := env) (itDec cfg env it L).2 (itTerm cfg env it L).1
      obtain ⟨r1, r2, r3, _⟩ := r ha
      obtain ⟨b1, b2, b3⟩ := itTerm_rho (cfg := cfg) (env := env) it L
      rw [← after, e]
      exact ⟨r2.trans b1, r3.trans b2, r1.trans b3⟩

/-- **C20.** Per iteration `rho_updates` grows by exactly the number of changes of `rho` (0 or 1). -/
theorem c20_count (hsq : SqrtPos env) (hist : Hist cfg env D₀ st₀ U s) {it : ℤ} {L : LoopSt d K}
    (run : Runs cfg env (solveEntry cfg s) it L) (after : endState (iterBody cfg env it L) = s') :
    s'.info.rho_updates = L.s.info.rho_updates + (if s'.settings.rho = L.s.settings.rho then 0 else 1) := by
  rcases c20_rule hsq hist run after with ⟨a, b, _⟩ | ⟨e, _, _, _, hfar, hnear⟩
  · rw [if_pos a, b, add_zero]
  · by_cases hf : FarFrom s.settings.adaptive_rho_tolerance L.s.settings.rho e
    · obtain ⟨_, b, c⟩ := hfar hf
      rw [if_neg b, c]
    · obtain ⟨a, b⟩ := hnear hf
      rw [if_pos a, b, add_zero]

/-- **C21.** If the loop goes on after iteration `it`, an adaptation that was due has been made: `rho_estimate`
holds the estimate for the iterate. -/
theorem c21_due_is_made (hsq : SqrtPos env) (hist : Hist cfg env D₀ st₀ U s) {it : ℤ} {L L' : LoopSt d K}
    (run : Runs cfg env (solveEntry cfg s) it L) (goes_on : iterBody cfg env it L = .cont L') (due : AdaptDue it L.s L'.s) :
    L'.s.info.rho_estimate = (ofData s.work.data).estimate env.sqrt L.s.settings.rho L'.s.work.x L'.s.work.z L'.s.work.y := by
  have h := hist_inv hsq hist
  have hes : endState (iterBody cfg env it L) = L'.s := by rw [goes_on]; rfl
  obtain ⟨hf, e⟩ : (itTerm cfg env it L).2 = false ∧
      endState (iterBody cfg env it L) = (adaptPhase cfg env (itDec cfg env it L).2 (itTerm cfg env it L).1).1 := cont_form goes_on
  have ha : attempts (itDec cfg env it L).2 (itTerm cfg env it L).1 := by
    rw [← hes, e] at due
    exact attempts_of_due h run due
  obtain ⟨a1, a2, a3, a4, a5⟩ := adapted h (spres0_hist hsq hist) run hf e ha
  rw [hes] at a2
  exact a2

/-- **C21.** With `adaptive_rho = 0` a solve never changes `rho`, in no iteration. -/
theorem c21_disabled (hsq : SqrtPos env) (hist : Hist cfg env D₀ st₀ U s) (off : st₀.adaptive_rho = 0) {it : ℤ} {L : LoopSt d K}
    (run : Runs cfg env (solveEntry cfg s) it L) : L.s.settings.rho = s.settings.rho ∧ L.s.info.rho_updates = s.info.rho_updates := by
  have h := hist_inv hsq hist
  have : ∀ {j : ℤ} {M : LoopSt d K}, Runs cfg env (solveEntry cfg s) j M → M.s.settings.adaptive_rho = 0 := by
    intro j M r
    obtain ⟨_, _, r1, i1, e⟩ := (head_of_runs h r).within.same
    rw [e]; simp only [solveEntry_settings]; rw [h.fixed.adaptive_rho, off]
  induction run with
  | start => simp
  | @step it L L' r e ih =>
    have hes : endState (iterBody cfg env it L) = L'.s := by rw [e]; rfl
    rcases c20_rule hsq hist r hes with ⟨a, b, _⟩ | ⟨_, _, due, _⟩
    · exact ⟨a.trans ih.1, b.trans ih.2⟩
    · exact absurd (this r) due.1

/-- **C21.** In modes 0, 1 and 3 the interval is the documented one, after every history and in every
iteration: an adaptation is due only at its multiples. -/
theorem c21_interval (hsq : SqrtPos env) (hist : Hist cfg env D₀ st₀ U s) (mode : st₀.adaptive_rho ≠ 2) :
    s.settings.adaptive_rho_interval = documentedInterval st₀ ∧
    ∀ {it : ℤ} {L : LoopSt d K}, Runs cfg env (solveEntry cfg s) it L →
      (endState (iterBody cfg env it L)).settings.adaptive_rho_interval = documentedInterval st₀ := by
  rw [← setupInterval_eq]
  exact interval_hist hsq (· = setupInterval st₀) rfl (fun h => absurd h mode) hist

/-- **C21.** An interval given by the user is never changed, in any mode. -/
theorem c21_given (hsq : SqrtPos env) (hist : Hist cfg env D₀ st₀ U s) (given : st₀.adaptive_rho_interval ≠ 0) :
    s.settings.adaptive_rho_interval = st₀.adaptive_rho_interval ∧
    ∀ {it : ℤ} {L : LoopSt d K}, Runs cfg env (solveEntry cfg s) it L →
      (endState (iterBody cfg env it L)).settings.adaptive_rho_interval = st₀.adaptive_rho_interval := by
  refine interval_hist hsq (· = st₀.adaptive_rho_interval) ?_ (fun _ h => absurd h.symm given) hist
  rw [setupInterval_eq, documentedInterval, if_pos given]

/-- **C21** (defect). In mode 2 the automatically chosen interval is at most 1, whatever `check_termination`
and the clock are: `c_min(1, …)` is used where the comment ("not 0 and at least check_termination") needs
`c_max`. -/
theorem c21_time_partial (hsq : SqrtPos env) (hist : Hist cfg env D₀ st₀ U s) (chosen : st₀.adaptive_rho_interval = 0)
    (mode : st₀.adaptive_rho = 2) : s.settings.adaptive_rho_interval ≤ 1 ∧
    ∀ {it : ℤ} {L : LoopSt d K}, Runs cfg env (solveEntry cfg s) it L →
      (endState (iterBody cfg env it L)).settings.adaptive_rho_interval ≤ 1 := by
  refine interval_hist hsq (· ≤ 1) ?_ (fun _ _ st it => ?_) hist
  · rw [setupInterval_eq, documentedInterval]; simp [chosen, mode]
  · unfold timeInterval; dsimp only; split_ifs <;> omega

namespace Demo
/-- Far from the optimum, an adaptation in every iteration. -/
def sAdapt : Scenario := { sSolved with x := 100, y := 100, st := { quick with adaptive_rho_interval := 1 } }
theorem okAdapt : sAdapt.Ok := by decide +kernel
def adaptL : LoopSt dims ℚ := solveEntry Demo.cfg (sAdapt.start okAdapt)
end Demo

/-- A run that adapts `rho` in its first iteration and goes on. -/
example : Runs Demo.cfg Demo.sAdapt.env (solveEntry Demo.cfg (Demo.sAdapt.start Demo.okAdapt)) 1 Demo.adaptL ∧
    (∃ L', iterBody Demo.cfg Demo.sAdapt.env 1 Demo.adaptL = .cont L') ∧
    AdaptDue 1 Demo.adaptL.s (endState (iterBody Demo.cfg Demo.sAdapt.env 1 Demo.adaptL)) ∧
    (endState (iterBody Demo.cfg Demo.sAdapt.env 1 Demo.adaptL)).settings.rho ≠ Demo.adaptL.s.settings.rho ∧
    (endState (iterBody Demo.cfg Demo.sAdapt.env 1 Demo.adaptL)).info.rho_updates = 1 := by
  refine ⟨.start, ?_, by unfold AdaptDue; decide +kernel, by decide +kernel, by decide +kernel⟩
  have h : (match iterBody Demo.cfg Demo.sAdapt.env 1 Demo.adaptL with | .cont _ => true | _ => false) = true := by decide +kernel
  revert h
  cases iterBody Demo.cfg Demo.sAdapt.env 1 Demo.adaptL <;> simp

/-! ## C22 -/

/-- **C22.** After any history of calls the matrix held by the linear-system solver is the KKT matrix of the
current problem in the solver's units, the `sigma` given at setup and the current step sizes. -/
theorem c22_linsys_current (hsq : SqrtPos env) (hist : Hist cfg env D₀ st₀ U s) :
    heldMatrix s.work.linsys = kktMatrix
      (fun i j => costScale s * (colScale s i * (ofData U).P i j * colScale s j))
      (fun i j => rowScale s i * (ofData U).A i j * colScale s j) st₀.sigma (steps s) := by
  have h := hist_inv hsq hist
  exact held_current h.sync h.rep h.fixed.sigma

/-- **C22.** The same holds in every iteration of every solve, whatever adaptive changes have been made. -/
theorem c22_in_solve (hsq : SqrtPos env) (hist : Hist cfg env D₀ st₀ U s) {it : ℤ} {L : LoopSt d K}
    (run : Runs cfg env (solveEntry cfg s) it L) :
    heldMatrix L.s.work.linsys = kktMatrix
      (fun i j => costScale s * (colScale s i * (ofData U).P i j * colScale s j))
      (fun i j => rowScale s i * (ofData U).A i j * colScale s j) st₀.sigma (steps L.s) := by
  have h := hist_inv hsq hist
  have hw := (head_of_runs h run).within
  have hf := fromCall hw
  have e := held_current (U := U) hw.sync (hf.rep h.rep) (sg := st₀.sigma) (by
    obtain ⟨r, i, e⟩ := hf.settings; rw [e]; exact h.fixed.sigma)
  have e1 : colScale L.s = colScale s := by funext j; unfold colScale; rw [hf.scalingOn, hf.scaling]
  have e2 : costScale L.s = costScale s := costScale_congr hf.scalingOn hf.scaling
  have e3 : rowScale L.s = rowScale s := rowScale_congr hf.scalingOn hf.scaling
  rwa [e1, e2, e3] at e

end Osqp
