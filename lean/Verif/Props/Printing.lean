import Verif.Props.Observe
import Verif.Props.Indep
import Verif.Lemmas.Printing

/-!
# C83: printing does not change the result

`Cfg.mute` is the same build with printing compiled out. `SameResult`, `Undisturbed`: `Spec/Indep.lean`.
-/

set_option linter.unusedSectionVars false
namespace Osqp
open Spec
variable {K : Type*} [Field K] [LinearOrder K] [IsStrictOrderedRing K] {d : Dims} {cfg : Cfg} {env : Env d K}
  {D₀ U : Data d K} {st₀ : Settings K} {s : Solver d K}

/-- Related outcomes of the loop. -/
def PrintEnd (cfg : Cfg) (env : Env d K) : LoopOut d K → LoopOut d K → Prop
  | .done i L, .done j M => i = j ∧ er true (postCheck cfg env i L) = er true (postCheck cfg.mute env j M)
  | .exit _, .exit _ => True
  | _, _ => False

theorem PrintAlike.post {i : ℤ} {L M : LoopSt d K} (h : PrintAlike cfg env i L M) : er true (postCheck cfg env i L) = er true (postCheck cfg.mute env i M) := by
  unfold postCheck
  rw [h.check]
  cases hc : M.canCheck with
  | true => simpa using h.checked hc
  | false =>
    have e := h.unchecked hc
    have e2 : ∀ t : Solver d K, updateInfo cfg.mute env (i - 1) t = updateInfo cfg env (i - 1) t := fun _ => rfl
    have e3 : (cfg.mute.printing && M.canPrint) = false := rfl
    simp only [Bool.not_false, if_true, e3, Bool.false_eq_true, if_false, e2]
    exact er_congr true (f := fun s => (checkTermination false s).1) e (fun s => (er_checkTermination true false s).1)

theorem loop_alike {L₀ M₀ : LoopSt d K} {top : ℤ} (hL : Calm cfg env top L₀) (hM : Calm cfg.mute env top M₀) (n : ℕ) : ∀ (i : ℤ) (L M : LoopSt d K),
    i + n ≤ top + 1 → Runs cfg env L₀ i L → Runs cfg.mute env M₀ i M → er0 true L.s = er0 true M.s → (n = 0 → PrintAlike cfg env i L M) →
    PrintEnd cfg env (admmLoop cfg env n i L) (admmLoop cfg.mute env n i M) := by
  induction n with
  | zero =>
    intro i L M _ _ _ _ h
    unfold admmLoop
    exact ⟨rfl, (h rfl).post⟩
  | succ n ih =>
    intro i L M hi rL rM h1 _
    have hi' : i ≤ top := by push_cast at hi; omega
    obtain ⟨a, b⟩ := hL i L hi' rL
    obtain ⟨c, _⟩ := hM i M hi' rM
    have h := iter_alike cfg env i h1 b a c
    unfold admmLoop
    cases eL : iterBody cfg env i L with
    | cont L' =>
      cases eM : iterBody cfg.mute env i M with
      | cont M' =>
        rw [eL, eM] at h
        exact ih (i + 1) L' M' (by push_cast at hi; omega) (.step rL eL) (.step rM eM) h.head (fun _ => h)
      | brk M' => rw [eL, eM] at h; exact h.elim
      | exit s => rw [eL, eM] at h; exact h.elim
    | brk L' =>
      cases eM : iterBody cfg.mute env i M with
      | cont M' => rw [eL, eM] at h; exact h.elim
      | brk M' =>
        rw [eL, eM] at h
        obtain ⟨h1, h2, h3⟩ := h
        refine ⟨rfl, ?_⟩
        unfold postCheck
        rw [h2, h3]
        simpa using h1
      | exit s => rw [eL, eM] at h; exact h.elim
    | exit s =>
      cases eM : iterBody cfg.mute env i M with
      | cont M' => rw [eL, eM] at h; exact h.elim
      | brk M' => rw [eL, eM] at h; exact h.elim
      | exit s => trivial

theorem Inv.mute (h : Inv cfg st₀ U s) : Inv cfg.mute st₀ U s :=
  ⟨h.rep, h.bounds, h.sync, h.rinv, h.live, (by obtain ⟨⟩ := h.valid0; constructor <;> assumption), h.fixed, h.status, h.aty, h.hand, h.sol⟩

/-- **C83 (printing, partial)**.  In every history and with every verbosity, the build with printing and the build without it solve alike, if neither the clock nor the user stops them and the step size
is not adapted by the clock: same return code and, if it is 0, same iterate, status, iteration count, objective values, residuals, step size and stored solution. This covers termination checks, all
other kinds of adaptation, certificates and polishing, although the build with printing evaluates the residuals in more iterations and skips the evaluation after the loop.
Missing: solves stopped from outside (the clock is read more often when printing), and the primal-dual integral, which is not the same (`c83_integral_counterexample`). -/
theorem c83_printing_partial (hsq : SqrtPos env) (hist : Hist cfg env D₀ st₀ U s) (loud : Undisturbed cfg env s) (mute : Undisturbed cfg.mute env s) :
    (osqpSolve cfg env s).2 = (osqpSolve cfg.mute env s).2 ∧ ((osqpSolve cfg env s).2 = 0 → SameResult (osqpSolve cfg env s).1 (osqpSolve cfg.mute env s).1) := by
  have is := hist_inv hsq hist
  have it := is.mute
  have hmax := entry_maxIter (cfg := cfg) is
  have es : (solveEntry cfg s).s.settings.max_iter = s.settings.max_iter := by simp
  have et : (solveEntry cfg.mute s).s.settings.max_iter = s.settings.max_iter := by simp
  obtain ⟨n, hn⟩ : ∃ n, s.settings.max_iter.toNat = n + 1 := ⟨s.settings.max_iter.toNat - 1, by rw [es] at hmax; omega⟩
  have hn' : ((n + 1 : ℕ) : ℤ) = s.settings.max_iter := by rw [← hn]; rw [es] at hmax; omega
  have cs := calm_of is loud
  have ct := calm_of it mute
  have r := loop_alike cs ct (n + 1) 1 _ _ (by rw [hn']; omega) .start .start rfl (fun h => absurd h (by omega))
  unfold osqpSolve
  dsimp only
  rw [es, et, hn]
  cases e1 : admmLoop cfg env (n + 1) 1 (solveEntry cfg s) with
  | exit a =>
    cases e2 : admmLoop cfg.mute env (n + 1) 1 (solveEntry cfg.mute s) with
    | exit b => exact ⟨rfl, fun h => absurd h (one_ne_zero (α := ℤ))⟩
    | done j M => rw [e1, e2] at r; exact r.elim
  | done j L =>
    cases e2 : admmLoop cfg.mute env (n + 1) 1 (solveEntry cfg.mute s) with
    | exit b => rw [e1, e2] at r; exact r.elim
    | done j' M =>
      rw [e1, e2] at r
      obtain ⟨rfl, hr⟩ := r
      dsimp only
      have hl : er true (postLoop cfg env j L) = er true (postLoop cfg.mute env j M) := by
        unfold postLoop
        rw [er_postRho, er_postRho]
        exact er_congr true (er_congr true (er_congr true hr er_postObj) er_postMaxIter) (er_postTimeLimit cfg)
      have sols : (postLoop cfg env j L).solution.isSome = (postLoop cfg.mute env j M).solution.isSome := by
        have w1 := within_postTail (cfg := cfg) (env := env) (checked (by omega) (loop_end (entry_bounds is) (head_entry (env := env) is) e1)).within
        have w2 := within_postTail (cfg := cfg.mute) (env := env) (checked (by omega) (loop_end (entry_bounds it) (head_entry (env := env) it) e2)).within
        rw [postLoop_eq, postLoop_eq, w1.sol, w2.sol]
        simp
      obtain ⟨f1, f2, f3⟩ := er_finish cfg env hl sols
      exact ⟨f1, fun h => SameResult.of f2 (f3 h).1 (f3 h).2.1 (f3 h).2.2⟩

/-! ## The hypotheses are met -/

/-- The problem of `Demo.sRestart` (the step size is adapted every second iteration), printing, with three iterations and a check in the last. -/
def Demo.sLoud : Demo.Scenario := { Demo.sRestart with st := { Demo.sRestart.st with verbose := 1, max_iter := 3, check_termination := 3 } }
theorem Demo.okLoud : Demo.sLoud.Ok := by decide +kernel
def Demo.l0 : Solver Demo.dims ℚ := Demo.sLoud.start Demo.okLoud

theorem Demo.calm_loud {cfg : Cfg} (hc : cfg.profiling = true) {s : Solver Demo.dims ℚ} {st : Settings ℚ} {U : Data Demo.dims ℚ} (h : Inv cfg st U s)
    (ht : ¬ s.settings.time_limit ≤ (if (solveEntry cfg s).s.work.first_run then (solveEntry cfg s).s.info.setup_time else (solveEntry cfg s).s.info.update_time))
    (ha : s.settings.adaptive_rho = 1) : Undisturbed cfg Demo.sLoud.env s := by
  refine ⟨?_, fun _ _ => rfl, Or.inl (by rw [ha]; decide)⟩
  rintro it ⟨_, _, L, run, _, _, hl⟩
  have w := (head_of_runs h run).within
  obtain ⟨r, i, e⟩ := (fromCall w).settings
  have ec : Demo.sLoud.env.clk L.s.ticks = 0 := rfl
  have eu := (w.cut (by rw [w.rufs]; unfold solveEntry; simp [hc]; split_ifs <;> simp)).2
  rw [e, w.first, w.setup, eu, ec, add_zero] at hl
  exact ht hl

example : (osqpSolve Demo.cfg Demo.sLoud.env Demo.l0).2 = 0 ∧ SameResult (osqpSolve Demo.cfg Demo.sLoud.env Demo.l0).1 (osqpSolve Demo.cfg.mute Demo.sLoud.env Demo.l0).1 ∧
    Demo.l0.settings.verbose = 1 ∧ Demo.cfg.printing = true ∧ (osqpSolve Demo.cfg Demo.sLoud.env Demo.l0).1.settings.rho ≠ Demo.l0.settings.rho := by
  have hi := hist_inv Demo.sLoud.sqrtPos (Demo.sLoud.hist Demo.okLoud)
  have h := c83_printing_partial (cfg := Demo.cfg) (env := Demo.sLoud.env) Demo.sLoud.sqrtPos (Demo.sLoud.hist Demo.okLoud)
    (Demo.calm_loud rfl hi (by decide +kernel) (by decide +kernel)) (Demo.calm_loud rfl hi.mute (by decide +kernel) (by decide +kernel))
  have h0 : (osqpSolve Demo.cfg Demo.sLoud.env (Demo.sLoud.start Demo.okLoud)).2 = 0 := by decide +kernel
  exact ⟨h0, h.2 h0, by decide +kernel, rfl, by decide +kernel⟩

end Osqp
