import Verif.Spec.Calls
import Verif.Lemmas.Idle
import Verif.Demo.Runs

/-!
# C85: the polishing parameter `delta`

`callAll`, `SameRuns`, `SameSetups`, `EqualButDelta`: `Spec/Calls.lean`.
-/

set_option linter.unusedSectionVars false
namespace Osqp
open Spec
variable {K : Type*} [Field K] [LinearOrder K] [IsStrictOrderedRing K] {d : Dims} {cfg : Cfg} {env : Env d K} {s t : Solver d K}

theorem valid_delta (st : Settings K) (b : Bool) {x y : K} (hx : 0 < x) (hy : 0 < y) :
    validateSettings cfg { st with delta := x } b = validateSettings cfg { st with delta := y } b := by
  unfold validateSettings
  simp only [not_le.mpr hx, not_le.mpr hy]

theorem same_if {P : Prop} [Decidable P] {c : ℤ} (h : EqualButDelta s t) : SameSetups (if P then .failed c else .ok s) (if P then .failed c else .ok t) := by
  split_ifs
  · rfl
  · exact h

/-- **C85 (setup)**.  Any two positive values of `delta` give set-ups that end alike and, if they succeed, solvers that differ in nothing but the stored value. -/
theorem c85_setup (D : Data d K) (st : Settings K) {x y : K} (hx : 0 < x) (hy : 0 < y) :
    SameSetups (osqpSetup cfg env D { st with delta := x }) (osqpSetup cfg env D { st with delta := y }) := by
  unfold osqpSetup
  rw [valid_delta st true hx hy]
  by_cases h1 : validateDataBad D = true
  · rw [if_pos h1, if_pos h1]; rfl
  rw [if_neg h1, if_neg h1]
  by_cases h2 : validateSettings cfg { st with delta := y } true = true
  · rw [if_pos h2, if_pos h2]; rfl
  rw [if_neg h2, if_neg h2]
  dsimp only
  by_cases hr : st.rho_is_vec ≠ 0 <;> by_cases hp : cfg.profiling = true
  all_goals simp only [hr, hp, if_true, if_false, not_true, not_false_iff, ne_eq]
  all_goals exact same_if rfl

/-- **C85 (settings)**.  Changing the settings in two ways that differ in (positive) `delta` only: same code, and solvers that differ in nothing but the stored value. -/
theorem c85_update (st : Settings K) {x y : K} (hx : 0 < x) (hy : 0 < y) :
    (osqpUpdateSettings cfg s (some { st with delta := x })).2 = (osqpUpdateSettings cfg s (some { st with delta := y })).2 ∧
    EqualButDelta (osqpUpdateSettings cfg s (some { st with delta := x })).1 (osqpUpdateSettings cfg s (some { st with delta := y })).1 := by
  unfold osqpUpdateSettings
  dsimp only
  rw [valid_delta st false hx hy]
  split_ifs <;> exact ⟨rfl, rfl⟩

theorem step_delta (h : EqualButDelta s t) (op : Op d K) :
    (apiStep cfg env s op = none ∧ apiStep cfg env t op = none) ∨
    ∃ s' t' c, apiStep cfg env s op = some (s', c) ∧ apiStep cfg env t op = some (t', c) ∧ EqualButDelta s' t' := by
  have ht : t = setDelta t.settings.delta s := h
  by_cases hop : ∃ st, op = .updateSettings st
  · obtain ⟨st, rfl⟩ := hop
    have k : (osqpUpdateSettings cfg t st).2 = (osqpUpdateSettings cfg s st).2 ∧ EqualButDelta (osqpUpdateSettings cfg s st).1 (osqpUpdateSettings cfg t st).1 := by
      rw [ht]
      unfold osqpUpdateSettings
      cases st with
      | none => exact ⟨rfl, rfl⟩
      | some n => dsimp only; split_ifs <;> exact ⟨rfl, rfl⟩
    exact Or.inr ⟨(osqpUpdateSettings cfg s st).1, (osqpUpdateSettings cfg t st).1, (osqpUpdateSettings cfg s st).2, rfl, congrArg some (Prod.ext rfl k.1), k.2⟩
  · have e := sd_step (v := t.settings.delta) cfg env op (fun st hst => hop ⟨st, hst⟩) s
    rw [← ht] at e
    cases hs : apiStep cfg env s op with
    | none => rw [hs] at e; exact Or.inl ⟨rfl, e⟩
    | some r => rw [hs] at e; exact Or.inr ⟨r.1, _, r.2, rfl, e, rfl⟩

/-- **C85 (calls)**.  Two solvers that differ in nothing but `delta` answer every sequence of calls alike, with whatever arguments, solves with polishing included: same return codes and again
equal solvers but for the stored value: same iterates, statuses, statistics, times and solutions.
The documentation calls `delta` the regularisation parameter of polishing: this theorem shows that it has no effect at all (the factorisation for polishing uses `sigma`). -/
theorem c85_delta_ignored (h : EqualButDelta s t) (ops : List (Op d K)) : SameRuns (callAll cfg env s ops) (callAll cfg env t ops) := by
  induction ops generalizing s t with
  | nil => exact ⟨rfl, h⟩
  | cons op ops ih =>
    unfold callAll
    rcases step_delta (cfg := cfg) (env := env) h op with ⟨a, b⟩ | ⟨s', t', c, a, b, h'⟩
    · rw [a, b]; trivial
    · rw [a, b]
      have k := ih h'
      dsimp only
      revert k
      cases callAll cfg env s' ops <;> cases callAll cfg env t' ops <;> intro k
      · trivial
      · exact k
      · exact k
      · exact ⟨congrArg (c :: ·) k.1, k.2⟩

/-! ## The hypotheses are met -/

/-- The solver of `Demo.sPolish`, its settings changed to a given `delta`. -/
def Demo.deltas (x : ℚ) : Solver Demo.dims ℚ :=
  (osqpUpdateSettings Demo.cfg (Demo.sPolish.start Demo.okPolish) (some { (Demo.sPolish.start Demo.okPolish).settings with delta := x })).1
/-- A solve and a cold start. -/
def Demo.deltaCalls : List (Op Demo.dims ℚ) := [.solve, .coldStart]

/-- With `delta` 1 and a millionth: the solve polishes successfully, and the results are the same. -/
example : SameRuns (callAll Demo.cfg Demo.sPolish.env (Demo.deltas 1) Demo.deltaCalls) (callAll Demo.cfg Demo.sPolish.env (Demo.deltas (1 / 1000000)) Demo.deltaCalls) ∧
    (callAll Demo.cfg Demo.sPolish.env (Demo.deltas 1) Demo.deltaCalls).map (fun r => (r.1.info.status_polish, r.2)) = some (Pol.success, [0, 0]) ∧
    (Demo.deltas 1).settings.delta = 1 ∧ (Demo.deltas (1 / 1000000)).settings.delta = 1 / 1000000 :=
  ⟨c85_delta_ignored (c85_update _ (by norm_num) (by norm_num)).2 _, by decide +kernel, by decide +kernel, by decide +kernel⟩

/-- Set-ups with the two values succeed. -/
example : SameSetups (osqpSetup Demo.cfg Demo.sPolish.env Demo.sPolish.data { Demo.sPolish.st with delta := 1 }) (osqpSetup Demo.cfg Demo.sPolish.env Demo.sPolish.data { Demo.sPolish.st with delta := 1 / 1000000 }) ∧
    (Demo.got (osqpSetup Demo.cfg Demo.sPolish.env Demo.sPolish.data { Demo.sPolish.st with delta := 1 })).isSome = true :=
  ⟨c85_setup _ _ (by norm_num) (by norm_num), by decide +kernel⟩

end Osqp
