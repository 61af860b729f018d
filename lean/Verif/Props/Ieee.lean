import Verif.Model.Ieee
import Verif.Props.Rho
import Verif.Props.Start

/-!
# C18 and C29 for arguments that may be NaN or infinite
-/

namespace Osqp
open Spec
variable {K : Type*} [Field K] [LinearOrder K] [IsStrictOrderedRing K] {d : Dims} {cfg : Cfg} {env : Env d K}
  {D₀ U : Data d K} {st₀ : Settings K} {s s' : Solver d K}

/-- The clamped value is a number within the limits whatever the argument; on numbers it is the clamp of the
exact model. -/
theorem clampN_fin (v : Ieee K) : ∃ r, Ieee.clampRho v = .fin r ∧ Const.rhoMin K ≤ r ∧ r ≤ Const.rhoMax K ∧
    ∀ x, v = .fin x → r = clampRho x := by
  have h := rhoMin_le_rhoMax (K := K)
  cases v with
  | nan => 
    refine ⟨Const.rhoMin K, ?_, le_refl _, h, by intro x hx; cases hx⟩
    simp only [Ieee.clampRho, Ieee.max, Ieee.min, Ieee.lt]
    rcases lt_or_eq_of_le h with h | h <;> simp [h]
  | ninf =>
    refine ⟨Const.rhoMin K, ?_, le_refl _, h, by intro x hx; cases hx⟩
    simp only [Ieee.clampRho, Ieee.max, Ieee.min, Ieee.lt]
    rcases lt_or_eq_of_le h with h | h <;> simp [h]
  | pinf =>
    refine ⟨Const.rhoMax K, ?_, h, le_refl _, by intro x hx; cases hx⟩
    simp [Ieee.clampRho, Ieee.max, Ieee.min, Ieee.lt]
  | fin x =>
    refine ⟨clampRho x, ?_, clampRho_lo x, clampRho_hi x, by intro y hy; cases hy; rfl⟩
    simp only [Ieee.clampRho, Ieee.max, Ieee.min, Ieee.lt, Osqp.clampRho, cMax, cMin, gt_iff_lt]
    by_cases h1 : Const.rhoMin K < x
    · simp only [h1, decide_true, if_true, Ieee.lt]
      by_cases h2 : x < Const.rhoMax K <;> simp [h2]
    · simp only [h1, decide_false, if_false, Ieee.lt, Bool.false_eq_true]
      by_cases h2 : Const.rhoMin K < Const.rhoMax K <;> simp [h2]

/-- **C18**, requests: `osqp_update_rho` with any argument, a number or not, does exactly what it does for some
ordinary number; for NaN that number is `1e-6`, for `+∞` it is `1e6`, and `-∞` is rejected like a negative
number. -/
theorem c18_request (s : Solver d K) (v : Ieee K) :
    ∃ r : K, osqpUpdateRhoN cfg env s v = some (osqpUpdateRho cfg env s r) ∧
      (∀ x, v = .fin x → r = x) ∧ (v = .nan → r = 1 / 10 ^ 6) ∧ (v = .pinf → r = 10 ^ 6) ∧ (v = .ninf → r < 0) := by
  have key : ∀ r : K, 0 < r → Ieee.le v (.fin 0) = false → Ieee.clampRho v = .fin (clampRho r) →
      osqpUpdateRhoN cfg env s v = some (osqpUpdateRho cfg env s r) := by
    intro r hr hl hc
    unfold osqpUpdateRhoN osqpUpdateRho setRho
    rw [if_neg (by rw [hl]; decide), if_neg (not_le.2 hr), hc]
  have hmin := clampRho_of_mem (le_refl (Const.rhoMin K)) rhoMin_le_rhoMax
  have hmax := clampRho_of_mem (rhoMin_le_rhoMax (K := K)) le_rfl
  have hlt : Const.rhoMin K ≤ Const.rhoMax K := rhoMin_le_rhoMax
  cases v with
  | nan =>
    refine ⟨Const.rhoMin K, key _ rhoMin_pos rfl ?_, fun x h => (by cases h), fun _ => rfl, fun h => (by cases h), fun h => (by cases h)⟩
    rw [hmin]
    simp only [Ieee.clampRho, Ieee.max, Ieee.min, Ieee.lt]
    rcases lt_or_eq_of_le hlt with h | h <;> simp [h]
  | ninf =>
    refine ⟨-1, ?_, fun x h => (by cases h), fun h => (by cases h), fun h => (by cases h), fun _ => by linarith [zero_lt_one (α := K)]⟩
    unfold osqpUpdateRhoN osqpUpdateRho
    rw [if_pos (by rfl), if_pos (by linarith [zero_lt_one (α := K)])]
  | pinf =>
    refine ⟨Const.rhoMax K, key _ (rhoMin_pos.trans_le hlt) rfl ?_, fun x h => (by cases h), fun h => (by cases h), fun _ => rfl, fun h => (by cases h)⟩
    rw [hmax]
    simp [Ieee.clampRho, Ieee.max, Ieee.min, Ieee.lt]
  | fin x =>
    refine ⟨x, ?_, fun y h => (by cases h; rfl), fun h => (by cases h), fun h => (by cases h), fun h => (by cases h)⟩
    by_cases hx : x ≤ 0
    · unfold osqpUpdateRhoN osqpUpdateRho
      rw [if_pos ?_, if_pos hx]
      simp only [Ieee.le, Ieee.lt, Ieee.eq, Bool.or_eq_true, decide_eq_true_eq]
      exact lt_or_eq_of_le hx
    · obtain ⟨r, h1, -, -, h2⟩ := clampN_fin (Ieee.fin x)
      refine key x (not_le.1 hx) ?_ (by rw [h1, h2 x rfl])
      simp only [Ieee.le, Ieee.lt, Ieee.eq, Bool.or_eq_false_iff, decide_eq_false_iff_not]
      exact ⟨fun h => hx h.le, fun h => hx h.le⟩

/-- Histories in which the step sizes requested through `osqp_update_rho` may be NaN or infinite. -/
inductive HistN (cfg : Cfg) (env : Env d K) (D₀ : Data d K) (st₀ : Settings K) : Data d K → Solver d K → Prop
  | setup {s : Solver d K} : osqpSetup cfg env D₀ st₀ = .ok s → HistN cfg env D₀ st₀ D₀ s
  | step {U : Data d K} {s s' : Solver d K} {op : Op d K} {code : ℤ} : HistN cfg env D₀ st₀ U s →
      apiStep cfg env s op = some (s', code) → HistN cfg env D₀ st₀ (userStep U op) s'
  | updateRho {U : Data d K} {s s' : Solver d K} {v : Ieee K} {code : ℤ} : HistN cfg env D₀ st₀ U s →
      osqpUpdateRhoN cfg env s v = some (s', code) → HistN cfg env D₀ st₀ U s'

/-- Such a history reaches only states that a history of ordinary requests reaches, so that everything proved
about the latter holds. -/
theorem HistN.hist (h : HistN cfg env D₀ st₀ U s) : Hist cfg env D₀ st₀ U s := by
  induction h with
  | setup e => exact .setup e
  | step _ e ih => exact .step ih e
  | @updateRho U s s' v code _ e ih =>
    obtain ⟨r, h1, -⟩ := c18_request (cfg := cfg) (env := env) s v
    rw [h1] at e
    exact Hist.step (op := .updateRho r) (code := code) ih (by simpa only [apiStep] using e)

theorem _root_.Osqp.Spec.Hist.histN (h : Hist cfg env D₀ st₀ U s) : HistN cfg env D₀ st₀ U s := by
  induction h with
  | setup e => exact .setup e
  | step _ e ih => exact .step ih e

/-- **C18.** After any history, in which requested step sizes may be NaN or infinite, `rho` is a number within
`[1e-6, 1e6]` and every step size is positive. A request never makes the stored step size anything else than a
number (`osqpUpdateRhoN` is never `none`). -/
theorem c18_requests (hsq : SqrtPos env) (hist : HistN cfg env D₀ st₀ U s) :
    (1 / 10 ^ 6 ≤ s.settings.rho ∧ s.settings.rho ≤ 10 ^ 6 ∧ ∀ i, 0 < steps s i) ∧
    ∀ v, osqpUpdateRhoN cfg env s v ≠ none :=
  ⟨c18_rho_limits hsq hist.hist, fun v h => by
    obtain ⟨r, h1, -⟩ := c18_request (cfg := cfg) (env := env) s v
    rw [h1] at h; cases h⟩

/-! ### Special values anywhere

The exact model has no special values inside the solver. The following theorem does without it: it looks only at
the code that writes step sizes and lets every value computed elsewhere (the estimate, the constraint types, the
decision whether to adapt) be arbitrary. -/

/-- **C18.** Whatever sequence of requests, adaptations and bound updates is made, with whatever values, the stored
step size is a number within `[1e-6, 1e6]` and so is every per-constraint step, up to the factor 1000 of equality
constraints. -/
theorem c18_any_values {m : ℕ} (ws : List (StepWrite m K)) (r : StepRegs m K)
    (h : ws.foldl (fun r w => w.apply r) none = some r) :
    (∃ x : K, r.rho = .fin x ∧ 1 / 10 ^ 6 ≤ x ∧ x ≤ 10 ^ 6) ∧
    ∀ i, ∃ x : K, r.vec i = .fin x ∧ 1 / 10 ^ 6 ≤ x ∧ x ≤ 10 ^ 9 := by
  let Good : StepRegs m K → Prop := fun r => (∃ x : K, r.rho = .fin x ∧ Const.rhoMin K ≤ x ∧ x ≤ Const.rhoMax K) ∧
    ∀ i, ∃ x : K, r.vec i = .fin x ∧ Const.rhoMin K ≤ x ∧ x ≤ 10 ^ 9
  have hmax : Const.rhoMax K ≤ 10 ^ 9 := by unfold Const.rhoMax; exact pow_le_pow_right₀ (by norm_num) (by norm_num)
  have hvec : ∀ (ct : Fin m → ℤ) (x : K), Const.rhoMin K ≤ x → x ≤ Const.rhoMax K → ∀ i, ∃ y : K,
      stepVecN ct (.fin x) i = .fin y ∧ Const.rhoMin K ≤ y ∧ y ≤ 10 ^ 9 := by
    intro ct x h1 h2 i
    unfold stepVecN
    by_cases c1 : ct i = -1
    · rw [if_pos c1]; exact ⟨_, rfl, le_refl _, rhoMin_le_rhoMax.trans hmax⟩
    · rw [if_neg c1]
      by_cases c2 : ct i = 0
      · rw [if_pos c2]; exact ⟨x, rfl, h1, h2.trans hmax⟩
      · rw [if_neg c2]
        refine ⟨_, rfl, ?_, ?_⟩
        · have := rhoMin_pos (K := K)
          unfold Const.rhoEqOverIneq
          nlinarith
        · unfold Const.rhoEqOverIneq
          unfold Const.rhoMax at h2
          calc (10 : K) ^ 3 * x ≤ 10 ^ 3 * 10 ^ 6 := mul_le_mul_of_nonneg_left h2 (by positivity)
            _ = 10 ^ 9 := by norm_num
  have hset : ∀ (v ri : Ieee K) (b : Bool) (ct : Fin m → ℤ), Good ⟨Ieee.clampRho v, ri,
      if b then stepVecN ct (Ieee.clampRho v) else fun _ => Ieee.clampRho v⟩ := by
    intro v ri b ct
    obtain ⟨x, e, h1, h2, -⟩ := clampN_fin v
    rw [e]
    refine ⟨⟨x, rfl, h1, h2⟩, fun i => ?_⟩
    cases b
    · exact ⟨x, rfl, h1, h2.trans hmax⟩
    · exact hvec ct x h1 h2 i
  have step : ∀ (w : StepWrite m K) (o : Option (StepRegs m K)), (∀ r ∈ o, Good r) → ∀ r ∈ w.apply o, Good r := by
    intro w o ho r hr
    cases w with
    | setup b v ct =>
      simp only [StepWrite.apply] at hr
      split_ifs at hr
      · exact ho r hr
      · cases hr; rename_i hb; have := hset v (Ieee.inv v) b ct; rw [if_pos hb] at this; exact this
      · cases hr; rename_i hb; have := hset v (Ieee.inv v) b ct; rw [if_neg hb] at this; exact this
    | update b v ct =>
      cases o with
      | none => cases hr
      | some q =>
        simp only [StepWrite.apply] at hr
        split_ifs at hr with c1 c2
        · cases hr; exact ho _ rfl
        · cases hr; have := hset v q.rho_inv b ct; rw [if_pos c2] at this; exact this
        · cases hr; have := hset v (Ieee.inv (Ieee.clampRho v)) b ct; rw [if_neg c2] at this; exact this
    | adapt b far e ct =>
      cases o with
      | none => cases hr
      | some q =>
        simp only [StepWrite.apply] at hr
        split_ifs at hr with c0 c1 c2
        · cases hr; exact ho _ rfl
        · cases hr; have := hset (Ieee.clampRho e) q.rho_inv b ct; rw [if_pos c2] at this; exact this
        · cases hr; have := hset (Ieee.clampRho e) (Ieee.inv (Ieee.clampRho (Ieee.clampRho e))) b ct; rw [if_neg c2] at this; exact this
        · cases hr; exact ho _ rfl
    | bounds ct =>
      cases o with
      | none => cases hr
      | some q =>
        simp only [StepWrite.apply] at hr
        cases hr; have := hset q.rho q.rho_inv true ct; rw [if_pos rfl] at this; exact this
  have all : ∀ (ws : List (StepWrite m K)) (o : Option (StepRegs m K)), (∀ r ∈ o, Good r) →
      ∀ r ∈ ws.foldl (fun r w => w.apply r) o, Good r := by
    intro ws
    induction ws with
    | nil => intro o ho r hr; exact ho r hr
    | cons w ws ih => intro o ho r hr; exact ih _ (step w o ho) r hr
  exact all ws none (by intro r hr; cases hr) r h

/-- A request of NaN at set-up, a failed estimate, and a request of `+∞` afterwards: rho is `1e-6`, then `1e6`.
In scalar mode the inverse step stored by set-up is NaN. -/
example : ([StepWrite.setup true .nan (fun _ : Fin 1 => 1), .adapt true true .nan (fun _ => 1)].foldl (fun r w => w.apply r) none
      : Option (StepRegs 1 ℚ)).map (fun r => (r.rho, r.vec 0)) = some (.fin (1 / 10 ^ 6), .fin (1 / 10 ^ 3)) ∧
    ([StepWrite.setup true .nan (fun _ : Fin 1 => 0), .update true .pinf (fun _ => 0)].foldl (fun r w => w.apply r) none
      : Option (StepRegs 1 ℚ)).map (fun r => (r.rho, r.vec 0)) = some (.fin (10 ^ 6), .fin (10 ^ 6)) := by
  decide +kernel

/-- Defect: in scalar mode the inverse step size kept by set-up is that of the request before clamping
(osqp_api.c:496), so that an accepted request of NaN makes it NaN, although the step size itself is a number. -/
theorem c18_scalar_nan_counterexample :
    (StepWrite.apply (.setup false .nan (fun _ : Fin 1 => 0)) none : Option (StepRegs 1 ℚ)).map
      (fun r => (r.rho, r.rho_inv)) = some (.fin (1 / 10 ^ 6), .nan) := by decide +kernel

example : HistN Demo.cfg Demo.sSolved.env Demo.sSolved.data Demo.sSolved.st Demo.sSolved.data (Demo.sSolved.done Demo.okSolved) ∧
    ((osqpUpdateRhoN Demo.cfg Demo.sSolved.env (Demo.sSolved.done Demo.okSolved) .nan).map fun r => r.1.settings.rho) = some (1 / 10 ^ 6) :=
  ⟨(Demo.sSolved.hist_done Demo.okSolved).histN, by decide +kernel⟩

/-! ## C29 -/

/-- A positive value: a positive number or `+∞`. -/
def PositiveN (v : Ieee K) : Prop := v = .pinf ∨ ∃ x : K, 0 < x ∧ v = .fin x

/-- A value that is at least `a`. -/
def AtLeastN (a : K) (v : Ieee K) : Prop := v = .pinf ∨ ∃ x : K, a ≤ x ∧ v = .fin x

/-- A number strictly between zero and `b`. -/
def BetweenN (b : K) (v : Ieee K) : Prop := ∃ x : K, 0 < x ∧ x < b ∧ v = .fin x

/-- The documented ranges, for settings that may hold special values. -/
structure ValidMutableN (s : Settings (Ieee K)) : Prop where
  verbose : s.verbose = 0 ∨ s.verbose = 1
  profiler_level : s.profiler_level = 0 ∨ s.profiler_level = 1 ∨ s.profiler_level = 2
  warm_starting : s.warm_starting = 0 ∨ s.warm_starting = 1
  polishing : s.polishing = 0 ∨ s.polishing = 1
  alpha : BetweenN 2 s.alpha
  cg_max_iter : 0 < s.cg_max_iter
  cg_tol_reduction : 0 < s.cg_tol_reduction
  cg_tol_fraction : BetweenN 1 s.cg_tol_fraction
  max_iter : 0 < s.max_iter
  eps_abs : AtLeastN 0 s.eps_abs
  eps_rel : AtLeastN 0 s.eps_rel
  eps : s.eps_abs ≠ .fin 0 ∨ s.eps_rel ≠ .fin 0
  eps_prim_inf : PositiveN s.eps_prim_inf
  eps_dual_inf : PositiveN s.eps_dual_inf
  scaled_termination : s.scaled_termination = 0 ∨ s.scaled_termination = 1
  check_termination : 0 ≤ s.check_termination
  check_dualgap : s.check_dualgap = 0 ∨ s.check_dualgap = 1
  time_limit : PositiveN s.time_limit
  delta : PositiveN s.delta
  polish_refine_iter : 0 ≤ s.polish_refine_iter

/-- The ranges of all settings given to `osqp_setup`. -/
structure ValidSettingsN (cfg : Cfg) (s : Settings (Ieee K)) : Prop where
  live : ValidMutableN s
  linsys_solver : s.linsys_solver = 1
  allocate_solution : s.allocate_solution = 0 ∨ s.allocate_solution = 1
  scaling : 0 ≤ s.scaling
  rho : PositiveN s.rho
  rho_is_vec : s.rho_is_vec = 0 ∨ s.rho_is_vec = 1
  sigma : PositiveN s.sigma
  adaptive_rho : 0 ≤ s.adaptive_rho ∧ s.adaptive_rho ≤ 3
  adaptive_time : cfg.profiling = false → s.adaptive_rho ≠ 2
  interval : 0 ≤ s.adaptive_rho_interval
  adaptive_rho_fraction : PositiveN s.adaptive_rho_fraction
  adaptive_rho_tolerance : AtLeastN 1 s.adaptive_rho_tolerance

/-- No floating-point setting is NaN. -/
def NoNaN (s : Settings (Ieee K)) : Prop :=
  s.rho ≠ .nan ∧ s.sigma ≠ .nan ∧ s.alpha ≠ .nan ∧ s.cg_tol_fraction ≠ .nan ∧ s.adaptive_rho_fraction ≠ .nan ∧
  s.adaptive_rho_tolerance ≠ .nan ∧ s.eps_abs ≠ .nan ∧ s.eps_rel ≠ .nan ∧ s.eps_prim_inf ≠ .nan ∧
  s.eps_dual_inf ≠ .nan ∧ s.time_limit ≠ .nan ∧ s.delta ≠ .nan

theorem le_zeroN {v : Ieee K} (h : v ≠ .nan) : Ieee.le v (.fin 0) = false ↔ PositiveN v := by
  cases v with
  | nan => exact absurd rfl h
  | ninf => simp [Ieee.le, Ieee.lt, PositiveN]
  | pinf => simp [Ieee.le, Ieee.lt, Ieee.eq, PositiveN]
  | fin x =>
    simp only [Ieee.le, Ieee.lt, Ieee.eq, Bool.or_eq_false_iff, decide_eq_false_iff_not, PositiveN, reduceCtorEq,
      Ieee.fin.injEq, false_or, exists_eq_right_right', ← not_or, ← le_iff_lt_or_eq, not_le, exists_eq_right']

theorem lt_leastN {v : Ieee K} {a : K} (h : v ≠ .nan) : Ieee.lt v (.fin a) = false ↔ AtLeastN a v := by
  cases v with
  | nan => exact absurd rfl h
  | ninf => simp [Ieee.lt, AtLeastN]
  | pinf => simp [Ieee.lt, AtLeastN]
  | fin x => simp [Ieee.lt, AtLeastN]

theorem betweenN {v : Ieee K} {b : K} (h : v ≠ .nan) :
    (Ieee.le v (.fin 0) = false ∧ Ieee.le (.fin b) v = false) ↔ BetweenN b v := by
  rw [le_zeroN h]
  cases v with
  | nan => exact absurd rfl h
  | ninf => simp [PositiveN, BetweenN]
  | pinf => simp [Ieee.le, Ieee.lt, BetweenN]
  | fin x =>
    simp only [Ieee.le, Ieee.lt, Ieee.eq, Bool.or_eq_false_iff, decide_eq_false_iff_not, PositiveN, BetweenN, reduceCtorEq,
      Ieee.fin.injEq, false_or, ← not_or, ← le_iff_lt_or_eq, not_le, exists_eq_right', ← and_assoc]

theorem eq_zeroN {v : Ieee K} : Ieee.eq v (.fin 0) = false ↔ v ≠ .fin 0 := by
  cases v <;> simp [Ieee.eq]

/-- **C29 for infinite values.** Without NaN, exactly the settings within the documented ranges are accepted. -/
theorem c29_extended_partial (s : Settings (Ieee K)) (h : NoNaN s) :
    (validateSettingsN cfg s true = false ↔ ValidSettingsN cfg s) ∧
    (validateSettingsN cfg s false = false ↔ ValidMutableN s ∧ s.adaptive_rho ≤ 3) := by
  obtain ⟨h1, h2, h3, h4, h5, h6, h7, h8, h9, h10, h11, h12⟩ := h
  have e3 := betweenN (b := 2) h3
  have e4 := betweenN (b := 1) h4
  constructor
  · unfold validateSettingsN validateLinsys
    simp only [Bool.true_and, Bool.or_eq_false_iff, Bool.and_eq_false_iff, decide_eq_false_iff_not, not_not, not_le, not_lt,
      Bool.not_eq_false', decide_eq_true_eq, ne_eq, ge_iff_le, e3, e4, le_zeroN h1, le_zeroN h2, le_zeroN h5, lt_leastN h6,
      lt_leastN h7, lt_leastN h8, eq_zeroN, le_zeroN h9, le_zeroN h10, le_zeroN h11, le_zeroN h12]
    constructor
    · intro h
      refine ⟨by constructor <;> grind, ?_, ?_, ?_, ?_, ?_, ?_, ?_, ?_, ?_, ?_, ?_⟩ <;> grind
    · rintro ⟨⟨⟩⟩
      grind
  · unfold validateSettingsN validateLinsys
    simp only [Bool.false_and, Bool.or_eq_false_iff, Bool.and_eq_false_iff, decide_eq_false_iff_not, not_not, not_le, not_lt,
      Bool.not_eq_false', decide_eq_true_eq, ne_eq, ge_iff_le, e3, e4, le_zeroN h1, le_zeroN h2, le_zeroN h5, lt_leastN h6,
      lt_leastN h7, lt_leastN h8, eq_zeroN, le_zeroN h9, le_zeroN h10, le_zeroN h11, le_zeroN h12]
    constructor
    · intro h
      refine ⟨by constructor <;> grind, by grind⟩
    · rintro ⟨⟨⟩⟩
      grind

/-- On ordinary numbers this validation is that of the exact model. -/
theorem validateSettingsN_fin (s : Settings K) (b : Bool) :
    validateSettingsN cfg (s.map Ieee.fin) b = validateSettings cfg s b := by
  have e1 : ∀ x a : K, Ieee.le (.fin x) (.fin a) = decide (x ≤ a) := by
    intro x a
    simp only [Ieee.le, Ieee.lt, Ieee.eq, ← Bool.decide_or, ← le_iff_lt_or_eq]
  have e2 : ∀ x a : K, Ieee.lt (.fin x) (.fin a) = decide (x < a) := fun _ _ => rfl
  have e3 : ∀ x a : K, Ieee.eq (.fin x) (.fin a) = decide (x = a) := fun _ _ => rfl
  unfold validateSettingsN validateSettings Settings.map
  simp only [e1, e2, e3, ge_iff_le]

/-- **C29 is false for NaN**: settings whose `alpha`, `sigma`, `eps_abs`, `time_limit` and `rho` are all NaN are
accepted by `osqp_setup`. -/
theorem c29_nan_counterexample :
    let st : Settings (Ieee ℚ) := { Demo.sSolved.st.map Ieee.fin with
      alpha := .nan, sigma := .nan, eps_abs := .nan, time_limit := .nan, rho := .nan }
    validateSettingsN Demo.cfg st true = false ∧ ¬ ValidSettingsN Demo.cfg st := by
  refine ⟨by decide +kernel, fun h => ?_⟩
  obtain ⟨x, -, -, e⟩ := h.live.alpha
  cases e

/-- Settings with an infinite time limit are accepted, those with an infinite `alpha` are not. -/
example : NoNaN { Demo.sSolved.st.map Ieee.fin with time_limit := (.pinf : Ieee ℚ) } ∧
    validateSettingsN Demo.cfg { Demo.sSolved.st.map Ieee.fin with time_limit := (.pinf : Ieee ℚ) } true = false ∧
    validateSettingsN Demo.cfg { Demo.sSolved.st.map Ieee.fin with alpha := (.pinf : Ieee ℚ) } true = true := by
  refine ⟨?_, by decide +kernel, by decide +kernel⟩
  unfold NoNaN Settings.map
  simp

end Osqp
