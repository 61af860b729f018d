import Verif.Props.Limits
import Verif.Props.Rho

/-!
# Warm and cold start (C26, C27), settings (C29, C30), explicit step-size update (C31)
-/

set_option linter.unusedSectionVars false
namespace Osqp
open Spec Matrix
variable {K : Type*} [Field K] [LinearOrder K] [IsStrictOrderedRing K] {d : Dims} {cfg : Cfg} {env : Env d K}
  {D₀ U : Data d K} {st₀ : Settings K} {s s' : Solver d K}

/-! ## C26 -/

/-- Statuses for which `osqp_get_solution` hands out the iterate: all but the infeasible ones (3 to 6) and
"non convex" (9). -/
def CarriesSolution (v : ℤ) : Prop := v ≠ 3 ∧ v ≠ 4 ∧ v ≠ 5 ∧ v ≠ 6 ∧ v ≠ 9

instance (v : ℤ) : Decidable (CarriesSolution v) := by unfold CarriesSolution; infer_instance

theorem carries_iff (i : Info K) : hasSolution i = true ↔ CarriesSolution i.status_val := by
  unfold hasSolution CarriesSolution St.primInf St.primInfInacc St.dualInf St.dualInfInacc St.nonCvx
  simp only [Bool.and_eq_true, decide_eq_true_eq]
  tauto

theorem getSolution_user (s : Solver d K) (carries : CarriesSolution s.info.status_val) (dst : Solution d K) :
    (osqpGetSolution s dst).2.1.x = userX s ∧ (osqpGetSolution s dst).2.1.y = userY s := by
  have h := (carries_iff s.info).2 carries
  unfold osqpGetSolution storeSolution
  dsimp only
  rw [if_pos h]
  unfold userX userY
  by_cases hs : s.settings.scaling = 0
  · simp [hs]
  · simp only [hs, ne_eq, not_false_iff, if_true, unscaleSolution]
    constructor
    · funext j; simp only [vEwProd]; ring
    · funext i; simp only [vEwProd, vScale]; ring

/-- **C26.** `osqp_warm_start(x, y)` succeeds, turns warm starting on and makes `x`, `y` the iterate: the following
`osqp_get_solution` returns exactly them, and `z` is `Ax`. -/
theorem c26_round_trip (hsq : SqrtPos env) (hist : Hist cfg env D₀ st₀ U s) (x : Vec K d.n) (y : Vec K d.m) {code : ℤ}
    (call : osqpWarmStart s (some x) (some y) = (s', code)) :
    code = 0 ∧ s'.settings.warm_starting = 1 ∧ userX s' = x ∧ userY s' = y ∧ userZ s' = (ofData U).A *ᵥ x ∧
    (CarriesSolution s.info.status_val → ∀ dst, (osqpGetSolution s' dst).2.1.x = x ∧ (osqpGetSolution s' dst).2.1.y = y) := by
  have h := hist_inv hsq hist
  unfold osqpWarmStart at call
  rw [Prod.mk.injEq] at call
  obtain ⟨e, ec⟩ := call
  dsimp only at e
  have hset : s'.settings = { s.settings with warm_starting := 1 } := by
    rw [← e]; dsimp only
    split_ifs with hw
    · rfl
    · have := h.live.warm_starting
      have h1 : s.settings.warm_starting = 1 := by tauto
      rw [← h1]
  have hinfo : s'.info = s.info := by rw [← e]; dsimp only; split_ifs <;> rfl
  have hH : Hist cfg env D₀ st₀ U s' := .step (op := .warmStart (some x) (some y)) (code := 0) hist (by
    simp only [apiStep, Option.some.injEq]; unfold osqpWarmStart; exact Prod.ext e rfl)
  have hx : userX s' = x := by
    have e1 : s'.work.x = (if s.settings.scaling ≠ 0 then vEwProd x s.work.scaling.Dinv else x) ∧ s'.work.scaling = s.work.scaling := by
      rw [← e]; dsimp only; split_ifs <;> exact ⟨rfl, rfl⟩
    unfold userX
    rw [e1.1, e1.2, hset]; dsimp only
    by_cases h0 : s.settings.scaling = 0
    · simp [h0]
    · funext j
      simp only [h0, ne_eq, not_false_iff, if_true, vEwProd]
      obtain ⟨ok, _⟩ := h.rep.1 h0
      have := (ok.D_pos j).ne'
      rw [ok.Dinv]; field_simp
  have hy : userY s' = y := by
    have e1 : s'.work.y = (if s.settings.scaling ≠ 0 then vScale (vEwProd y s.work.scaling.Einv) s.work.scaling.c else y) ∧
        s'.work.scaling = s.work.scaling := by
      rw [← e]; dsimp only; split_ifs <;> exact ⟨rfl, rfl⟩
    unfold userY
    rw [e1.1, e1.2, hset]; dsimp only
    by_cases h0 : s.settings.scaling = 0
    · simp [h0]
    · funext i
      simp only [h0, ne_eq, not_false_iff, if_true, vEwProd, vScale]
      obtain ⟨ok, _⟩ := h.rep.1 h0
      have := (ok.E_pos i).ne'
      have := ok.c_pos.ne'
      rw [ok.Einv, ok.cinv]; field_simp
  have hz : userZ s' = (ofData U).A *ᵥ x := by
    have e1 : s'.work.z = spMul d.A s'.work.data.A s'.work.x := by rw [← e]
    have hr := (hist_inv hsq hH).rep
    obtain ⟨ok, is⟩ := rep_eff hr
    rw [userZ_eq, ← hx, userX_eq]
    funext i
    have := toZ_A ok is s'.work.x i
    unfold toZ
    rw [e1, spMul_eq]
    exact this
  refine ⟨ec.symm, by rw [hset], hx, hy, hz, fun hc dst => ?_⟩
  have := getSolution_user s' (by rw [hinfo]; exact hc) dst
  rw [hx, hy] at this; exact this

/-- **C26.** Nothing but the given part of the iterate (with `z` for `x`) and the `warm_starting` setting changes. -/
theorem c26_omitted (s : Solver d K) (x : Option (Vec K d.n)) (y : Option (Vec K d.m)) :
    let s' := (osqpWarmStart s x y).1
    (x = none → s'.work.x = s.work.x ∧ s'.work.z = s.work.z) ∧ (y = none → s'.work.y = s.work.y) ∧
    s'.info = s.info ∧ s'.solution = s.solution ∧ s'.settings = { s.settings with warm_starting := s'.settings.warm_starting } ∧
    s'.settings.warm_starting ≠ 0 ∧
    s'.work = { s.work with x := s'.work.x, y := s'.work.y, z := s'.work.z } := by
  unfold osqpWarmStart
  have hw : ∀ b : Prop, [Decidable b] → (¬ b → s.settings.warm_starting ≠ 0) →
      (if b then { s with settings := { s.settings with warm_starting := 1 } } else s).settings.warm_starting ≠ 0 := by
    intro b _ hb; split_ifs with h
    · exact one_ne_zero
    · exact hb h
  refine ⟨?_, ?_, ?_, ?_, ?_, ?_, ?_⟩
  · rintro rfl; cases y <;> dsimp only <;> split_ifs <;> exact ⟨rfl, rfl⟩
  · rintro rfl; cases x <;> dsimp only <;> split_ifs <;> rfl
  · cases x <;> cases y <;> dsimp only <;> split_ifs <;> rfl
  · cases x <;> cases y <;> dsimp only <;> split_ifs <;> rfl
  · cases x <;> cases y <;> dsimp only <;> split_ifs <;> rfl
  · cases x <;> cases y <;> exact hw _ id
  · cases x <;> cases y <;> dsimp only <;> split_ifs <;> rfl

example : Hist Demo.cfg Demo.sSolved.env Demo.sSolved.data Demo.sSolved.st Demo.sSolved.data (Demo.sSolved.done Demo.okSolved) ∧
    CarriesSolution (Demo.sSolved.done Demo.okSolved).info.status_val ∧ Demo.sSolved.st.scaling ≠ 0 :=
  ⟨Demo.sSolved.hist_done Demo.okSolved, by decide +kernel, by decide +kernel⟩

/-- **C26.** With warm starting enabled the loop of `osqp_solve` starts from the stored iterate, with it disabled from zero. -/
theorem c26_solve_starts (cfg : Cfg) (s : Solver d K) :
    (s.settings.warm_starting ≠ 0 → userX (solveEntry cfg s).s = userX s ∧ userY (solveEntry cfg s).s = userY s ∧ userZ (solveEntry cfg s).s = userZ s) ∧
    (s.settings.warm_starting = 0 → userX (solveEntry cfg s).s = 0 ∧ userY (solveEntry cfg s).s = 0 ∧ userZ (solveEntry cfg s).s = 0) := by
  unfold solveEntry
  constructor
  · intro h
    cases cfg.profiling <;> cases cfg.interrupt <;> cases s.work.clear_update_time <;> simp [h] <;> exact ⟨rfl, rfl, rfl⟩
  · intro h
    refine ⟨?_, ?_, ?_⟩ <;> funext j <;>
      cases cfg.profiling <;> cases cfg.interrupt <;> cases s.work.clear_update_time <;> simp [h, userX, userY, userZ, coldStart, vSet]

/-! ## C27, cold start -/

/-- **C27.** `osqp_cold_start` sets the iterate to zero (in any coordinates) and changes nothing else. -/
theorem c27_cold_start (s : Solver d K) {code : ℤ} (call : apiStep cfg env s .coldStart = some (s', code)) :
    code = 0 ∧ userX s' = 0 ∧ userY s' = 0 ∧ userZ s' = 0 ∧ s'.work.x = 0 ∧ s'.work.y = 0 ∧ s'.work.z = 0 ∧
    s'.settings = s.settings ∧ s'.info = s.info ∧ s'.solution = s.solution ∧
    s'.work = { s.work with x := s'.work.x, y := s'.work.y, z := s'.work.z } := by
  simp only [apiStep, Option.some.injEq, Prod.mk.injEq] at call
  obtain ⟨e, ec⟩ := call
  subst e
  refine ⟨ec.symm, ?_, ?_, ?_, rfl, rfl, rfl, rfl, rfl, rfl, rfl⟩
  · funext j; simp [userX, coldStart, vSet]
  · funext j; simp [userY, coldStart, vSet]
  · funext j; simp [userZ, coldStart, vSet]

/-! ## C29 and C30 -/

/-- Acceptable data: at least one variable, `P` given by its upper triangle, ordered bounds. -/
structure DataOK (D : Data d K) : Prop where
  n_pos : 0 < d.n
  upper : ∀ k, d.P.row k ≤ d.P.col k
  bounds : ∀ i, D.l i ≤ D.u i

theorem validateDataBad_iff (D : Data d K) : validateDataBad D = false ↔ DataOK D := by
  unfold validateDataBad
  simp only [Bool.or_eq_false_iff, decide_eq_false_iff_not, List.any_eq_false, List.mem_finRange, decide_eq_true_eq, forall_true_left, gt_iff_lt, not_lt]
  constructor
  · rintro ⟨⟨a, b⟩, c⟩; exact ⟨Nat.pos_of_ne_zero a, b, c⟩
  · rintro ⟨a, b, c⟩; exact ⟨⟨a.ne', b⟩, c⟩

/-- **C29**, `osqp_setup`: among problems with acceptable data, exactly the settings outside their documented ranges are
rejected with a settings error. -/
theorem c29_setup (D : Data d K) (st : Settings K) (data : DataOK D) :
    osqpSetup cfg env D st = .rejected Err.settingsValidation ↔ ¬ ValidSettings cfg st := by
  rw [← validateSettings_setup]
  unfold osqpSetup
  rw [if_neg (by rw [(validateDataBad_iff D).2 data]; decide)]
  by_cases hv : validateSettings cfg st true = true
  · rw [if_pos hv]; simp [hv]
  · rw [if_neg hv]
    have hf : validateSettings cfg st true = false := by simpa using hv
    simp only [hf, not_true, iff_false]
    have hne : ∀ (b : Prop) [Decidable b] (a₁ a₂ e : SetupOut d K), a₁ ≠ e → a₂ ≠ e → (if b then a₁ else a₂) ≠ e := by
      intro b _ a₁ a₂ e h1 h2; split_ifs <;> assumption
    exact hne _ _ _ _ (fun h => by cases h) (fun h => by cases h)

/-- **C29**, `osqp_update_settings`: accepted are exactly the settings whose changeable part is within the documented
ranges (and, by an oversight, whose ignored `adaptive_rho` is at most 3). -/
theorem c29_update (s : Solver d K) (new : Settings K) :
    (osqpUpdateSettings cfg s (some new)).2 = 0 ↔ ValidMutable new ∧ new.adaptive_rho ≤ 3 := by
  rw [← validateSettings_update cfg]
  unfold osqpUpdateSettings
  by_cases hv : validateSettings cfg new false = true
  · simp only [hv, if_true]; decide
  · simp [hv]

/-- **C29.** The settings of a solver are within their ranges after every history. -/
theorem c29_reachable (hsq : SqrtPos env) (hist : Hist cfg env D₀ st₀ U s) :
    ValidMutable s.settings ∧ 0 < s.settings.sigma ∧ 0 < s.settings.rho ∧ 0 < s.settings.alpha ∧ s.settings.alpha < 2 ∧
    0 < s.settings.max_iter := by
  have h := hist_inv hsq hist
  have h1 := h.fixed.sigma
  have h2 := h.sync.rho_lo
  refine ⟨h.live, by rw [h1]; exact h.valid0.sigma, lt_of_lt_of_le rhoMin_pos h2, h.live.alpha.1, h.live.alpha.2, h.live.max_iter⟩

example : DataOK Demo.sSolved.data ∧ ValidSettings Demo.cfg Demo.sSolved.st ∧ ¬ ValidSettings Demo.cfg { Demo.sSolved.st with alpha := 2 } := by
  refine ⟨⟨by decide, by decide +kernel, by decide +kernel⟩, ?_, fun h => absurd h.live.alpha.2 (by decide +kernel)⟩
  rw [← validateSettings_setup]; decide +kernel

/-- **C30.** `osqp_update_settings` either reports an error and changes nothing, or replaces exactly the changeable
settings. -/
theorem c30_update_settings (s : Solver d K) (new : Option (Settings K)) {code : ℤ}
    (call : osqpUpdateSettings cfg s new = (s', code)) :
    (code = Err.settingsValidation ∧ s' = s ∧ ∀ n, new = some n → ¬ (ValidMutable n ∧ n.adaptive_rho ≤ 3)) ∨
    ∃ n, new = some n ∧ code = 0 ∧ ValidMutable n ∧ s' = { s with settings := s'.settings } ∧
      -- replaced
      s'.settings.profiler_level = n.profiler_level ∧ s'.settings.verbose = n.verbose ∧
      s'.settings.warm_starting = n.warm_starting ∧ s'.settings.polishing = n.polishing ∧ s'.settings.alpha = n.alpha ∧
      s'.settings.cg_max_iter = n.cg_max_iter ∧ s'.settings.cg_tol_reduction = n.cg_tol_reduction ∧
      s'.settings.cg_tol_fraction = n.cg_tol_fraction ∧ s'.settings.cg_precond = n.cg_precond ∧
      s'.settings.max_iter = n.max_iter ∧ s'.settings.eps_abs = n.eps_abs ∧ s'.settings.eps_rel = n.eps_rel ∧
      s'.settings.eps_prim_inf = n.eps_prim_inf ∧ s'.settings.eps_dual_inf = n.eps_dual_inf ∧
      s'.settings.scaled_termination = n.scaled_termination ∧ s'.settings.check_termination = n.check_termination ∧
      s'.settings.check_dualgap = n.check_dualgap ∧ s'.settings.time_limit = n.time_limit ∧
      s'.settings.delta = n.delta ∧ s'.settings.polish_refine_iter = n.polish_refine_iter ∧
      -- kept
      s'.settings.rho = s.settings.rho ∧ s'.settings.rho_is_vec = s.settings.rho_is_vec ∧
      s'.settings.sigma = s.settings.sigma ∧ s'.settings.scaling = s.settings.scaling ∧
      s'.settings.adaptive_rho = s.settings.adaptive_rho ∧
      s'.settings.adaptive_rho_interval = s.settings.adaptive_rho_interval ∧
      s'.settings.adaptive_rho_fraction = s.settings.adaptive_rho_fraction ∧
      s'.settings.adaptive_rho_tolerance = s.settings.adaptive_rho_tolerance ∧
      s'.settings.linsys_solver = s.settings.linsys_solver ∧ s'.settings.allocate_solution = s.settings.allocate_solution ∧
      s'.settings.device = s.settings.device := by
  cases new with
  | none =>
    unfold osqpUpdateSettings at call
    rw [Prod.mk.injEq] at call
    exact Or.inl ⟨call.2.symm, call.1.symm, fun n hn => by cases hn⟩
  | some n =>
    have hv := validateSettings_update cfg n
    unfold osqpUpdateSettings at call
    dsimp only at call
    by_cases hb : validateSettings cfg n false = true
    · rw [if_pos hb, Prod.mk.injEq] at call
      refine Or.inl ⟨call.2.symm, call.1.symm, fun n' hn h => ?_⟩
      cases hn
      rw [hv.2 h] at hb; exact absurd hb (by decide)
    · rw [if_neg hb, Prod.mk.injEq] at call
      obtain ⟨e, ec⟩ := call
      have := (hv.1 (by simpa using hb)).1
      refine Or.inr ⟨n, rfl, ec.symm, this, ?_⟩
      rw [← e]
      simp only [and_self]

example : (osqpUpdateSettings Demo.cfg (Demo.sSolved.done Demo.okSolved) (some { Demo.settings with alpha := 1, rho := -3 })).2 = 0 ∧
    (osqpUpdateSettings Demo.cfg (Demo.sSolved.done Demo.okSolved) (some { Demo.settings with max_iter := 0 })).2 = Err.settingsValidation := by
  decide +kernel

/-! ## C31 -/

/-- **C31.** `osqp_update_rho` with a value that is not positive is rejected without effect. -/
theorem c31_rejected (s : Solver d K) {rho : K} (hr : rho ≤ 0) : osqpUpdateRho cfg env s rho = (s, 1) := by
  unfold osqpUpdateRho; rw [if_pos hr]

/-- **C31.** Otherwise `rho` becomes the value clamped to `[1e-6, 1e6]`; data, scaling, iterate, stored solution and all
other settings stay; the call fails only if the refactorisation does. -/
theorem c31_update (s : Solver d K) {rho : K} (hr : 0 < rho) {code : ℤ} (call : osqpUpdateRho cfg env s rho = (s', code)) :
    s'.settings = { s.settings with rho := min (max rho (1 / 10 ^ 6)) (10 ^ 6) } ∧ s'.work.data = s.work.data ∧
    s'.work.scaling = s.work.scaling ∧ s'.work.x = s.work.x ∧ s'.work.y = s.work.y ∧ s'.work.z = s.work.z ∧
    s'.solution = s.solution ∧ s'.info = { s.info with update_time := s'.info.update_time } ∧
    ((∀ ls, 0 ≤ env.factor ls) → code = 0) := by
  have hc : clampRho rho = min (max rho (1 / 10 ^ 6)) (10 ^ 6) := by
    unfold clampRho; rw [cMin_eq, cMax_eq]; rfl
  rw [← hc]
  have h1 := osqpUpdateRho_settings cfg env s rho
  unfold osqpUpdateRho at call
  rw [if_neg (not_le.2 hr)] at call
  dsimp only at call
  rw [Prod.mk.injEq] at call
  obtain ⟨e, ec⟩ := call
  have hk : ∀ b : Prop, [Decidable b] → ∀ t : Solver d K, (if b then clearUpdateTime t else t).settings = t.settings ∧
      (if b then clearUpdateTime t else t).work.data = t.work.data ∧ (if b then clearUpdateTime t else t).work.scaling = t.work.scaling ∧
      (if b then clearUpdateTime t else t).work.x = t.work.x ∧ (if b then clearUpdateTime t else t).work.y = t.work.y ∧
      (if b then clearUpdateTime t else t).work.z = t.work.z ∧ (if b then clearUpdateTime t else t).solution = t.solution ∧
      ∃ v, (if b then clearUpdateTime t else t).info = { t.info with update_time := v } := by
    intro b _ t
    unfold clearUpdateTime
    split_ifs <;> exact ⟨rfl, rfl, rfl, rfl, rfl, rfl, rfl, _, rfl⟩
  have ha : ∀ b : Prop, [Decidable b] → ∀ t : Solver d K, (if b then addUpdateTime env t else t).settings = t.settings ∧
      (if b then addUpdateTime env t else t).work = t.work ∧ (if b then addUpdateTime env t else t).solution = t.solution ∧
      ∃ v, (if b then addUpdateTime env t else t).info = { t.info with update_time := v } := by
    intro b _ t
    unfold addUpdateTime toc
    split_ifs <;> exact ⟨rfl, rfl, rfl, _, rfl⟩
  have hs : ∀ t : Solver d K, (setRho t rho).settings = { t.settings with rho := clampRho rho } ∧ (setRho t rho).work.data = t.work.data ∧
      (setRho t rho).work.scaling = t.work.scaling ∧ (setRho t rho).work.x = t.work.x ∧ (setRho t rho).work.y = t.work.y ∧
      (setRho t rho).work.z = t.work.z ∧ (setRho t rho).solution = t.solution ∧ (setRho t rho).info = t.info := by
    intro t; unfold setRho; dsimp only
    split_ifs <;> exact ⟨rfl, rfl, rfl, rfl, rfl, rfl, rfl, rfl⟩
  obtain ⟨k1, k2, k3, k4, k5, k6, k7, v1, k8⟩ := hk ((cfg.profiling && !s.work.rho_update_from_solve) = true) s
  generalize (if (cfg.profiling && !s.work.rho_update_from_solve) = true then clearUpdateTime s else s) = s1 at *
  obtain ⟨g1, g2, g3, g4, g5, g6, g7, g8⟩ := hs s1
  generalize setRho s1 rho = s2 at *
  obtain ⟨a1, a2, a3, v2, a4⟩ := ha ((cfg.profiling && !s2.work.rho_update_from_solve) = true)
    { s2 with work := { s2.work with linsys := (linsysUpdateRho env s2.work.linsys s2.work.rho_vec s2.settings.rho).1 } }
  rw [e] at a1 a2 a3 a4
  refine ⟨by rw [a1, g1, k1], by rw [a2, ← k2, ← g2], by rw [a2, ← k3, ← g3], by rw [a2, ← k4, ← g4], by rw [a2, ← k5, ← g5],
    by rw [a2, ← k6, ← g6], by rw [a3, ← k7, ← g7], ?_, fun hf => ?_⟩
  · rw [a4, g8, k8]
  · rw [← ec]
    unfold linsysUpdateRho; dsimp only
    rw [if_neg (not_lt.2 (hf _))]

/-- **C31.** After the call the steps, their inverses and the linear system all match the new `rho`. -/
theorem c31_consistent (hsq : SqrtPos env) (hist : BoundsCurrent cfg env D₀ st₀ U s) {rho : K} (hr : 0 < rho) {code : ℤ}
    (call : osqpUpdateRho cfg env s rho = (s', code)) :
    (s.settings.rho_is_vec ≠ 0 → StepsMatch U s') ∧ (∀ i, invSteps s' i = 1 / steps s' i) ∧
    heldMatrix s'.work.linsys = kktMatrix (fun i j => costScale s * (colScale s i * (ofData U).P i j * colScale s j))
      (fun i j => rowScale s i * (ofData U).A i j * colScale s j) st₀.sigma (steps s') := by
  have hB : BoundsCurrent cfg env D₀ st₀ U s' := .step (op := .updateRho rho) (code := code) hist (fun p a h => by cases h) (by
    simp only [apiStep, Option.some.injEq]; exact call)
  obtain ⟨hH, _⟩ := typed_current hsq hB
  obtain ⟨c1, _, c3, _⟩ := c31_update s hr call
  have hvec : s'.settings.rho_is_vec = s.settings.rho_is_vec := by rw [c1]
  have h' := hist_inv hsq hH
  refine ⟨fun hv => c19_steps_partial hsq hB (by rw [hvec]; exact hv), fun i => ?_, ?_⟩
  · unfold invSteps steps
    split_ifs with hv
    · rw [(h'.sync.vec hv).2.1]; rfl
    · have e : s' = (osqpUpdateRho cfg env s rho).1 := by rw [call]
      rw [e]
      have hs0 : s.settings.rho_is_vec = 0 := by rw [← hvec]; exact not_not.1 hv
      unfold osqpUpdateRho
      rw [if_neg (not_le.2 hr)]
      dsimp only
      have hk : ∀ b : Prop, [Decidable b] → (if b then clearUpdateTime s else s).settings = s.settings := by
        intro b _; split_ifs <;> simp
      have ha : ∀ b : Prop, [Decidable b] → ∀ t : Solver d K, (if b then addUpdateTime env t else t).settings = t.settings ∧
          (if b then addUpdateTime env t else t).work = t.work := by
        intro b _ t; split_ifs <;> simp
      rw [(ha _ _).1, (ha _ _).2]
      unfold setRho; dsimp only
      rw [hk, if_neg (not_not.2 hs0)]
  · have := c22_linsys_current hsq hH
    have e1 : colScale s' = colScale s := by funext j; unfold colScale; rw [c1, c3]
    have e2 : costScale s' = costScale s := by unfold costScale; rw [c1, c3]
    have e3 : rowScale s' = rowScale s := by funext i; unfold rowScale; rw [c1, c3]
    rw [e1, e2, e3] at this; exact this

example : BoundsCurrent Demo.cfg Demo.sSolved.env Demo.sSolved.data Demo.sSolved.st Demo.sSolved.data (Demo.sSolved.done Demo.okSolved) ∧
    (osqpUpdateRho Demo.cfg Demo.sSolved.env (Demo.sSolved.done Demo.okSolved) (10 ^ 9)).2 = 0 :=
  ⟨.step (op := .solve) (.step (op := .warmStart (some fun _ => Demo.sSolved.x) (some fun _ => Demo.sSolved.y))
      (.setup (Demo.got_ok Demo.okSolved)) (by simp) rfl) (by simp) rfl, by decide +kernel⟩

end Osqp
