import Verif.Conv.Link

/-!
# C42: convergence

`iterate env s k` is the state after `k` ADMM steps from `s`; `ExactOn env ls` says that the factorisation solves the linear system held in
`ls` exactly (C40, C41: there is exactly one solution).  The theorems hold over every Archimedean ordered field, so for real arithmetic.
-/

set_option linter.unusedSectionVars false
namespace Osqp
open Spec Matrix Conv
variable {K : Type*} [Field K] [LinearOrder K] [IsStrictOrderedRing K] {d : Dims} {cfg : Cfg} {env : Env d K}
  {D₀ U : Data d K} {st₀ : Settings K} {s s1 s' : Solver d K}

theorem entry_core (cfg : Cfg) (s : Solver d K) : core (solveEntry cfg s).s = core s := by simp [core]

theorem psd_held (h : Inv cfg st₀ U s) (convex : PSD (ofData U).P) : PSD (ofData s.work.data).P := by
  obtain ⟨ok, is⟩ := rep_eff h.rep
  intro x
  have q := quad_user ok is x
  have c := convex (toX (effSc s) x)
  have p := ok.c_pos
  have e : x ⬝ᵥ ((ofData s.work.data).P *ᵥ x) = (denseSym d.P s.work.data.P *ᵥ x) ⬝ᵥ x := dotProduct_comm _ _
  rw [e]
  have : 0 ≤ (denseSym d.P s.work.data.P *ᵥ x) ⬝ᵥ x * (effSc s).cinv := by rw [q]; exact c
  rw [ok.cinv] at this
  by_contra hn
  exact absurd this (not_le.2 (mul_neg_of_neg_of_pos (not_le.1 hn) (one_div_pos.2 p)))

/-- The residuals of the iterates in the solver's units, after any history of calls. -/
theorem held_converges [Archimedean K] (h : Inv cfg st₀ U s) (ok : RhoStartOK st₀)
    (exact_solve : ExactOn env s.work.linsys) (convex : PSD (ofData U).P) {xs : Fin d.n → K} {ys : Fin d.m → K} (optimal : (ofData U).KKT xs ys) {ε : K} (hε : 0 < ε) :
    ∃ N, ∀ k ≥ N, (∀ i, |((ofData s.work.data).A *ᵥ (iterate env (solveEntry cfg s).s k).work.x) i - (iterate env (solveEntry cfg s).s k).work.z i| ≤ ε) ∧
      ∀ j, |(ofData s.work.data).stat (iterate env (solveEntry cfg s).s k).work.x (iterate env (solveEntry cfg s).s k).work.y j| ≤ ε := by
  obtain ⟨sok, is⟩ := rep_eff h.rep
  have hd : (solveEntry cfg s).s.work.data = s.work.data := by simp
  have hse : (solveEntry cfg s).s.settings = s.settings := by simp
  have := iterate_converges (env := env) (s := (solveEntry cfg s).s) (h.sync.congr (entry_core cfg s)) ((h.rinv ok).congr (entry_core cfg s))
    (by simpa using exact_solve) (by rw [hd]; exact rep_bounds h.rep h.bounds) (by rw [hd]; exact psd_held h convex)
    (by rw [hse, h.fixed.sigma]; exact h.valid0.sigma) (by rw [hse]; exact h.live.alpha)
    (xs := scaledX (effSc s) xs) (ys := scaledY (effSc s) ys) (by rw [hd]; exact (c54_kkt sok is xs ys).2 optimal) hε
  rw [hd] at this
  exact this

/-- Unscaling multiplies the residuals by at most a constant. -/
theorem unscale_bound (h : Inv cfg st₀ U s) : ∃ B : K, 1 ≤ B ∧ (∀ i, |(effSc s).Einv i| ≤ B) ∧ ∀ j, |(effSc s).cinv * (effSc s).Dinv j| ≤ B := by
  refine ⟨1 + ∑ i, |(effSc s).Einv i| + ∑ j, |(effSc s).cinv * (effSc s).Dinv j|, ?_, fun i => ?_, fun j => ?_⟩
  · have a : 0 ≤ ∑ i, |(effSc s).Einv i| := Finset.sum_nonneg fun _ _ => abs_nonneg _
    have b : 0 ≤ ∑ j, |(effSc s).cinv * (effSc s).Dinv j| := Finset.sum_nonneg fun _ _ => abs_nonneg _
    linarith
  · have a : |(effSc s).Einv i| ≤ ∑ i, |(effSc s).Einv i| := Finset.single_le_sum (f := fun i => |(effSc s).Einv i|) (fun _ _ => abs_nonneg _) (Finset.mem_univ i)
    have b : 0 ≤ ∑ j, |(effSc s).cinv * (effSc s).Dinv j| := Finset.sum_nonneg fun _ _ => abs_nonneg _
    linarith
  · have a : |(effSc s).cinv * (effSc s).Dinv j| ≤ ∑ j, |(effSc s).cinv * (effSc s).Dinv j| :=
      Finset.single_le_sum (f := fun j => |(effSc s).cinv * (effSc s).Dinv j|) (fun _ _ => abs_nonneg _) (Finset.mem_univ j)
    have b : 0 ≤ ∑ i, |(effSc s).Einv i| := Finset.sum_nonneg fun _ _ => abs_nonneg _
    linarith

theorem user_residuals (h : Inv cfg st₀ U s) {B δ : K} (hδ : 0 ≤ δ) (hB : 1 ≤ B) (h1 : ∀ i, |(effSc s).Einv i| ≤ B) (h2 : ∀ j, |(effSc s).cinv * (effSc s).Dinv j| ≤ B)
    {x : Vec K d.n} {z y : Vec K d.m} (hp : ∀ i, |((ofData s.work.data).A *ᵥ x) i - z i| ≤ δ) (hd : ∀ j, |(ofData s.work.data).stat x y j| ≤ δ) :
    (ofData U).primRes (toX (effSc s) x) (toZ (effSc s) z) ≤ B * δ ∧ (ofData U).dualRes (toX (effSc s) x) (toY (effSc s) y) ≤ B * δ := by
  obtain ⟨ok, is⟩ := rep_eff h.rep
  have hBδ : 0 ≤ B * δ := mul_nonneg (zero_le_one.trans hB) hδ
  constructor
  · unfold QP.primRes
    rw [normInf_le_iff]
    refine ⟨hBδ, fun i => ?_⟩
    have e : ((ofData U).A *ᵥ toX (effSc s) x) i - toZ (effSc s) z i = (effSc s).Einv i * (((ofData s.work.data).A *ᵥ x) i - z i) := by
      have := toZ_A ok is x i
      rw [mul_sub]
      exact congrArg (· - toZ (effSc s) z i) this.symm
    rw [e, abs_mul]
    exact mul_le_mul (h1 i) (hp i) (abs_nonneg _) (zero_le_one.trans hB)
  · unfold QP.dualRes
    rw [normInf_le_iff]
    refine ⟨hBδ, fun j => ?_⟩
    have e : (ofData U).stat (toX (effSc s) x) (toY (effSc s) y) j = (effSc s).cinv * (effSc s).Dinv j * (ofData s.work.data).stat x y j := by
      have a := toX_P ok is x j
      have b := toX_q ok is j
      have c := toY_AT ok is y j
      unfold QP.stat
      simp only [ofData]
      rw [← a, ← b, ← c]; ring
    rw [e, abs_mul]
    exact mul_le_mul (h2 j) (hd j) (abs_nonneg _) (zero_le_one.trans hB)

theorem iterate_eff (cfg : Cfg) (s : Solver d K) (k : ℕ) : effSc (iterate env (solveEntry cfg s).s k) = effSc s := by
  obtain ⟨_, a, b⟩ := iterate_frame (env := env) (solveEntry cfg s).s k
  exact effSc_congr (by rw [a]; simp) (by rw [b]; simp)

/-- **C42.** If the problem is convex and has a primal-dual solution and the linear systems are solved exactly, the primal and dual
residuals of the iterates of `osqp_solve`, measured on the user's problem, tend to zero; here `iterate env (solveEntry cfg s).s k` is
the `k`-th iterate computed with the step sizes in force when the solve starts (`c42_iterates`). -/
theorem c42_residuals [Archimedean K] (hsq : SqrtPos env) (hist : Hist cfg env D₀ st₀ U s) (ok : RhoStartOK st₀)
    (exact_solve : ExactOn env s.work.linsys) (convex : PSD (ofData U).P) {xs : Fin d.n → K} {ys : Fin d.m → K} (optimal : (ofData U).KKT xs ys)
    {ε : K} (hε : 0 < ε) :
    ∃ N : ℕ, ∀ k ≥ N, ∀ t, t = iterate env (solveEntry cfg s).s k →
      (ofData U).primRes (userX t) (userZ t) ≤ ε ∧ (ofData U).dualRes (userX t) (userY t) ≤ ε := by
  have h := hist_inv hsq hist
  obtain ⟨B, hB, h1, h2⟩ := unscale_bound h
  have hB0 : 0 < B := lt_of_lt_of_le one_pos hB
  have hδ : 0 < ε / B := div_pos hε hB0
  obtain ⟨N, hN⟩ := held_converges h ok exact_solve convex optimal hδ
  refine ⟨N, fun k hk t ht => ?_⟩
  obtain ⟨a, b⟩ := hN k hk
  have := user_residuals h hδ.le hB h1 h2 a b
  rw [mul_div_cancel₀ _ hB0.ne'] at this
  rw [userX_eq, userZ_eq, userY_eq, ht, iterate_eff]
  exact this

/-- **C42.** With a fixed step size (`adaptive_rho = 0`) the iterate at the end of iteration `it` of a solve is the `it`-th iterate, whatever
the limits, schedule of checks and clock are. -/
theorem c42_iterates (hsq : SqrtPos env) (hist : Hist cfg env D₀ st₀ U s) (fixed : st₀.adaptive_rho = 0) {it : ℤ} {L : LoopSt d K}
    (run : Runs cfg env (solveEntry cfg s) (it + 1) L) :
    userX L.s = userX (iterate env (solveEntry cfg s).s it.toNat) ∧ userZ L.s = userZ (iterate env (solveEntry cfg s).s it.toNat) ∧
    userY L.s = userY (iterate env (solveEntry cfg s).s it.toNat) := by
  have h := hist_inv hsq hist
  obtain ⟨a, _⟩ := runs_iterate (by rw [solveEntry_settings, h.fixed.adaptive_rho]; exact fixed) run
  rw [add_sub_cancel_right] at a
  have e : effSc L.s = effSc (iterate env (solveEntry cfg s).s it.toNat) := effSc_congr a.on.symm a.sc.symm
  rw [userX_eq, userX_eq, userZ_eq, userZ_eq, userY_eq, userY_eq, e, a.x, a.z, a.y]
  exact ⟨rfl, rfl, rfl⟩

/-! ## The solve stops -/

/-- The same solver with another iteration limit. -/
def limitTo (M : ℤ) (s : Solver d K) : Solver d K := { s with settings := { s.settings with max_iter := M } }

theorem update_limit {M : ℤ} (call : osqpUpdateSettings cfg s (some { s.settings with max_iter := M }) = (s1, 0)) : s1 = limitTo M s := by
  unfold osqpUpdateSettings at call
  dsimp only at call
  split_ifs at call
  · have := congrArg Prod.snd call; simp [Err.settingsValidation] at this
  · exact (congrArg Prod.fst call).symm

theorem entry_limit (cfg : Cfg) (s : Solver d K) (M : ℤ) : InStep (solveEntry cfg s).s (solveEntry cfg (limitTo M s)).s := by
  have e : core (solveEntry cfg s).s = core (solveEntry cfg (limitTo M s)).s := by rw [entry_core, entry_core]; rfl
  refine ⟨?_, ?_, ?_, e, ?_, ?_, ?_⟩
  · unfold solveEntry limitTo; dsimp only; split_ifs <;> rfl
  · unfold solveEntry limitTo; dsimp only; split_ifs <;> rfl
  · unfold solveEntry limitTo; dsimp only; split_ifs <;> rfl
  · rw [solveEntry_settings, solveEntry_settings]; rfl
  · rw [solveEntry_settings, solveEntry_settings]; rfl
  · rw [solveEntry_scaling, solveEntry_scaling]; rfl

theorem eps_le_primTol {t : Solver d K} (hr : 0 ≤ t.settings.eps_rel) : t.settings.eps_abs ≤ primTol t t.settings.eps_abs t.settings.eps_rel := by
  unfold primTol
  dsimp only
  split_ifs <;> simp only [cMax_eq, vScaledNormInf_eq, vNormInf_eq] <;>
    exact le_add_of_nonneg_right (mul_nonneg hr (le_max_of_le_left (normInf_nonneg _)))

theorem eps_le_dualTol {t : Solver d K} (hr : 0 ≤ t.settings.eps_rel) (hc : t.settings.unscaledTerm → 0 ≤ t.work.scaling.cinv) :
    t.settings.eps_abs ≤ dualTol t t.settings.eps_abs t.settings.eps_rel := by
  unfold dualTol
  dsimp only
  split_ifs with hu <;> simp only [cMax_eq, vScaledNormInf_eq, vNormInf_eq]
  · exact le_add_of_nonneg_right (mul_nonneg hr (mul_nonneg (le_max_of_le_right (normInf_nonneg _)) (hc hu)))
  · exact le_add_of_nonneg_right (mul_nonneg hr (le_max_of_le_right (normInf_nonneg _)))

/-- The residuals reported for an iterate, in whichever units they are checked. -/
theorem reported_residuals {t : Solver d K} (hf : FreshR t) {B δ : K} (hδ : 0 ≤ δ) (hB : 1 ≤ B) (h1 : ∀ i, |(effSc t).Einv i| ≤ B)
    (h2 : ∀ j, |(effSc t).cinv * (effSc t).Dinv j| ≤ B) (hc : 0 ≤ (effSc t).cinv)
    (hp : ∀ i, |((ofData t.work.data).A *ᵥ t.work.x) i - t.work.z i| ≤ δ) (hd : ∀ j, |(ofData t.work.data).stat t.work.x t.work.y j| ≤ δ) :
    t.info.prim_res ≤ B * δ ∧ t.info.dual_res ≤ B * δ := by
  have hB0 : 0 ≤ B := zero_le_one.trans hB
  have hBδ : 0 ≤ B * δ := mul_nonneg hB0 hδ
  have hδB : δ ≤ B * δ := le_mul_of_one_le_left hδ hB
  have ep : ∀ i, vMinus (spMul d.A t.work.data.A t.work.x) t.work.z i = ((ofData t.work.data).A *ᵥ t.work.x) i - t.work.z i := by
    intro i; simp only [vMinus, spMul_eq]; rfl
  have ed : ∀ j, vPlus (vPlus t.work.data.q (symMul d.P t.work.data.P t.work.x)) (spMulT d.A t.work.data.A t.work.y) j =
      (ofData t.work.data).stat t.work.x t.work.y j := by
    intro j; simp only [vPlus, symMul_eq, spMulT_eq, QP.stat, ofData]; ring
  rw [hf.pres, hf.dres]
  by_cases hu : t.settings.unscaledTerm
  · have hs : t.settings.scaling ≠ 0 := hu.1
    have eE : effSc t = t.work.scaling := by unfold effSc; rw [if_pos hs]
    rw [eE] at h1 h2 hc
    rw [if_pos hu, if_pos hu, vScaledNormInf_eq, vScaledNormInf_eq, normInf_const_mul hc, normInf_le_iff, normInf_le_iff]
    refine ⟨⟨hBδ, fun i => ?_⟩, hBδ, fun j => ?_⟩
    · rw [ep, abs_mul]; exact mul_le_mul (h1 i) (hp i) (abs_nonneg _) hB0
    · rw [ed, ← mul_assoc, abs_mul]; exact mul_le_mul (h2 j) (hd j) (abs_nonneg _) hB0
  · rw [if_neg hu, if_neg hu, vNormInf_eq, vNormInf_eq, normInf_le_iff, normInf_le_iff]
    refine ⟨⟨hBδ, fun i => ?_⟩, hBδ, fun j => ?_⟩
    · rw [ep]; exact (hp i).trans hδB
    · rw [ed]; exact (hd j).trans hδB

/-- **C42.** If the problem is convex and has a primal-dual solution, the linear systems are solved exactly, the step size is fixed, the
duality gap is not part of the criteria, termination checks are on and `eps_abs > 0`, then there is an `N` such that with every iteration
limit `M` beyond `N` the solve executes at most `N` iterations; if it returns 0 it ended in a termination check (or by the clock), not at
the limit. -/
theorem c42_stops [Archimedean K] (hsq : SqrtPos env) (hist : Hist cfg env D₀ st₀ U s) (ok : RhoStartOK st₀)
    (exact_solve : ExactOn env s.work.linsys) (convex : PSD (ofData U).P) {xs : Fin d.n → K} {ys : Fin d.m → K} (optimal : (ofData U).KKT xs ys)
    (fixed : st₀.adaptive_rho = 0) (no_gap : s.settings.check_dualgap = 0) (checks : s.settings.check_termination ≠ 0) (eps : 0 < s.settings.eps_abs) :
    ∃ N : ℤ, ∀ M s1, osqpUpdateSettings cfg s (some { s.settings with max_iter := M }) = (s1, 0) →
      (∀ it L, Runs cfg env (solveEntry cfg s1) it L → it ≤ N) ∧
      ∀ s', N < M → osqpSolve cfg env s1 = (s', 0) →
        (Scheduled s1.settings s'.info.iter ∧ 1 ≤ s'.info.iter ∧ s'.info.iter ≤ N) ∨ ClockStop cfg env s1 (s'.info.iter + 1) := by
  have h := hist_inv hsq hist
  obtain ⟨B, hB, h1, h2⟩ := unscale_bound h
  have hB0 : 0 < B := lt_of_lt_of_le one_pos hB
  set δ := s.settings.eps_abs / (2 * B) with hδd
  have hδ : 0 < δ := div_pos eps (mul_pos two_pos hB0)
  have hBδ : B * δ < s.settings.eps_abs := by
    have : B * δ = s.settings.eps_abs / 2 := by rw [hδd]; field_simp
    rw [this]; exact half_lt_self eps
  obtain ⟨N, hN⟩ := held_converges (cfg := cfg) h ok exact_solve convex optimal hδ
  have hct : 0 < s.settings.check_termination := lt_of_le_of_ne h.live.check_termination (Ne.symm checks)
  set T : ℤ := s.settings.check_termination * (N + 1) with hT
  have hTN : (N : ℤ) + 1 ≤ T := by rw [hT]; nlinarith
  have key : ∀ M s1, osqpUpdateSettings cfg s (some { s.settings with max_iter := M }) = (s1, 0) →
      ∀ it L, Runs cfg env (solveEntry cfg s1) it L → it ≤ T := by
    intro M s1 call it L run
    by_contra hlt
    have hist1 : Hist cfg env D₀ st₀ U s1 :=
      Hist.step (op := .updateSettings (some { s.settings with max_iter := M })) (code := 0) hist (by simp only [apiStep]; exact congrArg some call)
    have hi1 := hist_inv hsq hist1
    have e1 := update_limit call
    have hrun : ∃ L, Runs cfg env (solveEntry cfg s1) (T + 1) L := by
      obtain ⟨L1, L2, r, e⟩ := runs_before run T (by omega) (by omega)
      exact ⟨L2, .step r e⟩
    obtain ⟨L2, r2⟩ := hrun
    have sched : Scheduled s1.settings T := by
      rw [e1]; exact ⟨checks, by rw [hT]; exact Int.mul_emod_right _ _⟩
    obtain ⟨si, hfc, hfr, hx, hz, hy, eS, hno⟩ := check_made_raw hi1 r2 (by omega) sched
    obtain ⟨ag, _⟩ := runs_iterate (by rw [solveEntry_settings, hi1.fixed.adaptive_rho]; exact fixed) r2
    rw [add_sub_cancel_right] at ag
    have ag2 := (agree_iterate (env := env) (entry_limit cfg s M) T.toNat)
    rw [← e1] at ag2
    have ag3 := ag2.trans ag
    obtain ⟨p, q⟩ := hN T.toNat (by omega)
    have edata : si.work.data = s.work.data := by rw [hfc.data, e1]; rfl
    have esc : effSc si = effSc s := effSc_congr (by rw [hfc.scalingOn, e1]; rfl) (by rw [hfc.scaling, e1]; rfl)
    obtain ⟨sok, _⟩ := rep_eff h.rep
    obtain ⟨g1, g2⟩ := reported_residuals hfr.2.1 hδ.le hB (by rw [esc]; exact h1) (by rw [esc]; exact h2) (by rw [esc]; exact (cinv_pos sok).le)
      (by rw [edata, ← hx, ← hz, ← ag3.x, ← ag3.z]; exact p) (by rw [edata, ← hx, ← hy, ← ag3.x, ← ag3.y]; exact q)
    have eabs : si.settings.eps_abs = s.settings.eps_abs := by rw [hfc.eps_abs, e1]; rfl
    have erel : 0 ≤ si.settings.eps_rel := by rw [hfc.eps_rel]; exact hi1.live.eps_rel
    apply hno
    refine ⟨Or.inr ?_, ?_, ?_⟩
    · exact lt_of_le_of_lt g1 (lt_of_lt_of_le (by rw [eabs]; exact hBδ) (eps_le_primTol erel))
    · refine lt_of_le_of_lt g2 (lt_of_lt_of_le (by rw [eabs]; exact hBδ) (eps_le_dualTol erel fun hu => ?_))
      have : effSc si = si.work.scaling := by unfold effSc; rw [if_pos hu.1]
      rw [← this, esc]; exact (cinv_pos sok).le
    · intro hc
      obtain ⟨r, i, e⟩ := hfc.settings
      rw [e, e1] at hc
      exact absurd no_gap hc
  refine ⟨T, fun M s1 call => ⟨key M s1 call, fun s' hM solve => ?_⟩⟩
  have hist1 : Hist cfg env D₀ st₀ U s1 :=
    Hist.step (op := .updateSettings (some { s.settings with max_iter := M })) (code := 0) hist (by simp only [apiStep]; exact congrArg some call)
  have e1 := update_limit call
  have em : s1.settings.max_iter = M := by rw [e1]; rfl
  rcases c13_schedule hsq hist1 solve with ⟨a, b, c, e⟩ | ⟨_, L, r⟩ | hc
  · obtain ⟨_, _, L, r⟩ := c12_iter_limit hsq hist1 solve
    refine Or.inl ⟨⟨a, b⟩, c, ?_⟩
    rcases r with r | r
    · exact key M s1 call _ _ r
    · have := key M s1 call _ _ r; omega
  · have := key M s1 call _ _ r; omega
  · exact Or.inr hc

/-! ## The hypotheses are met -/

/-- `min x²/2 − x, 0 ≤ x ≤ 1/2` started far away, fixed step size, criteria without the gap. -/
def Demo.sConv : Demo.Scenario := { Demo.sSolved with x := 3, y := -2, st := { Demo.quick with adaptive_rho := 0, check_dualgap := 0 } }
theorem Demo.okConv : Demo.sConv.Ok := by decide +kernel

theorem Demo.conv_psd : PSD (ofData Demo.sConv.data).P := fun x => by
  have : (ofData Demo.sConv.data).P = fun _ _ => 1 := by
    funext i j
    have h : denseSym Demo.pat1 (Demo.sConv.data).P Demo.i0 Demo.i0 = 1 := by decide +kernel
    have hi : i = Demo.i0 := Subsingleton.elim (α := Fin 1) _ _
    have hj : j = Demo.i0 := Subsingleton.elim (α := Fin 1) _ _
    rw [hi, hj]; exact h
  rw [this]
  have e : x ⬝ᵥ ((fun _ _ => 1 : Matrix (Fin 1) (Fin 1) ℚ) *ᵥ x) = x 0 * x 0 := by simp [Matrix.mulVec, dotProduct]
  exact le_of_le_of_eq (mul_self_nonneg _) e.symm

theorem Demo.conv_kkt : (ofData Demo.sConv.data).KKT (fun _ => 1 / 2) (fun _ => 1 / 2) := by
  have h1 : ((ofData Demo.sConv.data).A *ᵥ fun _ => (1 / 2 : ℚ)) Demo.i0 = 1 / 2 := by decide +kernel
  refine ⟨fun i => ?_, fun i => ?_, fun j => ?_⟩
  · rw [show i = Demo.i0 from Subsingleton.elim (α := Fin 1) _ _, h1]; decide +kernel
  · rw [show i = Demo.i0 from Subsingleton.elim (α := Fin 1) _ _, h1]; exact ⟨fun _ => by decide +kernel, fun h => absurd h (by norm_num)⟩
  · rw [show j = Demo.i0 from Subsingleton.elim (α := Fin 1) _ _]; decide +kernel

theorem Demo.conv_start : RhoStartOK Demo.sConv.st := by unfold RhoStartOK; left; decide +kernel

example : ∃ N : ℕ, ∀ k ≥ N, ∀ t, t = iterate Demo.sConv.env (solveEntry Demo.cfg (Demo.sConv.start Demo.okConv)).s k →
    (ofData Demo.sConv.data).primRes (userX t) (userZ t) ≤ 1 / 10 ^ 6 ∧ (ofData Demo.sConv.data).dualRes (userX t) (userY t) ≤ 1 / 10 ^ 6 :=
  c42_residuals Demo.sConv.sqrtPos (Demo.sConv.hist Demo.okConv) Demo.conv_start (Demo.exact _ _ _ _ (by decide +kernel)) Demo.conv_psd Demo.conv_kkt
    (by positivity)

/-- The solve of this problem stops, and it does not stop in the first iteration. -/
example : (∃ N : ℤ, ∀ M s1, osqpUpdateSettings Demo.cfg (Demo.sConv.start Demo.okConv) (some { (Demo.sConv.start Demo.okConv).settings with max_iter := M }) = (s1, 0) →
      ∀ it L, Runs Demo.cfg Demo.sConv.env (solveEntry Demo.cfg s1) it L → it ≤ N) ∧
    (osqpUpdateSettings Demo.cfg (Demo.sConv.start Demo.okConv) (some { (Demo.sConv.start Demo.okConv).settings with max_iter := 1000 })).2 = 0 ∧
    (match iterBody Demo.cfg Demo.sConv.env 1 (solveEntry Demo.cfg (Demo.sConv.start Demo.okConv)) with | .cont _ => true | _ => false) = true := by
  obtain ⟨N, hN⟩ := c42_stops Demo.sConv.sqrtPos (Demo.sConv.hist Demo.okConv) Demo.conv_start (Demo.exact _ _ _ _ (by decide +kernel)) Demo.conv_psd Demo.conv_kkt
    (by decide +kernel) (by decide +kernel) (by decide +kernel) (by decide +kernel)
  exact ⟨⟨N, fun M s1 c => (hN M s1 c).1⟩, by decide +kernel, by decide +kernel⟩

end Osqp
