import Verif.Conv.Detect

/-!
# C64, C65: infeasible problems are detected

Over the real numbers, for a convex problem, exact linear solves and a fixed step size. A problem is infeasible beyond the tolerances if no
point meets the primal (C64) or dual (C65) tolerance; then the test for the matching certificate succeeds from some iteration on, and the
solve ends with a verdict that is not "solved".
-/

set_option linter.unusedSectionVars false
namespace Osqp
open Spec Matrix Conv
variable {d : Dims} {cfg : Cfg} {env : Env d ℝ} {D₀ U : Data d ℝ} {st₀ : Settings ℝ} {s s1 s' : Solver d ℝ}

/-- If one of the tests of every check after iteration `N` succeeds, the solve stops. -/
theorem stops_of (hsq : SqrtPos env) (hist : Hist cfg env D₀ st₀ U s) (fixed : st₀.adaptive_rho = 0) (checks : s.settings.check_termination ≠ 0)
    (hu : UserCriteria s) {N : ℕ}
    (test : ∀ k ≥ N, ∀ t : Solver d ℝ, Represents t.settings t.work.scaling U t.work.data → UserCriteria t → t.work.data = s.work.data → effSc t = effSc s →
      t.settings.eps_abs = s.settings.eps_abs → t.settings.eps_rel = s.settings.eps_rel → t.settings.eps_prim_inf = s.settings.eps_prim_inf →
      t.settings.eps_dual_inf = s.settings.eps_dual_inf → Fresh t → (ofData U).InBox (toZ (effSc t) t.work.z) →
      (∀ j, t.work.delta_x j = (iterate env (solveEntry cfg s).s (k + 2)).work.x j - (iterate env (solveEntry cfg s).s (k + 1)).work.x j) →
      (∀ i, t.work.delta_y i = (iterate env (solveEntry cfg s).s (k + 2)).work.y i - (iterate env (solveEntry cfg s).s (k + 1)).work.y i) →
      (¬ (d.m = 0 ∨ t.info.prim_res < primTol t t.settings.eps_abs t.settings.eps_rel) ∧ (isPrimalInfeasible t t.settings.eps_prim_inf).2 = true) ∨
      (¬ t.info.dual_res < dualTol t t.settings.eps_abs t.settings.eps_rel ∧ isDualInfeasible t t.settings.eps_dual_inf = true)) :
    ∃ T : ℤ, ∀ M s1, osqpUpdateSettings cfg s (some { s.settings with max_iter := M }) = (s1, 0) →
      (∀ it L, Runs cfg env (solveEntry cfg s1) it L → it ≤ T) ∧
      ∀ s', T < M → osqpSolve cfg env s1 = (s', 0) →
        (Scheduled s1.settings s'.info.iter ∧ 1 ≤ s'.info.iter ∧ s'.info.iter ≤ T ∧
          ∃ t, Represents t.settings t.work.scaling U t.work.data ∧ UserCriteria t ∧ t.settings.eps_abs = s.settings.eps_abs ∧
            t.settings.eps_rel = s.settings.eps_rel ∧ Fresh t ∧ (ofData U).InBox (toZ (effSc t) t.work.z) ∧ (checkTermination false t).2 = true ∧
            s'.info.status_val = (checkTermination false t).1.info.status_val) ∨
        ∃ it, ClockStop cfg env s1 it := by
  have h := hist_inv hsq hist
  have hct : 0 < s.settings.check_termination := lt_of_le_of_ne h.live.check_termination (Ne.symm checks)
  set T : ℤ := s.settings.check_termination * (N + 2) with hT
  have hTN : (N : ℤ) + 2 ≤ T := by rw [hT]; nlinarith
  have key : ∀ M s1, osqpUpdateSettings cfg s (some { s.settings with max_iter := M }) = (s1, 0) →
      ∀ it L, Runs cfg env (solveEntry cfg s1) it L → it ≤ T := by
    intro M s1 call it L run
    by_contra hlt
    have hist1 : Hist cfg env D₀ st₀ U s1 :=
      Hist.step (op := .updateSettings (some { s.settings with max_iter := M })) (code := 0) hist (by simp only [apiStep]; exact congrArg some call)
    have hi1 := hist_inv hsq hist1
    have e1 := update_limit call
    obtain ⟨L2, r2⟩ : ∃ L, Runs cfg env (solveEntry cfg s1) (T + 1) L := by
      obtain ⟨L1, L2, r, e⟩ := runs_before run T (by omega) (by omega)
      exact ⟨L2, .step r e⟩
    have sched : Scheduled s1.settings T := by
      rw [e1]; exact ⟨checks, by rw [hT]; exact Int.mul_emod_right _ _⟩
    obtain ⟨si, hfc, hfr, hx, hz, hy, eS, ⟨L1, r1, hdx, hdy⟩, _, np, nd⟩ := check_made_full hi1 r2 (by omega) sched
    have off : (solveEntry cfg s1).s.settings.adaptive_rho = 0 := by rw [solveEntry_settings, hi1.fixed.adaptive_rho]; exact fixed
    obtain ⟨ag, _⟩ := runs_iterate off r2
    obtain ⟨ag1, _⟩ := runs_iterate off r1
    obtain ⟨k, hk⟩ : ∃ k : ℕ, T = k + 2 := ⟨(T - 2).toNat, by omega⟩
    have t1 : (T + 1 - 1).toNat = k + 2 := by omega
    have t2 : (T - 1).toNat = k + 1 := by omega
    rw [t1] at ag
    rw [t2] at ag1
    have b2 := agree_iterate (env := env) (entry_limit cfg s M) (k + 2)
    have b1 := agree_iterate (env := env) (entry_limit cfg s M) (k + 1)
    rw [← e1] at b1 b2
    have c2 := b2.trans ag
    have c1 := b1.trans ag1
    have hu1 : UserCriteria s1 := by rw [e1]; exact hu
    have heff : effSc si = effSc s := effSc_congr (by rw [hfc.scalingOn, e1]; rfl) (by rw [hfc.scaling, e1]; rfl)
    have hbox : (ofData U).InBox (toZ (effSc si) si.work.z) := by
      have hh := head_of_runs hi1 r2
      have hfL := fromCall hh.within
      have := user_box (hfL.rep hi1.rep) (hh.iterated (by omega)).box
      rw [eS, hz] at this
      exact this
    rcases test k (by omega) si (hfc.rep hi1.rep) (hfc.user hu1) (by rw [hfc.data, e1]; rfl) heff (by rw [hfc.eps_abs, e1]; rfl) (by rw [hfc.eps_rel, e1]; rfl)
      (by rw [hfc.eps_prim_inf, e1]; rfl) (by rw [hfc.eps_dual_inf, e1]; rfl) hfr hbox (fun j => by rw [hdx j, c2.x, c1.x, hx]) (fun i => by rw [hdy i, c2.y, c1.y, hy]) with a | a
    · exact np a
    · exact nd a
  refine ⟨T, fun M s1 call => ⟨key M s1 call, fun s' hM solve => ?_⟩⟩
  have hist1 : Hist cfg env D₀ st₀ U s1 :=
    Hist.step (op := .updateSettings (some { s.settings with max_iter := M })) (code := 0) hist (by simp only [apiStep]; exact congrArg some call)
  have hi1 := hist_inv hsq hist1
  have e1 := update_limit call
  have em : s1.settings.max_iter = M := by rw [e1]; rfl
  have hu1 : UserCriteria s1 := by rw [e1]; exact hu
  have notAll : ¬ AllDone cfg env s1 := fun ⟨L, r⟩ => by have := key M s1 call _ _ r; omega
  by_cases hc : ∃ it, ClockStop cfg env s1 it
  · exact Or.inr hc
  left
  obtain ⟨it, t, hf, hn, hseen⟩ := solve_seen hi1 solve
  have nolim : ¬ LimitHit cfg env (solveEntry cfg s1).s s1.settings.max_iter.toNat it := fun hl => by
    rcases limitHit_user hi1 hn hl with a | a
    · exact notAll a
    · exact hc ⟨_, a⟩
  rcases c13_schedule hsq hist1 solve with ⟨a, b, c, g⟩ | ⟨_, r⟩ | q
  · obtain ⟨_, _, L, r⟩ := c12_iter_limit hsq hist1 solve
    refine ⟨⟨a, b⟩, c, ?_, ?_⟩
    · rcases r with r | r
      · exact key M s1 call _ _ r
      · have := key M s1 call _ _ r; omega
    · cases hf with
      | exact s2 within iterated fresh stop when_ eq =>
        have hfc := fromCall within
        have hrep := hfc.rep hi1.rep
        refine ⟨s2, hrep, hfc.user hu1, by rw [hfc.eps_abs, e1]; rfl, by rw [hfc.eps_rel, e1]; rfl, fresh, user_box hrep iterated.box, stop, ?_⟩
        rw [hseen.status, eq]; simp
      | approx s2 within iterated fresh stop lim eq => exact absurd lim nolim
      | limit s2 v within iterated fresh stop lim val eq => exact absurd lim nolim
      | old p within iterated fresh status v0 lim eq => exact absurd (Or.inl lim) nolim
  · exact absurd r notAll
  · exact absurd ⟨_, q⟩ hc

/-! ## C64 -/

/-- **C64.** Primal infeasibility is detected. If no point meets the primal tolerance, the conflict does not come from bounds that are treated
as infinite, the tolerance is not so small that the certificate is below `10^-30`, and checks are on, there is an `N` such that with every
iteration limit `M` beyond `N` the solve executes at most `N` iterations; if it returns 0 and the clock did not stop it, it ended in a
scheduled check, with the status "primal infeasible", "dual infeasible" or "non convex". -/
theorem c64_primal_detected (hsq : SqrtPos env) (hist : Hist cfg env D₀ st₀ U s) (ok : RhoStartOK st₀) (exact_solve : ExactOn env s.work.linsys)
    (convex : PSD (ofData U).P) (fixed : st₀.adaptive_rho = 0) (checks : s.settings.check_termination ≠ 0) (user : UserCriteria s)
    (ea : 0 < s.settings.eps_abs) (ep : 0 < s.settings.eps_prim_inf) (infeasible : (ofData U).PrimalOut s.settings.eps_abs s.settings.eps_rel)
    (visible : ∀ i, 1 / 10 ^ 30 < s.settings.alpha * steps s i * rowScale s i ^ 2 * s.settings.eps_abs)
    (finite : (ofData U).FiniteConflict (fun i => steps s i * rowScale s i ^ 2) (rowScale s)) :
    ∃ N : ℤ, ∀ M s1, osqpUpdateSettings cfg s (some { s.settings with max_iter := M }) = (s1, 0) →
      (∀ it L, Runs cfg env (solveEntry cfg s1) it L → it ≤ N) ∧
      ∀ s', N < M → osqpSolve cfg env s1 = (s', 0) → (¬ ∃ it, ClockStop cfg env s1 it) →
        Scheduled s1.settings s'.info.iter ∧ 1 ≤ s'.info.iter ∧ s'.info.iter ≤ N ∧
          (s'.info.status_val = St.primInf ∨ s'.info.status_val = St.dualInf ∨ s'.info.status_val = St.nonCvx) := by
  have h := hist_inv hsq hist
  have her := h.live.eps_rel
  obtain ⟨N, hN⟩ := prim_detect (cfg := cfg) h ok exact_solve convex ea her ep infeasible visible finite
  have out : ∀ t : Solver d ℝ, Represents t.settings t.work.scaling U t.work.data → UserCriteria t → t.settings.eps_abs = s.settings.eps_abs →
      t.settings.eps_rel = s.settings.eps_rel → Fresh t → (ofData U).InBox (toZ (effSc t) t.work.z) →
      ¬ (d.m = 0 ∨ t.info.prim_res < primTol t t.settings.eps_abs t.settings.eps_rel) := by
    intro t hrep hu e1 e2 hfr hbox
    have big := infeasible (toX (effSc t) t.work.x) (toZ (effSc t) t.work.z) hbox
    rw [user_pres hrep hu hfr.2.1, user_primTol hrep hu hfr.1, e1, e2]
    rintro (hm | hl)
    · have h0 : (ofData U).primRes (toX (effSc t) t.work.x) (toZ (effSc t) t.work.z) ≤ 0 := by
        unfold QP.primRes
        exact (normInf_le_iff _ _).2 ⟨le_rfl, fun i => absurd i.2 (by omega)⟩
      have h1 : s.settings.eps_abs ≤ (ofData U).primTol s.settings.eps_abs s.settings.eps_rel (toX (effSc t) t.work.x) (toZ (effSc t) t.work.z) := by
        unfold QP.primTol
        exact le_add_of_nonneg_right (mul_nonneg her (le_max_of_le_left (normInf_nonneg _)))
      linarith
    · exact absurd hl (not_lt.2 big)
  obtain ⟨T, hT⟩ := stops_of hsq hist fixed checks user (N := N) (fun k hk t hrep hu hdata heff a b c _ hfr hbox hdx hdy => by
    refine Or.inl ⟨out t hrep hu a b hfr hbox, ?_⟩
    rw [c]
    exact hN k hk t hrep hu hdata heff hdy)
  refine ⟨T, fun M s1 call => ⟨(hT M s1 call).1, fun s' hM solve noclock => ?_⟩⟩
  rcases (hT M s1 call).2 s' hM solve with ⟨a, b, c, t, hrep, hu, e1, e2, hfr, hbox, stop, est⟩ | q
  · refine ⟨a, b, c, ?_⟩
    have no := out t hrep hu e1 e2 hfr hbox
    have cs := checkTermination_cases false t
    dsimp only at cs
    have ek : (ctK false : ℝ) = 1 := by simp [ctK]
    rw [ek, mul_one, mul_one, mul_one, mul_one] at cs
    rcases cs with ⟨_, e⟩ | ⟨_, ⟨g, _⟩ | ⟨_, e⟩ | ⟨_, _, e⟩ | ⟨_, _, _, e⟩⟩
    · right; right; rw [est, e]; rfl
    · exact absurd g no
    · left; rw [est, e]; rfl
    · right; left; rw [est, e]; rfl
    · rw [e] at stop; exact absurd stop (by simp)
  · exact absurd q noclock

/-! ## C65 -/

/-- **C65.** Dual infeasibility is detected. If no point meets the dual tolerance, the tolerance is not so small that the certificate is below
`10^-30`, and checks are on, there is an `N` such that with every iteration limit `M` beyond `N` the solve executes at most `N` iterations; if
it returns 0 and the clock did not stop it, it ended in a scheduled check, with the status "primal infeasible", "dual infeasible" or
"non convex". -/
theorem c65_dual_detected (hsq : SqrtPos env) (hist : Hist cfg env D₀ st₀ U s) (ok : RhoStartOK st₀) (exact_solve : ExactOn env s.work.linsys)
    (convex : PSD (ofData U).P) (fixed : st₀.adaptive_rho = 0) (checks : s.settings.check_termination ≠ 0) (user : UserCriteria s)
    (ea : 0 < s.settings.eps_abs) (ed : 0 < s.settings.eps_dual_inf) (infeasible : (ofData U).DualOut s.settings.eps_abs s.settings.eps_rel)
    (visible : ∀ j, 1 / 10 ^ 30 < s.settings.alpha / s.settings.sigma * (costScale s * colScale s j ^ 2) * s.settings.eps_abs) :
    ∃ N : ℤ, ∀ M s1, osqpUpdateSettings cfg s (some { s.settings with max_iter := M }) = (s1, 0) →
      (∀ it L, Runs cfg env (solveEntry cfg s1) it L → it ≤ N) ∧
      ∀ s', N < M → osqpSolve cfg env s1 = (s', 0) → (¬ ∃ it, ClockStop cfg env s1 it) →
        Scheduled s1.settings s'.info.iter ∧ 1 ≤ s'.info.iter ∧ s'.info.iter ≤ N ∧
          (s'.info.status_val = St.primInf ∨ s'.info.status_val = St.dualInf ∨ s'.info.status_val = St.nonCvx) := by
  have h := hist_inv hsq hist
  have her := h.live.eps_rel
  obtain ⟨N, hN⟩ := dual_detect (cfg := cfg) h ok exact_solve convex ea her ed infeasible visible
  have out : ∀ t : Solver d ℝ, Represents t.settings t.work.scaling U t.work.data → UserCriteria t → t.settings.eps_abs = s.settings.eps_abs →
      t.settings.eps_rel = s.settings.eps_rel → Fresh t → ¬ t.info.dual_res < dualTol t t.settings.eps_abs t.settings.eps_rel := by
    intro t hrep hu e1 e2 hfr
    rw [user_dres hrep hu hfr.2.1, user_dualTol hrep hu hfr.1, e1, e2]
    exact not_lt.2 (infeasible _ _)
  obtain ⟨T, hT⟩ := stops_of hsq hist fixed checks user (N := N) (fun k hk t hrep hu hdata heff a b _ c hfr hbox hdx hdy => by
    refine Or.inr ⟨out t hrep hu a b hfr, ?_⟩
    rw [c]
    exact hN k hk t hrep hu heff hdx)
  refine ⟨T, fun M s1 call => ⟨(hT M s1 call).1, fun s' hM solve noclock => ?_⟩⟩
  rcases (hT M s1 call).2 s' hM solve with ⟨a, b, c, t, hrep, hu, e1, e2, hfr, hbox, stop, est⟩ | q
  · refine ⟨a, b, c, ?_⟩
    have no := out t hrep hu e1 e2 hfr
    have cs := checkTermination_cases false t
    dsimp only at cs
    have ek : (ctK false : ℝ) = 1 := by simp [ctK]
    rw [ek, mul_one, mul_one, mul_one, mul_one] at cs
    rcases cs with ⟨_, e⟩ | ⟨_, ⟨_, g, _⟩ | ⟨_, e⟩ | ⟨_, _, e⟩ | ⟨_, _, _, e⟩⟩
    · right; right; rw [est, e]; rfl
    · exact absurd g no
    · left; rw [est, e]; rfl
    · right; left; rw [est, e]; rfl
    · rw [e] at stop; exact absurd stop (by simp)
  · exact absurd q noclock

/-! ## The hypotheses are met -/

/-- One variable and one constraint in real arithmetic, exact solves. -/
noncomputable def Demo.envR : Env Demo.dims ℝ where
  sqrt := Real.sqrt
  clk _ := 0
  intr _ := false
  factor _ := 1
  kktSolve ls bx bz :=
    let a := ls.P Demo.i0 + ls.sigma
    let b := ls.A Demo.i0
    let r := ls.param2 Demo.i0
    let det := -(a * r) - b * b
    (fun _ => (bx Demo.i0 * -r - b * bz Demo.i0) / det, fun _ => (a * bz Demo.i0 - b * bx Demo.i0) / det)
  polFactor _ _ _ := 1
  polSolve _ _ _ bx bz := (bx, bz)

theorem Demo.sqrtR : SqrtPos Demo.envR := fun _ h => Real.sqrt_pos.2 h

theorem Demo.exactR (ls : LinSys Demo.dims ℝ) (hdet : (ls.P Demo.i0 + ls.sigma) * ls.param2 Demo.i0 + ls.A Demo.i0 * ls.A Demo.i0 ≠ 0) :
    ExactOn Demo.envR ls := by
  intro bx bz
  rw [held_mulVec]
  have e1 : ∀ x : Fin 1 → ℝ, denseSym Demo.pat1 ls.P *ᵥ x = fun _ => ls.P Demo.i0 * x Demo.i0 := fun x => by
    funext j; rw [Subsingleton.elim (α := Fin 1) j Demo.i0]; simp [mulVec, dotProduct, denseSym]
  have e2 : ∀ x : Fin 1 → ℝ, dense Demo.pat1 ls.A *ᵥ x = fun _ => ls.A Demo.i0 * x Demo.i0 := fun x => by
    funext j; rw [Subsingleton.elim (α := Fin 1) j Demo.i0]; simp [mulVec, dotProduct, dense]
  have e3 : ∀ x : Fin 1 → ℝ, (dense Demo.pat1 ls.A)ᵀ *ᵥ x = fun _ => ls.A Demo.i0 * x Demo.i0 := fun x => by
    funext j; rw [Subsingleton.elim (α := Fin 1) j Demo.i0]; simp [mulVec, dotProduct, dense]
  have hd : -((ls.P Demo.i0 + ls.sigma) * ls.param2 Demo.i0) - ls.A Demo.i0 * ls.A Demo.i0 ≠ 0 := fun h => hdet (by linarith)
  set x := (Demo.envR.kktSolve ls bx bz).1 with hx
  set w := (Demo.envR.kktSolve ls bx bz).2 with hw
  have ex : ∀ i : Fin 1, x i = (bx Demo.i0 * -ls.param2 Demo.i0 - ls.A Demo.i0 * bz Demo.i0) / (-((ls.P Demo.i0 + ls.sigma) * ls.param2 Demo.i0) - ls.A Demo.i0 * ls.A Demo.i0) := fun _ => rfl
  have ew : ∀ i : Fin 1, w i = ((ls.P Demo.i0 + ls.sigma) * bz Demo.i0 - ls.A Demo.i0 * bx Demo.i0) / (-((ls.P Demo.i0 + ls.sigma) * ls.param2 Demo.i0) - ls.A Demo.i0 * ls.A Demo.i0) := fun _ => rfl
  congr 1
  · funext j
    have hj : j = Demo.i0 := Subsingleton.elim (α := Fin 1) _ _
    have : ls.P Demo.i0 * x Demo.i0 + ls.sigma * x Demo.i0 + ls.A Demo.i0 * w Demo.i0 = bx Demo.i0 := by
      rw [ex, ew, ← add_mul]; exact (cramer hd rfl).1
    rw [hj, ← this]
    exact congrArg₂ (· + ls.sigma * x Demo.i0 + ·) (congrFun (e1 x) Demo.i0) (congrFun (e3 w) Demo.i0)
  · funext j
    have hj : j = Demo.i0 := Subsingleton.elim (α := Fin 1) _ _
    have : ls.A Demo.i0 * x Demo.i0 - ls.param2 Demo.i0 * w Demo.i0 = bz Demo.i0 := by
      rw [ex, ew]; exact (cramer hd rfl).2
    rw [hj, ← this]
    exact congrArg (· - ls.param2 Demo.i0 * w Demo.i0) (congrFun (e2 x) Demo.i0)

/-- Default settings with a fixed step size and no scaling. -/
noncomputable def Demo.stR : Settings ℝ :=
  { device := 0, linsys_solver := 1, allocate_solution := 1, verbose := 1, profiler_level := 0, warm_starting := 1,
    scaling := 0, polishing := 0, rho := 1 / 10, rho_is_vec := 0, sigma := 1 / 10 ^ 6, alpha := 8 / 5,
    cg_max_iter := 20, cg_tol_reduction := 10, cg_tol_fraction := 15 / 100, cg_precond := 1,
    adaptive_rho := 0, adaptive_rho_interval := 0, adaptive_rho_fraction := 4 / 10, adaptive_rho_tolerance := 5,
    max_iter := 4000, eps_abs := 1 / 10 ^ 3, eps_rel := 1 / 10 ^ 3, eps_prim_inf := 1 / 10 ^ 4, eps_dual_inf := 1 / 10 ^ 4,
    scaled_termination := 0, check_termination := 25, check_dualgap := 1, time_limit := 10 ^ 10,
    delta := 1 / 10 ^ 6, polish_refine_iter := 3 }

theorem Demo.validR : validateSettings Demo.cfg Demo.stR true = false := by
  unfold validateSettings validateLinsys Demo.stR Demo.cfg
  norm_num

theorem Demo.clampR : clampRho Demo.stR.rho = Demo.stR.rho := by
  have : Demo.stR.rho = 1 / 10 := rfl
  rw [this]
  unfold clampRho Const.rhoMin Const.rhoMax; rw [cMax_eq, cMin_eq]; norm_num

/-- Setup succeeds on every problem of this size, with these settings. -/
theorem Demo.setup_ok {D : Data Demo.dims ℝ} {st : Settings ℝ} (hb : ∀ i, D.l i ≤ D.u i) (valid : validateSettings Demo.cfg st true = false)
    (h1 : st.scaling = 0) (h2 : st.rho_is_vec = 0) (h3 : st.adaptive_rho = 0) (h4 : st.adaptive_rho_interval = 0) (h5 : clampRho st.rho = st.rho) :
    ∃ s, osqpSetup Demo.cfg Demo.envR D st = .ok s ∧ s.settings = st ∧ s.work.data = D ∧ s.work.linsys = ⟨D.P, D.A, st.sigma, none, 1 / st.rho⟩ := by
  have v : validateDataBad D = false := by
    have := hb Demo.i0
    simp [validateDataBad, List.finRange, hb]
  have h6 : { st with adaptive_rho_interval := setupInterval st } = st := by
    have : setupInterval st = 0 := by simp [setupInterval, h3, h4]
    rw [this, ← h4]
  have h7 : { st with rho := clampRho st.rho } = st := by rw [h5]
  unfold osqpSetup
  rw [v, valid]
  simp only [if_neg (not_not.2 h1), if_neg (not_not.2 h2), Bool.false_eq_true, if_false, h7]
  rw [if_neg (by simp [Demo.envR])]
  refine ⟨_, rfl, ?_, ?_, ?_⟩
  · simp only [Demo.cfg, toc, if_true, coldStart_settings]; exact h6
  · simp [Demo.cfg, toc]
  · simp [Demo.cfg, toc]

theorem Demo.setupR (D : Data Demo.dims ℝ) (hb : ∀ i, D.l i ≤ D.u i) : ∃ s, osqpSetup Demo.cfg Demo.envR D Demo.stR = .ok s ∧
    s.settings = Demo.stR ∧ s.work.data = D ∧ s.work.linsys = ⟨D.P, D.A, Demo.stR.sigma, none, 1 / Demo.stR.rho⟩ :=
  Demo.setup_ok hb Demo.validR rfl rfl rfl rfl Demo.clampR

theorem Demo.norm1R (v : Fin 1 → ℝ) : normInf v = |v Demo.i0| :=
  normInf_eq_of _ _ (abs_nonneg _) (fun i => by rw [Subsingleton.elim i Demo.i0]) (Or.inr ⟨Demo.i0, rfl⟩)

theorem Demo.matR (D : Data Demo.dims ℝ) (x : Fin 1 → ℝ) : (ofData D).P *ᵥ x = (fun _ => D.P Demo.i0 * x Demo.i0) ∧
    (ofData D).A *ᵥ x = (fun _ => D.A Demo.i0 * x Demo.i0) ∧ (ofData D).Aᵀ *ᵥ x = fun _ => D.A Demo.i0 * x Demo.i0 := by
  refine ⟨?_, ?_, ?_⟩ <;> funext j <;> rw [Subsingleton.elim (α := Fin 1) j Demo.i0] <;> simp [mulVec, dotProduct, dense, denseSym, ofData]

/-- `min x²/2 + x` subject to `1 ≤ 0·x`: no feasible point; the upper bound is infinite. -/
def Demo.primR : Data Demo.dims ℝ := ⟨fun _ => 1, fun _ => 0, fun _ => 1, fun _ => 1, fun _ => 10 ^ 30⟩

/-- `min −x` subject to `−1 ≤ 0·x ≤ 1`: unbounded. -/
def Demo.dualR : Data Demo.dims ℝ := ⟨fun _ => 0, fun _ => 0, fun _ => -1, fun _ => -1, fun _ => 1⟩

theorem Demo.psdR {D : Data Demo.dims ℝ} (h : 0 ≤ D.P Demo.i0) : PSD (ofData D).P := fun x => by
  rw [(Demo.matR D x).1]
  have e : x ⬝ᵥ (fun _ : Fin 1 => D.P Demo.i0 * x Demo.i0) = D.P Demo.i0 * (x Demo.i0 * x Demo.i0) := by
    simp [dotProduct]; ring
  exact le_of_le_of_eq (mul_nonneg h (mul_self_nonneg _)) e.symm

/-- The theorem applies to this problem. -/
example : ∃ s, osqpSetup Demo.cfg Demo.envR Demo.primR Demo.stR = .ok s ∧ ∃ N : ℤ, ∀ M s1, osqpUpdateSettings Demo.cfg s (some { s.settings with max_iter := M }) = (s1, 0) →
    (∀ it L, Runs Demo.cfg Demo.envR (solveEntry Demo.cfg s1) it L → it ≤ N) := by
  obtain ⟨s, hs, e1, e2, e3⟩ := Demo.setupR Demo.primR (fun i => by unfold Demo.primR; norm_num)
  refine ⟨s, hs, ?_⟩
  have hst : ∀ i, steps s i = 1 / 10 := fun i => by unfold steps; rw [e1]; simp [Demo.stR]
  have hsc : rowScale s = fun _ => 1 := by funext i; unfold rowScale; rw [e1]; simp [Demo.stR]
  obtain ⟨N, hN⟩ := c64_primal_detected (cfg := Demo.cfg) (U := Demo.primR) Demo.sqrtR (.setup hs) (Or.inr (by unfold Demo.stR Const.rhoMin Const.rhoMax; norm_num))
    (by rw [e3]; refine Demo.exactR _ ?_; unfold Demo.primR Demo.stR LinSys.param2; norm_num)
    (Demo.psdR (by unfold Demo.primR; norm_num)) rfl (by rw [e1]; unfold Demo.stR; norm_num) (Or.inl (by rw [e1]; rfl))
    (by rw [e1]; unfold Demo.stR; norm_num) (by rw [e1]; unfold Demo.stR; norm_num)
    (by
      intro x z hz
      have a : (1 : ℝ) ≤ z Demo.i0 := (hz Demo.i0).1
      rw [e1]; unfold QP.primTol QP.primRes
      rw [(Demo.matR _ x).2.1, Demo.norm1R, Demo.norm1R, Demo.norm1R]
      have b : Demo.primR.A Demo.i0 = 0 := rfl
      rw [b, zero_mul, abs_zero, zero_sub, abs_neg, abs_of_pos (by linarith), max_eq_right (by linarith)]
      unfold Demo.stR; norm_num; linarith)
    (by intro i; rw [hst, hsc, e1]; unfold Demo.stR; norm_num)
    (by
      refine Or.inr ⟨fun _ => 0, fun _ => 1, ⟨fun i => by unfold ofData Demo.primR; norm_num, fun x' z' hz => ?_⟩, fun i => ?_⟩
      · have a : (1 : ℝ) ≤ z' Demo.i0 := (hz Demo.i0).1
        rw [(Demo.matR _ _).2.1, (Demo.matR _ _).2.1]
        have b : Demo.primR.A Demo.i0 = 0 := rfl
        simp only [hst, hsc, b]
        refine Finset.sum_le_sum fun i _ => ?_
        rw [Subsingleton.elim (α := Fin 1) i Demo.i0]
        nlinarith
      · unfold ofData Demo.primR; rw [hsc]; norm_num)
  exact ⟨N, fun M s1 call => (hN M s1 call).1⟩

/-- The theorem applies to this problem. -/
example : ∃ s, osqpSetup Demo.cfg Demo.envR Demo.dualR Demo.stR = .ok s ∧ ∃ N : ℤ, ∀ M s1, osqpUpdateSettings Demo.cfg s (some { s.settings with max_iter := M }) = (s1, 0) →
    (∀ it L, Runs Demo.cfg Demo.envR (solveEntry Demo.cfg s1) it L → it ≤ N) := by
  obtain ⟨s, hs, e1, e2, e3⟩ := Demo.setupR Demo.dualR (fun i => by unfold Demo.dualR; norm_num)
  refine ⟨s, hs, ?_⟩
  have hcs : costScale s = 1 := by unfold costScale; rw [e1]; simp [Demo.stR]
  have hsc : ∀ j, colScale s j = 1 := fun j => by unfold colScale; rw [e1]; simp [Demo.stR]
  obtain ⟨N, hN⟩ := c65_dual_detected (cfg := Demo.cfg) (U := Demo.dualR) Demo.sqrtR (.setup hs) (Or.inr (by unfold Demo.stR Const.rhoMin Const.rhoMax; norm_num))
    (by rw [e3]; refine Demo.exactR _ ?_; unfold Demo.dualR Demo.stR LinSys.param2; norm_num)
    (Demo.psdR (by unfold Demo.dualR; norm_num)) rfl (by rw [e1]; unfold Demo.stR; norm_num) (Or.inl (by rw [e1]; rfl))
    (by rw [e1]; unfold Demo.stR; norm_num) (by rw [e1]; unfold Demo.stR; norm_num)
    (by
      intro x y
      rw [e1]; unfold QP.dualTol QP.dualRes QP.stat
      rw [(Demo.matR _ x).1, (Demo.matR _ y).2.2, Demo.norm1R, Demo.norm1R, Demo.norm1R, Demo.norm1R]
      have a : Demo.dualR.A Demo.i0 = 0 := rfl
      have b : Demo.dualR.P Demo.i0 = 0 := rfl
      have c : (ofData Demo.dualR).q Demo.i0 = -1 := rfl
      rw [a, b, c]
      unfold Demo.stR; norm_num)
    (by intro j; rw [hcs, hsc, e1]; unfold Demo.stR; norm_num)
  exact ⟨N, fun M s1 call => (hN M s1 call).1⟩

end Osqp
