import Verif.Lemmas.User

/-!
# From the end of the loop to what the user sees
-/

set_option linter.unusedSectionVars false
namespace Osqp
open Spec Matrix
variable {K : Type*} [Field K] [LinearOrder K] [IsStrictOrderedRing K] {d : Dims}

theorem Runs.functional {cfg : Cfg} {env : Env d K} {L₀ : LoopSt d K} {i : ℤ} {L : LoopSt d K}
    (h : Runs cfg env L₀ i L) : 1 ≤ i ∧ ∀ {L'}, Runs cfg env L₀ i L' → L' = L := by
  induction h with
  | start =>
    refine ⟨le_rfl, fun h' => ?_⟩
    generalize hi : (1 : ℤ) = i at h'
    cases h' with
    | start => rfl
    | @step it L1 L2 h1 h2 =>
      have : 1 ≤ it := by
        clear hi h2
        induction h1 with
        | start => exact le_rfl
        | step _ _ ih => omega
      omega
  | @step it L1 L2 h1 h2 ih =>
    refine ⟨by have := ih.1; omega, fun h' => ?_⟩
    generalize hi : it + 1 = i at h'
    cases h' with
    | start => have := ih.1; omega
    | @step it' L1' L2' h1' h2' =>
      have e : it' = it := by omega
      subst e
      rw [ih.2 h1', h2] at h2'
      injection h2' with h; exact h.symm

theorem timeHit_clock {cfg : Cfg} {env : Env d K} {s : Solver d K} {it : ℤ} (h : TimeHit cfg env (solveEntry cfg s).s it) :
    ∃ L, Runs cfg env (solveEntry cfg s) it L ∧ TimeUp cfg env L := by
  obtain ⟨L0, head, late⟩ := h
  refine ⟨L0, head.run, ?_⟩
  unfold timeCheck at late
  by_cases hp : cfg.profiling = true
  · rw [if_pos hp] at late
    simp only [toc, itAdmm, intrCheck_settings, intrCheck_work, intrCheck_ticks, intrCheck_info, admmStep_settings,
      admmStep_first_run, admmStep_ticks, admmStep_info, Bool.and_eq_true, decide_eq_true_eq] at late
    exact ⟨hp, late.1, late.2⟩
  · rw [if_neg hp] at late; cases late

/-- Iteration counts at the end of a solve. -/
structure Count (cfg : Cfg) (env : Env d K) (s0 : Solver d K) (k : ℕ) (it : ℤ) (i : ℤ) : Prop where
  lo : 1 ≤ it
  hi : it ≤ k + 1
  reach : ∃ L, Runs cfg env (startL cfg s0) it L
  iter : (i = it ∧ it ≤ k ∧ itCheck s0.settings it = true) ∨ (i = it - 1 ∧ LimitHit cfg env s0 k it)

theorem count_of_end {cfg : Cfg} {env : Env d K} {s0 : Solver d K} {k : ℕ} {it : ℤ} {L' : LoopSt d K} (hk : 1 ≤ k)
    (h : LoopEnd cfg env s0 k it L') : Count cfg env s0 k it (postCheck cfg env it L').info.iter := by
  cases h with
  | check s1 within iterated fresh status iter lo hi sched stop cc head =>
    obtain ⟨L0, head⟩ := head
    refine ⟨lo, by omega, ⟨L0, head.run⟩, Or.inl ⟨?_, hi, sched⟩⟩
    have : L'.s = (checkTermination false s1).1 := by rw [stop]
    unfold postCheck; simp [cc, this, iter]
  | time s1 L0 within iterated status lo hi head late s1eq eq cp cc =>
    refine ⟨lo, by omega, ⟨L0, head.run⟩, Or.inr ⟨?_, Or.inr ⟨⟨L0, head, late⟩, lo, hi⟩⟩⟩
    by_cases hc : L'.canCheck = true
    · have e : postCheck cfg env it L' = L'.s := by unfold postCheck; simp [hc]
      rw [e, eq]
      rw [cc] at hc
      by_cases h1 : it = 1
      · rw [(head.first h1).1] at hc; cases hc
      · have h2 : 1 < it := lt_of_le_of_ne lo (Ne.symm h1)
        rw [← (head.fresh h2 (Or.inl hc)).2, s1eq]; simp [itTimed, itAdmm]
    · have hpr : (cfg.printing && L'.canPrint) = false := by
        cases h : cfg.printing
        · rfl
        · simp [cp h]
      have e : postCheck cfg env it L' = (checkTermination false (updateInfo cfg env (it - 1) L'.s)).1 := by
        unfold postCheck; simp [hc, hpr]
      rw [e, checkTermination_info_iter]
      exact (updateInfo_eqs cfg env (it - 1) L'.s).2.2.2.2.2.2.2
  | finished hit head =>
    have h1 : 1 < it := by omega
    refine ⟨head.one, by omega, ⟨L', head.run⟩, Or.inr ⟨?_, Or.inl hit⟩⟩
    by_cases hc : L'.canCheck = true
    · have e : postCheck cfg env it L' = L'.s := by unfold postCheck; simp [hc]
      rw [e]; exact (head.fresh h1 (Or.inl hc)).2
    · by_cases hpr : (cfg.printing && L'.canPrint) = true
      · have e : postCheck cfg env it L' = (checkTermination false L'.s).1 := by unfold postCheck; simp [hc, hpr]
        rw [e, checkTermination_info_iter]
        exact (head.fresh h1 (Or.inr (by simpa using hpr))).2
      · have e : postCheck cfg env it L' = (checkTermination false (updateInfo cfg env (it - 1) L'.s)).1 := by
          unfold postCheck; simp [hc, hpr]
        rw [e, checkTermination_info_iter]
        exact (updateInfo_eqs cfg env (it - 1) L'.s).2.2.2.2.2.2.2

theorem solve_final {cfg : Cfg} {env : Env d K} {st₀ : Settings K} {U : Data d K} {s s' : Solver d K} (h : Inv cfg st₀ U s)
    (e : osqpSolve cfg env s = (s', 0)) :
    ∃ it t, Final cfg env (solveEntry cfg s).s s.settings.max_iter.toNat it t ∧
      Count cfg env (solveEntry cfg s).s s.settings.max_iter.toNat it t.info.iter ∧ finish cfg env t = (s', 0) := by
  have hr := solve_run (env := env) h
  have hk := entry_maxIter (cfg := cfg) h
  rw [e] at hr
  cases hr with
  | exited _ _ c _ => exact absurd c (by simp)
  | ran it L' p lend chk peq eq =>
    have h1 := final_of_checked chk
    have h2 := count_of_end hk lend
    rw [← peq, ← (agree_postTail cfg env p).iter] at h2
    refine ⟨it, _, ?_, ?_, eq.symm⟩
    · simpa using h1
    · simpa using h2

/-! ## Storing -/

theorem store_has {s : Solver d K} {sol : Solution d K} (hsol : s.solution = some sol) (h : hasSolution s.info = true) :
    (storeOwnSolution s).solution = some ⟨toX (effSc s) s.work.x, toY (effSc s) s.work.y, vSet (Const.nan K), vSet (Const.nan K)⟩ := by
  unfold storeOwnSolution; rw [hsol]
  simp only [storeSolution, h, if_true]
  by_cases hs : s.settings.scaling = 0
  · simp only [hs, effSc, unitSc, ne_eq, not_true, if_false, Option.some.injEq, Solution.mk.injEq, and_true]
    constructor <;> funext j <;> simp [toX, toY]
  · simp only [hs, ne_eq, not_false_eq_true, if_true, effSc, unscaleSolution, Option.some.injEq, Solution.mk.injEq, and_true]
    constructor
    · funext j; simp [toX, vEwProd, mul_comm]
    · funext j; simp [toY, vEwProd, vScale]; ring

theorem store_prim {s : Solver d K} {sol : Solution d K} (hsol : s.solution = some sol)
    (h : s.info.status_val = St.primInf ∨ s.info.status_val = St.primInfInacc) :
    (storeOwnSolution s).solution = some ⟨vSet (Const.nan K), vSet (Const.nan K),
      fun i => s.work.delta_y i * (1 / normInf s.work.delta_y), vSet (Const.nan K)⟩ := by
  unfold storeOwnSolution; rw [hsol]
  have h1 : hasSolution s.info = false := by
    unfold hasSolution; rcases h with h | h <;> rw [h] <;> decide
  have h2 : ¬ (s.info.status_val = St.dualInf ∨ s.info.status_val = St.dualInfInacc) := by
    rcases h with h | h <;> rw [h] <;> decide
  simp [storeSolution, h1, coldStart, h, h2, vScale, vNormInf_eq]
  rfl

theorem store_dual {s : Solver d K} {sol : Solution d K} (hsol : s.solution = some sol)
    (h : s.info.status_val = St.dualInf ∨ s.info.status_val = St.dualInfInacc) :
    (storeOwnSolution s).solution = some ⟨vSet (Const.nan K), vSet (Const.nan K), vSet (Const.nan K),
      fun i => s.work.delta_x i * (1 / normInf s.work.delta_x)⟩ := by
  unfold storeOwnSolution; rw [hsol]
  have h1 : hasSolution s.info = false := by
    unfold hasSolution; rcases h with h | h <;> rw [h] <;> decide
  have h2 : ¬ (s.info.status_val = St.primInf ∨ s.info.status_val = St.primInfInacc) := by
    rcases h with h | h <;> rw [h] <;> decide
  simp [storeSolution, h1, coldStart, h, h2, vScale, vNormInf_eq]
  rfl

theorem store_noncvx {s : Solver d K} {sol : Solution d K} (hsol : s.solution = some sol)
    (h : s.info.status_val = St.nonCvx) :
    (storeOwnSolution s).solution = some ⟨vSet (Const.nan K), vSet (Const.nan K), sol.prim_inf_cert, sol.dual_inf_cert⟩ := by
  unfold storeOwnSolution; rw [hsol]
  have h1 : hasSolution s.info = false := by unfold hasSolution; rw [h]; decide
  have h2 : ¬ (s.info.status_val = St.primInf ∨ s.info.status_val = St.primInfInacc) := by rw [h]; decide
  have h3 : ¬ (s.info.status_val = St.dualInf ∨ s.info.status_val = St.dualInfInacc) := by rw [h]; decide
  simp [storeSolution, h1, coldStart, h2, h3]

/-! ## Polishing -/

/-- Polishing left the ADMM result alone. -/
structure PolKept (t p : Solver d K) : Prop where
  agree : Agree t p
  obj : p.info.obj_val = t.info.obj_val
  dobj : p.info.dual_obj_val = t.info.dual_obj_val
  gap : p.info.duality_gap = t.info.duality_gap
  not_ok : t.settings.polishing ≠ 0 → t.info.status_val = St.solved → p.info.status_polish ≠ Pol.success
  skipped : ¬ (t.settings.polishing ≠ 0 ∧ t.info.status_val = St.solved) → p = t
  kkt : t.settings.polishing ≠ 0 → t.info.status_val = St.solved → p.info.status_polish ≠ Pol.failed →
    p.info.rel_kkt_error = t.info.rel_kkt_error

/-- Polishing replaced the ADMM result. -/
structure PolDone (t p : Solver d K) : Prop where
  on : t.settings.polishing ≠ 0
  solved : t.info.status_val = St.solved
  ok : p.info.status_polish = Pol.success
  fresh : Fresh p
  cone : (∀ i, t.work.data.l i ≤ t.work.data.u i) → Cone t.work.data p.work.z p.work.y
  better : (p.info.prim_res < t.info.prim_res ∧ p.info.dual_res < t.info.dual_res) ∨
    (p.info.prim_res < t.info.prim_res ∧ t.info.dual_res < 1 / 10 ^ 10) ∨
    (p.info.dual_res < t.info.dual_res ∧ t.info.prim_res < 1 / 10 ^ 10)

theorem polish_code (cfg : Cfg) (env : Env d K) (t : Solver d K) :
    (postPolish cfg env t).2 = 0 ∨ (postPolish cfg env t).2 = Err.nonCvx := by
  unfold postPolish polish; dsimp only; split_ifs <;> simp

theorem fresh_replace {t p : Solver d K} {x : Vec K d.n} {z y : Vec K d.m} (h0 : d.m = 0 → t.work.Aty = vSet 0)
    (hw : p.work = { (computeReport t x z y).1.work with x := x, z := z, y := y }) (hst : p.settings = t.settings)
    (i1 : p.info.obj_val = (computeReport t x z y).2.obj) (i2 : p.info.dual_obj_val = (computeReport t x z y).2.dobj)
    (i3 : p.info.duality_gap = (computeReport t x z y).2.gap) (i4 : p.info.prim_res = (computeReport t x z y).2.pres)
    (i5 : p.info.dual_res = (computeReport t x z y).2.dres) (i6 : p.info.rel_kkt_error = relKkt (computeReport t x z y).2) : Fresh p := by
  obtain ⟨a1, a2, a3, a4, a5, a6, a7, a8, a9⟩ := computeReport_state t x z y h0
  obtain ⟨b1, b2, b3, b4, b5⟩ := computeReport_val t x z y
  have hd : p.work.data = t.work.data := by rw [hw]; simp
  have hsc : p.work.scaling = t.work.scaling := by rw [hw]; simp
  have hc : costInv p = costInv t := by unfold costInv; rw [hst, hsc]
  have ex : p.work.x = x := by rw [hw]
  have ey : p.work.y = y := by rw [hw]
  have ez : p.work.z = z := by rw [hw]
  have eAx : p.work.Ax = (computeReport t x z y).1.work.Ax := by rw [hw]
  have ePx : p.work.Px = (computeReport t x z y).1.work.Px := by rw [hw]
  have eAty : p.work.Aty = (computeReport t x z y).1.work.Aty := by rw [hw]
  have e1 : p.work.xtPx = (computeReport t x z y).1.work.xtPx := by rw [hw]
  have e2 : p.work.qtx = (computeReport t x z y).1.work.qtx := by rw [hw]
  have e3 : p.work.SC = (computeReport t x z y).1.work.SC := by rw [hw]
  have e4 : p.work.scaled_dual_gap = (computeReport t x z y).1.work.scaled_dual_gap := by rw [hw]
  have e5 : p.work.scaled_prim_res = (computeReport t x z y).1.work.scaled_prim_res := by rw [hw]
  have e6 : p.work.scaled_dual_res = (computeReport t x z y).1.work.scaled_dual_res := by rw [hw]
  refine ⟨?_, ?_, ?_⟩
  · constructor
    · rw [eAx, a1, hd, ex]
    · rw [ePx, a2, hd, ex]
    · rw [eAty, a3, hd, ey]
    · rw [e1, a4, ePx, a2, ex]
    · rw [e2, a5, hd, ex]
    · rw [e3, a6, hd, ey]
    · rw [e4, a7, e1, e2, e3]
    · intro hm; rw [e5, a8 hm, eAx, a1, ez]
    · rw [e6, a9, hd, ePx, a2, eAty, a3]
  · constructor
    · rw [i4, b1, hst, hsc, hd, ex, ez]
    · rw [i5, b2, hst, hsc, hd, ex, ey]
    · rw [i6, i5, i4, hc, e1, a4, e2, a5, e3, a6, relKkt, b5, cMax_eq, cMax_eq]
  · constructor
    · rw [i1, b3, hc, e1, a4, e2, a5]
    · rw [i2, b4, hc, e1, a4, e3, a6]
    · rw [i3, b5, hc, e1, a4, e2, a5, e3, a6]

theorem polishPoint_cone (D : Data d K) (flags : Fin d.m → ℤ) (sol : Vec K d.n × (ℕ → K))
    (hb : ∀ i, D.l i ≤ D.u i) : Cone D (polishPoint D flags sol).2.1 (polishPoint D flags sol).2.2 := by
  intro i
  unfold polishPoint; dsimp only
  refine cone_scalar (r := 1) (hb i) one_pos (vBound_apply _ _ _ i) ?_
  simp only [vMinus]; ring

theorem polishAccept_iff (pp pd ip id : K) : polishAccept pp pd ip id = true ↔
    (pp < ip ∧ pd < id) ∨ (pp < ip ∧ id < 1 / 10 ^ 10) ∨ (pd < id ∧ ip < 1 / 10 ^ 10) := by
  unfold polishAccept Const.polishTiny
  simp only [Bool.or_eq_true, Bool.and_eq_true, decide_eq_true_eq, or_assoc]

theorem polish_done {cfg : Cfg} {env : Env d K} {t : Solver d K} (h0 : d.m = 0 → t.work.Aty = vSet 0)
    (hp : t.settings.polishing ≠ 0 ∧ t.info.status_val = St.solved)
    (hk : (polish cfg env t).1.info.status_polish = Pol.success) : PolDone t (polish cfg env t).1 := by
  revert hk
  unfold polish
  dsimp only
  by_cases h1 : nActive (activeFlags t.work.data.l t.work.data.u t.work.z t.work.y) = 0
  · rw [if_pos h1]; intro hk; exact absurd hk (by simp [Pol.noActiveSet, Pol.success])
  rw [if_neg h1]
  by_cases h2 : env.polFactor t.work.data (activeFlags t.work.data.l t.work.data.u t.work.z t.work.y) t.settings.sigma < d.n
  · rw [if_pos h2]; intro hk; exact absurd hk (by simp [Pol.linsysError, Pol.success])
  rw [if_neg h2]
  generalize hpt : polishPoint t.work.data _ _ = pt
  have hcone : (∀ i, t.work.data.l i ≤ t.work.data.u i) → Cone t.work.data pt.2.1 pt.2.2 := by
    intro hb; rw [← hpt]; exact polishPoint_cone _ _ _ hb
  have hpr : (computeReport t pt.1 pt.2.1 pt.2.2).1.info.prim_res = t.info.prim_res := by simp
  have hdr : (computeReport t pt.1 pt.2.1 pt.2.2).1.info.dual_res = t.info.dual_res := by simp
  by_cases hc : cfg.profiling = true
  · simp only [hc, if_true]
    by_cases ha : polishAccept (computeReport t pt.1 pt.2.1 pt.2.2).2.pres (computeReport t pt.1 pt.2.1 pt.2.2).2.dres t.info.prim_res t.info.dual_res = true
    · rw [if_pos (by simpa [toc] using ha)]
      intro _
      refine ⟨hp.1, hp.2, rfl, fresh_replace (x := pt.1) (z := pt.2.1) (y := pt.2.2) h0 (by simp [toc]) (by simp [toc]) rfl rfl rfl rfl rfl rfl, hcone, ?_⟩
      exact (polishAccept_iff _ _ _ _).1 ha
    · rw [if_neg (by simpa [toc] using ha)]
      intro hk; exact absurd hk (by simp [Pol.failed, Pol.success])
  · simp only [hc, Bool.false_eq_true, if_false]
    by_cases ha : polishAccept (computeReport t pt.1 pt.2.1 pt.2.2).2.pres (computeReport t pt.1 pt.2.1 pt.2.2).2.dres t.info.prim_res t.info.dual_res = true
    · rw [if_pos (by simpa [toc] using ha)]
      intro _
      refine ⟨hp.1, hp.2, rfl, fresh_replace (x := pt.1) (z := pt.2.1) (y := pt.2.2) h0 (by simp [toc]) (by simp [toc]) rfl rfl rfl rfl rfl rfl, hcone, ?_⟩
      exact (polishAccept_iff _ _ _ _).1 ha
    · rw [if_neg (by simpa [toc] using ha)]
      intro hk; exact absurd hk (by simp [Pol.failed, Pol.success])

theorem polish_cases (cfg : Cfg) (env : Env d K) (t : Solver d K) (h0 : d.m = 0 → t.work.Aty = vSet 0)
    : PolKept t (postPolish cfg env t).1 ∨ PolDone t (postPolish cfg env t).1 := by
  by_cases hp : t.settings.polishing ≠ 0 ∧ t.info.status_val = St.solved
  · have e : postPolish cfg env t = polish cfg env t := by unfold postPolish; rw [if_pos hp]
    rw [e]
    by_cases hk : (polish cfg env t).1.info.status_polish = Pol.success
    · right
      exact polish_done h0 hp hk
    · left
      refine ⟨⟨?_, ?_, ?_, ?_, ?_, ?_, ?_, ?_, ?_⟩, ?_, ?_, ?_, fun _ _ => hk, fun h => absurd hp h, fun _ _ => ?_⟩
      all_goals
        revert hk
        unfold polish; dsimp only; split_ifs <;> intro hk <;> simp at hk ⊢
  · left
    have e : postPolish cfg env t = (t, 0) := by unfold postPolish; rw [if_neg hp]
    rw [e]
    exact ⟨⟨rfl, rfl, rfl, rfl, rfl, rfl, rfl, rfl, rfl⟩, rfl, rfl, rfl, fun a b => absurd ⟨a, b⟩ hp, fun _ => rfl, fun _ _ _ => rfl⟩

theorem finish_ok {cfg : Cfg} {env : Env d K} {t s' : Solver d K} (e : finish cfg env t = (s', 0)) :
    s' = endListener cfg (storeOwnSolution (postTiming cfg (postPolish cfg env t).1)) := by
  rw [finish_eq] at e
  split_ifs at e with h
  · have := congrArg Prod.snd e
    dsimp only at this; rw [this] at h; exact absurd h (by decide)
  · exact (congrArg Prod.fst e).symm

end Osqp
