import Verif.Lemmas.Time
import Verif.Demo.Runs

/-!
# C50: run-time accounting
-/

set_option linter.unusedSectionVars false
namespace Osqp
open Spec
variable {K : Type*} [Field K] [LinearOrder K] [IsStrictOrderedRing K] {d : Dims} {cfg : Cfg} {env : Env d K}
  {D₀ : Data d K} {st₀ : Settings K} {s s' : Solver d K}

theorem ledger_hist {b : Bool} {t : K} (h : Ledger cfg env D₀ st₀ b t s) : ∃ U, Hist cfg env D₀ st₀ U s := by
  induction h with
  | setup h => exact ⟨_, .setup h⟩
  | solve _ e ih => obtain ⟨U, hU⟩ := ih; exact ⟨_, .step (op := .solve) (code := 0) hU (by simp only [apiStep, e])⟩
  | other _ _ e ih => obtain ⟨U, hU⟩ := ih; exact ⟨_, .step hU e⟩

/-- Bookkeeping fields of the solver against the ledger. -/
structure Books (env : Env d K) (b : Bool) (t : K) (s : Solver d K) : Prop where
  first : s.work.first_run = b
  out : s.work.rho_update_from_solve = false
  setup : s.info.setup_time = env.clk 0
  upd : (if s.work.clear_update_time then 0 else s.info.update_time) = t

theorem Books.same {b : Bool} {t : K} (h : Books env b t s) (h1 : s'.work.first_run = s.work.first_run)
    (h2 : s'.work.rho_update_from_solve = s.work.rho_update_from_solve) (h3 : s'.info.setup_time = s.info.setup_time)
    (h4 : s'.work.clear_update_time = s.work.clear_update_time) (h5 : s'.info.update_time = s.info.update_time)
    (h6 : s'.ticks = s.ticks) : Books env b (t + elapsed env s s') s' := by
  refine ⟨h1.trans h.first, h2.trans h.out, h3.trans h.setup, ?_⟩
  rw [h4, h5, h.upd]; unfold elapsed; rw [if_pos h6, add_zero]

theorem Books.cleared {b : Bool} {t : K} (h : Books env b t s) (h1 : s'.work.first_run = s.work.first_run)
    (h2 : s'.work.rho_update_from_solve = s.work.rho_update_from_solve) (h3 : s'.info.setup_time = s.info.setup_time)
    (h4 : s'.work.clear_update_time = (clearUpdateTime s).work.clear_update_time)
    (h5 : s'.info.update_time = (clearUpdateTime s).info.update_time)
    (h6 : s'.ticks = s.ticks) : Books env b (t + elapsed env s s') s' := by
  refine ⟨h1.trans h.first, h2.trans h.out, h3.trans h.setup, ?_⟩
  rw [h4, h5, ← h.upd]; unfold elapsed clearUpdateTime; rw [if_pos h6, add_zero]
  split_ifs <;> rfl

theorem Books.added {b : Bool} {t : K} (h : Books env b t s) (h1 : s'.work.first_run = s.work.first_run)
    (h2 : s'.work.rho_update_from_solve = s.work.rho_update_from_solve) (h3 : s'.info.setup_time = s.info.setup_time)
    (h4 : s'.work.clear_update_time = (clearUpdateTime s).work.clear_update_time)
    (h5 : s'.info.update_time = (clearUpdateTime s).info.update_time + env.clk s.ticks)
    (h6 : s'.ticks = s.ticks + 1) : Books env b (t + elapsed env s s') s' := by
  refine ⟨h1.trans h.first, h2.trans h.out, h3.trans h.setup, ?_⟩
  have hn : ¬ s'.ticks = s.ticks := by omega
  have he : elapsed env s s' = env.clk s.ticks := by unfold elapsed; rw [if_neg hn]
  rw [h4, h5, ← h.upd, he]; unfold clearUpdateTime
  cases hc : s.work.clear_update_time <;> simp [hc]

theorem vec_frame (s : Solver d K) (q : Option (Vec K d.n)) (l u : Option (Vec K d.m)) :
    let t := vecQ (vecRho env (vecBounds s l u) l u).1 q
    (t.work.first_run = s.work.first_run ∧ t.work.rho_update_from_solve = s.work.rho_update_from_solve ∧
      t.work.clear_update_time = s.work.clear_update_time) ∧ t.info = s.info ∧ t.ticks = s.ticks := by
  unfold vecQ vecRho
  cases q <;> dsimp only <;> split_ifs <;> simp [vecBounds]

theorem books_other (hp : cfg.profiling = true) {U : Data d K} (hi : Inv cfg st₀ U s) {b : Bool} {t : K} (h : Books env b t s)
    {op : Op d K} (hop : op ≠ .solve) {code : ℤ} (e : apiStep cfg env s op = some (s', code)) :
    Books env b (t + elapsed env s s') s' := by
  cases op with
  | solve => exact absurd rfl hop
  | updateDataVec q l u =>
    simp only [apiStep, Option.some.injEq] at e
    rw [osqpUpdateDataVec_eq q l u (rep_bounds hi.rep hi.bounds)] at e
    simp only [hp, if_true] at e
    split_ifs at e
    · rw [Prod.mk.injEq] at e
      obtain ⟨e, -⟩ := e
      subst e
      obtain ⟨f1, f2⟩ := vec_frame (env := env) (clearUpdateTime s) q l u
      apply h.added <;> simp [addUpdateTime, resetInfo, toc, hp, f1, f2]
    · rw [Prod.mk.injEq] at e
      obtain ⟨e, -⟩ := e
      subst e
      apply h.cleared <;> simp
  | updateDataMat p a =>
    rcases osqpUpdateDataMat_some hi e with ⟨_, _, e⟩ | ⟨_, _, _, e⟩ | ⟨_, _, r, ls, _, _, e⟩
    · rw [hp, if_pos rfl] at e; subst e; apply h.cleared <;> simp
    · rw [hp, if_pos rfl] at e; subst e; apply h.cleared <;> simp
    · simp only [hp, if_true] at e; subst e; apply h.added <;> simp [addUpdateTime, resetInfo, toc, hp]
  | updateRho r =>
    simp only [apiStep, Option.some.injEq] at e
    unfold osqpUpdateRho at e
    by_cases hr : r ≤ 0
    · rw [if_pos hr, Prod.mk.injEq] at e
      obtain ⟨e, -⟩ := e; subst e
      apply h.same <;> rfl
    · rw [if_neg hr] at e
      simp [hp, h.out] at e
      obtain ⟨e, -⟩ := e; subst e
      apply h.added <;> simp [addUpdateTime, toc, h.out]
  | updateSettings st =>
    simp only [apiStep, Option.some.injEq] at e
    unfold osqpUpdateSettings at e
    cases st with
    | none => simp only [Prod.mk.injEq] at e; obtain ⟨e, -⟩ := e; subst e; apply h.same <;> rfl
    | some n =>
      dsimp only at e
      split_ifs at e <;> (rw [Prod.mk.injEq] at e; obtain ⟨e, -⟩ := e; subst e; apply h.same <;> rfl)
  | warmStart x y =>
    simp only [apiStep, Option.some.injEq] at e
    unfold osqpWarmStart at e
    cases x <;> cases y <;> (rw [Prod.mk.injEq] at e; obtain ⟨e, -⟩ := e; subst e; apply h.same <;> (dsimp only; split_ifs <;> rfl))
  | coldStart =>
    simp only [apiStep, Option.some.injEq, Prod.mk.injEq] at e
    obtain ⟨e, -⟩ := e; subst e; apply h.same <;> simp
  | getSolution dst =>
    simp only [apiStep, Option.some.injEq, Prod.mk.injEq, osqpGetSolution] at e
    obtain ⟨e, -⟩ := e; subst e; apply h.same <;> simp

/-- What a successful solve reports about time. -/
theorem solve_times (hp : cfg.profiling = true) {U : Data d K} (hi : Inv cfg st₀ U s) {b : Bool} {t : K} (h : Books env b t s)
    (call : osqpSolve cfg env s = (s', 0)) :
    s'.info.run_time = (if b then s'.info.setup_time else s'.info.update_time) + s'.info.solve_time + s'.info.polish_time ∧
    s'.info.setup_time = env.clk 0 ∧ s'.info.update_time = t ∧ ReadDuring env s s' s'.info.solve_time ∧
    (s'.info.polish_time = s.info.polish_time ∨ ReadDuring env s s' s'.info.polish_time) ∧ Books env false 0 s' := by
  have hset : (solveEntry cfg s).s.settings.max_iter.toNat = s.settings.max_iter.toNat := by simp
  have hk := entry_maxIter (cfg := cfg) hi
  cases hd : admmLoop cfg env (solveEntry cfg s).s.settings.max_iter.toNat 1 (solveEntry cfg s) with
  | exit s1 =>
    have he : osqpSolve cfg env s = (endListener cfg s1, 1) := by unfold osqpSolve; dsimp only; rw [hd]
    rw [call] at he; exact absurd (congrArg Prod.snd he) (by simp)
  | done it L' =>
    have he : osqpSolve cfg env s = finish cfg env (postLoop cfg env it L') := by unfold osqpSolve; dsimp only; rw [hd]
    rw [call] at he
    have hl := loop_end (entry_bounds (cfg := cfg) hi) (head_entry (env := env) hi) hd
    have hf := final_of_checked (checked hk hl)
    rw [← postLoop_eq] at hf
    have hs := seen_of_finish hf.within.aty he.symm
    have htick := loop_ticks (cfg := cfg) (env := env) s _ hd
    obtain ⟨k, hk1, hk2, hk3⟩ := postLoop_time (env := env) hp it L'
    have hpol := postPolish_time cfg env (postLoop cfg env it L')
    have hw := hf.within
    generalize postLoop cfg env it L' = t1 at *
    have hr : t1.work.rho_update_from_solve = true := by rw [hw.rufs]; unfold solveEntry; simp [hp]; split_ifs <;> simp
    have hT : s'.ticks = (postPolish cfg env t1).1.ticks := by
      have := finish_ok he.symm
      rw [this]; simp
    have hrt : s'.info.run_time = (if t1.work.first_run then t1.info.setup_time else t1.info.update_time) +
        (postPolish cfg env t1).1.info.solve_time + (postPolish cfg env t1).1.info.polish_time := by
      rw [hs.info]; unfold postTiming; rw [if_pos hp]; simp
    have h1 : s'.info.setup_time = t1.info.setup_time := by rw [hs.info]; simp
    have h2 : s'.info.update_time = t1.info.update_time := by rw [hs.info]; simp
    have h3 : s'.info.solve_time = (postPolish cfg env t1).1.info.solve_time := by rw [hs.info]; simp
    have h4 : s'.info.polish_time = (postPolish cfg env t1).1.info.polish_time := by rw [hs.info]; simp
    have h5 : t1.work.first_run = b := by rw [hw.first]; simp [h.first]
    have h6 : t1.info.setup_time = env.clk 0 := by rw [hw.setup]; simp [h.setup]
    have h7 : t1.info.update_time = t := by
      rw [(hw.cut hr).2, ← h.upd]; unfold solveEntry; simp only [hp, if_true]
      split_ifs <;> simp
    refine ⟨?_, h1.trans h6, h2.trans h7, ?_, ?_, ?_, ?_, ?_, ?_⟩
    · rw [hrt, h1, h2, h3, h4, h5]
    · refine ⟨k, htick.trans hk1, ?_, ?_⟩
      · rw [hT]; rcases hpol.2 with ⟨e, _⟩ | ⟨e, _⟩ <;> omega
      · rw [h3, hpol.1, hk3]
    · rcases hpol.2 with ⟨_, e⟩ | ⟨e1, e, _⟩
      · left; rw [h4, e, hw.poltime]; simp
      · right; exact ⟨t1.ticks, by omega, by omega, by rw [h4, e]⟩
    · rw [hs.work]; unfold postTiming; rw [if_pos hp]; simp
    · rw [hs.work]; unfold postTiming; rw [if_pos hp]; simp
    · exact h1.trans h6
    · rw [hs.work]; unfold postTiming; rw [if_pos hp]; simp

theorem ledger_books (hsq : SqrtPos env) (hp : cfg.profiling = true) {b : Bool} {t : K} (h : Ledger cfg env D₀ st₀ b t s) :
    Books env b t s := by
  induction h with
  | setup h =>
    have m := made h
    refine ⟨m.first.trans hp, m.fromSolve, by rw [m.setup_time, if_pos hp], ?_⟩
    rw [m.update_time]; split_ifs <;> rfl
  | solve hl e ih =>
    obtain ⟨U, hU⟩ := ledger_hist hl
    exact (solve_times hp (hist_inv hsq hU) ih e).2.2.2.2.2
  | other hl hop e ih =>
    obtain ⟨U, hU⟩ := ledger_hist hl
    exact books_other hp (hist_inv hsq hU) ih hop e

/-- **C50** (histories whose earlier solves all returned 0). In a profiling build a successful solve reports as run time the sum
of set-up time (first solve) or total time of the update calls since the last solve (later solves), its own solve time and the
polishing time. Set-up time is the reading made in `osqp_setup`, solve time a reading made in this call, polishing time a reading
made in this call unless nothing was polished; then the field still holds the previous value (see `c50_polish_counterexample`). -/
theorem c50_run_time_partial (hsq : SqrtPos env) (hp : cfg.profiling = true) {first : Bool} {t : K}
    (ledger : Ledger cfg env D₀ st₀ first t s) (call : osqpSolve cfg env s = (s', 0)) :
    s'.info.run_time = (if first then s'.info.setup_time else s'.info.update_time) + s'.info.solve_time + s'.info.polish_time ∧
    s'.info.setup_time = env.clk 0 ∧ s'.info.update_time = t ∧ ReadDuring env s s' s'.info.solve_time ∧
    (s'.info.polish_time = s.info.polish_time ∨ ReadDuring env s s' s'.info.polish_time) := by
  obtain ⟨U, hU⟩ := ledger_hist ledger
  obtain ⟨a, b, c, e, f, _⟩ := solve_times hp (hist_inv hsq hU) (ledger_books hsq hp ledger) call
  exact ⟨a, b, c, e, f⟩

/-- **C50.** Every update call that returns 0 reads the clock once, so its time enters the total. -/
theorem c50_counted_partial (hsq : SqrtPos env) (hp : cfg.profiling = true) {first : Bool} {t : K}
    (ledger : Ledger cfg env D₀ st₀ first t s) {op : Op d K}
    (hop : (∃ q l u, op = .updateDataVec q l u) ∨ (∃ p a, op = .updateDataMat p a) ∨ (∃ r, op = .updateRho r))
    (call : apiStep cfg env s op = some (s', 0)) : elapsed env s s' = env.clk s.ticks := by
  obtain ⟨U, hU⟩ := ledger_hist ledger
  have hi := hist_inv hsq hU
  have hb := ledger_books hsq hp ledger
  have key : s'.ticks = s.ticks + 1 → elapsed env s s' = env.clk s.ticks := by
    intro h; unfold elapsed; rw [if_neg (by omega)]
  apply key
  rcases hop with ⟨q, l, u, rfl⟩ | ⟨p, a, rfl⟩ | ⟨r, rfl⟩
  · simp only [apiStep, Option.some.injEq] at call
    rw [osqpUpdateDataVec_eq q l u (rep_bounds hi.rep hi.bounds)] at call
    simp only [hp, if_true] at call
    split_ifs at call
    · rw [Prod.mk.injEq] at call
      rw [← call.1]
      obtain ⟨f1, f2⟩ := vec_frame (env := env) (clearUpdateTime s) q l u
      simp [addUpdateTime, toc, f2]
    · exact absurd (congrArg Prod.snd call) (by simp [Err.dataValidation])
  · rcases osqpUpdateDataMat_some hi call with ⟨_, e, _⟩ | ⟨_, _, e, _⟩ | ⟨_, _, r, ls, _, _, e⟩
    · simp at e
    · simp at e
    · rw [e]; simp [hp, addUpdateTime, toc]
  · simp only [apiStep, Option.some.injEq] at call
    unfold osqpUpdateRho at call
    by_cases hr : r ≤ 0
    · rw [if_pos hr] at call; exact absurd (congrArg Prod.snd call) (by simp)
    · rw [if_neg hr] at call
      simp [hp, hb.out] at call
      rw [← call.1]; simp [addUpdateTime, toc]

end Osqp
