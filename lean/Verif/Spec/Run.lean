import Verif.Model.Api

/-!
# Specification: the iterations of one solve
-/

namespace Osqp.Spec
variable {K : Type*} [Field K] [LinearOrder K] {d : Dims}

/-- `Runs cfg env L₀ it L`: the loop of `osqp_solve`, started in loop state `L₀`, reaches the head of iteration
`it` (all earlier iterations ran to completion) with loop state `L`. -/
inductive Runs (cfg : Cfg) (env : Env d K) (L₀ : LoopSt d K) : ℤ → LoopSt d K → Prop
  | start : Runs cfg env L₀ 1 L₀
  | step {it : ℤ} {L L' : LoopSt d K} : Runs cfg env L₀ it L → iterBody cfg env it L = .cont L' → Runs cfg env L₀ (it + 1) L'

/-- The clock reading of the time check in the iteration that starts in loop state `L` reaches the time limit
(the time of the set-up is counted in the first solve, the time of the data updates in later ones). -/
def TimeUp (cfg : Cfg) (env : Env d K) (L : LoopSt d K) : Prop :=
  cfg.profiling = true ∧ L.s.settings.time_limit ≠ 0 ∧
  L.s.settings.time_limit ≤ (if L.s.work.first_run then L.s.info.setup_time else L.s.info.update_time) + env.clk L.s.ticks

/-- `osqp_solve` called in state `s` finds in iteration `it` that the time limit has been reached. -/
def ClockStop (cfg : Cfg) (env : Env d K) (s : Solver d K) (it : ℤ) : Prop :=
  1 ≤ it ∧ it ≤ s.settings.max_iter ∧ ∃ L, Runs cfg env (solveEntry cfg s) it L ∧ TimeUp cfg env L

/-- Iteration `it` is one in which the settings ask for a termination check. -/
def Scheduled (st : Settings K) (it : ℤ) : Prop := st.check_termination ≠ 0 ∧ it % st.check_termination = 0

/-- The solve was stopped by the clock in the iteration right after one with a scheduled check. -/
def LateStop (cfg : Cfg) (env : Env d K) (s : Solver d K) : Prop :=
  ∃ it, 1 < it ∧ Scheduled s.settings (it - 1) ∧ ClockStop cfg env s it

/-- All `max_iter` iterations of the solve were executed. -/
def AllDone (cfg : Cfg) (env : Env d K) (s : Solver d K) : Prop :=
  ∃ L, Runs cfg env (solveEntry cfg s) (s.settings.max_iter + 1) L

end Osqp.Spec
