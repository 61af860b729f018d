import Verif.Lemmas.Hist

/-!
# The state `osqp_setup` produces
-/

set_option linter.unusedSectionVars false
namespace Osqp
open Spec
variable {K : Type*} [Field K] [LinearOrder K] [IsStrictOrderedRing K] {d : Dims}

structure Made (cfg : Cfg) (env : Env d K) (D : Data d K) (st : Settings K) (s : Solver d K) : Prop where
  good : validateDataBad D = false
  valid : validateSettings cfg st true = false
  factor : ¬ env.factor s.work.linsys < d.n
  settings : s.settings = { st with rho := clampRho st.rho, adaptive_rho_interval := setupInterval { st with rho := clampRho st.rho } }
  status : s.info.status_val = St.unsolved
  polish : s.info.status_polish = Pol.notPerformed
  x : s.work.x = vSet 0
  z : s.work.z = vSet 0
  y : s.work.y = vSet 0
  polls : s.polls = 0
  updates : s.info.rho_updates = 0
  estimate : s.info.rho_estimate = clampRho st.rho
  fromSolve : s.work.rho_update_from_solve = false
  first : s.work.first_run = cfg.profiling
  types : st.rho_is_vec ≠ 0 → s.work.constr_type = vBoundsType s.work.data.l s.work.data.u (Const.rhoTol K) (Const.infval K)
  spres : s.work.scaled_prim_res = 0
  data : st.scaling = 0 → s.work.data = D
  dataScaled : st.scaling ≠ 0 → s.work.data = (scaleData env st.scaling D).1
  scaling : st.scaling ≠ 0 → s.work.scaling = (scaleData env st.scaling D).2
  update_time : s.info.update_time = 0
  run_time : s.info.run_time = 0
  solve_time : s.info.solve_time = 0
  polish_time : s.info.polish_time = 0
  setup_time : s.info.setup_time = if cfg.profiling then env.clk 0 else 0

theorem made {cfg : Cfg} {env : Env d K} {D : Data d K} {st : Settings K} {s : Solver d K}
    (h : osqpSetup cfg env D st = .ok s) : Made cfg env D st s := by
  have hv1 : validateSettings cfg st true = false := by
    by_contra hv
    have hv' : validateSettings cfg st true = true := by simpa using hv
    unfold osqpSetup at h
    simp only [hv', if_true] at h
    split_ifs at h
  have hv2 : validateDataBad D = false := by
    by_contra hv
    have hv' : validateDataBad D = true := by simpa using hv
    unfold osqpSetup at h
    simp [hv'] at h
  unfold osqpSetup at h
  by_cases hp : cfg.profiling = true <;> by_cases hr : st.rho_is_vec = 0 <;>
    simp only [hv1, hp, hr, ne_eq, not_true, not_false_iff, if_true, if_false] at h <;>
    split_ifs at h <;> cases h
  all_goals
    constructor
    all_goals first
      | rfl
      | assumption
      | exact hp.symm
      | exact (if_pos hp).symm
      | exact (if_neg hp).symm
      | (simp only [setRhoVec, coldStart, toc, hr]; done)
      | exact fun h => absurd rfl h
      | exact fun h => absurd hr h
      | exact fun _ => rfl
      | (simpa using hp)
      | exact fun h => absurd h (by assumption)
      | exact fun h => absurd (by assumption) h
end Osqp
