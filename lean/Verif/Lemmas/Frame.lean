import Verif.Lemmas.Term

/-!
# Frame lemmas (generated by tools/gen_frame.py): which fields each model function leaves unchanged
-/

set_option linter.unusedSectionVars false
set_option linter.unusedSimpArgs false
namespace Osqp
variable {K : Type*} [Field K] [LinearOrder K] {d : Dims}

macro "frame_tac" f:ident : tactic =>
  `(tactic| (unfold $f; (try dsimp only); (try split_ifs) <;> first | (simp; done) | (split <;> simp)))

@[simp] theorem updateStatus_status_polish (i : Info K) (v : ℤ) : (updateStatus i v).status_polish = i.status_polish := rfl
@[simp] theorem updateStatus_obj_val (i : Info K) (v : ℤ) : (updateStatus i v).obj_val = i.obj_val := rfl
@[simp] theorem updateStatus_dual_obj_val (i : Info K) (v : ℤ) : (updateStatus i v).dual_obj_val = i.dual_obj_val := rfl
@[simp] theorem updateStatus_prim_res (i : Info K) (v : ℤ) : (updateStatus i v).prim_res = i.prim_res := rfl
@[simp] theorem updateStatus_dual_res (i : Info K) (v : ℤ) : (updateStatus i v).dual_res = i.dual_res := rfl
@[simp] theorem updateStatus_duality_gap (i : Info K) (v : ℤ) : (updateStatus i v).duality_gap = i.duality_gap := rfl
@[simp] theorem updateStatus_iter (i : Info K) (v : ℤ) : (updateStatus i v).iter = i.iter := rfl
@[simp] theorem updateStatus_rho_updates (i : Info K) (v : ℤ) : (updateStatus i v).rho_updates = i.rho_updates := rfl
@[simp] theorem updateStatus_rho_estimate (i : Info K) (v : ℤ) : (updateStatus i v).rho_estimate = i.rho_estimate := rfl
@[simp] theorem updateStatus_setup_time (i : Info K) (v : ℤ) : (updateStatus i v).setup_time = i.setup_time := rfl
@[simp] theorem updateStatus_solve_time (i : Info K) (v : ℤ) : (updateStatus i v).solve_time = i.solve_time := rfl
@[simp] theorem updateStatus_update_time (i : Info K) (v : ℤ) : (updateStatus i v).update_time = i.update_time := rfl
@[simp] theorem updateStatus_polish_time (i : Info K) (v : ℤ) : (updateStatus i v).polish_time = i.polish_time := rfl
@[simp] theorem updateStatus_run_time (i : Info K) (v : ℤ) : (updateStatus i v).run_time = i.run_time := rfl
@[simp] theorem updateStatus_primdual_int (i : Info K) (v : ℤ) : (updateStatus i v).primdual_int = i.primdual_int := rfl
@[simp] theorem updateStatus_rel_kkt_error (i : Info K) (v : ℤ) : (updateStatus i v).rel_kkt_error = i.rel_kkt_error := rfl
@[simp] theorem updateStatus_status_val (i : Info K) (v : ℤ) : (updateStatus i v).status_val = v := rfl
@[simp] theorem setStatus_status_val (s : Solver d K) (v : ℤ) : (setStatus s v).info.status_val = v := rfl

theorem toc_frame (env : Env d K) (s : Solver d K) :
  ((toc env s).2).settings = s.settings ∧
  ((toc env s).2).work = s.work ∧
  ((toc env s).2).info = s.info ∧
  ((toc env s).2).solution = s.solution ∧
  ((toc env s).2).polls = s.polls ∧
  ((toc env s).2).handler = s.handler := by
  frame_tac toc
@[simp] theorem toc_settings (env : Env d K) (s : Solver d K) : ((toc env s).2).settings = s.settings := (toc_frame env s).1
@[simp] theorem toc_work (env : Env d K) (s : Solver d K) : ((toc env s).2).work = s.work := (toc_frame env s).2.1
@[simp] theorem toc_info (env : Env d K) (s : Solver d K) : ((toc env s).2).info = s.info := (toc_frame env s).2.2.1
@[simp] theorem toc_solution (env : Env d K) (s : Solver d K) : ((toc env s).2).solution = s.solution := (toc_frame env s).2.2.2.1
@[simp] theorem toc_polls (env : Env d K) (s : Solver d K) : ((toc env s).2).polls = s.polls := (toc_frame env s).2.2.2.2.1
@[simp] theorem toc_handler (env : Env d K) (s : Solver d K) : ((toc env s).2).handler = s.handler := (toc_frame env s).2.2.2.2.2

theorem setStatus_frame (s : Solver d K) (v : ℤ) :
  (setStatus s v).settings = s.settings ∧
  (setStatus s v).work = s.work ∧
  (setStatus s v).info.status_polish = s.info.status_polish ∧
  (setStatus s v).info.obj_val = s.info.obj_val ∧
  (setStatus s v).info.dual_obj_val = s.info.dual_obj_val ∧
  (setStatus s v).info.prim_res = s.info.prim_res ∧
  (setStatus s v).info.dual_res = s.info.dual_res ∧
  (setStatus s v).info.duality_gap = s.info.duality_gap ∧
  (setStatus s v).info.iter = s.info.iter ∧
  (setStatus s v).info.rho_updates = s.info.rho_updates ∧
  (setStatus s v).info.rho_estimate = s.info.rho_estimate ∧
  (setStatus s v).info.setup_time = s.info.setup_time ∧
  (setStatus s v).info.solve_time = s.info.solve_time ∧
  (setStatus s v).info.update_time = s.info.update_time ∧
  (setStatus s v).info.polish_time = s.info.polish_time ∧
  (setStatus s v).info.run_time = s.info.run_time ∧
  (setStatus s v).info.primdual_int = s.info.primdual_int ∧
  (setStatus s v).info.rel_kkt_error = s.info.rel_kkt_error ∧
  (setStatus s v).solution = s.solution ∧
  (setStatus s v).ticks = s.ticks ∧
  (setStatus s v).polls = s.polls ∧
  (setStatus s v).handler = s.handler := by
  frame_tac setStatus
@[simp] theorem setStatus_settings (s : Solver d K) (v : ℤ) : (setStatus s v).settings = s.settings := (setStatus_frame s v).1
@[simp] theorem setStatus_work (s : Solver d K) (v : ℤ) : (setStatus s v).work = s.work := (setStatus_frame s v).2.1
@[simp] theorem setStatus_info_status_polish (s : Solver d K) (v : ℤ) : (setStatus s v).info.status_polish = s.info.status_polish := (setStatus_frame s v).2.2.1
@[simp] theorem setStatus_info_obj_val (s : Solver d K) (v : ℤ) : (setStatus s v).info.obj_val = s.info.obj_val := (setStatus_frame s v).2.2.2.1
@[simp] theorem setStatus_info_dual_obj_val (s : Solver d K) (v : ℤ) : (setStatus s v).info.dual_obj_val = s.info.dual_obj_val := (setStatus_frame s v).2.2.2.2.1
@[simp] theorem setStatus_info_prim_res (s : Solver d K) (v : ℤ) : (setStatus s v).info.prim_res = s.info.prim_res := (setStatus_frame s v).2.2.2.2.2.1
@[simp] theorem setStatus_info_dual_res (s : Solver d K) (v : ℤ) : (setStatus s v).info.dual_res = s.info.dual_res := (setStatus_frame s v).2.2.2.2.2.2.1
@[simp] theorem setStatus_info_duality_gap (s : Solver d K) (v : ℤ) : (setStatus s v).info.duality_gap = s.info.duality_gap := (setStatus_frame s v).2.2.2.2.2.2.2.1
@[simp] theorem setStatus_info_iter (s : Solver d K) (v : ℤ) : (setStatus s v).info.iter = s.info.iter := (setStatus_frame s v).2.2.2.2.2.2.2.2.1
@[simp] theorem setStatus_info_rho_updates (s : Solver d K) (v : ℤ) : (setStatus s v).info.rho_updates = s.info.rho_updates := (setStatus_frame s v).2.2.2.2.2.2.2.2.2.1
@[simp] theorem setStatus_info_rho_estimate (s : Solver d K) (v : ℤ) : (setStatus s v).info.rho_estimate = s.info.rho_estimate := (setStatus_frame s v).2.2.2.2.2.2.2.2.2.2.1
@[simp] theorem setStatus_info_setup_time (s : Solver d K) (v : ℤ) : (setStatus s v).info.setup_time = s.info.setup_time := (setStatus_frame s v).2.2.2.2.2.2.2.2.2.2.2.1
@[simp] theorem setStatus_info_solve_time (s : Solver d K) (v : ℤ) : (setStatus s v).info.solve_time = s.info.solve_time := (setStatus_frame s v).2.2.2.2.2.2.2.2.2.2.2.2.1
@[simp] theorem setStatus_info_update_time (s : Solver d K) (v : ℤ) : (setStatus s v).info.update_time = s.info.update_time := (setStatus_frame s v).2.2.2.2.2.2.2.2.2.2.2.2.2.1
@[simp] theorem setStatus_info_polish_time (s : Solver d K) (v : ℤ) : (setStatus s v).info.polish_time = s.info.polish_time := (setStatus_frame s v).2.2.2.2.2.2.2.2.2.2.2.2.2.2.1
@[simp] theorem setStatus_info_run_time (s : Solver d K) (v : ℤ) : (setStatus s v).info.run_time = s.info.run_time := (setStatus_frame s v).2.2.2.2.2.2.2.2.2.2.2.2.2.2.2.1
@[simp] theorem setStatus_info_primdual_int (s : Solver d K) (v : ℤ) : (setStatus s v).info.primdual_int = s.info.primdual_int := (setStatus_frame s v).2.2.2.2.2.2.2.2.2.2.2.2.2.2.2.2.1
@[simp] theorem setStatus_info_rel_kkt_error (s : Solver d K) (v : ℤ) : (setStatus s v).info.rel_kkt_error = s.info.rel_kkt_error := (setStatus_frame s v).2.2.2.2.2.2.2.2.2.2.2.2.2.2.2.2.2.1
@[simp] theorem setStatus_solution (s : Solver d K) (v : ℤ) : (setStatus s v).solution = s.solution := (setStatus_frame s v).2.2.2.2.2.2.2.2.2.2.2.2.2.2.2.2.2.2.1
@[simp] theorem setStatus_ticks (s : Solver d K) (v : ℤ) : (setStatus s v).ticks = s.ticks := (setStatus_frame s v).2.2.2.2.2.2.2.2.2.2.2.2.2.2.2.2.2.2.2.1
@[simp] theorem setStatus_polls (s : Solver d K) (v : ℤ) : (setStatus s v).polls = s.polls := (setStatus_frame s v).2.2.2.2.2.2.2.2.2.2.2.2.2.2.2.2.2.2.2.2.1
@[simp] theorem setStatus_handler (s : Solver d K) (v : ℤ) : (setStatus s v).handler = s.handler := (setStatus_frame s v).2.2.2.2.2.2.2.2.2.2.2.2.2.2.2.2.2.2.2.2.2

theorem coldStart_frame (s : Solver d K) :
  (coldStart s).settings = s.settings ∧
  (coldStart s).work.data = s.work.data ∧
  (coldStart s).work.linsys = s.work.linsys ∧
  (coldStart s).work.rho_vec = s.work.rho_vec ∧
  (coldStart s).work.rho_inv_vec = s.work.rho_inv_vec ∧
  (coldStart s).work.rho_inv = s.work.rho_inv ∧
  (coldStart s).work.constr_type = s.work.constr_type ∧
  (coldStart s).work.x_prev = s.work.x_prev ∧
  (coldStart s).work.z_prev = s.work.z_prev ∧
  (coldStart s).work.Ax = s.work.Ax ∧
  (coldStart s).work.Px = s.work.Px ∧
  (coldStart s).work.Aty = s.work.Aty ∧
  (coldStart s).work.delta_y = s.work.delta_y ∧
  (coldStart s).work.delta_x = s.work.delta_x ∧
  (coldStart s).work.scaling = s.work.scaling ∧
  (coldStart s).work.scaled_prim_res = s.work.scaled_prim_res ∧
  (coldStart s).work.scaled_dual_res = s.work.scaled_dual_res ∧
  (coldStart s).work.scaled_dual_gap = s.work.scaled_dual_gap ∧
  (coldStart s).work.xtPx = s.work.xtPx ∧
  (coldStart s).work.qtx = s.work.qtx ∧
  (coldStart s).work.SC = s.work.SC ∧
  (coldStart s).work.rho_updated = s.work.rho_updated ∧
  (coldStart s).work.last_rel_kkt = s.work.last_rel_kkt ∧
  (coldStart s).work.first_run = s.work.first_run ∧
  (coldStart s).work.clear_update_time = s.work.clear_update_time ∧
  (coldStart s).work.rho_update_from_solve = s.work.rho_update_from_solve ∧
  (coldStart s).info = s.info ∧
  (coldStart s).solution = s.solution ∧
  (coldStart s).ticks = s.ticks ∧
  (coldStart s).polls = s.polls ∧
  (coldStart s).handler = s.handler := by
  frame_tac coldStart
@[simp] theorem coldStart_settings (s : Solver d K) : (coldStart s).settings = s.settings := (coldStart_frame s).1
@[simp] theorem coldStart_data (s : Solver d K) : (coldStart s).work.data = s.work.data := (coldStart_frame s).2.1
@[simp] theorem coldStart_linsys (s : Solver d K) : (coldStart s).work.linsys = s.work.linsys := (coldStart_frame s).2.2.1
@[simp] theorem coldStart_rho_vec (s : Solver d K) : (coldStart s).work.rho_vec = s.work.rho_vec := (coldStart_frame s).2.2.2.1
@[simp] theorem coldStart_rho_inv_vec (s : Solver d K) : (coldStart s).work.rho_inv_vec = s.work.rho_inv_vec := (coldStart_frame s).2.2.2.2.1
@[simp] theorem coldStart_rho_inv (s : Solver d K) : (coldStart s).work.rho_inv = s.work.rho_inv := (coldStart_frame s).2.2.2.2.2.1
@[simp] theorem coldStart_constr_type (s : Solver d K) : (coldStart s).work.constr_type = s.work.constr_type := (coldStart_frame s).2.2.2.2.2.2.1
@[simp] theorem coldStart_x_prev (s : Solver d K) : (coldStart s).work.x_prev = s.work.x_prev := (coldStart_frame s).2.2.2.2.2.2.2.1
@[simp] theorem coldStart_z_prev (s : Solver d K) : (coldStart s).work.z_prev = s.work.z_prev := (coldStart_frame s).2.2.2.2.2.2.2.2.1
@[simp] theorem coldStart_Ax (s : Solver d K) : (coldStart s).work.Ax = s.work.Ax := (coldStart_frame s).2.2.2.2.2.2.2.2.2.1
@[simp] theorem coldStart_Px (s : Solver d K) : (coldStart s).work.Px = s.work.Px := (coldStart_frame s).2.2.2.2.2.2.2.2.2.2.1
@[simp] theorem coldStart_Aty (s : Solver d K) : (coldStart s).work.Aty = s.work.Aty := (coldStart_frame s).2.2.2.2.2.2.2.2.2.2.2.1
@[simp] theorem coldStart_delta_y (s : Solver d K) : (coldStart s).work.delta_y = s.work.delta_y := (coldStart_frame s).2.2.2.2.2.2.2.2.2.2.2.2.1
@[simp] theorem coldStart_delta_x (s : Solver d K) : (coldStart s).work.delta_x = s.work.delta_x := (coldStart_frame s).2.2.2.2.2.2.2.2.2.2.2.2.2.1
@[simp] theorem coldStart_scaling (s : Solver d K) : (coldStart s).work.scaling = s.work.scaling := (coldStart_frame s).2.2.2.2.2.2.2.2.2.2.2.2.2.2.1
@[simp] theorem coldStart_scaled_prim_res (s : Solver d K) : (coldStart s).work.scaled_prim_res = s.work.scaled_prim_res := (coldStart_frame s).2.2.2.2.2.2.2.2.2.2.2.2.2.2.2.1
@[simp] theorem coldStart_scaled_dual_res (s : Solver d K) : (coldStart s).work.scaled_dual_res = s.work.scaled_dual_res := (coldStart_frame s).2.2.2.2.2.2.2.2.2.2.2.2.2.2.2.2.1
@[simp] theorem coldStart_scaled_dual_gap (s : Solver d K) : (coldStart s).work.scaled_dual_gap = s.work.scaled_dual_gap := (coldStart_frame s).2.2.2.2.2.2.2.2.2.2.2.2.2.2.2.2.2.1
@[simp] theorem coldStart_xtPx (s : Solver d K) : (coldStart s).work.xtPx = s.work.xtPx := (coldStart_frame s).2.2.2.2.2.2.2.2.2.2.2.2.2.2.2.2.2.2.1
@[simp] theorem coldStart_qtx (s : Solver d K) : (coldStart s).work.qtx = s.work.qtx := (coldStart_frame s).2.2.2.2.2.2.2.2.2.2.2.2.2.2.2.2.2.2.2.1
@[simp] theorem coldStart_SC (s : Solver d K) : (coldStart s).work.SC = s.work.SC := (coldStart_frame s).2.2.2.2.2.2.2.2.2.2.2.2.2.2.2.2.2.2.2.2.1
@[simp] theorem coldStart_rho_updated (s : Solver d K) : (coldStart s).work.rho_updated = s.work.rho_updated := (coldStart_frame s).2.2.2.2.2.2.2.2.2.2.2.2.2.2.2.2.2.2.2.2.2.1
@[simp] theorem coldStart_last_rel_kkt (s : Solver d K) : (coldStart s).work.last_rel_kkt = s.work.last_rel_kkt := (coldStart_frame s).2.2.2.2.2.2.2.2.2.2.2.2.2.2.2.2.2.2.2.2.2.2.1
@[simp] theorem coldStart_first_run (s : Solver d K) : (coldStart s).work.first_run = s.work.first_run := (coldStart_frame s).2.2.2.2.2.2.2.2.2.2.2.2.2.2.2.2.2.2.2.2.2.2.2.1
@[simp] theorem coldStart_clear_update_time (s : Solver d K) : (coldStart s).work.clear_update_time = s.work.clear_update_time := (coldStart_frame s).2.2.2.2.2.2.2.2.2.2.2.2.2.2.2.2.2.2.2.2.2.2.2.2.1
@[simp] theorem coldStart_rho_update_from_solve (s : Solver d K) : (coldStart s).work.rho_update_from_solve = s.work.rho_update_from_solve := (coldStart_frame s).2.2.2.2.2.2.2.2.2.2.2.2.2.2.2.2.2.2.2.2.2.2.2.2.2.1
@[simp] theorem coldStart_info (s : Solver d K) : (coldStart s).info = s.info := (coldStart_frame s).2.2.2.2.2.2.2.2.2.2.2.2.2.2.2.2.2.2.2.2.2.2.2.2.2.2.1
@[simp] theorem coldStart_solution (s : Solver d K) : (coldStart s).solution = s.solution := (coldStart_frame s).2.2.2.2.2.2.2.2.2.2.2.2.2.2.2.2.2.2.2.2.2.2.2.2.2.2.2.1
@[simp] theorem coldStart_ticks (s : Solver d K) : (coldStart s).ticks = s.ticks := (coldStart_frame s).2.2.2.2.2.2.2.2.2.2.2.2.2.2.2.2.2.2.2.2.2.2.2.2.2.2.2.2.1
@[simp] theorem coldStart_polls (s : Solver d K) : (coldStart s).polls = s.polls := (coldStart_frame s).2.2.2.2.2.2.2.2.2.2.2.2.2.2.2.2.2.2.2.2.2.2.2.2.2.2.2.2.2.1
@[simp] theorem coldStart_handler (s : Solver d K) : (coldStart s).handler = s.handler := (coldStart_frame s).2.2.2.2.2.2.2.2.2.2.2.2.2.2.2.2.2.2.2.2.2.2.2.2.2.2.2.2.2.2

theorem setRhoVec_frame (s : Solver d K) :
  ((setRhoVec s).1).settings.device = s.settings.device ∧
  ((setRhoVec s).1).settings.linsys_solver = s.settings.linsys_solver ∧
  ((setRhoVec s).1).settings.allocate_solution = s.settings.allocate_solution ∧
  ((setRhoVec s).1).settings.verbose = s.settings.verbose ∧
  ((setRhoVec s).1).settings.profiler_level = s.settings.profiler_level ∧
  ((setRhoVec s).1).settings.warm_starting = s.settings.warm_starting ∧
  ((setRhoVec s).1).settings.scaling = s.settings.scaling ∧
  ((setRhoVec s).1).settings.polishing = s.settings.polishing ∧
  ((setRhoVec s).1).settings.rho_is_vec = s.settings.rho_is_vec ∧
  ((setRhoVec s).1).settings.sigma = s.settings.sigma ∧
  ((setRhoVec s).1).settings.alpha = s.settings.alpha ∧
  ((setRhoVec s).1).settings.cg_max_iter = s.settings.cg_max_iter ∧
  ((setRhoVec s).1).settings.cg_tol_reduction = s.settings.cg_tol_reduction ∧
  ((setRhoVec s).1).settings.cg_tol_fraction = s.settings.cg_tol_fraction ∧
  ((setRhoVec s).1).settings.cg_precond = s.settings.cg_precond ∧
  ((setRhoVec s).1).settings.adaptive_rho = s.settings.adaptive_rho ∧
  ((setRhoVec s).1).settings.adaptive_rho_interval = s.settings.adaptive_rho_interval ∧
  ((setRhoVec s).1).settings.adaptive_rho_fraction = s.settings.adaptive_rho_fraction ∧
  ((setRhoVec s).1).settings.adaptive_rho_tolerance = s.settings.adaptive_rho_tolerance ∧
  ((setRhoVec s).1).settings.max_iter = s.settings.max_iter ∧
  ((setRhoVec s).1).settings.eps_abs = s.settings.eps_abs ∧
  ((setRhoVec s).1).settings.eps_rel = s.settings.eps_rel ∧
  ((setRhoVec s).1).settings.eps_prim_inf = s.settings.eps_prim_inf ∧
  ((setRhoVec s).1).settings.eps_dual_inf = s.settings.eps_dual_inf ∧
  ((setRhoVec s).1).settings.scaled_termination = s.settings.scaled_termination ∧
  ((setRhoVec s).1).settings.check_termination = s.settings.check_termination ∧
  ((setRhoVec s).1).settings.check_dualgap = s.settings.check_dualgap ∧
  ((setRhoVec s).1).settings.time_limit = s.settings.time_limit ∧
  ((setRhoVec s).1).settings.delta = s.settings.delta ∧
  ((setRhoVec s).1).settings.polish_refine_iter = s.settings.polish_refine_iter ∧
  ((setRhoVec s).1).work.data = s.work.data ∧
  ((setRhoVec s).1).work.linsys = s.work.linsys ∧
  ((setRhoVec s).1).work.rho_inv = s.work.rho_inv ∧
  ((setRhoVec s).1).work.x = s.work.x ∧
  ((setRhoVec s).1).work.y = s.work.y ∧
  ((setRhoVec s).1).work.z = s.work.z ∧
  ((setRhoVec s).1).work.x_prev = s.work.x_prev ∧
  ((setRhoVec s).1).work.z_prev = s.work.z_prev ∧
  ((setRhoVec s).1).work.Ax = s.work.Ax ∧
  ((setRhoVec s).1).work.Px = s.work.Px ∧
  ((setRhoVec s).1).work.Aty = s.work.Aty ∧
  ((setRhoVec s).1).work.delta_y = s.work.delta_y ∧
  ((setRhoVec s).1).work.delta_x = s.work.delta_x ∧
  ((setRhoVec s).1).work.scaling = s.work.scaling ∧
  ((setRhoVec s).1).work.scaled_prim_res = s.work.scaled_prim_res ∧
  ((setRhoVec s).1).work.scaled_dual_res = s.work.scaled_dual_res ∧
  ((setRhoVec s).1).work.scaled_dual_gap = s.work.scaled_dual_gap ∧
  ((setRhoVec s).1).work.xtPx = s.work.xtPx ∧
  ((setRhoVec s).1).work.qtx = s.work.qtx ∧
  ((setRhoVec s).1).work.SC = s.work.SC ∧
  ((setRhoVec s).1).work.rho_updated = s.work.rho_updated ∧
  ((setRhoVec s).1).work.last_rel_kkt = s.work.last_rel_kkt ∧
  ((setRhoVec s).1).work.first_run = s.work.first_run ∧
  ((setRhoVec s).1).work.clear_update_time = s.work.clear_update_time ∧
  ((setRhoVec s).1).work.rho_update_from_solve = s.work.rho_update_from_solve ∧
  ((setRhoVec s).1).info = s.info ∧
  ((setRhoVec s).1).solution = s.solution ∧
  ((setRhoVec s).1).ticks = s.ticks ∧
  ((setRhoVec s).1).polls = s.polls ∧
  ((setRhoVec s).1).handler = s.handler := by
  frame_tac setRhoVec
@[simp] theorem setRhoVec_settings_device (s : Solver d K) : ((setRhoVec s).1).settings.device = s.settings.device := (setRhoVec_frame s).1
@[simp] theorem setRhoVec_settings_linsys_solver (s : Solver d K) : ((setRhoVec s).1).settings.linsys_solver = s.settings.linsys_solver := (setRhoVec_frame s).2.1
@[simp] theorem setRhoVec_settings_allocate_solution (s : Solver d K) : ((setRhoVec s).1).settings.allocate_solution = s.settings.allocate_solution := (setRhoVec_frame s).2.2.1
@[simp] theorem setRhoVec_settings_verbose (s : Solver d K) : ((setRhoVec s).1).settings.verbose = s.settings.verbose := (setRhoVec_frame s).2.2.2.1
@[simp] theorem setRhoVec_settings_profiler_level (s : Solver d K) : ((setRhoVec s).1).settings.profiler_level = s.settings.profiler_level := (setRhoVec_frame s).2.2.2.2.1
@[simp] theorem setRhoVec_settings_warm_starting (s : Solver d K) : ((setRhoVec s).1).settings.warm_starting = s.settings.warm_starting := (setRhoVec_frame s).2.2.2.2.2.1
@[simp] theorem setRhoVec_settings_scaling (s : Solver d K) : ((setRhoVec s).1).settings.scaling = s.settings.scaling := (setRhoVec_frame s).2.2.2.2.2.2.1
@[simp] theorem setRhoVec_settings_polishing (s : Solver d K) : ((setRhoVec s).1).settings.polishing = s.settings.polishing := (setRhoVec_frame s).2.2.2.2.2.2.2.1
@[simp] theorem setRhoVec_settings_rho_is_vec (s : Solver d K) : ((setRhoVec s).1).settings.rho_is_vec = s.settings.rho_is_vec := (setRhoVec_frame s).2.2.2.2.2.2.2.2.1
@[simp] theorem setRhoVec_settings_sigma (s : Solver d K) : ((setRhoVec s).1).settings.sigma = s.settings.sigma := (setRhoVec_frame s).2.2.2.2.2.2.2.2.2.1
@[simp] theorem setRhoVec_settings_alpha (s : Solver d K) : ((setRhoVec s).1).settings.alpha = s.settings.alpha := (setRhoVec_frame s).2.2.2.2.2.2.2.2.2.2.1
@[simp] theorem setRhoVec_settings_cg_max_iter (s : Solver d K) : ((setRhoVec s).1).settings.cg_max_iter = s.settings.cg_max_iter := (setRhoVec_frame s).2.2.2.2.2.2.2.2.2.2.2.1
@[simp] theorem setRhoVec_settings_cg_tol_reduction (s : Solver d K) : ((setRhoVec s).1).settings.cg_tol_reduction = s.settings.cg_tol_reduction := (setRhoVec_frame s).2.2.2.2.2.2.2.2.2.2.2.2.1
@[simp] theorem setRhoVec_settings_cg_tol_fraction (s : Solver d K) : ((setRhoVec s).1).settings.cg_tol_fraction = s.settings.cg_tol_fraction := (setRhoVec_frame s).2.2.2.2.2.2.2.2.2.2.2.2.2.1
@[simp] theorem setRhoVec_settings_cg_precond (s : Solver d K) : ((setRhoVec s).1).settings.cg_precond = s.settings.cg_precond := (setRhoVec_frame s).2.2.2.2.2.2.2.2.2.2.2.2.2.2.1
@[simp] theorem setRhoVec_settings_adaptive_rho (s : Solver d K) : ((setRhoVec s).1).settings.adaptive_rho = s.settings.adaptive_rho := (setRhoVec_frame s).2.2.2.2.2.2.2.2.2.2.2.2.2.2.2.1
@[simp] theorem setRhoVec_settings_adaptive_rho_interval (s : Solver d K) : ((setRhoVec s).1).settings.adaptive_rho_interval = s.settings.adaptive_rho_interval := (setRhoVec_frame s).2.2.2.2.2.2.2.2.2.2.2.2.2.2.2.2.1
@[simp] theorem setRhoVec_settings_adaptive_rho_fraction (s : Solver d K) : ((setRhoVec s).1).settings.adaptive_rho_fraction = s.settings.adaptive_rho_fraction := (setRhoVec_frame s).2.2.2.2.2.2.2.2.2.2.2.2.2.2.2.2.2.1
@[simp] theorem setRhoVec_settings_adaptive_rho_tolerance (s : Solver d K) : ((setRhoVec s).1).settings.adaptive_rho_tolerance = s.settings.adaptive_rho_tolerance := (setRhoVec_frame s).2.2.2.2.2.2.2.2.2.2.2.2.2.2.2.2.2.2.1
@[simp] theorem setRhoVec_settings_max_iter (s : Solver d K) : ((setRhoVec s).1).settings.max_iter = s.settings.max_iter := (setRhoVec_frame s).2.2.2.2.2.2.2.2.2.2.2.2.2.2.2.2.2.2.2.1
@[simp] theorem setRhoVec_settings_eps_abs (s : Solver d K) : ((setRhoVec s).1).settings.eps_abs = s.settings.eps_abs := (setRhoVec_frame s).2.2.2.2.2.2.2.2.2.2.2.2.2.2.2.2.2.2.2.2.1
@[simp] theorem setRhoVec_settings_eps_rel (s : Solver d K) : ((setRhoVec s).1).settings.eps_rel = s.settings.eps_rel := (setRhoVec_frame s).2.2.2.2.2.2.2.2.2.2.2.2.2.2.2.2.2.2.2.2.2.1
@[simp] theorem setRhoVec_settings_eps_prim_inf (s : Solver d K) : ((setRhoVec s).1).settings.eps_prim_inf = s.settings.eps_prim_inf := (setRhoVec_frame s).2.2.2.2.2.2.2.2.2.2.2.2.2.2.2.2.2.2.2.2.2.2.1
@[simp] theorem setRhoVec_settings_eps_dual_inf (s : Solver d K) : ((setRhoVec s).1).settings.eps_dual_inf = s.settings.eps_dual_inf := (setRhoVec_frame s).2.2.2.2.2.2.2.2.2.2.2.2.2.2.2.2.2.2.2.2.2.2.2.1
@[simp] theorem setRhoVec_settings_scaled_termination (s : Solver d K) : ((setRhoVec s).1).settings.scaled_termination = s.settings.scaled_termination := (setRhoVec_frame s).2.2.2.2.2.2.2.2.2.2.2.2.2.2.2.2.2.2.2.2.2.2.2.2.1
@[simp] theorem setRhoVec_settings_check_termination (s : Solver d K) : ((setRhoVec s).1).settings.check_termination = s.settings.check_termination := (setRhoVec_frame s).2.2.2.2.2.2.2.2.2.2.2.2.2.2.2.2.2.2.2.2.2.2.2.2.2.1
@[simp] theorem setRhoVec_settings_check_dualgap (s : Solver d K) : ((setRhoVec s).1).settings.check_dualgap = s.settings.check_dualgap := (setRhoVec_frame s).2.2.2.2.2.2.2.2.2.2.2.2.2.2.2.2.2.2.2.2.2.2.2.2.2.2.1
@[simp] theorem setRhoVec_settings_time_limit (s : Solver d K) : ((setRhoVec s).1).settings.time_limit = s.settings.time_limit := (setRhoVec_frame s).2.2.2.2.2.2.2.2.2.2.2.2.2.2.2.2.2.2.2.2.2.2.2.2.2.2.2.1
@[simp] theorem setRhoVec_settings_delta (s : Solver d K) : ((setRhoVec s).1).settings.delta = s.settings.delta := (setRhoVec_frame s).2.2.2.2.2.2.2.2.2.2.2.2.2.2.2.2.2.2.2.2.2.2.2.2.2.2.2.2.1
@[simp] theorem setRhoVec_settings_polish_refine_iter (s : Solver d K) : ((setRhoVec s).1).settings.polish_refine_iter = s.settings.polish_refine_iter := (setRhoVec_frame s).2.2.2.2.2.2.2.2.2.2.2.2.2.2.2.2.2.2.2.2.2.2.2.2.2.2.2.2.2.1
@[simp] theorem setRhoVec_data (s : Solver d K) : ((setRhoVec s).1).work.data = s.work.data := (setRhoVec_frame s).2.2.2.2.2.2.2.2.2.2.2.2.2.2.2.2.2.2.2.2.2.2.2.2.2.2.2.2.2.2.1
@[simp] theorem setRhoVec_linsys (s : Solver d K) : ((setRhoVec s).1).work.linsys = s.work.linsys := (setRhoVec_frame s).2.2.2.2.2.2.2.2.2.2.2.2.2.2.2.2.2.2.2.2.2.2.2.2.2.2.2.2.2.2.2.1
@[simp] theorem setRhoVec_rho_inv (s : Solver d K) : ((setRhoVec s).1).work.rho_inv = s.work.rho_inv := (setRhoVec_frame s).2.2.2.2.2.2.2.2.2.2.2.2.2.2.2.2.2.2.2.2.2.2.2.2.2.2.2.2.2.2.2.2.1
@[simp] theorem setRhoVec_x (s : Solver d K) : ((setRhoVec s).1).work.x = s.work.x := (setRhoVec_frame s).2.2.2.2.2.2.2.2.2.2.2.2.2.2.2.2.2.2.2.2.2.2.2.2.2.2.2.2.2.2.2.2.2.1
@[simp] theorem setRhoVec_y (s : Solver d K) : ((setRhoVec s).1).work.y = s.work.y := (setRhoVec_frame s).2.2.2.2.2.2.2.2.2.2.2.2.2.2.2.2.2.2.2.2.2.2.2.2.2.2.2.2.2.2.2.2.2.2.1
@[simp] theorem setRhoVec_z (s : Solver d K) : ((setRhoVec s).1).work.z = s.work.z := (setRhoVec_frame s).2.2.2.2.2.2.2.2.2.2.2.2.2.2.2.2.2.2.2.2.2.2.2.2.2.2.2.2.2.2.2.2.2.2.2.1
@[simp] theorem setRhoVec_x_prev (s : Solver d K) : ((setRhoVec s).1).work.x_prev = s.work.x_prev := (setRhoVec_frame s).2.2.2.2.2.2.2.2.2.2.2.2.2.2.2.2.2.2.2.2.2.2.2.2.2.2.2.2.2.2.2.2.2.2.2.2.1
@[simp] theorem setRhoVec_z_prev (s : Solver d K) : ((setRhoVec s).1).work.z_prev = s.work.z_prev := (setRhoVec_frame s).2.2.2.2.2.2.2.2.2.2.2.2.2.2.2.2.2.2.2.2.2.2.2.2.2.2.2.2.2.2.2.2.2.2.2.2.2.1
@[simp] theorem setRhoVec_Ax (s : Solver d K) : ((setRhoVec s).1).work.Ax = s.work.Ax := (setRhoVec_frame s).2.2.2.2.2.2.2.2.2.2.2.2.2.2.2.2.2.2.2.2.2.2.2.2.2.2.2.2.2.2.2.2.2.2.2.2.2.2.1
@[simp] theorem setRhoVec_Px (s : Solver d K) : ((setRhoVec s).1).work.Px = s.work.Px := (setRhoVec_frame s).2.2.2.2.2.2.2.2.2.2.2.2.2.2.2.2.2.2.2.2.2.2.2.2.2.2.2.2.2.2.2.2.2.2.2.2.2.2.2.1
@[simp] theorem setRhoVec_Aty (s : Solver d K) : ((setRhoVec s).1).work.Aty = s.work.Aty := (setRhoVec_frame s).2.2.2.2.2.2.2.2.2.2.2.2.2.2.2.2.2.2.2.2.2.2.2.2.2.2.2.2.2.2.2.2.2.2.2.2.2.2.2.2.1
@[simp] theorem setRhoVec_delta_y (s : Solver d K) : ((setRhoVec s).1).work.delta_y = s.work.delta_y := (setRhoVec_frame s).2.2.2.2.2.2.2.2.2.2.2.2.2.2.2.2.2.2.2.2.2.2.2.2.2.2.2.2.2.2.2.2.2.2.2.2.2.2.2.2.2.1
@[simp] theorem setRhoVec_delta_x (s : Solver d K) : ((setRhoVec s).1).work.delta_x = s.work.delta_x := (setRhoVec_frame s).2.2.2.2.2.2.2.2.2.2.2.2.2.2.2.2.2.2.2.2.2.2.2.2.2.2.2.2.2.2.2.2.2.2.2.2.2.2.2.2.2.2.1
@[simp] theorem setRhoVec_scaling (s : Solver d K) : ((setRhoVec s).1).work.scaling = s.work.scaling := (setRhoVec_frame s).2.2.2.2.2.2.2.2.2.2.2.2.2.2.2.2.2.2.2.2.2.2.2.2.2.2.2.2.2.2.2.2.2.2.2.2.2.2.2.2.2.2.2.1
@[simp] theorem setRhoVec_scaled_prim_res (s : Solver d K) : ((setRhoVec s).1).work.scaled_prim_res = s.work.scaled_prim_res := (setRhoVec_frame s).2.2.2.2.2.2.2.2.2.2.2.2.2.2.2.2.2.2.2.2.2.2.2.2.2.2.2.2.2.2.2.2.2.2.2.2.2.2.2.2.2.2.2.2.1
@[simp] theorem setRhoVec_scaled_dual_res (s : Solver d K) : ((setRhoVec s).1).work.scaled_dual_res = s.work.scaled_dual_res := (setRhoVec_frame s).2.2.2.2.2.2.2.2.2.2.2.2.2.2.2.2.2.2.2.2.2.2.2.2.2.2.2.2.2.2.2.2.2.2.2.2.2.2.2.2.2.2.2.2.2.1
@[simp] theorem setRhoVec_scaled_dual_gap (s : Solver d K) : ((setRhoVec s).1).work.scaled_dual_gap = s.work.scaled_dual_gap := (setRhoVec_frame s).2.2.2.2.2.2.2.2.2.2.2.2.2.2.2.2.2.2.2.2.2.2.2.2.2.2.2.2.2.2.2.2.2.2.2.2.2.2.2.2.2.2.2.2.2.2.1
@[simp] theorem setRhoVec_xtPx (s : Solver d K) : ((setRhoVec s).1).work.xtPx = s.work.xtPx := (setRhoVec_frame s).2.2.2.2.2.2.2.2.2.2.2.2.2.2.2.2.2.2.2.2.2.2.2.2.2.2.2.2.2.2.2.2.2.2.2.2.2.2.2.2.2.2.2.2.2.2.2.1
@[simp] theorem setRhoVec_qtx (s : Solver d K) : ((setRhoVec s).1).work.qtx = s.work.qtx := (setRhoVec_frame s).2.2.2.2.2.2.2.2.2.2.2.2.2.2.2.2.2.2.2.2.2.2.2.2.2.2.2.2.2.2.2.2.2.2.2.2.2.2.2.2.2.2.2.2.2.2.2.2.1
@[simp] theorem setRhoVec_SC (s : Solver d K) : ((setRhoVec s).1).work.SC = s.work.SC := (setRhoVec_frame s).2.2.2.2.2.2.2.2.2.2.2.2.2.2.2.2.2.2.2.2.2.2.2.2.2.2.2.2.2.2.2.2.2.2.2.2.2.2.2.2.2.2.2.2.2.2.2.2.2.1
@[simp] theorem setRhoVec_rho_updated (s : Solver d K) : ((setRhoVec s).1).work.rho_updated = s.work.rho_updated := (setRhoVec_frame s).2.2.2.2.2.2.2.2.2.2.2.2.2.2.2.2.2.2.2.2.2.2.2.2.2.2.2.2.2.2.2.2.2.2.2.2.2.2.2.2.2.2.2.2.2.2.2.2.2.2.1
@[simp] theorem setRhoVec_last_rel_kkt (s : Solver d K) : ((setRhoVec s).1).work.last_rel_kkt = s.work.last_rel_kkt := (setRhoVec_frame s).2.2.2.2.2.2.2.2.2.2.2.2.2.2.2.2.2.2.2.2.2.2.2.2.2.2.2.2.2.2.2.2.2.2.2.2.2.2.2.2.2.2.2.2.2.2.2.2.2.2.2.1
@[simp] theorem setRhoVec_first_run (s : Solver d K) : ((setRhoVec s).1).work.first_run = s.work.first_run := (setRhoVec_frame s).2.2.2.2.2.2.2.2.2.2.2.2.2.2.2.2.2.2.2.2.2.2.2.2.2.2.2.2.2.2.2.2.2.2.2.2.2.2.2.2.2.2.2.2.2.2.2.2.2.2.2.2.1
@[simp] theorem setRhoVec_clear_update_time (s : Solver d K) : ((setRhoVec s).1).work.clear_update_time = s.work.clear_update_time := (setRhoVec_frame s).2.2.2.2.2.2.2.2.2.2.2.2.2.2.2.2.2.2.2.2.2.2.2.2.2.2.2.2.2.2.2.2.2.2.2.2.2.2.2.2.2.2.2.2.2.2.2.2.2.2.2.2.2.1
@[simp] theorem setRhoVec_rho_update_from_solve (s : Solver d K) : ((setRhoVec s).1).work.rho_update_from_solve = s.work.rho_update_from_solve := (setRhoVec_frame s).2.2.2.2.2.2.2.2.2.2.2.2.2.2.2.2.2.2.2.2.2.2.2.2.2.2.2.2.2.2.2.2.2.2.2.2.2.2.2.2.2.2.2.2.2.2.2.2.2.2.2.2.2.2.1
@[simp] theorem setRhoVec_info (s : Solver d K) : ((setRhoVec s).1).info = s.info := (setRhoVec_frame s).2.2.2.2.2.2.2.2.2.2.2.2.2.2.2.2.2.2.2.2.2.2.2.2.2.2.2.2.2.2.2.2.2.2.2.2.2.2.2.2.2.2.2.2.2.2.2.2.2.2.2.2.2.2.2.1
@[simp] theorem setRhoVec_solution (s : Solver d K) : ((setRhoVec s).1).solution = s.solution := (setRhoVec_frame s).2.2.2.2.2.2.2.2.2.2.2.2.2.2.2.2.2.2.2.2.2.2.2.2.2.2.2.2.2.2.2.2.2.2.2.2.2.2.2.2.2.2.2.2.2.2.2.2.2.2.2.2.2.2.2.2.1
@[simp] theorem setRhoVec_ticks (s : Solver d K) : ((setRhoVec s).1).ticks = s.ticks := (setRhoVec_frame s).2.2.2.2.2.2.2.2.2.2.2.2.2.2.2.2.2.2.2.2.2.2.2.2.2.2.2.2.2.2.2.2.2.2.2.2.2.2.2.2.2.2.2.2.2.2.2.2.2.2.2.2.2.2.2.2.2.1
@[simp] theorem setRhoVec_polls (s : Solver d K) : ((setRhoVec s).1).polls = s.polls := (setRhoVec_frame s).2.2.2.2.2.2.2.2.2.2.2.2.2.2.2.2.2.2.2.2.2.2.2.2.2.2.2.2.2.2.2.2.2.2.2.2.2.2.2.2.2.2.2.2.2.2.2.2.2.2.2.2.2.2.2.2.2.2.1
@[simp] theorem setRhoVec_handler (s : Solver d K) : ((setRhoVec s).1).handler = s.handler := (setRhoVec_frame s).2.2.2.2.2.2.2.2.2.2.2.2.2.2.2.2.2.2.2.2.2.2.2.2.2.2.2.2.2.2.2.2.2.2.2.2.2.2.2.2.2.2.2.2.2.2.2.2.2.2.2.2.2.2.2.2.2.2.2

theorem updateRhoVec_frame (env : Env d K) (s : Solver d K) :
  ((updateRhoVec env s).1).settings.device = s.settings.device ∧
  ((updateRhoVec env s).1).settings.linsys_solver = s.settings.linsys_solver ∧
  ((updateRhoVec env s).1).settings.allocate_solution = s.settings.allocate_solution ∧
  ((updateRhoVec env s).1).settings.verbose = s.settings.verbose ∧
  ((updateRhoVec env s).1).settings.profiler_level = s.settings.profiler_level ∧
  ((updateRhoVec env s).1).settings.warm_starting = s.settings.warm_starting ∧
  ((updateRhoVec env s).1).settings.scaling = s.settings.scaling ∧
  ((updateRhoVec env s).1).settings.polishing = s.settings.polishing ∧
  ((updateRhoVec env s).1).settings.rho_is_vec = s.settings.rho_is_vec ∧
  ((updateRhoVec env s).1).settings.sigma = s.settings.sigma ∧
  ((updateRhoVec env s).1).settings.alpha = s.settings.alpha ∧
  ((updateRhoVec env s).1).settings.cg_max_iter = s.settings.cg_max_iter ∧
  ((updateRhoVec env s).1).settings.cg_tol_reduction = s.settings.cg_tol_reduction ∧
  ((updateRhoVec env s).1).settings.cg_tol_fraction = s.settings.cg_tol_fraction ∧
  ((updateRhoVec env s).1).settings.cg_precond = s.settings.cg_precond ∧
  ((updateRhoVec env s).1).settings.adaptive_rho = s.settings.adaptive_rho ∧
  ((updateRhoVec env s).1).settings.adaptive_rho_interval = s.settings.adaptive_rho_interval ∧
  ((updateRhoVec env s).1).settings.adaptive_rho_fraction = s.settings.adaptive_rho_fraction ∧
  ((updateRhoVec env s).1).settings.adaptive_rho_tolerance = s.settings.adaptive_rho_tolerance ∧
  ((updateRhoVec env s).1).settings.max_iter = s.settings.max_iter ∧
  ((updateRhoVec env s).1).settings.eps_abs = s.settings.eps_abs ∧
  ((updateRhoVec env s).1).settings.eps_rel = s.settings.eps_rel ∧
  ((updateRhoVec env s).1).settings.eps_prim_inf = s.settings.eps_prim_inf ∧
  ((updateRhoVec env s).1).settings.eps_dual_inf = s.settings.eps_dual_inf ∧
  ((updateRhoVec env s).1).settings.scaled_termination = s.settings.scaled_termination ∧
  ((updateRhoVec env s).1).settings.check_termination = s.settings.check_termination ∧
  ((updateRhoVec env s).1).settings.check_dualgap = s.settings.check_dualgap ∧
  ((updateRhoVec env s).1).settings.time_limit = s.settings.time_limit ∧
  ((updateRhoVec env s).1).settings.delta = s.settings.delta ∧
  ((updateRhoVec env s).1).settings.polish_refine_iter = s.settings.polish_refine_iter ∧
  ((updateRhoVec env s).1).work.data = s.work.data ∧
  ((updateRhoVec env s).1).work.rho_inv = s.work.rho_inv ∧
  ((updateRhoVec env s).1).work.x = s.work.x ∧
  ((updateRhoVec env s).1).work.y = s.work.y ∧
  ((updateRhoVec env s).1).work.z = s.work.z ∧
  ((updateRhoVec env s).1).work.x_prev = s.work.x_prev ∧
  ((updateRhoVec env s).1).work.z_prev = s.work.z_prev ∧
  ((updateRhoVec env s).1).work.Ax = s.work.Ax ∧
  ((updateRhoVec env s).1).work.Px = s.work.Px ∧
  ((updateRhoVec env s).1).work.Aty = s.work.Aty ∧
  ((updateRhoVec env s).1).work.delta_y = s.work.delta_y ∧
  ((updateRhoVec env s).1).work.delta_x = s.work.delta_x ∧
  ((updateRhoVec env s).1).work.scaling = s.work.scaling ∧
  ((updateRhoVec env s).1).work.scaled_prim_res = s.work.scaled_prim_res ∧
  ((updateRhoVec env s).1).work.scaled_dual_res = s.work.scaled_dual_res ∧
  ((updateRhoVec env s).1).work.scaled_dual_gap = s.work.scaled_dual_gap ∧
  ((updateRhoVec env s).1).work.xtPx = s.work.xtPx ∧
  ((updateRhoVec env s).1).work.qtx = s.work.qtx ∧
  ((updateRhoVec env s).1).work.SC = s.work.SC ∧
  ((updateRhoVec env s).1).work.rho_updated = s.work.rho_updated ∧
  ((updateRhoVec env s).1).work.last_rel_kkt = s.work.last_rel_kkt ∧
  ((updateRhoVec env s).1).work.first_run = s.work.first_run ∧
  ((updateRhoVec env s).1).work.clear_update_time = s.work.clear_update_time ∧
  ((updateRhoVec env s).1).work.rho_update_from_solve = s.work.rho_update_from_solve ∧
  ((updateRhoVec env s).1).info = s.info ∧
  ((updateRhoVec env s).1).solution = s.solution ∧
  ((updateRhoVec env s).1).ticks = s.ticks ∧
  ((updateRhoVec env s).1).polls = s.polls ∧
  ((updateRhoVec env s).1).handler = s.handler := by
  frame_tac updateRhoVec
@[simp] theorem updateRhoVec_settings_device (env : Env d K) (s : Solver d K) : ((updateRhoVec env s).1).settings.device = s.settings.device := (updateRhoVec_frame env s).1
@[simp] theorem updateRhoVec_settings_linsys_solver (env : Env d K) (s : Solver d K) : ((updateRhoVec env s).1).settings.linsys_solver = s.settings.linsys_solver := (updateRhoVec_frame env s).2.1
@[simp] theorem updateRhoVec_settings_allocate_solution (env : Env d K) (s : Solver d K) : ((updateRhoVec env s).1).settings.allocate_solution = s.settings.allocate_solution := (updateRhoVec_frame env s).2.2.1
@[simp] theorem updateRhoVec_settings_verbose (env : Env d K) (s : Solver d K) : ((updateRhoVec env s).1).settings.verbose = s.settings.verbose := (updateRhoVec_frame env s).2.2.2.1
@[simp] theorem updateRhoVec_settings_profiler_level (env : Env d K) (s : Solver d K) : ((updateRhoVec env s).1).settings.profiler_level = s.settings.profiler_level := (updateRhoVec_frame env s).2.2.2.2.1
@[simp] theorem updateRhoVec_settings_warm_starting (env : Env d K) (s : Solver d K) : ((updateRhoVec env s).1).settings.warm_starting = s.settings.warm_starting := (updateRhoVec_frame env s).2.2.2.2.2.1
@[simp] theorem updateRhoVec_settings_scaling (env : Env d K) (s : Solver d K) : ((updateRhoVec env s).1).settings.scaling = s.settings.scaling := (updateRhoVec_frame env s).2.2.2.2.2.2.1
@[simp] theorem updateRhoVec_settings_polishing (env : Env d K) (s : Solver d K) : ((updateRhoVec env s).1).settings.polishing = s.settings.polishing := (updateRhoVec_frame env s).2.2.2.2.2.2.2.1
@[simp] theorem updateRhoVec_settings_rho_is_vec (env : Env d K) (s : Solver d K) : ((updateRhoVec env s).1).settings.rho_is_vec = s.settings.rho_is_vec := (updateRhoVec_frame env s).2.2.2.2.2.2.2.2.1
@[simp] theorem updateRhoVec_settings_sigma (env : Env d K) (s : Solver d K) : ((updateRhoVec env s).1).settings.sigma = s.settings.sigma := (updateRhoVec_frame env s).2.2.2.2.2.2.2.2.2.1
@[simp] theorem updateRhoVec_settings_alpha (env : Env d K) (s : Solver d K) : ((updateRhoVec env s).1).settings.alpha = s.settings.alpha := (updateRhoVec_frame env s).2.2.2.2.2.2.2.2.2.2.1
@[simp] theorem updateRhoVec_settings_cg_max_iter (env : Env d K) (s : Solver d K) : ((updateRhoVec env s).1).settings.cg_max_iter = s.settings.cg_max_iter := (updateRhoVec_frame env s).2.2.2.2.2.2.2.2.2.2.2.1
@[simp] theorem updateRhoVec_settings_cg_tol_reduction (env : Env d K) (s : Solver d K) : ((updateRhoVec env s).1).settings.cg_tol_reduction = s.settings.cg_tol_reduction := (updateRhoVec_frame env s).2.2.2.2.2.2.2.2.2.2.2.2.1
@[simp] theorem updateRhoVec_settings_cg_tol_fraction (env : Env d K) (s : Solver d K) : ((updateRhoVec env s).1).settings.cg_tol_fraction = s.settings.cg_tol_fraction := (updateRhoVec_frame env s).2.2.2.2.2.2.2.2.2.2.2.2.2.1
@[simp] theorem updateRhoVec_settings_cg_precond (env : Env d K) (s : Solver d K) : ((updateRhoVec env s).1).settings.cg_precond = s.settings.cg_precond := (updateRhoVec_frame env s).2.2.2.2.2.2.2.2.2.2.2.2.2.2.1
@[simp] theorem updateRhoVec_settings_adaptive_rho (env : Env d K) (s : Solver d K) : ((updateRhoVec env s).1).settings.adaptive_rho = s.settings.adaptive_rho := (updateRhoVec_frame env s).2.2.2.2.2.2.2.2.2.2.2.2.2.2.2.1
@[simp] theorem updateRhoVec_settings_adaptive_rho_interval (env : Env d K) (s : Solver d K) : ((updateRhoVec env s).1).settings.adaptive_rho_interval = s.settings.adaptive_rho_interval := (updateRhoVec_frame env s).2.2.2.2.2.2.2.2.2.2.2.2.2.2.2.2.1
@[simp] theorem updateRhoVec_settings_adaptive_rho_fraction (env : Env d K) (s : Solver d K) : ((updateRhoVec env s).1).settings.adaptive_rho_fraction = s.settings.adaptive_rho_fraction := (updateRhoVec_frame env s).2.2.2.2.2.2.2.2.2.2.2.2.2.2.2.2.2.1
@[simp] theorem updateRhoVec_settings_adaptive_rho_tolerance (env : Env d K) (s : Solver d K) : ((updateRhoVec env s).1).settings.adaptive_rho_tolerance = s.settings.adaptive_rho_tolerance := (updateRhoVec_frame env s).2.2.2.2.2.2.2.2.2.2.2.2.2.2.2.2.2.2.1
@[simp] theorem updateRhoVec_settings_max_iter (env : Env d K) (s : Solver d K) : ((updateRhoVec env s).1).settings.max_iter = s.settings.max_iter := (updateRhoVec_frame env s).2.2.2.2.2.2.2.2.2.2.2.2.2.2.2.2.2.2.2.1
@[simp] theorem updateRhoVec_settings_eps_abs (env : Env d K) (s : Solver d K) : ((updateRhoVec env s).1).settings.eps_abs = s.settings.eps_abs := (updateRhoVec_frame env s).2.2.2.2.2.2.2.2.2.2.2.2.2.2.2.2.2.2.2.2.1
@[simp] theorem updateRhoVec_settings_eps_rel (env : Env d K) (s : Solver d K) : ((updateRhoVec env s).1).settings.eps_rel = s.settings.eps_rel := (updateRhoVec_frame env s).2.2.2.2.2.2.2.2.2.2.2.2.2.2.2.2.2.2.2.2.2.1
@[simp] theorem updateRhoVec_settings_eps_prim_inf (env : Env d K) (s : Solver d K) : ((updateRhoVec env s).1).settings.eps_prim_inf = s.settings.eps_prim_inf := (updateRhoVec_frame env s).2.2.2.2.2.2.2.2.2.2.2.2.2.2.2.2.2.2.2.2.2.2.1
@[simp] theorem updateRhoVec_settings_eps_dual_inf (env : Env d K) (s : Solver d K) : ((updateRhoVec env s).1).settings.eps_dual_inf = s.settings.eps_dual_inf := (updateRhoVec_frame env s).2.2.2.2.2.2.2.2.2.2.2.2.2.2.2.2.2.2.2.2.2.2.2.1
@[simp] theorem updateRhoVec_settings_scaled_termination (env : Env d K) (s : Solver d K) : ((updateRhoVec env s).1).settings.scaled_termination = s.settings.scaled_termination := (updateRhoVec_frame env s).2.2.2.2.2.2.2.2.2.2.2.2.2.2.2.2.2.2.2.2.2.2.2.2.1
@[simp] theorem updateRhoVec_settings_check_termination (env : Env d K) (s : Solver d K) : ((updateRhoVec env s).1).settings.check_termination = s.settings.check_termination := (updateRhoVec_frame env s).2.2.2.2.2.2.2.2.2.2.2.2.2.2.2.2.2.2.2.2.2.2.2.2.2.1
@[simp] theorem updateRhoVec_settings_check_dualgap (env : Env d K) (s : Solver d K) : ((updateRhoVec env s).1).settings.check_dualgap = s.settings.check_dualgap := (updateRhoVec_frame env s).2.2.2.2.2.2.2.2.2.2.2.2.2.2.2.2.2.2.2.2.2.2.2.2.2.2.1
@[simp] theorem updateRhoVec_settings_time_limit (env : Env d K) (s : Solver d K) : ((updateRhoVec env s).1).settings.time_limit = s.settings.time_limit := (updateRhoVec_frame env s).2.2.2.2.2.2.2.2.2.2.2.2.2.2.2.2.2.2.2.2.2.2.2.2.2.2.2.1
@[simp] theorem updateRhoVec_settings_delta (env : Env d K) (s : Solver d K) : ((updateRhoVec env s).1).settings.delta = s.settings.delta := (updateRhoVec_frame env s).2.2.2.2.2.2.2.2.2.2.2.2.2.2.2.2.2.2.2.2.2.2.2.2.2.2.2.2.1
@[simp] theorem updateRhoVec_settings_polish_refine_iter (env : Env d K) (s : Solver d K) : ((updateRhoVec env s).1).settings.polish_refine_iter = s.settings.polish_refine_iter := (updateRhoVec_frame env s).2.2.2.2.2.2.2.2.2.2.2.2.2.2.2.2.2.2.2.2.2.2.2.2.2.2.2.2.2.1
@[simp] theorem updateRhoVec_data (env : Env d K) (s : Solver d K) : ((updateRhoVec env s).1).work.data = s.work.data := (updateRhoVec_frame env s).2.2.2.2.2.2.2.2.2.2.2.2.2.2.2.2.2.2.2.2.2.2.2.2.2.2.2.2.2.2.1
@[simp] theorem updateRhoVec_rho_inv (env : Env d K) (s : Solver d K) : ((updateRhoVec env s).1).work.rho_inv = s.work.rho_inv := (updateRhoVec_frame env s).2.2.2.2.2.2.2.2.2.2.2.2.2.2.2.2.2.2.2.2.2.2.2.2.2.2.2.2.2.2.2.1
@[simp] theorem updateRhoVec_x (env : Env d K) (s : Solver d K) : ((updateRhoVec env s).1).work.x = s.work.x := (updateRhoVec_frame env s).2.2.2.2.2.2.2.2.2.2.2.2.2.2.2.2.2.2.2.2.2.2.2.2.2.2.2.2.2.2.2.2.1
@[simp] theorem updateRhoVec_y (env : Env d K) (s : Solver d K) : ((updateRhoVec env s).1).work.y = s.work.y := (updateRhoVec_frame env s).2.2.2.2.2.2.2.2.2.2.2.2.2.2.2.2.2.2.2.2.2.2.2.2.2.2.2.2.2.2.2.2.2.1
@[simp] theorem updateRhoVec_z (env : Env d K) (s : Solver d K) : ((updateRhoVec env s).1).work.z = s.work.z := (updateRhoVec_frame env s).2.2.2.2.2.2.2.2.2.2.2.2.2.2.2.2.2.2.2.2.2.2.2.2.2.2.2.2.2.2.2.2.2.2.1
@[simp] theorem updateRhoVec_x_prev (env : Env d K) (s : Solver d K) : ((updateRhoVec env s).1).work.x_prev = s.work.x_prev := (updateRhoVec_frame env s).2.2.2.2.2.2.2.2.2.2.2.2.2.2.2.2.2.2.2.2.2.2.2.2.2.2.2.2.2.2.2.2.2.2.2.1
@[simp] theorem updateRhoVec_z_prev (env : Env d K) (s : Solver d K) : ((updateRhoVec env s).1).work.z_prev = s.work.z_prev := (updateRhoVec_frame env s).2.2.2.2.2.2.2.2.2.2.2.2.2.2.2.2.2.2.2.2.2.2.2.2.2.2.2.2.2.2.2.2.2.2.2.2.1
@[simp] theorem updateRhoVec_Ax (env : Env d K) (s : Solver d K) : ((updateRhoVec env s).1).work.Ax = s.work.Ax := (updateRhoVec_frame env s).2.2.2.2.2.2.2.2.2.2.2.2.2.2.2.2.2.2.2.2.2.2.2.2.2.2.2.2.2.2.2.2.2.2.2.2.2.1
@[simp] theorem updateRhoVec_Px (env : Env d K) (s : Solver d K) : ((updateRhoVec env s).1).work.Px = s.work.Px := (updateRhoVec_frame env s).2.2.2.2.2.2.2.2.2.2.2.2.2.2.2.2.2.2.2.2.2.2.2.2.2.2.2.2.2.2.2.2.2.2.2.2.2.2.1
@[simp] theorem updateRhoVec_Aty (env : Env d K) (s : Solver d K) : ((updateRhoVec env s).1).work.Aty = s.work.Aty := (updateRhoVec_frame env s).2.2.2.2.2.2.2.2.2.2.2.2.2.2.2.2.2.2.2.2.2.2.2.2.2.2.2.2.2.2.2.2.2.2.2.2.2.2.2.1
@[simp] theorem updateRhoVec_delta_y (env : Env d K) (s : Solver d K) : ((updateRhoVec env s).1).work.delta_y = s.work.delta_y := (updateRhoVec_frame env s).2.2.2.2.2.2.2.2.2.2.2.2.2.2.2.2.2.2.2.2.2.2.2.2.2.2.2.2.2.2.2.2.2.2.2.2.2.2.2.2.1
@[simp] theorem updateRhoVec_delta_x (env : Env d K) (s : Solver d K) : ((updateRhoVec env s).1).work.delta_x = s.work.delta_x := (updateRhoVec_frame env s).2.2.2.2.2.2.2.2.2.2.2.2.2.2.2.2.2.2.2.2.2.2.2.2.2.2.2.2.2.2.2.2.2.2.2.2.2.2.2.2.2.1
@[simp] theorem updateRhoVec_scaling (env : Env d K) (s : Solver d K) : ((updateRhoVec env s).1).work.scaling = s.work.scaling := (updateRhoVec_frame env s).2.2.2.2.2.2.2.2.2.2.2.2.2.2.2.2.2.2.2.2.2.2.2.2.2.2.2.2.2.2.2.2.2.2.2.2.2.2.2.2.2.2.1
@[simp] theorem updateRhoVec_scaled_prim_res (env : Env d K) (s : Solver d K) : ((updateRhoVec env s).1).work.scaled_prim_res = s.work.scaled_prim_res := (updateRhoVec_frame env s).2.2.2.2.2.2.2.2.2.2.2.2.2.2.2.2.2.2.2.2.2.2.2.2.2.2.2.2.2.2.2.2.2.2.2.2.2.2.2.2.2.2.2.1
@[simp] theorem updateRhoVec_scaled_dual_res (env : Env d K) (s : Solver d K) : ((updateRhoVec env s).1).work.scaled_dual_res = s.work.scaled_dual_res := (updateRhoVec_frame env s).2.2.2.2.2.2.2.2.2.2.2.2.2.2.2.2.2.2.2.2.2.2.2.2.2.2.2.2.2.2.2.2.2.2.2.2.2.2.2.2.2.2.2.2.1
@[simp] theorem updateRhoVec_scaled_dual_gap (env : Env d K) (s : Solver d K) : ((updateRhoVec env s).1).work.scaled_dual_gap = s.work.scaled_dual_gap := (updateRhoVec_frame env s).2.2.2.2.2.2.2.2.2.2.2.2.2.2.2.2.2.2.2.2.2.2.2.2.2.2.2.2.2.2.2.2.2.2.2.2.2.2.2.2.2.2.2.2.2.1
@[simp] theorem updateRhoVec_xtPx (env : Env d K) (s : Solver d K) : ((updateRhoVec env s).1).work.xtPx = s.work.xtPx := (updateRhoVec_frame env s).2.2.2.2.2.2.2.2.2.2.2.2.2.2.2.2.2.2.2.2.2.2.2.2.2.2.2.2.2.2.2.2.2.2.2.2.2.2.2.2.2.2.2.2.2.2.1
@[simp] theorem updateRhoVec_qtx (env : Env d K) (s : Solver d K) : ((updateRhoVec env s).1).work.qtx = s.work.qtx := (updateRhoVec_frame env s).2.2.2.2.2.2.2.2.2.2.2.2.2.2.2.2.2.2.2.2.2.2.2.2.2.2.2.2.2.2.2.2.2.2.2.2.2.2.2.2.2.2.2.2.2.2.2.1
@[simp] theorem updateRhoVec_SC (env : Env d K) (s : Solver d K) : ((updateRhoVec env s).1).work.SC = s.work.SC := (updateRhoVec_frame env s).2.2.2.2.2.2.2.2.2.2.2.2.2.2.2.2.2.2.2.2.2.2.2.2.2.2.2.2.2.2.2.2.2.2.2.2.2.2.2.2.2.2.2.2.2.2.2.2.1
@[simp] theorem updateRhoVec_rho_updated (env : Env d K) (s : Solver d K) : ((updateRhoVec env s).1).work.rho_updated = s.work.rho_updated := (updateRhoVec_frame env s).2.2.2.2.2.2.2.2.2.2.2.2.2.2.2.2.2.2.2.2.2.2.2.2.2.2.2.2.2.2.2.2.2.2.2.2.2.2.2.2.2.2.2.2.2.2.2.2.2.1
@[simp] theorem updateRhoVec_last_rel_kkt (env : Env d K) (s : Solver d K) : ((updateRhoVec env s).1).work.last_rel_kkt = s.work.last_rel_kkt := (updateRhoVec_frame env s).2.2.2.2.2.2.2.2.2.2.2.2.2.2.2.2.2.2.2.2.2.2.2.2.2.2.2.2.2.2.2.2.2.2.2.2.2.2.2.2.2.2.2.2.2.2.2.2.2.2.1
@[simp] theorem updateRhoVec_first_run (env : Env d K) (s : Solver d K) : ((updateRhoVec env s).1).work.first_run = s.work.first_run := (updateRhoVec_frame env s).2.2.2.2.2.2.2.2.2.2.2.2.2.2.2.2.2.2.2.2.2.2.2.2.2.2.2.2.2.2.2.2.2.2.2.2.2.2.2.2.2.2.2.2.2.2.2.2.2.2.2.1
@[simp] theorem updateRhoVec_clear_update_time (env : Env d K) (s : Solver d K) : ((updateRhoVec env s).1).work.clear_update_time = s.work.clear_update_time := (updateRhoVec_frame env s).2.2.2.2.2.2.2.2.2.2.2.2.2.2.2.2.2.2.2.2.2.2.2.2.2.2.2.2.2.2.2.2.2.2.2.2.2.2.2.2.2.2.2.2.2.2.2.2.2.2.2.2.1
@[simp] theorem updateRhoVec_rho_update_from_solve (env : Env d K) (s : Solver d K) : ((updateRhoVec env s).1).work.rho_update_from_solve = s.work.rho_update_from_solve := (updateRhoVec_frame env s).2.2.2.2.2.2.2.2.2.2.2.2.2.2.2.2.2.2.2.2.2.2.2.2.2.2.2.2.2.2.2.2.2.2.2.2.2.2.2.2.2.2.2.2.2.2.2.2.2.2.2.2.2.1
@[simp] theorem updateRhoVec_info (env : Env d K) (s : Solver d K) : ((updateRhoVec env s).1).info = s.info := (updateRhoVec_frame env s).2.2.2.2.2.2.2.2.2.2.2.2.2.2.2.2.2.2.2.2.2.2.2.2.2.2.2.2.2.2.2.2.2.2.2.2.2.2.2.2.2.2.2.2.2.2.2.2.2.2.2.2.2.2.1
@[simp] theorem updateRhoVec_solution (env : Env d K) (s : Solver d K) : ((updateRhoVec env s).1).solution = s.solution := (updateRhoVec_frame env s).2.2.2.2.2.2.2.2.2.2.2.2.2.2.2.2.2.2.2.2.2.2.2.2.2.2.2.2.2.2.2.2.2.2.2.2.2.2.2.2.2.2.2.2.2.2.2.2.2.2.2.2.2.2.2.1
@[simp] theorem updateRhoVec_ticks (env : Env d K) (s : Solver d K) : ((updateRhoVec env s).1).ticks = s.ticks := (updateRhoVec_frame env s).2.2.2.2.2.2.2.2.2.2.2.2.2.2.2.2.2.2.2.2.2.2.2.2.2.2.2.2.2.2.2.2.2.2.2.2.2.2.2.2.2.2.2.2.2.2.2.2.2.2.2.2.2.2.2.2.1
@[simp] theorem updateRhoVec_polls (env : Env d K) (s : Solver d K) : ((updateRhoVec env s).1).polls = s.polls := (updateRhoVec_frame env s).2.2.2.2.2.2.2.2.2.2.2.2.2.2.2.2.2.2.2.2.2.2.2.2.2.2.2.2.2.2.2.2.2.2.2.2.2.2.2.2.2.2.2.2.2.2.2.2.2.2.2.2.2.2.2.2.2.1
@[simp] theorem updateRhoVec_handler (env : Env d K) (s : Solver d K) : ((updateRhoVec env s).1).handler = s.handler := (updateRhoVec_frame env s).2.2.2.2.2.2.2.2.2.2.2.2.2.2.2.2.2.2.2.2.2.2.2.2.2.2.2.2.2.2.2.2.2.2.2.2.2.2.2.2.2.2.2.2.2.2.2.2.2.2.2.2.2.2.2.2.2.2

theorem swapIterates_frame (s : Solver d K) :
  (swapIterates s).settings = s.settings ∧
  (swapIterates s).work.data = s.work.data ∧
  (swapIterates s).work.linsys = s.work.linsys ∧
  (swapIterates s).work.rho_vec = s.work.rho_vec ∧
  (swapIterates s).work.rho_inv_vec = s.work.rho_inv_vec ∧
  (swapIterates s).work.rho_inv = s.work.rho_inv ∧
  (swapIterates s).work.constr_type = s.work.constr_type ∧
  (swapIterates s).work.y = s.work.y ∧
  (swapIterates s).work.Ax = s.work.Ax ∧
  (swapIterates s).work.Px = s.work.Px ∧
  (swapIterates s).work.Aty = s.work.Aty ∧
  (swapIterates s).work.delta_y = s.work.delta_y ∧
  (swapIterates s).work.delta_x = s.work.delta_x ∧
  (swapIterates s).work.scaling = s.work.scaling ∧
  (swapIterates s).work.scaled_prim_res = s.work.scaled_prim_res ∧
  (swapIterates s).work.scaled_dual_res = s.work.scaled_dual_res ∧
  (swapIterates s).work.scaled_dual_gap = s.work.scaled_dual_gap ∧
  (swapIterates s).work.xtPx = s.work.xtPx ∧
  (swapIterates s).work.qtx = s.work.qtx ∧
  (swapIterates s).work.SC = s.work.SC ∧
  (swapIterates s).work.rho_updated = s.work.rho_updated ∧
  (swapIterates s).work.last_rel_kkt = s.work.last_rel_kkt ∧
  (swapIterates s).work.first_run = s.work.first_run ∧
  (swapIterates s).work.clear_update_time = s.work.clear_update_time ∧
  (swapIterates s).work.rho_update_from_solve = s.work.rho_update_from_solve ∧
  (swapIterates s).info = s.info ∧
  (swapIterates s).solution = s.solution ∧
  (swapIterates s).ticks = s.ticks ∧
  (swapIterates s).polls = s.polls ∧
  (swapIterates s).handler = s.handler := by
  frame_tac swapIterates
@[simp] theorem swapIterates_settings (s : Solver d K) : (swapIterates s).settings = s.settings := (swapIterates_frame s).1
@[simp] theorem swapIterates_data (s : Solver d K) : (swapIterates s).work.data = s.work.data := (swapIterates_frame s).2.1
@[simp] theorem swapIterates_linsys (s : Solver d K) : (swapIterates s).work.linsys = s.work.linsys := (swapIterates_frame s).2.2.1
@[simp] theorem swapIterates_rho_vec (s : Solver d K) : (swapIterates s).work.rho_vec = s.work.rho_vec := (swapIterates_frame s).2.2.2.1
@[simp] theorem swapIterates_rho_inv_vec (s : Solver d K) : (swapIterates s).work.rho_inv_vec = s.work.rho_inv_vec := (swapIterates_frame s).2.2.2.2.1
@[simp] theorem swapIterates_rho_inv (s : Solver d K) : (swapIterates s).work.rho_inv = s.work.rho_inv := (swapIterates_frame s).2.2.2.2.2.1
@[simp] theorem swapIterates_constr_type (s : Solver d K) : (swapIterates s).work.constr_type = s.work.constr_type := (swapIterates_frame s).2.2.2.2.2.2.1
@[simp] theorem swapIterates_y (s : Solver d K) : (swapIterates s).work.y = s.work.y := (swapIterates_frame s).2.2.2.2.2.2.2.1
@[simp] theorem swapIterates_Ax (s : Solver d K) : (swapIterates s).work.Ax = s.work.Ax := (swapIterates_frame s).2.2.2.2.2.2.2.2.1
@[simp] theorem swapIterates_Px (s : Solver d K) : (swapIterates s).work.Px = s.work.Px := (swapIterates_frame s).2.2.2.2.2.2.2.2.2.1
@[simp] theorem swapIterates_Aty (s : Solver d K) : (swapIterates s).work.Aty = s.work.Aty := (swapIterates_frame s).2.2.2.2.2.2.2.2.2.2.1
@[simp] theorem swapIterates_delta_y (s : Solver d K) : (swapIterates s).work.delta_y = s.work.delta_y := (swapIterates_frame s).2.2.2.2.2.2.2.2.2.2.2.1
@[simp] theorem swapIterates_delta_x (s : Solver d K) : (swapIterates s).work.delta_x = s.work.delta_x := (swapIterates_frame s).2.2.2.2.2.2.2.2.2.2.2.2.1
@[simp] theorem swapIterates_scaling (s : Solver d K) : (swapIterates s).work.scaling = s.work.scaling := (swapIterates_frame s).2.2.2.2.2.2.2.2.2.2.2.2.2.1
@[simp] theorem swapIterates_scaled_prim_res (s : Solver d K) : (swapIterates s).work.scaled_prim_res = s.work.scaled_prim_res := (swapIterates_frame s).2.2.2.2.2.2.2.2.2.2.2.2.2.2.1
@[simp] theorem swapIterates_scaled_dual_res (s : Solver d K) : (swapIterates s).work.scaled_dual_res = s.work.scaled_dual_res := (swapIterates_frame s).2.2.2.2.2.2.2.2.2.2.2.2.2.2.2.1
@[simp] theorem swapIterates_scaled_dual_gap (s : Solver d K) : (swapIterates s).work.scaled_dual_gap = s.work.scaled_dual_gap := (swapIterates_frame s).2.2.2.2.2.2.2.2.2.2.2.2.2.2.2.2.1
@[simp] theorem swapIterates_xtPx (s : Solver d K) : (swapIterates s).work.xtPx = s.work.xtPx := (swapIterates_frame s).2.2.2.2.2.2.2.2.2.2.2.2.2.2.2.2.2.1
@[simp] theorem swapIterates_qtx (s : Solver d K) : (swapIterates s).work.qtx = s.work.qtx := (swapIterates_frame s).2.2.2.2.2.2.2.2.2.2.2.2.2.2.2.2.2.2.1
@[simp] theorem swapIterates_SC (s : Solver d K) : (swapIterates s).work.SC = s.work.SC := (swapIterates_frame s).2.2.2.2.2.2.2.2.2.2.2.2.2.2.2.2.2.2.2.1
@[simp] theorem swapIterates_rho_updated (s : Solver d K) : (swapIterates s).work.rho_updated = s.work.rho_updated := (swapIterates_frame s).2.2.2.2.2.2.2.2.2.2.2.2.2.2.2.2.2.2.2.2.1
@[simp] theorem swapIterates_last_rel_kkt (s : Solver d K) : (swapIterates s).work.last_rel_kkt = s.work.last_rel_kkt := (swapIterates_frame s).2.2.2.2.2.2.2.2.2.2.2.2.2.2.2.2.2.2.2.2.2.1
@[simp] theorem swapIterates_first_run (s : Solver d K) : (swapIterates s).work.first_run = s.work.first_run := (swapIterates_frame s).2.2.2.2.2.2.2.2.2.2.2.2.2.2.2.2.2.2.2.2.2.2.1
@[simp] theorem swapIterates_clear_update_time (s : Solver d K) : (swapIterates s).work.clear_update_time = s.work.clear_update_time := (swapIterates_frame s).2.2.2.2.2.2.2.2.2.2.2.2.2.2.2.2.2.2.2.2.2.2.2.1
@[simp] theorem swapIterates_rho_update_from_solve (s : Solver d K) : (swapIterates s).work.rho_update_from_solve = s.work.rho_update_from_solve := (swapIterates_frame s).2.2.2.2.2.2.2.2.2.2.2.2.2.2.2.2.2.2.2.2.2.2.2.2.1
@[simp] theorem swapIterates_info (s : Solver d K) : (swapIterates s).info = s.info := (swapIterates_frame s).2.2.2.2.2.2.2.2.2.2.2.2.2.2.2.2.2.2.2.2.2.2.2.2.2.1
@[simp] theorem swapIterates_solution (s : Solver d K) : (swapIterates s).solution = s.solution := (swapIterates_frame s).2.2.2.2.2.2.2.2.2.2.2.2.2.2.2.2.2.2.2.2.2.2.2.2.2.2.1
@[simp] theorem swapIterates_ticks (s : Solver d K) : (swapIterates s).ticks = s.ticks := (swapIterates_frame s).2.2.2.2.2.2.2.2.2.2.2.2.2.2.2.2.2.2.2.2.2.2.2.2.2.2.2.1
@[simp] theorem swapIterates_polls (s : Solver d K) : (swapIterates s).polls = s.polls := (swapIterates_frame s).2.2.2.2.2.2.2.2.2.2.2.2.2.2.2.2.2.2.2.2.2.2.2.2.2.2.2.2.1
@[simp] theorem swapIterates_handler (s : Solver d K) : (swapIterates s).handler = s.handler := (swapIterates_frame s).2.2.2.2.2.2.2.2.2.2.2.2.2.2.2.2.2.2.2.2.2.2.2.2.2.2.2.2.2

theorem updateX_frame (xt : Vec K d.n) (s : Solver d K) :
  (updateX xt s).settings = s.settings ∧
  (updateX xt s).work.data = s.work.data ∧
  (updateX xt s).work.linsys = s.work.linsys ∧
  (updateX xt s).work.rho_vec = s.work.rho_vec ∧
  (updateX xt s).work.rho_inv_vec = s.work.rho_inv_vec ∧
  (updateX xt s).work.rho_inv = s.work.rho_inv ∧
  (updateX xt s).work.constr_type = s.work.constr_type ∧
  (updateX xt s).work.y = s.work.y ∧
  (updateX xt s).work.z = s.work.z ∧
  (updateX xt s).work.x_prev = s.work.x_prev ∧
  (updateX xt s).work.z_prev = s.work.z_prev ∧
  (updateX xt s).work.Ax = s.work.Ax ∧
  (updateX xt s).work.Px = s.work.Px ∧
  (updateX xt s).work.Aty = s.work.Aty ∧
  (updateX xt s).work.delta_y = s.work.delta_y ∧
  (updateX xt s).work.scaling = s.work.scaling ∧
  (updateX xt s).work.scaled_prim_res = s.work.scaled_prim_res ∧
  (updateX xt s).work.scaled_dual_res = s.work.scaled_dual_res ∧
  (updateX xt s).work.scaled_dual_gap = s.work.scaled_dual_gap ∧
  (updateX xt s).work.xtPx = s.work.xtPx ∧
  (updateX xt s).work.qtx = s.work.qtx ∧
  (updateX xt s).work.SC = s.work.SC ∧
  (updateX xt s).work.rho_updated = s.work.rho_updated ∧
  (updateX xt s).work.last_rel_kkt = s.work.last_rel_kkt ∧
  (updateX xt s).work.first_run = s.work.first_run ∧
  (updateX xt s).work.clear_update_time = s.work.clear_update_time ∧
  (updateX xt s).work.rho_update_from_solve = s.work.rho_update_from_solve ∧
  (updateX xt s).info = s.info ∧
  (updateX xt s).solution = s.solution ∧
  (updateX xt s).ticks = s.ticks ∧
  (updateX xt s).polls = s.polls ∧
  (updateX xt s).handler = s.handler := by
  frame_tac updateX
@[simp] theorem updateX_settings (xt : Vec K d.n) (s : Solver d K) : (updateX xt s).settings = s.settings := (updateX_frame xt s).1
@[simp] theorem updateX_data (xt : Vec K d.n) (s : Solver d K) : (updateX xt s).work.data = s.work.data := (updateX_frame xt s).2.1
@[simp] theorem updateX_linsys (xt : Vec K d.n) (s : Solver d K) : (updateX xt s).work.linsys = s.work.linsys := (updateX_frame xt s).2.2.1
@[simp] theorem updateX_rho_vec (xt : Vec K d.n) (s : Solver d K) : (updateX xt s).work.rho_vec = s.work.rho_vec := (updateX_frame xt s).2.2.2.1
@[simp] theorem updateX_rho_inv_vec (xt : Vec K d.n) (s : Solver d K) : (updateX xt s).work.rho_inv_vec = s.work.rho_inv_vec := (updateX_frame xt s).2.2.2.2.1
@[simp] theorem updateX_rho_inv (xt : Vec K d.n) (s : Solver d K) : (updateX xt s).work.rho_inv = s.work.rho_inv := (updateX_frame xt s).2.2.2.2.2.1
@[simp] theorem updateX_constr_type (xt : Vec K d.n) (s : Solver d K) : (updateX xt s).work.constr_type = s.work.constr_type := (updateX_frame xt s).2.2.2.2.2.2.1
@[simp] theorem updateX_y (xt : Vec K d.n) (s : Solver d K) : (updateX xt s).work.y = s.work.y := (updateX_frame xt s).2.2.2.2.2.2.2.1
@[simp] theorem updateX_z (xt : Vec K d.n) (s : Solver d K) : (updateX xt s).work.z = s.work.z := (updateX_frame xt s).2.2.2.2.2.2.2.2.1
@[simp] theorem updateX_x_prev (xt : Vec K d.n) (s : Solver d K) : (updateX xt s).work.x_prev = s.work.x_prev := (updateX_frame xt s).2.2.2.2.2.2.2.2.2.1
@[simp] theorem updateX_z_prev (xt : Vec K d.n) (s : Solver d K) : (updateX xt s).work.z_prev = s.work.z_prev := (updateX_frame xt s).2.2.2.2.2.2.2.2.2.2.1
@[simp] theorem updateX_Ax (xt : Vec K d.n) (s : Solver d K) : (updateX xt s).work.Ax = s.work.Ax := (updateX_frame xt s).2.2.2.2.2.2.2.2.2.2.2.1
@[simp] theorem updateX_Px (xt : Vec K d.n) (s : Solver d K) : (updateX xt s).work.Px = s.work.Px := (updateX_frame xt s).2.2.2.2.2.2.2.2.2.2.2.2.1
@[simp] theorem updateX_Aty (xt : Vec K d.n) (s : Solver d K) : (updateX xt s).work.Aty = s.work.Aty := (updateX_frame xt s).2.2.2.2.2.2.2.2.2.2.2.2.2.1
@[simp] theorem updateX_delta_y (xt : Vec K d.n) (s : Solver d K) : (updateX xt s).work.delta_y = s.work.delta_y := (updateX_frame xt s).2.2.2.2.2.2.2.2.2.2.2.2.2.2.1
@[simp] theorem updateX_scaling (xt : Vec K d.n) (s : Solver d K) : (updateX xt s).work.scaling = s.work.scaling := (updateX_frame xt s).2.2.2.2.2.2.2.2.2.2.2.2.2.2.2.1
@[simp] theorem updateX_scaled_prim_res (xt : Vec K d.n) (s : Solver d K) : (updateX xt s).work.scaled_prim_res = s.work.scaled_prim_res := (updateX_frame xt s).2.2.2.2.2.2.2.2.2.2.2.2.2.2.2.2.1
@[simp] theorem updateX_scaled_dual_res (xt : Vec K d.n) (s : Solver d K) : (updateX xt s).work.scaled_dual_res = s.work.scaled_dual_res := (updateX_frame xt s).2.2.2.2.2.2.2.2.2.2.2.2.2.2.2.2.2.1
@[simp] theorem updateX_scaled_dual_gap (xt : Vec K d.n) (s : Solver d K) : (updateX xt s).work.scaled_dual_gap = s.work.scaled_dual_gap := (updateX_frame xt s).2.2.2.2.2.2.2.2.2.2.2.2.2.2.2.2.2.2.1
@[simp] theorem updateX_xtPx (xt : Vec K d.n) (s : Solver d K) : (updateX xt s).work.xtPx = s.work.xtPx := (updateX_frame xt s).2.2.2.2.2.2.2.2.2.2.2.2.2.2.2.2.2.2.2.1
@[simp] theorem updateX_qtx (xt : Vec K d.n) (s : Solver d K) : (updateX xt s).work.qtx = s.work.qtx := (updateX_frame xt s).2.2.2.2.2.2.2.2.2.2.2.2.2.2.2.2.2.2.2.2.1
@[simp] theorem updateX_SC (xt : Vec K d.n) (s : Solver d K) : (updateX xt s).work.SC = s.work.SC := (updateX_frame xt s).2.2.2.2.2.2.2.2.2.2.2.2.2.2.2.2.2.2.2.2.2.1
@[simp] theorem updateX_rho_updated (xt : Vec K d.n) (s : Solver d K) : (updateX xt s).work.rho_updated = s.work.rho_updated := (updateX_frame xt s).2.2.2.2.2.2.2.2.2.2.2.2.2.2.2.2.2.2.2.2.2.2.1
@[simp] theorem updateX_last_rel_kkt (xt : Vec K d.n) (s : Solver d K) : (updateX xt s).work.last_rel_kkt = s.work.last_rel_kkt := (updateX_frame xt s).2.2.2.2.2.2.2.2.2.2.2.2.2.2.2.2.2.2.2.2.2.2.2.1
@[simp] theorem updateX_first_run (xt : Vec K d.n) (s : Solver d K) : (updateX xt s).work.first_run = s.work.first_run := (updateX_frame xt s).2.2.2.2.2.2.2.2.2.2.2.2.2.2.2.2.2.2.2.2.2.2.2.2.1
@[simp] theorem updateX_clear_update_time (xt : Vec K d.n) (s : Solver d K) : (updateX xt s).work.clear_update_time = s.work.clear_update_time := (updateX_frame xt s).2.2.2.2.2.2.2.2.2.2.2.2.2.2.2.2.2.2.2.2.2.2.2.2.2.1
@[simp] theorem updateX_rho_update_from_solve (xt : Vec K d.n) (s : Solver d K) : (updateX xt s).work.rho_update_from_solve = s.work.rho_update_from_solve := (updateX_frame xt s).2.2.2.2.2.2.2.2.2.2.2.2.2.2.2.2.2.2.2.2.2.2.2.2.2.2.1
@[simp] theorem updateX_info (xt : Vec K d.n) (s : Solver d K) : (updateX xt s).info = s.info := (updateX_frame xt s).2.2.2.2.2.2.2.2.2.2.2.2.2.2.2.2.2.2.2.2.2.2.2.2.2.2.2.1
@[simp] theorem updateX_solution (xt : Vec K d.n) (s : Solver d K) : (updateX xt s).solution = s.solution := (updateX_frame xt s).2.2.2.2.2.2.2.2.2.2.2.2.2.2.2.2.2.2.2.2.2.2.2.2.2.2.2.2.1
@[simp] theorem updateX_ticks (xt : Vec K d.n) (s : Solver d K) : (updateX xt s).ticks = s.ticks := (updateX_frame xt s).2.2.2.2.2.2.2.2.2.2.2.2.2.2.2.2.2.2.2.2.2.2.2.2.2.2.2.2.2.1
@[simp] theorem updateX_polls (xt : Vec K d.n) (s : Solver d K) : (updateX xt s).polls = s.polls := (updateX_frame xt s).2.2.2.2.2.2.2.2.2.2.2.2.2.2.2.2.2.2.2.2.2.2.2.2.2.2.2.2.2.2.1
@[simp] theorem updateX_handler (xt : Vec K d.n) (s : Solver d K) : (updateX xt s).handler = s.handler := (updateX_frame xt s).2.2.2.2.2.2.2.2.2.2.2.2.2.2.2.2.2.2.2.2.2.2.2.2.2.2.2.2.2.2.2

theorem updateZ_frame (zt : Vec K d.m) (s : Solver d K) :
  (updateZ zt s).settings = s.settings ∧
  (updateZ zt s).work.data = s.work.data ∧
  (updateZ zt s).work.linsys = s.work.linsys ∧
  (updateZ zt s).work.rho_vec = s.work.rho_vec ∧
  (updateZ zt s).work.rho_inv_vec = s.work.rho_inv_vec ∧
  (updateZ zt s).work.rho_inv = s.work.rho_inv ∧
  (updateZ zt s).work.constr_type = s.work.constr_type ∧
  (updateZ zt s).work.x = s.work.x ∧
  (updateZ zt s).work.y = s.work.y ∧
  (updateZ zt s).work.x_prev = s.work.x_prev ∧
  (updateZ zt s).work.z_prev = s.work.z_prev ∧
  (updateZ zt s).work.Ax = s.work.Ax ∧
  (updateZ zt s).work.Px = s.work.Px ∧
  (updateZ zt s).work.Aty = s.work.Aty ∧
  (updateZ zt s).work.delta_y = s.work.delta_y ∧
  (updateZ zt s).work.delta_x = s.work.delta_x ∧
  (updateZ zt s).work.scaling = s.work.scaling ∧
  (updateZ zt s).work.scaled_prim_res = s.work.scaled_prim_res ∧
  (updateZ zt s).work.scaled_dual_res = s.work.scaled_dual_res ∧
  (updateZ zt s).work.scaled_dual_gap = s.work.scaled_dual_gap ∧
  (updateZ zt s).work.xtPx = s.work.xtPx ∧
  (updateZ zt s).work.qtx = s.work.qtx ∧
  (updateZ zt s).work.SC = s.work.SC ∧
  (updateZ zt s).work.rho_updated = s.work.rho_updated ∧
  (updateZ zt s).work.last_rel_kkt = s.work.last_rel_kkt ∧
  (updateZ zt s).work.first_run = s.work.first_run ∧
  (updateZ zt s).work.clear_update_time = s.work.clear_update_time ∧
  (updateZ zt s).work.rho_update_from_solve = s.work.rho_update_from_solve ∧
  (updateZ zt s).info = s.info ∧
  (updateZ zt s).solution = s.solution ∧
  (updateZ zt s).ticks = s.ticks ∧
  (updateZ zt s).polls = s.polls ∧
  (updateZ zt s).handler = s.handler := by
  frame_tac updateZ
@[simp] theorem updateZ_settings (zt : Vec K d.m) (s : Solver d K) : (updateZ zt s).settings = s.settings := (updateZ_frame zt s).1
@[simp] theorem updateZ_data (zt : Vec K d.m) (s : Solver d K) : (updateZ zt s).work.data = s.work.data := (updateZ_frame zt s).2.1
@[simp] theorem updateZ_linsys (zt : Vec K d.m) (s : Solver d K) : (updateZ zt s).work.linsys = s.work.linsys := (updateZ_frame zt s).2.2.1
@[simp] theorem updateZ_rho_vec (zt : Vec K d.m) (s : Solver d K) : (updateZ zt s).work.rho_vec = s.work.rho_vec := (updateZ_frame zt s).2.2.2.1
@[simp] theorem updateZ_rho_inv_vec (zt : Vec K d.m) (s : Solver d K) : (updateZ zt s).work.rho_inv_vec = s.work.rho_inv_vec := (updateZ_frame zt s).2.2.2.2.1
@[simp] theorem updateZ_rho_inv (zt : Vec K d.m) (s : Solver d K) : (updateZ zt s).work.rho_inv = s.work.rho_inv := (updateZ_frame zt s).2.2.2.2.2.1
@[simp] theorem updateZ_constr_type (zt : Vec K d.m) (s : Solver d K) : (updateZ zt s).work.constr_type = s.work.constr_type := (updateZ_frame zt s).2.2.2.2.2.2.1
@[simp] theorem updateZ_x (zt : Vec K d.m) (s : Solver d K) : (updateZ zt s).work.x = s.work.x := (updateZ_frame zt s).2.2.2.2.2.2.2.1
@[simp] theorem updateZ_y (zt : Vec K d.m) (s : Solver d K) : (updateZ zt s).work.y = s.work.y := (updateZ_frame zt s).2.2.2.2.2.2.2.2.1
@[simp] theorem updateZ_x_prev (zt : Vec K d.m) (s : Solver d K) : (updateZ zt s).work.x_prev = s.work.x_prev := (updateZ_frame zt s).2.2.2.2.2.2.2.2.2.1
@[simp] theorem updateZ_z_prev (zt : Vec K d.m) (s : Solver d K) : (updateZ zt s).work.z_prev = s.work.z_prev := (updateZ_frame zt s).2.2.2.2.2.2.2.2.2.2.1
@[simp] theorem updateZ_Ax (zt : Vec K d.m) (s : Solver d K) : (updateZ zt s).work.Ax = s.work.Ax := (updateZ_frame zt s).2.2.2.2.2.2.2.2.2.2.2.1
@[simp] theorem updateZ_Px (zt : Vec K d.m) (s : Solver d K) : (updateZ zt s).work.Px = s.work.Px := (updateZ_frame zt s).2.2.2.2.2.2.2.2.2.2.2.2.1
@[simp] theorem updateZ_Aty (zt : Vec K d.m) (s : Solver d K) : (updateZ zt s).work.Aty = s.work.Aty := (updateZ_frame zt s).2.2.2.2.2.2.2.2.2.2.2.2.2.1
@[simp] theorem updateZ_delta_y (zt : Vec K d.m) (s : Solver d K) : (updateZ zt s).work.delta_y = s.work.delta_y := (updateZ_frame zt s).2.2.2.2.2.2.2.2.2.2.2.2.2.2.1
@[simp] theorem updateZ_delta_x (zt : Vec K d.m) (s : Solver d K) : (updateZ zt s).work.delta_x = s.work.delta_x := (updateZ_frame zt s).2.2.2.2.2.2.2.2.2.2.2.2.2.2.2.1
@[simp] theorem updateZ_scaling (zt : Vec K d.m) (s : Solver d K) : (updateZ zt s).work.scaling = s.work.scaling := (updateZ_frame zt s).2.2.2.2.2.2.2.2.2.2.2.2.2.2.2.2.1
@[simp] theorem updateZ_scaled_prim_res (zt : Vec K d.m) (s : Solver d K) : (updateZ zt s).work.scaled_prim_res = s.work.scaled_prim_res := (updateZ_frame zt s).2.2.2.2.2.2.2.2.2.2.2.2.2.2.2.2.2.1
@[simp] theorem updateZ_scaled_dual_res (zt : Vec K d.m) (s : Solver d K) : (updateZ zt s).work.scaled_dual_res = s.work.scaled_dual_res := (updateZ_frame zt s).2.2.2.2.2.2.2.2.2.2.2.2.2.2.2.2.2.2.1
@[simp] theorem updateZ_scaled_dual_gap (zt : Vec K d.m) (s : Solver d K) : (updateZ zt s).work.scaled_dual_gap = s.work.scaled_dual_gap := (updateZ_frame zt s).2.2.2.2.2.2.2.2.2.2.2.2.2.2.2.2.2.2.2.1
@[simp] theorem updateZ_xtPx (zt : Vec K d.m) (s : Solver d K) : (updateZ zt s).work.xtPx = s.work.xtPx := (updateZ_frame zt s).2.2.2.2.2.2.2.2.2.2.2.2.2.2.2.2.2.2.2.2.1
@[simp] theorem updateZ_qtx (zt : Vec K d.m) (s : Solver d K) : (updateZ zt s).work.qtx = s.work.qtx := (updateZ_frame zt s).2.2.2.2.2.2.2.2.2.2.2.2.2.2.2.2.2.2.2.2.2.1
@[simp] theorem updateZ_SC (zt : Vec K d.m) (s : Solver d K) : (updateZ zt s).work.SC = s.work.SC := (updateZ_frame zt s).2.2.2.2.2.2.2.2.2.2.2.2.2.2.2.2.2.2.2.2.2.2.1
@[simp] theorem updateZ_rho_updated (zt : Vec K d.m) (s : Solver d K) : (updateZ zt s).work.rho_updated = s.work.rho_updated := (updateZ_frame zt s).2.2.2.2.2.2.2.2.2.2.2.2.2.2.2.2.2.2.2.2.2.2.2.1
@[simp] theorem updateZ_last_rel_kkt (zt : Vec K d.m) (s : Solver d K) : (updateZ zt s).work.last_rel_kkt = s.work.last_rel_kkt := (updateZ_frame zt s).2.2.2.2.2.2.2.2.2.2.2.2.2.2.2.2.2.2.2.2.2.2.2.2.1
@[simp] theorem updateZ_first_run (zt : Vec K d.m) (s : Solver d K) : (updateZ zt s).work.first_run = s.work.first_run := (updateZ_frame zt s).2.2.2.2.2.2.2.2.2.2.2.2.2.2.2.2.2.2.2.2.2.2.2.2.2.1
@[simp] theorem updateZ_clear_update_time (zt : Vec K d.m) (s : Solver d K) : (updateZ zt s).work.clear_update_time = s.work.clear_update_time := (updateZ_frame zt s).2.2.2.2.2.2.2.2.2.2.2.2.2.2.2.2.2.2.2.2.2.2.2.2.2.2.1
@[simp] theorem updateZ_rho_update_from_solve (zt : Vec K d.m) (s : Solver d K) : (updateZ zt s).work.rho_update_from_solve = s.work.rho_update_from_solve := (updateZ_frame zt s).2.2.2.2.2.2.2.2.2.2.2.2.2.2.2.2.2.2.2.2.2.2.2.2.2.2.2.1
@[simp] theorem updateZ_info (zt : Vec K d.m) (s : Solver d K) : (updateZ zt s).info = s.info := (updateZ_frame zt s).2.2.2.2.2.2.2.2.2.2.2.2.2.2.2.2.2.2.2.2.2.2.2.2.2.2.2.2.1
@[simp] theorem updateZ_solution (zt : Vec K d.m) (s : Solver d K) : (updateZ zt s).solution = s.solution := (updateZ_frame zt s).2.2.2.2.2.2.2.2.2.2.2.2.2.2.2.2.2.2.2.2.2.2.2.2.2.2.2.2.2.1
@[simp] theorem updateZ_ticks (zt : Vec K d.m) (s : Solver d K) : (updateZ zt s).ticks = s.ticks := (updateZ_frame zt s).2.2.2.2.2.2.2.2.2.2.2.2.2.2.2.2.2.2.2.2.2.2.2.2.2.2.2.2.2.2.1
@[simp] theorem updateZ_polls (zt : Vec K d.m) (s : Solver d K) : (updateZ zt s).polls = s.polls := (updateZ_frame zt s).2.2.2.2.2.2.2.2.2.2.2.2.2.2.2.2.2.2.2.2.2.2.2.2.2.2.2.2.2.2.2.1
@[simp] theorem updateZ_handler (zt : Vec K d.m) (s : Solver d K) : (updateZ zt s).handler = s.handler := (updateZ_frame zt s).2.2.2.2.2.2.2.2.2.2.2.2.2.2.2.2.2.2.2.2.2.2.2.2.2.2.2.2.2.2.2.2

theorem updateY_frame (zt : Vec K d.m) (s : Solver d K) :
  (updateY zt s).settings = s.settings ∧
  (updateY zt s).work.data = s.work.data ∧
  (updateY zt s).work.linsys = s.work.linsys ∧
  (updateY zt s).work.rho_vec = s.work.rho_vec ∧
  (updateY zt s).work.rho_inv_vec = s.work.rho_inv_vec ∧
  (updateY zt s).work.rho_inv = s.work.rho_inv ∧
  (updateY zt s).work.constr_type = s.work.constr_type ∧
  (updateY zt s).work.x = s.work.x ∧
  (updateY zt s).work.z = s.work.z ∧
  (updateY zt s).work.x_prev = s.work.x_prev ∧
  (updateY zt s).work.z_prev = s.work.z_prev ∧
  (updateY zt s).work.Ax = s.work.Ax ∧
  (updateY zt s).work.Px = s.work.Px ∧
  (updateY zt s).work.Aty = s.work.Aty ∧
  (updateY zt s).work.delta_x = s.work.delta_x ∧
  (updateY zt s).work.scaling = s.work.scaling ∧
  (updateY zt s).work.scaled_prim_res = s.work.scaled_prim_res ∧
  (updateY zt s).work.scaled_dual_res = s.work.scaled_dual_res ∧
  (updateY zt s).work.scaled_dual_gap = s.work.scaled_dual_gap ∧
  (updateY zt s).work.xtPx = s.work.xtPx ∧
  (updateY zt s).work.qtx = s.work.qtx ∧
  (updateY zt s).work.SC = s.work.SC ∧
  (updateY zt s).work.rho_updated = s.work.rho_updated ∧
  (updateY zt s).work.last_rel_kkt = s.work.last_rel_kkt ∧
  (updateY zt s).work.first_run = s.work.first_run ∧
  (updateY zt s).work.clear_update_time = s.work.clear_update_time ∧
  (updateY zt s).work.rho_update_from_solve = s.work.rho_update_from_solve ∧
  (updateY zt s).info = s.info ∧
  (updateY zt s).solution = s.solution ∧
  (updateY zt s).ticks = s.ticks ∧
  (updateY zt s).polls = s.polls ∧
  (updateY zt s).handler = s.handler := by
  frame_tac updateY
@[simp] theorem updateY_settings (zt : Vec K d.m) (s : Solver d K) : (updateY zt s).settings = s.settings := (updateY_frame zt s).1
@[simp] theorem updateY_data (zt : Vec K d.m) (s : Solver d K) : (updateY zt s).work.data = s.work.data := (updateY_frame zt s).2.1
@[simp] theorem updateY_linsys (zt : Vec K d.m) (s : Solver d K) : (updateY zt s).work.linsys = s.work.linsys := (updateY_frame zt s).2.2.1
@[simp] theorem updateY_rho_vec (zt : Vec K d.m) (s : Solver d K) : (updateY zt s).work.rho_vec = s.work.rho_vec := (updateY_frame zt s).2.2.2.1
@[simp] theorem updateY_rho_inv_vec (zt : Vec K d.m) (s : Solver d K) : (updateY zt s).work.rho_inv_vec = s.work.rho_inv_vec := (updateY_frame zt s).2.2.2.2.1
@[simp] theorem updateY_rho_inv (zt : Vec K d.m) (s : Solver d K) : (updateY zt s).work.rho_inv = s.work.rho_inv := (updateY_frame zt s).2.2.2.2.2.1
@[simp] theorem updateY_constr_type (zt : Vec K d.m) (s : Solver d K) : (updateY zt s).work.constr_type = s.work.constr_type := (updateY_frame zt s).2.2.2.2.2.2.1
@[simp] theorem updateY_x (zt : Vec K d.m) (s : Solver d K) : (updateY zt s).work.x = s.work.x := (updateY_frame zt s).2.2.2.2.2.2.2.1
@[simp] theorem updateY_z (zt : Vec K d.m) (s : Solver d K) : (updateY zt s).work.z = s.work.z := (updateY_frame zt s).2.2.2.2.2.2.2.2.1
@[simp] theorem updateY_x_prev (zt : Vec K d.m) (s : Solver d K) : (updateY zt s).work.x_prev = s.work.x_prev := (updateY_frame zt s).2.2.2.2.2.2.2.2.2.1
@[simp] theorem updateY_z_prev (zt : Vec K d.m) (s : Solver d K) : (updateY zt s).work.z_prev = s.work.z_prev := (updateY_frame zt s).2.2.2.2.2.2.2.2.2.2.1
@[simp] theorem updateY_Ax (zt : Vec K d.m) (s : Solver d K) : (updateY zt s).work.Ax = s.work.Ax := (updateY_frame zt s).2.2.2.2.2.2.2.2.2.2.2.1
@[simp] theorem updateY_Px (zt : Vec K d.m) (s : Solver d K) : (updateY zt s).work.Px = s.work.Px := (updateY_frame zt s).2.2.2.2.2.2.2.2.2.2.2.2.1
@[simp] theorem updateY_Aty (zt : Vec K d.m) (s : Solver d K) : (updateY zt s).work.Aty = s.work.Aty := (updateY_frame zt s).2.2.2.2.2.2.2.2.2.2.2.2.2.1
@[simp] theorem updateY_delta_x (zt : Vec K d.m) (s : Solver d K) : (updateY zt s).work.delta_x = s.work.delta_x := (updateY_frame zt s).2.2.2.2.2.2.2.2.2.2.2.2.2.2.1
@[simp] theorem updateY_scaling (zt : Vec K d.m) (s : Solver d K) : (updateY zt s).work.scaling = s.work.scaling := (updateY_frame zt s).2.2.2.2.2.2.2.2.2.2.2.2.2.2.2.1
@[simp] theorem updateY_scaled_prim_res (zt : Vec K d.m) (s : Solver d K) : (updateY zt s).work.scaled_prim_res = s.work.scaled_prim_res := (updateY_frame zt s).2.2.2.2.2.2.2.2.2.2.2.2.2.2.2.2.1
@[simp] theorem updateY_scaled_dual_res (zt : Vec K d.m) (s : Solver d K) : (updateY zt s).work.scaled_dual_res = s.work.scaled_dual_res := (updateY_frame zt s).2.2.2.2.2.2.2.2.2.2.2.2.2.2.2.2.2.1
@[simp] theorem updateY_scaled_dual_gap (zt : Vec K d.m) (s : Solver d K) : (updateY zt s).work.scaled_dual_gap = s.work.scaled_dual_gap := (updateY_frame zt s).2.2.2.2.2.2.2.2.2.2.2.2.2.2.2.2.2.2.1
@[simp] theorem updateY_xtPx (zt : Vec K d.m) (s : Solver d K) : (updateY zt s).work.xtPx = s.work.xtPx := (updateY_frame zt s).2.2.2.2.2.2.2.2.2.2.2.2.2.2.2.2.2.2.2.1
@[simp] theorem updateY_qtx (zt : Vec K d.m) (s : Solver d K) : (updateY zt s).work.qtx = s.work.qtx := (updateY_frame zt s).2.2.2.2.2.2.2.2.2.2.2.2.2.2.2.2.2.2.2.2.1
@[simp] theorem updateY_SC (zt : Vec K d.m) (s : Solver d K) : (updateY zt s).work.SC = s.work.SC := (updateY_frame zt s).2.2.2.2.2.2.2.2.2.2.2.2.2.2.2.2.2.2.2.2.2.1
@[simp] theorem updateY_rho_updated (zt : Vec K d.m) (s : Solver d K) : (updateY zt s).work.rho_updated = s.work.rho_updated := (updateY_frame zt s).2.2.2.2.2.2.2.2.2.2.2.2.2.2.2.2.2.2.2.2.2.2.1
@[simp] theorem updateY_last_rel_kkt (zt : Vec K d.m) (s : Solver d K) : (updateY zt s).work.last_rel_kkt = s.work.last_rel_kkt := (updateY_frame zt s).2.2.2.2.2.2.2.2.2.2.2.2.2.2.2.2.2.2.2.2.2.2.2.1
@[simp] theorem updateY_first_run (zt : Vec K d.m) (s : Solver d K) : (updateY zt s).work.first_run = s.work.first_run := (updateY_frame zt s).2.2.2.2.2.2.2.2.2.2.2.2.2.2.2.2.2.2.2.2.2.2.2.2.1
@[simp] theorem updateY_clear_update_time (zt : Vec K d.m) (s : Solver d K) : (updateY zt s).work.clear_update_time = s.work.clear_update_time := (updateY_frame zt s).2.2.2.2.2.2.2.2.2.2.2.2.2.2.2.2.2.2.2.2.2.2.2.2.2.1
@[simp] theorem updateY_rho_update_from_solve (zt : Vec K d.m) (s : Solver d K) : (updateY zt s).work.rho_update_from_solve = s.work.rho_update_from_solve := (updateY_frame zt s).2.2.2.2.2.2.2.2.2.2.2.2.2.2.2.2.2.2.2.2.2.2.2.2.2.2.1
@[simp] theorem updateY_info (zt : Vec K d.m) (s : Solver d K) : (updateY zt s).info = s.info := (updateY_frame zt s).2.2.2.2.2.2.2.2.2.2.2.2.2.2.2.2.2.2.2.2.2.2.2.2.2.2.2.1
@[simp] theorem updateY_solution (zt : Vec K d.m) (s : Solver d K) : (updateY zt s).solution = s.solution := (updateY_frame zt s).2.2.2.2.2.2.2.2.2.2.2.2.2.2.2.2.2.2.2.2.2.2.2.2.2.2.2.2.1
@[simp] theorem updateY_ticks (zt : Vec K d.m) (s : Solver d K) : (updateY zt s).ticks = s.ticks := (updateY_frame zt s).2.2.2.2.2.2.2.2.2.2.2.2.2.2.2.2.2.2.2.2.2.2.2.2.2.2.2.2.2.1
@[simp] theorem updateY_polls (zt : Vec K d.m) (s : Solver d K) : (updateY zt s).polls = s.polls := (updateY_frame zt s).2.2.2.2.2.2.2.2.2.2.2.2.2.2.2.2.2.2.2.2.2.2.2.2.2.2.2.2.2.2.1
@[simp] theorem updateY_handler (zt : Vec K d.m) (s : Solver d K) : (updateY zt s).handler = s.handler := (updateY_frame zt s).2.2.2.2.2.2.2.2.2.2.2.2.2.2.2.2.2.2.2.2.2.2.2.2.2.2.2.2.2.2.2

theorem admmStep_frame (env : Env d K) (s : Solver d K) :
  (admmStep env s).settings = s.settings ∧
  (admmStep env s).work.data = s.work.data ∧
  (admmStep env s).work.linsys = s.work.linsys ∧
  (admmStep env s).work.rho_vec = s.work.rho_vec ∧
  (admmStep env s).work.rho_inv_vec = s.work.rho_inv_vec ∧
  (admmStep env s).work.rho_inv = s.work.rho_inv ∧
  (admmStep env s).work.constr_type = s.work.constr_type ∧
  (admmStep env s).work.Ax = s.work.Ax ∧
  (admmStep env s).work.Px = s.work.Px ∧
  (admmStep env s).work.Aty = s.work.Aty ∧
  (admmStep env s).work.scaling = s.work.scaling ∧
  (admmStep env s).work.scaled_prim_res = s.work.scaled_prim_res ∧
  (admmStep env s).work.scaled_dual_res = s.work.scaled_dual_res ∧
  (admmStep env s).work.scaled_dual_gap = s.work.scaled_dual_gap ∧
  (admmStep env s).work.xtPx = s.work.xtPx ∧
  (admmStep env s).work.qtx = s.work.qtx ∧
  (admmStep env s).work.SC = s.work.SC ∧
  (admmStep env s).work.rho_updated = s.work.rho_updated ∧
  (admmStep env s).work.last_rel_kkt = s.work.last_rel_kkt ∧
  (admmStep env s).work.first_run = s.work.first_run ∧
  (admmStep env s).work.clear_update_time = s.work.clear_update_time ∧
  (admmStep env s).work.rho_update_from_solve = s.work.rho_update_from_solve ∧
  (admmStep env s).info = s.info ∧
  (admmStep env s).solution = s.solution ∧
  (admmStep env s).ticks = s.ticks ∧
  (admmStep env s).polls = s.polls ∧
  (admmStep env s).handler = s.handler := by
  unfold admmStep; dsimp only; simp
@[simp] theorem admmStep_settings (env : Env d K) (s : Solver d K) : (admmStep env s).settings = s.settings := (admmStep_frame env s).1
@[simp] theorem admmStep_data (env : Env d K) (s : Solver d K) : (admmStep env s).work.data = s.work.data := (admmStep_frame env s).2.1
@[simp] theorem admmStep_linsys (env : Env d K) (s : Solver d K) : (admmStep env s).work.linsys = s.work.linsys := (admmStep_frame env s).2.2.1
@[simp] theorem admmStep_rho_vec (env : Env d K) (s : Solver d K) : (admmStep env s).work.rho_vec = s.work.rho_vec := (admmStep_frame env s).2.2.2.1
@[simp] theorem admmStep_rho_inv_vec (env : Env d K) (s : Solver d K) : (admmStep env s).work.rho_inv_vec = s.work.rho_inv_vec := (admmStep_frame env s).2.2.2.2.1
@[simp] theorem admmStep_rho_inv (env : Env d K) (s : Solver d K) : (admmStep env s).work.rho_inv = s.work.rho_inv := (admmStep_frame env s).2.2.2.2.2.1
@[simp] theorem admmStep_constr_type (env : Env d K) (s : Solver d K) : (admmStep env s).work.constr_type = s.work.constr_type := (admmStep_frame env s).2.2.2.2.2.2.1
@[simp] theorem admmStep_Ax (env : Env d K) (s : Solver d K) : (admmStep env s).work.Ax = s.work.Ax := (admmStep_frame env s).2.2.2.2.2.2.2.1
@[simp] theorem admmStep_Px (env : Env d K) (s : Solver d K) : (admmStep env s).work.Px = s.work.Px := (admmStep_frame env s).2.2.2.2.2.2.2.2.1
@[simp] theorem admmStep_Aty (env : Env d K) (s : Solver d K) : (admmStep env s).work.Aty = s.work.Aty := (admmStep_frame env s).2.2.2.2.2.2.2.2.2.1
@[simp] theorem admmStep_scaling (env : Env d K) (s : Solver d K) : (admmStep env s).work.scaling = s.work.scaling := (admmStep_frame env s).2.2.2.2.2.2.2.2.2.2.1
@[simp] theorem admmStep_scaled_prim_res (env : Env d K) (s : Solver d K) : (admmStep env s).work.scaled_prim_res = s.work.scaled_prim_res := (admmStep_frame env s).2.2.2.2.2.2.2.2.2.2.2.1
@[simp] theorem admmStep_scaled_dual_res (env : Env d K) (s : Solver d K) : (admmStep env s).work.scaled_dual_res = s.work.scaled_dual_res := (admmStep_frame env s).2.2.2.2.2.2.2.2.2.2.2.2.1
@[simp] theorem admmStep_scaled_dual_gap (env : Env d K) (s : Solver d K) : (admmStep env s).work.scaled_dual_gap = s.work.scaled_dual_gap := (admmStep_frame env s).2.2.2.2.2.2.2.2.2.2.2.2.2.1
@[simp] theorem admmStep_xtPx (env : Env d K) (s : Solver d K) : (admmStep env s).work.xtPx = s.work.xtPx := (admmStep_frame env s).2.2.2.2.2.2.2.2.2.2.2.2.2.2.1
@[simp] theorem admmStep_qtx (env : Env d K) (s : Solver d K) : (admmStep env s).work.qtx = s.work.qtx := (admmStep_frame env s).2.2.2.2.2.2.2.2.2.2.2.2.2.2.2.1
@[simp] theorem admmStep_SC (env : Env d K) (s : Solver d K) : (admmStep env s).work.SC = s.work.SC := (admmStep_frame env s).2.2.2.2.2.2.2.2.2.2.2.2.2.2.2.2.1
@[simp] theorem admmStep_rho_updated (env : Env d K) (s : Solver d K) : (admmStep env s).work.rho_updated = s.work.rho_updated := (admmStep_frame env s).2.2.2.2.2.2.2.2.2.2.2.2.2.2.2.2.2.1
@[simp] theorem admmStep_last_rel_kkt (env : Env d K) (s : Solver d K) : (admmStep env s).work.last_rel_kkt = s.work.last_rel_kkt := (admmStep_frame env s).2.2.2.2.2.2.2.2.2.2.2.2.2.2.2.2.2.2.1
@[simp] theorem admmStep_first_run (env : Env d K) (s : Solver d K) : (admmStep env s).work.first_run = s.work.first_run := (admmStep_frame env s).2.2.2.2.2.2.2.2.2.2.2.2.2.2.2.2.2.2.2.1
@[simp] theorem admmStep_clear_update_time (env : Env d K) (s : Solver d K) : (admmStep env s).work.clear_update_time = s.work.clear_update_time := (admmStep_frame env s).2.2.2.2.2.2.2.2.2.2.2.2.2.2.2.2.2.2.2.2.1
@[simp] theorem admmStep_rho_update_from_solve (env : Env d K) (s : Solver d K) : (admmStep env s).work.rho_update_from_solve = s.work.rho_update_from_solve := (admmStep_frame env s).2.2.2.2.2.2.2.2.2.2.2.2.2.2.2.2.2.2.2.2.2.1
@[simp] theorem admmStep_info (env : Env d K) (s : Solver d K) : (admmStep env s).info = s.info := (admmStep_frame env s).2.2.2.2.2.2.2.2.2.2.2.2.2.2.2.2.2.2.2.2.2.2.1
@[simp] theorem admmStep_solution (env : Env d K) (s : Solver d K) : (admmStep env s).solution = s.solution := (admmStep_frame env s).2.2.2.2.2.2.2.2.2.2.2.2.2.2.2.2.2.2.2.2.2.2.2.1
@[simp] theorem admmStep_ticks (env : Env d K) (s : Solver d K) : (admmStep env s).ticks = s.ticks := (admmStep_frame env s).2.2.2.2.2.2.2.2.2.2.2.2.2.2.2.2.2.2.2.2.2.2.2.2.1
@[simp] theorem admmStep_polls (env : Env d K) (s : Solver d K) : (admmStep env s).polls = s.polls := (admmStep_frame env s).2.2.2.2.2.2.2.2.2.2.2.2.2.2.2.2.2.2.2.2.2.2.2.2.2.1
@[simp] theorem admmStep_handler (env : Env d K) (s : Solver d K) : (admmStep env s).handler = s.handler := (admmStep_frame env s).2.2.2.2.2.2.2.2.2.2.2.2.2.2.2.2.2.2.2.2.2.2.2.2.2.2

theorem computeObj_frame (s : Solver d K) (x : Vec K d.n) (y : Vec K d.m) :
  ((computeObj s x y).1).settings = s.settings ∧
  ((computeObj s x y).1).work.data = s.work.data ∧
  ((computeObj s x y).1).work.linsys = s.work.linsys ∧
  ((computeObj s x y).1).work.rho_vec = s.work.rho_vec ∧
  ((computeObj s x y).1).work.rho_inv_vec = s.work.rho_inv_vec ∧
  ((computeObj s x y).1).work.rho_inv = s.work.rho_inv ∧
  ((computeObj s x y).1).work.constr_type = s.work.constr_type ∧
  ((computeObj s x y).1).work.x = s.work.x ∧
  ((computeObj s x y).1).work.y = s.work.y ∧
  ((computeObj s x y).1).work.z = s.work.z ∧
  ((computeObj s x y).1).work.x_prev = s.work.x_prev ∧
  ((computeObj s x y).1).work.Ax = s.work.Ax ∧
  ((computeObj s x y).1).work.Px = s.work.Px ∧
  ((computeObj s x y).1).work.Aty = s.work.Aty ∧
  ((computeObj s x y).1).work.delta_y = s.work.delta_y ∧
  ((computeObj s x y).1).work.delta_x = s.work.delta_x ∧
  ((computeObj s x y).1).work.scaling = s.work.scaling ∧
  ((computeObj s x y).1).work.scaled_prim_res = s.work.scaled_prim_res ∧
  ((computeObj s x y).1).work.scaled_dual_res = s.work.scaled_dual_res ∧
  ((computeObj s x y).1).work.rho_updated = s.work.rho_updated ∧
  ((computeObj s x y).1).work.last_rel_kkt = s.work.last_rel_kkt ∧
  ((computeObj s x y).1).work.first_run = s.work.first_run ∧
  ((computeObj s x y).1).work.clear_update_time = s.work.clear_update_time ∧
  ((computeObj s x y).1).work.rho_update_from_solve = s.work.rho_update_from_solve ∧
  ((computeObj s x y).1).info = s.info ∧
  ((computeObj s x y).1).solution = s.solution ∧
  ((computeObj s x y).1).ticks = s.ticks ∧
  ((computeObj s x y).1).polls = s.polls ∧
  ((computeObj s x y).1).handler = s.handler := by
  frame_tac computeObj
@[simp] theorem computeObj_settings (s : Solver d K) (x : Vec K d.n) (y : Vec K d.m) : ((computeObj s x y).1).settings = s.settings := (computeObj_frame s x y).1
@[simp] theorem computeObj_data (s : Solver d K) (x : Vec K d.n) (y : Vec K d.m) : ((computeObj s x y).1).work.data = s.work.data := (computeObj_frame s x y).2.1
@[simp] theorem computeObj_linsys (s : Solver d K) (x : Vec K d.n) (y : Vec K d.m) : ((computeObj s x y).1).work.linsys = s.work.linsys := (computeObj_frame s x y).2.2.1
@[simp] theorem computeObj_rho_vec (s : Solver d K) (x : Vec K d.n) (y : Vec K d.m) : ((computeObj s x y).1).work.rho_vec = s.work.rho_vec := (computeObj_frame s x y).2.2.2.1
@[simp] theorem computeObj_rho_inv_vec (s : Solver d K) (x : Vec K d.n) (y : Vec K d.m) : ((computeObj s x y).1).work.rho_inv_vec = s.work.rho_inv_vec := (computeObj_frame s x y).2.2.2.2.1
@[simp] theorem computeObj_rho_inv (s : Solver d K) (x : Vec K d.n) (y : Vec K d.m) : ((computeObj s x y).1).work.rho_inv = s.work.rho_inv := (computeObj_frame s x y).2.2.2.2.2.1
@[simp] theorem computeObj_constr_type (s : Solver d K) (x : Vec K d.n) (y : Vec K d.m) : ((computeObj s x y).1).work.constr_type = s.work.constr_type := (computeObj_frame s x y).2.2.2.2.2.2.1
@[simp] theorem computeObj_x (s : Solver d K) (x : Vec K d.n) (y : Vec K d.m) : ((computeObj s x y).1).work.x = s.work.x := (computeObj_frame s x y).2.2.2.2.2.2.2.1
@[simp] theorem computeObj_y (s : Solver d K) (x : Vec K d.n) (y : Vec K d.m) : ((computeObj s x y).1).work.y = s.work.y := (computeObj_frame s x y).2.2.2.2.2.2.2.2.1
@[simp] theorem computeObj_z (s : Solver d K) (x : Vec K d.n) (y : Vec K d.m) : ((computeObj s x y).1).work.z = s.work.z := (computeObj_frame s x y).2.2.2.2.2.2.2.2.2.1
@[simp] theorem computeObj_x_prev (s : Solver d K) (x : Vec K d.n) (y : Vec K d.m) : ((computeObj s x y).1).work.x_prev = s.work.x_prev := (computeObj_frame s x y).2.2.2.2.2.2.2.2.2.2.1
@[simp] theorem computeObj_Ax (s : Solver d K) (x : Vec K d.n) (y : Vec K d.m) : ((computeObj s x y).1).work.Ax = s.work.Ax := (computeObj_frame s x y).2.2.2.2.2.2.2.2.2.2.2.1
@[simp] theorem computeObj_Px (s : Solver d K) (x : Vec K d.n) (y : Vec K d.m) : ((computeObj s x y).1).work.Px = s.work.Px := (computeObj_frame s x y).2.2.2.2.2.2.2.2.2.2.2.2.1
@[simp] theorem computeObj_Aty (s : Solver d K) (x : Vec K d.n) (y : Vec K d.m) : ((computeObj s x y).1).work.Aty = s.work.Aty := (computeObj_frame s x y).2.2.2.2.2.2.2.2.2.2.2.2.2.1
@[simp] theorem computeObj_delta_y (s : Solver d K) (x : Vec K d.n) (y : Vec K d.m) : ((computeObj s x y).1).work.delta_y = s.work.delta_y := (computeObj_frame s x y).2.2.2.2.2.2.2.2.2.2.2.2.2.2.1
@[simp] theorem computeObj_delta_x (s : Solver d K) (x : Vec K d.n) (y : Vec K d.m) : ((computeObj s x y).1).work.delta_x = s.work.delta_x := (computeObj_frame s x y).2.2.2.2.2.2.2.2.2.2.2.2.2.2.2.1
@[simp] theorem computeObj_scaling (s : Solver d K) (x : Vec K d.n) (y : Vec K d.m) : ((computeObj s x y).1).work.scaling = s.work.scaling := (computeObj_frame s x y).2.2.2.2.2.2.2.2.2.2.2.2.2.2.2.2.1
@[simp] theorem computeObj_scaled_prim_res (s : Solver d K) (x : Vec K d.n) (y : Vec K d.m) : ((computeObj s x y).1).work.scaled_prim_res = s.work.scaled_prim_res := (computeObj_frame s x y).2.2.2.2.2.2.2.2.2.2.2.2.2.2.2.2.2.1
@[simp] theorem computeObj_scaled_dual_res (s : Solver d K) (x : Vec K d.n) (y : Vec K d.m) : ((computeObj s x y).1).work.scaled_dual_res = s.work.scaled_dual_res := (computeObj_frame s x y).2.2.2.2.2.2.2.2.2.2.2.2.2.2.2.2.2.2.1
@[simp] theorem computeObj_rho_updated (s : Solver d K) (x : Vec K d.n) (y : Vec K d.m) : ((computeObj s x y).1).work.rho_updated = s.work.rho_updated := (computeObj_frame s x y).2.2.2.2.2.2.2.2.2.2.2.2.2.2.2.2.2.2.2.1
@[simp] theorem computeObj_last_rel_kkt (s : Solver d K) (x : Vec K d.n) (y : Vec K d.m) : ((computeObj s x y).1).work.last_rel_kkt = s.work.last_rel_kkt := (computeObj_frame s x y).2.2.2.2.2.2.2.2.2.2.2.2.2.2.2.2.2.2.2.2.1
@[simp] theorem computeObj_first_run (s : Solver d K) (x : Vec K d.n) (y : Vec K d.m) : ((computeObj s x y).1).work.first_run = s.work.first_run := (computeObj_frame s x y).2.2.2.2.2.2.2.2.2.2.2.2.2.2.2.2.2.2.2.2.2.1
@[simp] theorem computeObj_clear_update_time (s : Solver d K) (x : Vec K d.n) (y : Vec K d.m) : ((computeObj s x y).1).work.clear_update_time = s.work.clear_update_time := (computeObj_frame s x y).2.2.2.2.2.2.2.2.2.2.2.2.2.2.2.2.2.2.2.2.2.2.1
@[simp] theorem computeObj_rho_update_from_solve (s : Solver d K) (x : Vec K d.n) (y : Vec K d.m) : ((computeObj s x y).1).work.rho_update_from_solve = s.work.rho_update_from_solve := (computeObj_frame s x y).2.2.2.2.2.2.2.2.2.2.2.2.2.2.2.2.2.2.2.2.2.2.2.1
@[simp] theorem computeObj_info (s : Solver d K) (x : Vec K d.n) (y : Vec K d.m) : ((computeObj s x y).1).info = s.info := (computeObj_frame s x y).2.2.2.2.2.2.2.2.2.2.2.2.2.2.2.2.2.2.2.2.2.2.2.2.1
@[simp] theorem computeObj_solution (s : Solver d K) (x : Vec K d.n) (y : Vec K d.m) : ((computeObj s x y).1).solution = s.solution := (computeObj_frame s x y).2.2.2.2.2.2.2.2.2.2.2.2.2.2.2.2.2.2.2.2.2.2.2.2.2.1
@[simp] theorem computeObj_ticks (s : Solver d K) (x : Vec K d.n) (y : Vec K d.m) : ((computeObj s x y).1).ticks = s.ticks := (computeObj_frame s x y).2.2.2.2.2.2.2.2.2.2.2.2.2.2.2.2.2.2.2.2.2.2.2.2.2.2.1
@[simp] theorem computeObj_polls (s : Solver d K) (x : Vec K d.n) (y : Vec K d.m) : ((computeObj s x y).1).polls = s.polls := (computeObj_frame s x y).2.2.2.2.2.2.2.2.2.2.2.2.2.2.2.2.2.2.2.2.2.2.2.2.2.2.2.1
@[simp] theorem computeObj_handler (s : Solver d K) (x : Vec K d.n) (y : Vec K d.m) : ((computeObj s x y).1).handler = s.handler := (computeObj_frame s x y).2.2.2.2.2.2.2.2.2.2.2.2.2.2.2.2.2.2.2.2.2.2.2.2.2.2.2.2

theorem computePrimRes_frame (s : Solver d K) (x : Vec K d.n) (z : Vec K d.m) :
  ((computePrimRes s x z).1).settings = s.settings ∧
  ((computePrimRes s x z).1).work.data = s.work.data ∧
  ((computePrimRes s x z).1).work.linsys = s.work.linsys ∧
  ((computePrimRes s x z).1).work.rho_vec = s.work.rho_vec ∧
  ((computePrimRes s x z).1).work.rho_inv_vec = s.work.rho_inv_vec ∧
  ((computePrimRes s x z).1).work.rho_inv = s.work.rho_inv ∧
  ((computePrimRes s x z).1).work.constr_type = s.work.constr_type ∧
  ((computePrimRes s x z).1).work.x = s.work.x ∧
  ((computePrimRes s x z).1).work.y = s.work.y ∧
  ((computePrimRes s x z).1).work.z = s.work.z ∧
  ((computePrimRes s x z).1).work.x_prev = s.work.x_prev ∧
  ((computePrimRes s x z).1).work.Px = s.work.Px ∧
  ((computePrimRes s x z).1).work.Aty = s.work.Aty ∧
  ((computePrimRes s x z).1).work.delta_y = s.work.delta_y ∧
  ((computePrimRes s x z).1).work.delta_x = s.work.delta_x ∧
  ((computePrimRes s x z).1).work.scaling = s.work.scaling ∧
  ((computePrimRes s x z).1).work.scaled_dual_res = s.work.scaled_dual_res ∧
  ((computePrimRes s x z).1).work.scaled_dual_gap = s.work.scaled_dual_gap ∧
  ((computePrimRes s x z).1).work.xtPx = s.work.xtPx ∧
  ((computePrimRes s x z).1).work.qtx = s.work.qtx ∧
  ((computePrimRes s x z).1).work.SC = s.work.SC ∧
  ((computePrimRes s x z).1).work.rho_updated = s.work.rho_updated ∧
  ((computePrimRes s x z).1).work.last_rel_kkt = s.work.last_rel_kkt ∧
  ((computePrimRes s x z).1).work.first_run = s.work.first_run ∧
  ((computePrimRes s x z).1).work.clear_update_time = s.work.clear_update_time ∧
  ((computePrimRes s x z).1).work.rho_update_from_solve = s.work.rho_update_from_solve ∧
  ((computePrimRes s x z).1).info = s.info ∧
  ((computePrimRes s x z).1).solution = s.solution ∧
  ((computePrimRes s x z).1).ticks = s.ticks ∧
  ((computePrimRes s x z).1).polls = s.polls ∧
  ((computePrimRes s x z).1).handler = s.handler := by
  frame_tac computePrimRes
@[simp] theorem computePrimRes_settings (s : Solver d K) (x : Vec K d.n) (z : Vec K d.m) : ((computePrimRes s x z).1).settings = s.settings := (computePrimRes_frame s x z).1
@[simp] theorem computePrimRes_data (s : Solver d K) (x : Vec K d.n) (z : Vec K d.m) : ((computePrimRes s x z).1).work.data = s.work.data := (computePrimRes_frame s x z).2.1
@[simp] theorem computePrimRes_linsys (s : Solver d K) (x : Vec K d.n) (z : Vec K d.m) : ((computePrimRes s x z).1).work.linsys = s.work.linsys := (computePrimRes_frame s x z).2.2.1
@[simp] theorem computePrimRes_rho_vec (s : Solver d K) (x : Vec K d.n) (z : Vec K d.m) : ((computePrimRes s x z).1).work.rho_vec = s.work.rho_vec := (computePrimRes_frame s x z).2.2.2.1
@[simp] theorem computePrimRes_rho_inv_vec (s : Solver d K) (x : Vec K d.n) (z : Vec K d.m) : ((computePrimRes s x z).1).work.rho_inv_vec = s.work.rho_inv_vec := (computePrimRes_frame s x z).2.2.2.2.1
@[simp] theorem computePrimRes_rho_inv (s : Solver d K) (x : Vec K d.n) (z : Vec K d.m) : ((computePrimRes s x z).1).work.rho_inv = s.work.rho_inv := (computePrimRes_frame s x z).2.2.2.2.2.1
@[simp] theorem computePrimRes_constr_type (s : Solver d K) (x : Vec K d.n) (z : Vec K d.m) : ((computePrimRes s x z).1).work.constr_type = s.work.constr_type := (computePrimRes_frame s x z).2.2.2.2.2.2.1
@[simp] theorem computePrimRes_x (s : Solver d K) (x : Vec K d.n) (z : Vec K d.m) : ((computePrimRes s x z).1).work.x = s.work.x := (computePrimRes_frame s x z).2.2.2.2.2.2.2.1
@[simp] theorem computePrimRes_y (s : Solver d K) (x : Vec K d.n) (z : Vec K d.m) : ((computePrimRes s x z).1).work.y = s.work.y := (computePrimRes_frame s x z).2.2.2.2.2.2.2.2.1
@[simp] theorem computePrimRes_z (s : Solver d K) (x : Vec K d.n) (z : Vec K d.m) : ((computePrimRes s x z).1).work.z = s.work.z := (computePrimRes_frame s x z).2.2.2.2.2.2.2.2.2.1
@[simp] theorem computePrimRes_x_prev (s : Solver d K) (x : Vec K d.n) (z : Vec K d.m) : ((computePrimRes s x z).1).work.x_prev = s.work.x_prev := (computePrimRes_frame s x z).2.2.2.2.2.2.2.2.2.2.1
@[simp] theorem computePrimRes_Px (s : Solver d K) (x : Vec K d.n) (z : Vec K d.m) : ((computePrimRes s x z).1).work.Px = s.work.Px := (computePrimRes_frame s x z).2.2.2.2.2.2.2.2.2.2.2.1
@[simp] theorem computePrimRes_Aty (s : Solver d K) (x : Vec K d.n) (z : Vec K d.m) : ((computePrimRes s x z).1).work.Aty = s.work.Aty := (computePrimRes_frame s x z).2.2.2.2.2.2.2.2.2.2.2.2.1
@[simp] theorem computePrimRes_delta_y (s : Solver d K) (x : Vec K d.n) (z : Vec K d.m) : ((computePrimRes s x z).1).work.delta_y = s.work.delta_y := (computePrimRes_frame s x z).2.2.2.2.2.2.2.2.2.2.2.2.2.1
@[simp] theorem computePrimRes_delta_x (s : Solver d K) (x : Vec K d.n) (z : Vec K d.m) : ((computePrimRes s x z).1).work.delta_x = s.work.delta_x := (computePrimRes_frame s x z).2.2.2.2.2.2.2.2.2.2.2.2.2.2.1
@[simp] theorem computePrimRes_scaling (s : Solver d K) (x : Vec K d.n) (z : Vec K d.m) : ((computePrimRes s x z).1).work.scaling = s.work.scaling := (computePrimRes_frame s x z).2.2.2.2.2.2.2.2.2.2.2.2.2.2.2.1
@[simp] theorem computePrimRes_scaled_dual_res (s : Solver d K) (x : Vec K d.n) (z : Vec K d.m) : ((computePrimRes s x z).1).work.scaled_dual_res = s.work.scaled_dual_res := (computePrimRes_frame s x z).2.2.2.2.2.2.2.2.2.2.2.2.2.2.2.2.1
@[simp] theorem computePrimRes_scaled_dual_gap (s : Solver d K) (x : Vec K d.n) (z : Vec K d.m) : ((computePrimRes s x z).1).work.scaled_dual_gap = s.work.scaled_dual_gap := (computePrimRes_frame s x z).2.2.2.2.2.2.2.2.2.2.2.2.2.2.2.2.2.1
@[simp] theorem computePrimRes_xtPx (s : Solver d K) (x : Vec K d.n) (z : Vec K d.m) : ((computePrimRes s x z).1).work.xtPx = s.work.xtPx := (computePrimRes_frame s x z).2.2.2.2.2.2.2.2.2.2.2.2.2.2.2.2.2.2.1
@[simp] theorem computePrimRes_qtx (s : Solver d K) (x : Vec K d.n) (z : Vec K d.m) : ((computePrimRes s x z).1).work.qtx = s.work.qtx := (computePrimRes_frame s x z).2.2.2.2.2.2.2.2.2.2.2.2.2.2.2.2.2.2.2.1
@[simp] theorem computePrimRes_SC (s : Solver d K) (x : Vec K d.n) (z : Vec K d.m) : ((computePrimRes s x z).1).work.SC = s.work.SC := (computePrimRes_frame s x z).2.2.2.2.2.2.2.2.2.2.2.2.2.2.2.2.2.2.2.2.1
@[simp] theorem computePrimRes_rho_updated (s : Solver d K) (x : Vec K d.n) (z : Vec K d.m) : ((computePrimRes s x z).1).work.rho_updated = s.work.rho_updated := (computePrimRes_frame s x z).2.2.2.2.2.2.2.2.2.2.2.2.2.2.2.2.2.2.2.2.2.1
@[simp] theorem computePrimRes_last_rel_kkt (s : Solver d K) (x : Vec K d.n) (z : Vec K d.m) : ((computePrimRes s x z).1).work.last_rel_kkt = s.work.last_rel_kkt := (computePrimRes_frame s x z).2.2.2.2.2.2.2.2.2.2.2.2.2.2.2.2.2.2.2.2.2.2.1
@[simp] theorem computePrimRes_first_run (s : Solver d K) (x : Vec K d.n) (z : Vec K d.m) : ((computePrimRes s x z).1).work.first_run = s.work.first_run := (computePrimRes_frame s x z).2.2.2.2.2.2.2.2.2.2.2.2.2.2.2.2.2.2.2.2.2.2.2.1
@[simp] theorem computePrimRes_clear_update_time (s : Solver d K) (x : Vec K d.n) (z : Vec K d.m) : ((computePrimRes s x z).1).work.clear_update_time = s.work.clear_update_time := (computePrimRes_frame s x z).2.2.2.2.2.2.2.2.2.2.2.2.2.2.2.2.2.2.2.2.2.2.2.2.1
@[simp] theorem computePrimRes_rho_update_from_solve (s : Solver d K) (x : Vec K d.n) (z : Vec K d.m) : ((computePrimRes s x z).1).work.rho_update_from_solve = s.work.rho_update_from_solve := (computePrimRes_frame s x z).2.2.2.2.2.2.2.2.2.2.2.2.2.2.2.2.2.2.2.2.2.2.2.2.2.1
@[simp] theorem computePrimRes_info (s : Solver d K) (x : Vec K d.n) (z : Vec K d.m) : ((computePrimRes s x z).1).info = s.info := (computePrimRes_frame s x z).2.2.2.2.2.2.2.2.2.2.2.2.2.2.2.2.2.2.2.2.2.2.2.2.2.2.1
@[simp] theorem computePrimRes_solution (s : Solver d K) (x : Vec K d.n) (z : Vec K d.m) : ((computePrimRes s x z).1).solution = s.solution := (computePrimRes_frame s x z).2.2.2.2.2.2.2.2.2.2.2.2.2.2.2.2.2.2.2.2.2.2.2.2.2.2.2.1
@[simp] theorem computePrimRes_ticks (s : Solver d K) (x : Vec K d.n) (z : Vec K d.m) : ((computePrimRes s x z).1).ticks = s.ticks := (computePrimRes_frame s x z).2.2.2.2.2.2.2.2.2.2.2.2.2.2.2.2.2.2.2.2.2.2.2.2.2.2.2.2.1
@[simp] theorem computePrimRes_polls (s : Solver d K) (x : Vec K d.n) (z : Vec K d.m) : ((computePrimRes s x z).1).polls = s.polls := (computePrimRes_frame s x z).2.2.2.2.2.2.2.2.2.2.2.2.2.2.2.2.2.2.2.2.2.2.2.2.2.2.2.2.2.1
@[simp] theorem computePrimRes_handler (s : Solver d K) (x : Vec K d.n) (z : Vec K d.m) : ((computePrimRes s x z).1).handler = s.handler := (computePrimRes_frame s x z).2.2.2.2.2.2.2.2.2.2.2.2.2.2.2.2.2.2.2.2.2.2.2.2.2.2.2.2.2.2

theorem computeDualRes_frame (s : Solver d K) (x : Vec K d.n) (y : Vec K d.m) :
  ((computeDualRes s x y).1).settings = s.settings ∧
  ((computeDualRes s x y).1).work.data = s.work.data ∧
  ((computeDualRes s x y).1).work.linsys = s.work.linsys ∧
  ((computeDualRes s x y).1).work.rho_vec = s.work.rho_vec ∧
  ((computeDualRes s x y).1).work.rho_inv_vec = s.work.rho_inv_vec ∧
  ((computeDualRes s x y).1).work.rho_inv = s.work.rho_inv ∧
  ((computeDualRes s x y).1).work.constr_type = s.work.constr_type ∧
  ((computeDualRes s x y).1).work.x = s.work.x ∧
  ((computeDualRes s x y).1).work.y = s.work.y ∧
  ((computeDualRes s x y).1).work.z = s.work.z ∧
  ((computeDualRes s x y).1).work.z_prev = s.work.z_prev ∧
  ((computeDualRes s x y).1).work.Ax = s.work.Ax ∧
  ((computeDualRes s x y).1).work.delta_y = s.work.delta_y ∧
  ((computeDualRes s x y).1).work.delta_x = s.work.delta_x ∧
  ((computeDualRes s x y).1).work.scaling = s.work.scaling ∧
  ((computeDualRes s x y).1).work.scaled_prim_res = s.work.scaled_prim_res ∧
  ((computeDualRes s x y).1).work.scaled_dual_gap = s.work.scaled_dual_gap ∧
  ((computeDualRes s x y).1).work.xtPx = s.work.xtPx ∧
  ((computeDualRes s x y).1).work.qtx = s.work.qtx ∧
  ((computeDualRes s x y).1).work.SC = s.work.SC ∧
  ((computeDualRes s x y).1).work.rho_updated = s.work.rho_updated ∧
  ((computeDualRes s x y).1).work.last_rel_kkt = s.work.last_rel_kkt ∧
  ((computeDualRes s x y).1).work.first_run = s.work.first_run ∧
  ((computeDualRes s x y).1).work.clear_update_time = s.work.clear_update_time ∧
  ((computeDualRes s x y).1).work.rho_update_from_solve = s.work.rho_update_from_solve ∧
  ((computeDualRes s x y).1).info = s.info ∧
  ((computeDualRes s x y).1).solution = s.solution ∧
  ((computeDualRes s x y).1).ticks = s.ticks ∧
  ((computeDualRes s x y).1).polls = s.polls ∧
  ((computeDualRes s x y).1).handler = s.handler := by
  frame_tac computeDualRes
@[simp] theorem computeDualRes_settings (s : Solver d K) (x : Vec K d.n) (y : Vec K d.m) : ((computeDualRes s x y).1).settings = s.settings := (computeDualRes_frame s x y).1
@[simp] theorem computeDualRes_data (s : Solver d K) (x : Vec K d.n) (y : Vec K d.m) : ((computeDualRes s x y).1).work.data = s.work.data := (computeDualRes_frame s x y).2.1
@[simp] theorem computeDualRes_linsys (s : Solver d K) (x : Vec K d.n) (y : Vec K d.m) : ((computeDualRes s x y).1).work.linsys = s.work.linsys := (computeDualRes_frame s x y).2.2.1
@[simp] theorem computeDualRes_rho_vec (s : Solver d K) (x : Vec K d.n) (y : Vec K d.m) : ((computeDualRes s x y).1).work.rho_vec = s.work.rho_vec := (computeDualRes_frame s x y).2.2.2.1
@[simp] theorem computeDualRes_rho_inv_vec (s : Solver d K) (x : Vec K d.n) (y : Vec K d.m) : ((computeDualRes s x y).1).work.rho_inv_vec = s.work.rho_inv_vec := (computeDualRes_frame s x y).2.2.2.2.1
@[simp] theorem computeDualRes_rho_inv (s : Solver d K) (x : Vec K d.n) (y : Vec K d.m) : ((computeDualRes s x y).1).work.rho_inv = s.work.rho_inv := (computeDualRes_frame s x y).2.2.2.2.2.1
@[simp] theorem computeDualRes_constr_type (s : Solver d K) (x : Vec K d.n) (y : Vec K d.m) : ((computeDualRes s x y).1).work.constr_type = s.work.constr_type := (computeDualRes_frame s x y).2.2.2.2.2.2.1
@[simp] theorem computeDualRes_x (s : Solver d K) (x : Vec K d.n) (y : Vec K d.m) : ((computeDualRes s x y).1).work.x = s.work.x := (computeDualRes_frame s x y).2.2.2.2.2.2.2.1
@[simp] theorem computeDualRes_y (s : Solver d K) (x : Vec K d.n) (y : Vec K d.m) : ((computeDualRes s x y).1).work.y = s.work.y := (computeDualRes_frame s x y).2.2.2.2.2.2.2.2.1
@[simp] theorem computeDualRes_z (s : Solver d K) (x : Vec K d.n) (y : Vec K d.m) : ((computeDualRes s x y).1).work.z = s.work.z := (computeDualRes_frame s x y).2.2.2.2.2.2.2.2.2.1
@[simp] theorem computeDualRes_z_prev (s : Solver d K) (x : Vec K d.n) (y : Vec K d.m) : ((computeDualRes s x y).1).work.z_prev = s.work.z_prev := (computeDualRes_frame s x y).2.2.2.2.2.2.2.2.2.2.1
@[simp] theorem computeDualRes_Ax (s : Solver d K) (x : Vec K d.n) (y : Vec K d.m) : ((computeDualRes s x y).1).work.Ax = s.work.Ax := (computeDualRes_frame s x y).2.2.2.2.2.2.2.2.2.2.2.1
@[simp] theorem computeDualRes_delta_y (s : Solver d K) (x : Vec K d.n) (y : Vec K d.m) : ((computeDualRes s x y).1).work.delta_y = s.work.delta_y := (computeDualRes_frame s x y).2.2.2.2.2.2.2.2.2.2.2.2.1
@[simp] theorem computeDualRes_delta_x (s : Solver d K) (x : Vec K d.n) (y : Vec K d.m) : ((computeDualRes s x y).1).work.delta_x = s.work.delta_x := (computeDualRes_frame s x y).2.2.2.2.2.2.2.2.2.2.2.2.2.1
@[simp] theorem computeDualRes_scaling (s : Solver d K) (x : Vec K d.n) (y : Vec K d.m) : ((computeDualRes s x y).1).work.scaling = s.work.scaling := (computeDualRes_frame s x y).2.2.2.2.2.2.2.2.2.2.2.2.2.2.1
@[simp] theorem computeDualRes_scaled_prim_res (s : Solver d K) (x : Vec K d.n) (y : Vec K d.m) : ((computeDualRes s x y).1).work.scaled_prim_res = s.work.scaled_prim_res := (computeDualRes_frame s x y).2.2.2.2.2.2.2.2.2.2.2.2.2.2.2.1
@[simp] theorem computeDualRes_scaled_dual_gap (s : Solver d K) (x : Vec K d.n) (y : Vec K d.m) : ((computeDualRes s x y).1).work.scaled_dual_gap = s.work.scaled_dual_gap := (computeDualRes_frame s x y).2.2.2.2.2.2.2.2.2.2.2.2.2.2.2.2.1
@[simp] theorem computeDualRes_xtPx (s : Solver d K) (x : Vec K d.n) (y : Vec K d.m) : ((computeDualRes s x y).1).work.xtPx = s.work.xtPx := (computeDualRes_frame s x y).2.2.2.2.2.2.2.2.2.2.2.2.2.2.2.2.2.1
@[simp] theorem computeDualRes_qtx (s : Solver d K) (x : Vec K d.n) (y : Vec K d.m) : ((computeDualRes s x y).1).work.qtx = s.work.qtx := (computeDualRes_frame s x y).2.2.2.2.2.2.2.2.2.2.2.2.2.2.2.2.2.2.1
@[simp] theorem computeDualRes_SC (s : Solver d K) (x : Vec K d.n) (y : Vec K d.m) : ((computeDualRes s x y).1).work.SC = s.work.SC := (computeDualRes_frame s x y).2.2.2.2.2.2.2.2.2.2.2.2.2.2.2.2.2.2.2.1
@[simp] theorem computeDualRes_rho_updated (s : Solver d K) (x : Vec K d.n) (y : Vec K d.m) : ((computeDualRes s x y).1).work.rho_updated = s.work.rho_updated := (computeDualRes_frame s x y).2.2.2.2.2.2.2.2.2.2.2.2.2.2.2.2.2.2.2.2.1
@[simp] theorem computeDualRes_last_rel_kkt (s : Solver d K) (x : Vec K d.n) (y : Vec K d.m) : ((computeDualRes s x y).1).work.last_rel_kkt = s.work.last_rel_kkt := (computeDualRes_frame s x y).2.2.2.2.2.2.2.2.2.2.2.2.2.2.2.2.2.2.2.2.2.1
@[simp] theorem computeDualRes_first_run (s : Solver d K) (x : Vec K d.n) (y : Vec K d.m) : ((computeDualRes s x y).1).work.first_run = s.work.first_run := (computeDualRes_frame s x y).2.2.2.2.2.2.2.2.2.2.2.2.2.2.2.2.2.2.2.2.2.2.1
@[simp] theorem computeDualRes_clear_update_time (s : Solver d K) (x : Vec K d.n) (y : Vec K d.m) : ((computeDualRes s x y).1).work.clear_update_time = s.work.clear_update_time := (computeDualRes_frame s x y).2.2.2.2.2.2.2.2.2.2.2.2.2.2.2.2.2.2.2.2.2.2.2.1
@[simp] theorem computeDualRes_rho_update_from_solve (s : Solver d K) (x : Vec K d.n) (y : Vec K d.m) : ((computeDualRes s x y).1).work.rho_update_from_solve = s.work.rho_update_from_solve := (computeDualRes_frame s x y).2.2.2.2.2.2.2.2.2.2.2.2.2.2.2.2.2.2.2.2.2.2.2.2.1
@[simp] theorem computeDualRes_info (s : Solver d K) (x : Vec K d.n) (y : Vec K d.m) : ((computeDualRes s x y).1).info = s.info := (computeDualRes_frame s x y).2.2.2.2.2.2.2.2.2.2.2.2.2.2.2.2.2.2.2.2.2.2.2.2.2.1
@[simp] theorem computeDualRes_solution (s : Solver d K) (x : Vec K d.n) (y : Vec K d.m) : ((computeDualRes s x y).1).solution = s.solution := (computeDualRes_frame s x y).2.2.2.2.2.2.2.2.2.2.2.2.2.2.2.2.2.2.2.2.2.2.2.2.2.2.1
@[simp] theorem computeDualRes_ticks (s : Solver d K) (x : Vec K d.n) (y : Vec K d.m) : ((computeDualRes s x y).1).ticks = s.ticks := (computeDualRes_frame s x y).2.2.2.2.2.2.2.2.2.2.2.2.2.2.2.2.2.2.2.2.2.2.2.2.2.2.2.1
@[simp] theorem computeDualRes_polls (s : Solver d K) (x : Vec K d.n) (y : Vec K d.m) : ((computeDualRes s x y).1).polls = s.polls := (computeDualRes_frame s x y).2.2.2.2.2.2.2.2.2.2.2.2.2.2.2.2.2.2.2.2.2.2.2.2.2.2.2.2.1
@[simp] theorem computeDualRes_handler (s : Solver d K) (x : Vec K d.n) (y : Vec K d.m) : ((computeDualRes s x y).1).handler = s.handler := (computeDualRes_frame s x y).2.2.2.2.2.2.2.2.2.2.2.2.2.2.2.2.2.2.2.2.2.2.2.2.2.2.2.2.2

theorem computeReport_frame (s : Solver d K) (x : Vec K d.n) (z y : Vec K d.m) :
  ((computeReport s x z y).1).settings = s.settings ∧
  ((computeReport s x z y).1).work.data = s.work.data ∧
  ((computeReport s x z y).1).work.linsys = s.work.linsys ∧
  ((computeReport s x z y).1).work.rho_vec = s.work.rho_vec ∧
  ((computeReport s x z y).1).work.rho_inv_vec = s.work.rho_inv_vec ∧
  ((computeReport s x z y).1).work.rho_inv = s.work.rho_inv ∧
  ((computeReport s x z y).1).work.constr_type = s.work.constr_type ∧
  ((computeReport s x z y).1).work.x = s.work.x ∧
  ((computeReport s x z y).1).work.y = s.work.y ∧
  ((computeReport s x z y).1).work.z = s.work.z ∧
  ((computeReport s x z y).1).work.delta_y = s.work.delta_y ∧
  ((computeReport s x z y).1).work.delta_x = s.work.delta_x ∧
  ((computeReport s x z y).1).work.scaling = s.work.scaling ∧
  ((computeReport s x z y).1).work.rho_updated = s.work.rho_updated ∧
  ((computeReport s x z y).1).work.last_rel_kkt = s.work.last_rel_kkt ∧
  ((computeReport s x z y).1).work.first_run = s.work.first_run ∧
  ((computeReport s x z y).1).work.clear_update_time = s.work.clear_update_time ∧
  ((computeReport s x z y).1).work.rho_update_from_solve = s.work.rho_update_from_solve ∧
  ((computeReport s x z y).1).info = s.info ∧
  ((computeReport s x z y).1).solution = s.solution ∧
  ((computeReport s x z y).1).ticks = s.ticks ∧
  ((computeReport s x z y).1).polls = s.polls ∧
  ((computeReport s x z y).1).handler = s.handler := by
  frame_tac computeReport
@[simp] theorem computeReport_settings (s : Solver d K) (x : Vec K d.n) (z y : Vec K d.m) : ((computeReport s x z y).1).settings = s.settings := (computeReport_frame s x z y).1
@[simp] theorem computeReport_data (s : Solver d K) (x : Vec K d.n) (z y : Vec K d.m) : ((computeReport s x z y).1).work.data = s.work.data := (computeReport_frame s x z y).2.1
@[simp] theorem computeReport_linsys (s : Solver d K) (x : Vec K d.n) (z y : Vec K d.m) : ((computeReport s x z y).1).work.linsys = s.work.linsys := (computeReport_frame s x z y).2.2.1
@[simp] theorem computeReport_rho_vec (s : Solver d K) (x : Vec K d.n) (z y : Vec K d.m) : ((computeReport s x z y).1).work.rho_vec = s.work.rho_vec := (computeReport_frame s x z y).2.2.2.1
@[simp] theorem computeReport_rho_inv_vec (s : Solver d K) (x : Vec K d.n) (z y : Vec K d.m) : ((computeReport s x z y).1).work.rho_inv_vec = s.work.rho_inv_vec := (computeReport_frame s x z y).2.2.2.2.1
@[simp] theorem computeReport_rho_inv (s : Solver d K) (x : Vec K d.n) (z y : Vec K d.m) : ((computeReport s x z y).1).work.rho_inv = s.work.rho_inv := (computeReport_frame s x z y).2.2.2.2.2.1
@[simp] theorem computeReport_constr_type (s : Solver d K) (x : Vec K d.n) (z y : Vec K d.m) : ((computeReport s x z y).1).work.constr_type = s.work.constr_type := (computeReport_frame s x z y).2.2.2.2.2.2.1
@[simp] theorem computeReport_x (s : Solver d K) (x : Vec K d.n) (z y : Vec K d.m) : ((computeReport s x z y).1).work.x = s.work.x := (computeReport_frame s x z y).2.2.2.2.2.2.2.1
@[simp] theorem computeReport_y (s : Solver d K) (x : Vec K d.n) (z y : Vec K d.m) : ((computeReport s x z y).1).work.y = s.work.y := (computeReport_frame s x z y).2.2.2.2.2.2.2.2.1
@[simp] theorem computeReport_z (s : Solver d K) (x : Vec K d.n) (z y : Vec K d.m) : ((computeReport s x z y).1).work.z = s.work.z := (computeReport_frame s x z y).2.2.2.2.2.2.2.2.2.1
@[simp] theorem computeReport_delta_y (s : Solver d K) (x : Vec K d.n) (z y : Vec K d.m) : ((computeReport s x z y).1).work.delta_y = s.work.delta_y := (computeReport_frame s x z y).2.2.2.2.2.2.2.2.2.2.1
@[simp] theorem computeReport_delta_x (s : Solver d K) (x : Vec K d.n) (z y : Vec K d.m) : ((computeReport s x z y).1).work.delta_x = s.work.delta_x := (computeReport_frame s x z y).2.2.2.2.2.2.2.2.2.2.2.1
@[simp] theorem computeReport_scaling (s : Solver d K) (x : Vec K d.n) (z y : Vec K d.m) : ((computeReport s x z y).1).work.scaling = s.work.scaling := (computeReport_frame s x z y).2.2.2.2.2.2.2.2.2.2.2.2.1
@[simp] theorem computeReport_rho_updated (s : Solver d K) (x : Vec K d.n) (z y : Vec K d.m) : ((computeReport s x z y).1).work.rho_updated = s.work.rho_updated := (computeReport_frame s x z y).2.2.2.2.2.2.2.2.2.2.2.2.2.1
@[simp] theorem computeReport_last_rel_kkt (s : Solver d K) (x : Vec K d.n) (z y : Vec K d.m) : ((computeReport s x z y).1).work.last_rel_kkt = s.work.last_rel_kkt := (computeReport_frame s x z y).2.2.2.2.2.2.2.2.2.2.2.2.2.2.1
@[simp] theorem computeReport_first_run (s : Solver d K) (x : Vec K d.n) (z y : Vec K d.m) : ((computeReport s x z y).1).work.first_run = s.work.first_run := (computeReport_frame s x z y).2.2.2.2.2.2.2.2.2.2.2.2.2.2.2.1
@[simp] theorem computeReport_clear_update_time (s : Solver d K) (x : Vec K d.n) (z y : Vec K d.m) : ((computeReport s x z y).1).work.clear_update_time = s.work.clear_update_time := (computeReport_frame s x z y).2.2.2.2.2.2.2.2.2.2.2.2.2.2.2.2.1
@[simp] theorem computeReport_rho_update_from_solve (s : Solver d K) (x : Vec K d.n) (z y : Vec K d.m) : ((computeReport s x z y).1).work.rho_update_from_solve = s.work.rho_update_from_solve := (computeReport_frame s x z y).2.2.2.2.2.2.2.2.2.2.2.2.2.2.2.2.2.1
@[simp] theorem computeReport_info (s : Solver d K) (x : Vec K d.n) (z y : Vec K d.m) : ((computeReport s x z y).1).info = s.info := (computeReport_frame s x z y).2.2.2.2.2.2.2.2.2.2.2.2.2.2.2.2.2.2.1
@[simp] theorem computeReport_solution (s : Solver d K) (x : Vec K d.n) (z y : Vec K d.m) : ((computeReport s x z y).1).solution = s.solution := (computeReport_frame s x z y).2.2.2.2.2.2.2.2.2.2.2.2.2.2.2.2.2.2.2.1
@[simp] theorem computeReport_ticks (s : Solver d K) (x : Vec K d.n) (z y : Vec K d.m) : ((computeReport s x z y).1).ticks = s.ticks := (computeReport_frame s x z y).2.2.2.2.2.2.2.2.2.2.2.2.2.2.2.2.2.2.2.2.1
@[simp] theorem computeReport_polls (s : Solver d K) (x : Vec K d.n) (z y : Vec K d.m) : ((computeReport s x z y).1).polls = s.polls := (computeReport_frame s x z y).2.2.2.2.2.2.2.2.2.2.2.2.2.2.2.2.2.2.2.2.2.1
@[simp] theorem computeReport_handler (s : Solver d K) (x : Vec K d.n) (z y : Vec K d.m) : ((computeReport s x z y).1).handler = s.handler := (computeReport_frame s x z y).2.2.2.2.2.2.2.2.2.2.2.2.2.2.2.2.2.2.2.2.2.2

theorem updateInfo_frame (cfg : Cfg) (env : Env d K) (iter : ℤ) (s : Solver d K) :
  (updateInfo cfg env iter s).settings = s.settings ∧
  (updateInfo cfg env iter s).work.data = s.work.data ∧
  (updateInfo cfg env iter s).work.linsys = s.work.linsys ∧
  (updateInfo cfg env iter s).work.rho_vec = s.work.rho_vec ∧
  (updateInfo cfg env iter s).work.rho_inv_vec = s.work.rho_inv_vec ∧
  (updateInfo cfg env iter s).work.rho_inv = s.work.rho_inv ∧
  (updateInfo cfg env iter s).work.constr_type = s.work.constr_type ∧
  (updateInfo cfg env iter s).work.x = s.work.x ∧
  (updateInfo cfg env iter s).work.y = s.work.y ∧
  (updateInfo cfg env iter s).work.z = s.work.z ∧
  (updateInfo cfg env iter s).work.delta_y = s.work.delta_y ∧
  (updateInfo cfg env iter s).work.delta_x = s.work.delta_x ∧
  (updateInfo cfg env iter s).work.scaling = s.work.scaling ∧
  (updateInfo cfg env iter s).work.rho_updated = s.work.rho_updated ∧
  (updateInfo cfg env iter s).work.last_rel_kkt = s.work.last_rel_kkt ∧
  (updateInfo cfg env iter s).work.first_run = s.work.first_run ∧
  (updateInfo cfg env iter s).work.clear_update_time = s.work.clear_update_time ∧
  (updateInfo cfg env iter s).work.rho_update_from_solve = s.work.rho_update_from_solve ∧
  (updateInfo cfg env iter s).info.status = s.info.status ∧
  (updateInfo cfg env iter s).info.status_val = s.info.status_val ∧
  (updateInfo cfg env iter s).info.status_polish = s.info.status_polish ∧
  (updateInfo cfg env iter s).info.rho_updates = s.info.rho_updates ∧
  (updateInfo cfg env iter s).info.rho_estimate = s.info.rho_estimate ∧
  (updateInfo cfg env iter s).info.setup_time = s.info.setup_time ∧
  (updateInfo cfg env iter s).info.update_time = s.info.update_time ∧
  (updateInfo cfg env iter s).info.polish_time = s.info.polish_time ∧
  (updateInfo cfg env iter s).info.run_time = s.info.run_time ∧
  (updateInfo cfg env iter s).solution = s.solution ∧
  (updateInfo cfg env iter s).polls = s.polls ∧
  (updateInfo cfg env iter s).handler = s.handler := by
  frame_tac updateInfo
@[simp] theorem updateInfo_settings (cfg : Cfg) (env : Env d K) (iter : ℤ) (s : Solver d K) : (updateInfo cfg env iter s).settings = s.settings := (updateInfo_frame cfg env iter s).1
@[simp] theorem updateInfo_data (cfg : Cfg) (env : Env d K) (iter : ℤ) (s : Solver d K) : (updateInfo cfg env iter s).work.data = s.work.data := (updateInfo_frame cfg env iter s).2.1
@[simp] theorem updateInfo_linsys (cfg : Cfg) (env : Env d K) (iter : ℤ) (s : Solver d K) : (updateInfo cfg env iter s).work.linsys = s.work.linsys := (updateInfo_frame cfg env iter s).2.2.1
@[simp] theorem updateInfo_rho_vec (cfg : Cfg) (env : Env d K) (iter : ℤ) (s : Solver d K) : (updateInfo cfg env iter s).work.rho_vec = s.work.rho_vec := (updateInfo_frame cfg env iter s).2.2.2.1
@[simp] theorem updateInfo_rho_inv_vec (cfg : Cfg) (env : Env d K) (iter : ℤ) (s : Solver d K) : (updateInfo cfg env iter s).work.rho_inv_vec = s.work.rho_inv_vec := (updateInfo_frame cfg env iter s).2.2.2.2.1
@[simp] theorem updateInfo_rho_inv (cfg : Cfg) (env : Env d K) (iter : ℤ) (s : Solver d K) : (updateInfo cfg env iter s).work.rho_inv = s.work.rho_inv := (updateInfo_frame cfg env iter s).2.2.2.2.2.1
@[simp] theorem updateInfo_constr_type (cfg : Cfg) (env : Env d K) (iter : ℤ) (s : Solver d K) : (updateInfo cfg env iter s).work.constr_type = s.work.constr_type := (updateInfo_frame cfg env iter s).2.2.2.2.2.2.1
@[simp] theorem updateInfo_x (cfg : Cfg) (env : Env d K) (iter : ℤ) (s : Solver d K) : (updateInfo cfg env iter s).work.x = s.work.x := (updateInfo_frame cfg env iter s).2.2.2.2.2.2.2.1
@[simp] theorem updateInfo_y (cfg : Cfg) (env : Env d K) (iter : ℤ) (s : Solver d K) : (updateInfo cfg env iter s).work.y = s.work.y := (updateInfo_frame cfg env iter s).2.2.2.2.2.2.2.2.1
@[simp] theorem updateInfo_z (cfg : Cfg) (env : Env d K) (iter : ℤ) (s : Solver d K) : (updateInfo cfg env iter s).work.z = s.work.z := (updateInfo_frame cfg env iter s).2.2.2.2.2.2.2.2.2.1
@[simp] theorem updateInfo_delta_y (cfg : Cfg) (env : Env d K) (iter : ℤ) (s : Solver d K) : (updateInfo cfg env iter s).work.delta_y = s.work.delta_y := (updateInfo_frame cfg env iter s).2.2.2.2.2.2.2.2.2.2.1
@[simp] theorem updateInfo_delta_x (cfg : Cfg) (env : Env d K) (iter : ℤ) (s : Solver d K) : (updateInfo cfg env iter s).work.delta_x = s.work.delta_x := (updateInfo_frame cfg env iter s).2.2.2.2.2.2.2.2.2.2.2.1
@[simp] theorem updateInfo_scaling (cfg : Cfg) (env : Env d K) (iter : ℤ) (s : Solver d K) : (updateInfo cfg env iter s).work.scaling = s.work.scaling := (updateInfo_frame cfg env iter s).2.2.2.2.2.2.2.2.2.2.2.2.1
@[simp] theorem updateInfo_rho_updated (cfg : Cfg) (env : Env d K) (iter : ℤ) (s : Solver d K) : (updateInfo cfg env iter s).work.rho_updated = s.work.rho_updated := (updateInfo_frame cfg env iter s).2.2.2.2.2.2.2.2.2.2.2.2.2.1
@[simp] theorem updateInfo_last_rel_kkt (cfg : Cfg) (env : Env d K) (iter : ℤ) (s : Solver d K) : (updateInfo cfg env iter s).work.last_rel_kkt = s.work.last_rel_kkt := (updateInfo_frame cfg env iter s).2.2.2.2.2.2.2.2.2.2.2.2.2.2.1
@[simp] theorem updateInfo_first_run (cfg : Cfg) (env : Env d K) (iter : ℤ) (s : Solver d K) : (updateInfo cfg env iter s).work.first_run = s.work.first_run := (updateInfo_frame cfg env iter s).2.2.2.2.2.2.2.2.2.2.2.2.2.2.2.1
@[simp] theorem updateInfo_clear_update_time (cfg : Cfg) (env : Env d K) (iter : ℤ) (s : Solver d K) : (updateInfo cfg env iter s).work.clear_update_time = s.work.clear_update_time := (updateInfo_frame cfg env iter s).2.2.2.2.2.2.2.2.2.2.2.2.2.2.2.2.1
@[simp] theorem updateInfo_rho_update_from_solve (cfg : Cfg) (env : Env d K) (iter : ℤ) (s : Solver d K) : (updateInfo cfg env iter s).work.rho_update_from_solve = s.work.rho_update_from_solve := (updateInfo_frame cfg env iter s).2.2.2.2.2.2.2.2.2.2.2.2.2.2.2.2.2.1
@[simp] theorem updateInfo_info_status (cfg : Cfg) (env : Env d K) (iter : ℤ) (s : Solver d K) : (updateInfo cfg env iter s).info.status = s.info.status := (updateInfo_frame cfg env iter s).2.2.2.2.2.2.2.2.2.2.2.2.2.2.2.2.2.2.1
@[simp] theorem updateInfo_info_status_val (cfg : Cfg) (env : Env d K) (iter : ℤ) (s : Solver d K) : (updateInfo cfg env iter s).info.status_val = s.info.status_val := (updateInfo_frame cfg env iter s).2.2.2.2.2.2.2.2.2.2.2.2.2.2.2.2.2.2.2.1
@[simp] theorem updateInfo_info_status_polish (cfg : Cfg) (env : Env d K) (iter : ℤ) (s : Solver d K) : (updateInfo cfg env iter s).info.status_polish = s.info.status_polish := (updateInfo_frame cfg env iter s).2.2.2.2.2.2.2.2.2.2.2.2.2.2.2.2.2.2.2.2.1
@[simp] theorem updateInfo_info_rho_updates (cfg : Cfg) (env : Env d K) (iter : ℤ) (s : Solver d K) : (updateInfo cfg env iter s).info.rho_updates = s.info.rho_updates := (updateInfo_frame cfg env iter s).2.2.2.2.2.2.2.2.2.2.2.2.2.2.2.2.2.2.2.2.2.1
@[simp] theorem updateInfo_info_rho_estimate (cfg : Cfg) (env : Env d K) (iter : ℤ) (s : Solver d K) : (updateInfo cfg env iter s).info.rho_estimate = s.info.rho_estimate := (updateInfo_frame cfg env iter s).2.2.2.2.2.2.2.2.2.2.2.2.2.2.2.2.2.2.2.2.2.2.1
@[simp] theorem updateInfo_info_setup_time (cfg : Cfg) (env : Env d K) (iter : ℤ) (s : Solver d K) : (updateInfo cfg env iter s).info.setup_time = s.info.setup_time := (updateInfo_frame cfg env iter s).2.2.2.2.2.2.2.2.2.2.2.2.2.2.2.2.2.2.2.2.2.2.2.1
@[simp] theorem updateInfo_info_update_time (cfg : Cfg) (env : Env d K) (iter : ℤ) (s : Solver d K) : (updateInfo cfg env iter s).info.update_time = s.info.update_time := (updateInfo_frame cfg env iter s).2.2.2.2.2.2.2.2.2.2.2.2.2.2.2.2.2.2.2.2.2.2.2.2.1
@[simp] theorem updateInfo_info_polish_time (cfg : Cfg) (env : Env d K) (iter : ℤ) (s : Solver d K) : (updateInfo cfg env iter s).info.polish_time = s.info.polish_time := (updateInfo_frame cfg env iter s).2.2.2.2.2.2.2.2.2.2.2.2.2.2.2.2.2.2.2.2.2.2.2.2.2.1
@[simp] theorem updateInfo_info_run_time (cfg : Cfg) (env : Env d K) (iter : ℤ) (s : Solver d K) : (updateInfo cfg env iter s).info.run_time = s.info.run_time := (updateInfo_frame cfg env iter s).2.2.2.2.2.2.2.2.2.2.2.2.2.2.2.2.2.2.2.2.2.2.2.2.2.2.1
@[simp] theorem updateInfo_solution (cfg : Cfg) (env : Env d K) (iter : ℤ) (s : Solver d K) : (updateInfo cfg env iter s).solution = s.solution := (updateInfo_frame cfg env iter s).2.2.2.2.2.2.2.2.2.2.2.2.2.2.2.2.2.2.2.2.2.2.2.2.2.2.2.1
@[simp] theorem updateInfo_polls (cfg : Cfg) (env : Env d K) (iter : ℤ) (s : Solver d K) : (updateInfo cfg env iter s).polls = s.polls := (updateInfo_frame cfg env iter s).2.2.2.2.2.2.2.2.2.2.2.2.2.2.2.2.2.2.2.2.2.2.2.2.2.2.2.2.1
@[simp] theorem updateInfo_handler (cfg : Cfg) (env : Env d K) (iter : ℤ) (s : Solver d K) : (updateInfo cfg env iter s).handler = s.handler := (updateInfo_frame cfg env iter s).2.2.2.2.2.2.2.2.2.2.2.2.2.2.2.2.2.2.2.2.2.2.2.2.2.2.2.2.2

theorem isPrimalInfeasible_frame (s : Solver d K) (eps : K) :
  ((isPrimalInfeasible s eps).1).settings = s.settings ∧
  ((isPrimalInfeasible s eps).1).work.data = s.work.data ∧
  ((isPrimalInfeasible s eps).1).work.linsys = s.work.linsys ∧
  ((isPrimalInfeasible s eps).1).work.rho_vec = s.work.rho_vec ∧
  ((isPrimalInfeasible s eps).1).work.rho_inv_vec = s.work.rho_inv_vec ∧
  ((isPrimalInfeasible s eps).1).work.rho_inv = s.work.rho_inv ∧
  ((isPrimalInfeasible s eps).1).work.constr_type = s.work.constr_type ∧
  ((isPrimalInfeasible s eps).1).work.x = s.work.x ∧
  ((isPrimalInfeasible s eps).1).work.y = s.work.y ∧
  ((isPrimalInfeasible s eps).1).work.z = s.work.z ∧
  ((isPrimalInfeasible s eps).1).work.x_prev = s.work.x_prev ∧
  ((isPrimalInfeasible s eps).1).work.z_prev = s.work.z_prev ∧
  ((isPrimalInfeasible s eps).1).work.Ax = s.work.Ax ∧
  ((isPrimalInfeasible s eps).1).work.Px = s.work.Px ∧
  ((isPrimalInfeasible s eps).1).work.Aty = s.work.Aty ∧
  ((isPrimalInfeasible s eps).1).work.delta_x = s.work.delta_x ∧
  ((isPrimalInfeasible s eps).1).work.scaling = s.work.scaling ∧
  ((isPrimalInfeasible s eps).1).work.scaled_prim_res = s.work.scaled_prim_res ∧
  ((isPrimalInfeasible s eps).1).work.scaled_dual_res = s.work.scaled_dual_res ∧
  ((isPrimalInfeasible s eps).1).work.scaled_dual_gap = s.work.scaled_dual_gap ∧
  ((isPrimalInfeasible s eps).1).work.xtPx = s.work.xtPx ∧
  ((isPrimalInfeasible s eps).1).work.qtx = s.work.qtx ∧
  ((isPrimalInfeasible s eps).1).work.SC = s.work.SC ∧
  ((isPrimalInfeasible s eps).1).work.rho_updated = s.work.rho_updated ∧
  ((isPrimalInfeasible s eps).1).work.last_rel_kkt = s.work.last_rel_kkt ∧
  ((isPrimalInfeasible s eps).1).work.first_run = s.work.first_run ∧
  ((isPrimalInfeasible s eps).1).work.clear_update_time = s.work.clear_update_time ∧
  ((isPrimalInfeasible s eps).1).work.rho_update_from_solve = s.work.rho_update_from_solve ∧
  ((isPrimalInfeasible s eps).1).info = s.info ∧
  ((isPrimalInfeasible s eps).1).solution = s.solution ∧
  ((isPrimalInfeasible s eps).1).ticks = s.ticks ∧
  ((isPrimalInfeasible s eps).1).polls = s.polls ∧
  ((isPrimalInfeasible s eps).1).handler = s.handler := by
  frame_tac isPrimalInfeasible
@[simp] theorem isPrimalInfeasible_settings (s : Solver d K) (eps : K) : ((isPrimalInfeasible s eps).1).settings = s.settings := (isPrimalInfeasible_frame s eps).1
@[simp] theorem isPrimalInfeasible_data (s : Solver d K) (eps : K) : ((isPrimalInfeasible s eps).1).work.data = s.work.data := (isPrimalInfeasible_frame s eps).2.1
@[simp] theorem isPrimalInfeasible_linsys (s : Solver d K) (eps : K) : ((isPrimalInfeasible s eps).1).work.linsys = s.work.linsys := (isPrimalInfeasible_frame s eps).2.2.1
@[simp] theorem isPrimalInfeasible_rho_vec (s : Solver d K) (eps : K) : ((isPrimalInfeasible s eps).1).work.rho_vec = s.work.rho_vec := (isPrimalInfeasible_frame s eps).2.2.2.1
@[simp] theorem isPrimalInfeasible_rho_inv_vec (s : Solver d K) (eps : K) : ((isPrimalInfeasible s eps).1).work.rho_inv_vec = s.work.rho_inv_vec := (isPrimalInfeasible_frame s eps).2.2.2.2.1
@[simp] theorem isPrimalInfeasible_rho_inv (s : Solver d K) (eps : K) : ((isPrimalInfeasible s eps).1).work.rho_inv = s.work.rho_inv := (isPrimalInfeasible_frame s eps).2.2.2.2.2.1
@[simp] theorem isPrimalInfeasible_constr_type (s : Solver d K) (eps : K) : ((isPrimalInfeasible s eps).1).work.constr_type = s.work.constr_type := (isPrimalInfeasible_frame s eps).2.2.2.2.2.2.1
@[simp] theorem isPrimalInfeasible_x (s : Solver d K) (eps : K) : ((isPrimalInfeasible s eps).1).work.x = s.work.x := (isPrimalInfeasible_frame s eps).2.2.2.2.2.2.2.1
@[simp] theorem isPrimalInfeasible_y (s : Solver d K) (eps : K) : ((isPrimalInfeasible s eps).1).work.y = s.work.y := (isPrimalInfeasible_frame s eps).2.2.2.2.2.2.2.2.1
@[simp] theorem isPrimalInfeasible_z (s : Solver d K) (eps : K) : ((isPrimalInfeasible s eps).1).work.z = s.work.z := (isPrimalInfeasible_frame s eps).2.2.2.2.2.2.2.2.2.1
@[simp] theorem isPrimalInfeasible_x_prev (s : Solver d K) (eps : K) : ((isPrimalInfeasible s eps).1).work.x_prev = s.work.x_prev := (isPrimalInfeasible_frame s eps).2.2.2.2.2.2.2.2.2.2.1
@[simp] theorem isPrimalInfeasible_z_prev (s : Solver d K) (eps : K) : ((isPrimalInfeasible s eps).1).work.z_prev = s.work.z_prev := (isPrimalInfeasible_frame s eps).2.2.2.2.2.2.2.2.2.2.2.1
@[simp] theorem isPrimalInfeasible_Ax (s : Solver d K) (eps : K) : ((isPrimalInfeasible s eps).1).work.Ax = s.work.Ax := (isPrimalInfeasible_frame s eps).2.2.2.2.2.2.2.2.2.2.2.2.1
@[simp] theorem isPrimalInfeasible_Px (s : Solver d K) (eps : K) : ((isPrimalInfeasible s eps).1).work.Px = s.work.Px := (isPrimalInfeasible_frame s eps).2.2.2.2.2.2.2.2.2.2.2.2.2.1
@[simp] theorem isPrimalInfeasible_Aty (s : Solver d K) (eps : K) : ((isPrimalInfeasible s eps).1).work.Aty = s.work.Aty := (isPrimalInfeasible_frame s eps).2.2.2.2.2.2.2.2.2.2.2.2.2.2.1
@[simp] theorem isPrimalInfeasible_delta_x (s : Solver d K) (eps : K) : ((isPrimalInfeasible s eps).1).work.delta_x = s.work.delta_x := (isPrimalInfeasible_frame s eps).2.2.2.2.2.2.2.2.2.2.2.2.2.2.2.1
@[simp] theorem isPrimalInfeasible_scaling (s : Solver d K) (eps : K) : ((isPrimalInfeasible s eps).1).work.scaling = s.work.scaling := (isPrimalInfeasible_frame s eps).2.2.2.2.2.2.2.2.2.2.2.2.2.2.2.2.1
@[simp] theorem isPrimalInfeasible_scaled_prim_res (s : Solver d K) (eps : K) : ((isPrimalInfeasible s eps).1).work.scaled_prim_res = s.work.scaled_prim_res := (isPrimalInfeasible_frame s eps).2.2.2.2.2.2.2.2.2.2.2.2.2.2.2.2.2.1
@[simp] theorem isPrimalInfeasible_scaled_dual_res (s : Solver d K) (eps : K) : ((isPrimalInfeasible s eps).1).work.scaled_dual_res = s.work.scaled_dual_res := (isPrimalInfeasible_frame s eps).2.2.2.2.2.2.2.2.2.2.2.2.2.2.2.2.2.2.1
@[simp] theorem isPrimalInfeasible_scaled_dual_gap (s : Solver d K) (eps : K) : ((isPrimalInfeasible s eps).1).work.scaled_dual_gap = s.work.scaled_dual_gap := (isPrimalInfeasible_frame s eps).2.2.2.2.2.2.2.2.2.2.2.2.2.2.2.2.2.2.2.1
@[simp] theorem isPrimalInfeasible_xtPx (s : Solver d K) (eps : K) : ((isPrimalInfeasible s eps).1).work.xtPx = s.work.xtPx := (isPrimalInfeasible_frame s eps).2.2.2.2.2.2.2.2.2.2.2.2.2.2.2.2.2.2.2.2.1
@[simp] theorem isPrimalInfeasible_qtx (s : Solver d K) (eps : K) : ((isPrimalInfeasible s eps).1).work.qtx = s.work.qtx := (isPrimalInfeasible_frame s eps).2.2.2.2.2.2.2.2.2.2.2.2.2.2.2.2.2.2.2.2.2.1
@[simp] theorem isPrimalInfeasible_SC (s : Solver d K) (eps : K) : ((isPrimalInfeasible s eps).1).work.SC = s.work.SC := (isPrimalInfeasible_frame s eps).2.2.2.2.2.2.2.2.2.2.2.2.2.2.2.2.2.2.2.2.2.2.1
@[simp] theorem isPrimalInfeasible_rho_updated (s : Solver d K) (eps : K) : ((isPrimalInfeasible s eps).1).work.rho_updated = s.work.rho_updated := (isPrimalInfeasible_frame s eps).2.2.2.2.2.2.2.2.2.2.2.2.2.2.2.2.2.2.2.2.2.2.2.1
@[simp] theorem isPrimalInfeasible_last_rel_kkt (s : Solver d K) (eps : K) : ((isPrimalInfeasible s eps).1).work.last_rel_kkt = s.work.last_rel_kkt := (isPrimalInfeasible_frame s eps).2.2.2.2.2.2.2.2.2.2.2.2.2.2.2.2.2.2.2.2.2.2.2.2.1
@[simp] theorem isPrimalInfeasible_first_run (s : Solver d K) (eps : K) : ((isPrimalInfeasible s eps).1).work.first_run = s.work.first_run := (isPrimalInfeasible_frame s eps).2.2.2.2.2.2.2.2.2.2.2.2.2.2.2.2.2.2.2.2.2.2.2.2.2.1
@[simp] theorem isPrimalInfeasible_clear_update_time (s : Solver d K) (eps : K) : ((isPrimalInfeasible s eps).1).work.clear_update_time = s.work.clear_update_time := (isPrimalInfeasible_frame s eps).2.2.2.2.2.2.2.2.2.2.2.2.2.2.2.2.2.2.2.2.2.2.2.2.2.2.1
@[simp] theorem isPrimalInfeasible_rho_update_from_solve (s : Solver d K) (eps : K) : ((isPrimalInfeasible s eps).1).work.rho_update_from_solve = s.work.rho_update_from_solve := (isPrimalInfeasible_frame s eps).2.2.2.2.2.2.2.2.2.2.2.2.2.2.2.2.2.2.2.2.2.2.2.2.2.2.2.1
@[simp] theorem isPrimalInfeasible_info (s : Solver d K) (eps : K) : ((isPrimalInfeasible s eps).1).info = s.info := (isPrimalInfeasible_frame s eps).2.2.2.2.2.2.2.2.2.2.2.2.2.2.2.2.2.2.2.2.2.2.2.2.2.2.2.2.1
@[simp] theorem isPrimalInfeasible_solution (s : Solver d K) (eps : K) : ((isPrimalInfeasible s eps).1).solution = s.solution := (isPrimalInfeasible_frame s eps).2.2.2.2.2.2.2.2.2.2.2.2.2.2.2.2.2.2.2.2.2.2.2.2.2.2.2.2.2.1
@[simp] theorem isPrimalInfeasible_ticks (s : Solver d K) (eps : K) : ((isPrimalInfeasible s eps).1).ticks = s.ticks := (isPrimalInfeasible_frame s eps).2.2.2.2.2.2.2.2.2.2.2.2.2.2.2.2.2.2.2.2.2.2.2.2.2.2.2.2.2.2.1
@[simp] theorem isPrimalInfeasible_polls (s : Solver d K) (eps : K) : ((isPrimalInfeasible s eps).1).polls = s.polls := (isPrimalInfeasible_frame s eps).2.2.2.2.2.2.2.2.2.2.2.2.2.2.2.2.2.2.2.2.2.2.2.2.2.2.2.2.2.2.2.1
@[simp] theorem isPrimalInfeasible_handler (s : Solver d K) (eps : K) : ((isPrimalInfeasible s eps).1).handler = s.handler := (isPrimalInfeasible_frame s eps).2.2.2.2.2.2.2.2.2.2.2.2.2.2.2.2.2.2.2.2.2.2.2.2.2.2.2.2.2.2.2.2

theorem ctState_frame (approx : Bool) (s : Solver d K) :
  (ctState approx s).settings = s.settings ∧
  (ctState approx s).work.data = s.work.data ∧
  (ctState approx s).work.linsys = s.work.linsys ∧
  (ctState approx s).work.rho_vec = s.work.rho_vec ∧
  (ctState approx s).work.rho_inv_vec = s.work.rho_inv_vec ∧
  (ctState approx s).work.rho_inv = s.work.rho_inv ∧
  (ctState approx s).work.constr_type = s.work.constr_type ∧
  (ctState approx s).work.x = s.work.x ∧
  (ctState approx s).work.y = s.work.y ∧
  (ctState approx s).work.z = s.work.z ∧
  (ctState approx s).work.x_prev = s.work.x_prev ∧
  (ctState approx s).work.z_prev = s.work.z_prev ∧
  (ctState approx s).work.Ax = s.work.Ax ∧
  (ctState approx s).work.Px = s.work.Px ∧
  (ctState approx s).work.Aty = s.work.Aty ∧
  (ctState approx s).work.delta_x = s.work.delta_x ∧
  (ctState approx s).work.scaling = s.work.scaling ∧
  (ctState approx s).work.scaled_prim_res = s.work.scaled_prim_res ∧
  (ctState approx s).work.scaled_dual_res = s.work.scaled_dual_res ∧
  (ctState approx s).work.scaled_dual_gap = s.work.scaled_dual_gap ∧
  (ctState approx s).work.xtPx = s.work.xtPx ∧
  (ctState approx s).work.qtx = s.work.qtx ∧
  (ctState approx s).work.SC = s.work.SC ∧
  (ctState approx s).work.rho_updated = s.work.rho_updated ∧
  (ctState approx s).work.last_rel_kkt = s.work.last_rel_kkt ∧
  (ctState approx s).work.first_run = s.work.first_run ∧
  (ctState approx s).work.clear_update_time = s.work.clear_update_time ∧
  (ctState approx s).work.rho_update_from_solve = s.work.rho_update_from_solve ∧
  (ctState approx s).info = s.info ∧
  (ctState approx s).solution = s.solution ∧
  (ctState approx s).ticks = s.ticks ∧
  (ctState approx s).polls = s.polls ∧
  (ctState approx s).handler = s.handler := by
  frame_tac ctState
@[simp] theorem ctState_settings (approx : Bool) (s : Solver d K) : (ctState approx s).settings = s.settings := (ctState_frame approx s).1
@[simp] theorem ctState_data (approx : Bool) (s : Solver d K) : (ctState approx s).work.data = s.work.data := (ctState_frame approx s).2.1
@[simp] theorem ctState_linsys (approx : Bool) (s : Solver d K) : (ctState approx s).work.linsys = s.work.linsys := (ctState_frame approx s).2.2.1
@[simp] theorem ctState_rho_vec (approx : Bool) (s : Solver d K) : (ctState approx s).work.rho_vec = s.work.rho_vec := (ctState_frame approx s).2.2.2.1
@[simp] theorem ctState_rho_inv_vec (approx : Bool) (s : Solver d K) : (ctState approx s).work.rho_inv_vec = s.work.rho_inv_vec := (ctState_frame approx s).2.2.2.2.1
@[simp] theorem ctState_rho_inv (approx : Bool) (s : Solver d K) : (ctState approx s).work.rho_inv = s.work.rho_inv := (ctState_frame approx s).2.2.2.2.2.1
@[simp] theorem ctState_constr_type (approx : Bool) (s : Solver d K) : (ctState approx s).work.constr_type = s.work.constr_type := (ctState_frame approx s).2.2.2.2.2.2.1
@[simp] theorem ctState_x (approx : Bool) (s : Solver d K) : (ctState approx s).work.x = s.work.x := (ctState_frame approx s).2.2.2.2.2.2.2.1
@[simp] theorem ctState_y (approx : Bool) (s : Solver d K) : (ctState approx s).work.y = s.work.y := (ctState_frame approx s).2.2.2.2.2.2.2.2.1
@[simp] theorem ctState_z (approx : Bool) (s : Solver d K) : (ctState approx s).work.z = s.work.z := (ctState_frame approx s).2.2.2.2.2.2.2.2.2.1
@[simp] theorem ctState_x_prev (approx : Bool) (s : Solver d K) : (ctState approx s).work.x_prev = s.work.x_prev := (ctState_frame approx s).2.2.2.2.2.2.2.2.2.2.1
@[simp] theorem ctState_z_prev (approx : Bool) (s : Solver d K) : (ctState approx s).work.z_prev = s.work.z_prev := (ctState_frame approx s).2.2.2.2.2.2.2.2.2.2.2.1
@[simp] theorem ctState_Ax (approx : Bool) (s : Solver d K) : (ctState approx s).work.Ax = s.work.Ax := (ctState_frame approx s).2.2.2.2.2.2.2.2.2.2.2.2.1
@[simp] theorem ctState_Px (approx : Bool) (s : Solver d K) : (ctState approx s).work.Px = s.work.Px := (ctState_frame approx s).2.2.2.2.2.2.2.2.2.2.2.2.2.1
@[simp] theorem ctState_Aty (approx : Bool) (s : Solver d K) : (ctState approx s).work.Aty = s.work.Aty := (ctState_frame approx s).2.2.2.2.2.2.2.2.2.2.2.2.2.2.1
@[simp] theorem ctState_delta_x (approx : Bool) (s : Solver d K) : (ctState approx s).work.delta_x = s.work.delta_x := (ctState_frame approx s).2.2.2.2.2.2.2.2.2.2.2.2.2.2.2.1
@[simp] theorem ctState_scaling (approx : Bool) (s : Solver d K) : (ctState approx s).work.scaling = s.work.scaling := (ctState_frame approx s).2.2.2.2.2.2.2.2.2.2.2.2.2.2.2.2.1
@[simp] theorem ctState_scaled_prim_res (approx : Bool) (s : Solver d K) : (ctState approx s).work.scaled_prim_res = s.work.scaled_prim_res := (ctState_frame approx s).2.2.2.2.2.2.2.2.2.2.2.2.2.2.2.2.2.1
@[simp] theorem ctState_scaled_dual_res (approx : Bool) (s : Solver d K) : (ctState approx s).work.scaled_dual_res = s.work.scaled_dual_res := (ctState_frame approx s).2.2.2.2.2.2.2.2.2.2.2.2.2.2.2.2.2.2.1
@[simp] theorem ctState_scaled_dual_gap (approx : Bool) (s : Solver d K) : (ctState approx s).work.scaled_dual_gap = s.work.scaled_dual_gap := (ctState_frame approx s).2.2.2.2.2.2.2.2.2.2.2.2.2.2.2.2.2.2.2.1
@[simp] theorem ctState_xtPx (approx : Bool) (s : Solver d K) : (ctState approx s).work.xtPx = s.work.xtPx := (ctState_frame approx s).2.2.2.2.2.2.2.2.2.2.2.2.2.2.2.2.2.2.2.2.1
@[simp] theorem ctState_qtx (approx : Bool) (s : Solver d K) : (ctState approx s).work.qtx = s.work.qtx := (ctState_frame approx s).2.2.2.2.2.2.2.2.2.2.2.2.2.2.2.2.2.2.2.2.2.1
@[simp] theorem ctState_SC (approx : Bool) (s : Solver d K) : (ctState approx s).work.SC = s.work.SC := (ctState_frame approx s).2.2.2.2.2.2.2.2.2.2.2.2.2.2.2.2.2.2.2.2.2.2.1
@[simp] theorem ctState_rho_updated (approx : Bool) (s : Solver d K) : (ctState approx s).work.rho_updated = s.work.rho_updated := (ctState_frame approx s).2.2.2.2.2.2.2.2.2.2.2.2.2.2.2.2.2.2.2.2.2.2.2.1
@[simp] theorem ctState_last_rel_kkt (approx : Bool) (s : Solver d K) : (ctState approx s).work.last_rel_kkt = s.work.last_rel_kkt := (ctState_frame approx s).2.2.2.2.2.2.2.2.2.2.2.2.2.2.2.2.2.2.2.2.2.2.2.2.1
@[simp] theorem ctState_first_run (approx : Bool) (s : Solver d K) : (ctState approx s).work.first_run = s.work.first_run := (ctState_frame approx s).2.2.2.2.2.2.2.2.2.2.2.2.2.2.2.2.2.2.2.2.2.2.2.2.2.1
@[simp] theorem ctState_clear_update_time (approx : Bool) (s : Solver d K) : (ctState approx s).work.clear_update_time = s.work.clear_update_time := (ctState_frame approx s).2.2.2.2.2.2.2.2.2.2.2.2.2.2.2.2.2.2.2.2.2.2.2.2.2.2.1
@[simp] theorem ctState_rho_update_from_solve (approx : Bool) (s : Solver d K) : (ctState approx s).work.rho_update_from_solve = s.work.rho_update_from_solve := (ctState_frame approx s).2.2.2.2.2.2.2.2.2.2.2.2.2.2.2.2.2.2.2.2.2.2.2.2.2.2.2.1
@[simp] theorem ctState_info (approx : Bool) (s : Solver d K) : (ctState approx s).info = s.info := (ctState_frame approx s).2.2.2.2.2.2.2.2.2.2.2.2.2.2.2.2.2.2.2.2.2.2.2.2.2.2.2.2.1
@[simp] theorem ctState_solution (approx : Bool) (s : Solver d K) : (ctState approx s).solution = s.solution := (ctState_frame approx s).2.2.2.2.2.2.2.2.2.2.2.2.2.2.2.2.2.2.2.2.2.2.2.2.2.2.2.2.2.1
@[simp] theorem ctState_ticks (approx : Bool) (s : Solver d K) : (ctState approx s).ticks = s.ticks := (ctState_frame approx s).2.2.2.2.2.2.2.2.2.2.2.2.2.2.2.2.2.2.2.2.2.2.2.2.2.2.2.2.2.2.1
@[simp] theorem ctState_polls (approx : Bool) (s : Solver d K) : (ctState approx s).polls = s.polls := (ctState_frame approx s).2.2.2.2.2.2.2.2.2.2.2.2.2.2.2.2.2.2.2.2.2.2.2.2.2.2.2.2.2.2.2.1
@[simp] theorem ctState_handler (approx : Bool) (s : Solver d K) : (ctState approx s).handler = s.handler := (ctState_frame approx s).2.2.2.2.2.2.2.2.2.2.2.2.2.2.2.2.2.2.2.2.2.2.2.2.2.2.2.2.2.2.2.2

theorem checkTermination_frame (approx : Bool) (s : Solver d K) :
  ((checkTermination approx s).1).settings = s.settings ∧
  ((checkTermination approx s).1).work.data = s.work.data ∧
  ((checkTermination approx s).1).work.linsys = s.work.linsys ∧
  ((checkTermination approx s).1).work.rho_vec = s.work.rho_vec ∧
  ((checkTermination approx s).1).work.rho_inv_vec = s.work.rho_inv_vec ∧
  ((checkTermination approx s).1).work.rho_inv = s.work.rho_inv ∧
  ((checkTermination approx s).1).work.constr_type = s.work.constr_type ∧
  ((checkTermination approx s).1).work.x = s.work.x ∧
  ((checkTermination approx s).1).work.y = s.work.y ∧
  ((checkTermination approx s).1).work.z = s.work.z ∧
  ((checkTermination approx s).1).work.x_prev = s.work.x_prev ∧
  ((checkTermination approx s).1).work.z_prev = s.work.z_prev ∧
  ((checkTermination approx s).1).work.Ax = s.work.Ax ∧
  ((checkTermination approx s).1).work.Px = s.work.Px ∧
  ((checkTermination approx s).1).work.Aty = s.work.Aty ∧
  ((checkTermination approx s).1).work.scaling = s.work.scaling ∧
  ((checkTermination approx s).1).work.scaled_prim_res = s.work.scaled_prim_res ∧
  ((checkTermination approx s).1).work.scaled_dual_res = s.work.scaled_dual_res ∧
  ((checkTermination approx s).1).work.scaled_dual_gap = s.work.scaled_dual_gap ∧
  ((checkTermination approx s).1).work.xtPx = s.work.xtPx ∧
  ((checkTermination approx s).1).work.qtx = s.work.qtx ∧
  ((checkTermination approx s).1).work.SC = s.work.SC ∧
  ((checkTermination approx s).1).work.rho_updated = s.work.rho_updated ∧
  ((checkTermination approx s).1).work.last_rel_kkt = s.work.last_rel_kkt ∧
  ((checkTermination approx s).1).work.first_run = s.work.first_run ∧
  ((checkTermination approx s).1).work.clear_update_time = s.work.clear_update_time ∧
  ((checkTermination approx s).1).work.rho_update_from_solve = s.work.rho_update_from_solve ∧
  ((checkTermination approx s).1).info.status_polish = s.info.status_polish ∧
  ((checkTermination approx s).1).info.dual_obj_val = s.info.dual_obj_val ∧
  ((checkTermination approx s).1).info.prim_res = s.info.prim_res ∧
  ((checkTermination approx s).1).info.dual_res = s.info.dual_res ∧
  ((checkTermination approx s).1).info.duality_gap = s.info.duality_gap ∧
  ((checkTermination approx s).1).info.iter = s.info.iter ∧
  ((checkTermination approx s).1).info.rho_updates = s.info.rho_updates ∧
  ((checkTermination approx s).1).info.rho_estimate = s.info.rho_estimate ∧
  ((checkTermination approx s).1).info.setup_time = s.info.setup_time ∧
  ((checkTermination approx s).1).info.solve_time = s.info.solve_time ∧
  ((checkTermination approx s).1).info.update_time = s.info.update_time ∧
  ((checkTermination approx s).1).info.polish_time = s.info.polish_time ∧
  ((checkTermination approx s).1).info.run_time = s.info.run_time ∧
  ((checkTermination approx s).1).info.primdual_int = s.info.primdual_int ∧
  ((checkTermination approx s).1).info.rel_kkt_error = s.info.rel_kkt_error ∧
  ((checkTermination approx s).1).solution = s.solution ∧
  ((checkTermination approx s).1).ticks = s.ticks ∧
  ((checkTermination approx s).1).polls = s.polls ∧
  ((checkTermination approx s).1).handler = s.handler := by
  have c := checkTermination_cases approx s
  dsimp only at c
  rcases c with ⟨_, h⟩ | ⟨_, ⟨_, _, _, h⟩ | ⟨_, h⟩ | ⟨_, _, h⟩ | ⟨_, _, _, h⟩⟩ <;> rw [h] <;> (try split_ifs) <;> simp
@[simp] theorem checkTermination_settings (approx : Bool) (s : Solver d K) : ((checkTermination approx s).1).settings = s.settings := (checkTermination_frame approx s).1
@[simp] theorem checkTermination_data (approx : Bool) (s : Solver d K) : ((checkTermination approx s).1).work.data = s.work.data := (checkTermination_frame approx s).2.1
@[simp] theorem checkTermination_linsys (approx : Bool) (s : Solver d K) : ((checkTermination approx s).1).work.linsys = s.work.linsys := (checkTermination_frame approx s).2.2.1
@[simp] theorem checkTermination_rho_vec (approx : Bool) (s : Solver d K) : ((checkTermination approx s).1).work.rho_vec = s.work.rho_vec := (checkTermination_frame approx s).2.2.2.1
@[simp] theorem checkTermination_rho_inv_vec (approx : Bool) (s : Solver d K) : ((checkTermination approx s).1).work.rho_inv_vec = s.work.rho_inv_vec := (checkTermination_frame approx s).2.2.2.2.1
@[simp] theorem checkTermination_rho_inv (approx : Bool) (s : Solver d K) : ((checkTermination approx s).1).work.rho_inv = s.work.rho_inv := (checkTermination_frame approx s).2.2.2.2.2.1
@[simp] theorem checkTermination_constr_type (approx : Bool) (s : Solver d K) : ((checkTermination approx s).1).work.constr_type = s.work.constr_type := (checkTermination_frame approx s).2.2.2.2.2.2.1
@[simp] theorem checkTermination_x (approx : Bool) (s : Solver d K) : ((checkTermination approx s).1).work.x = s.work.x := (checkTermination_frame approx s).2.2.2.2.2.2.2.1
@[simp] theorem checkTermination_y (approx : Bool) (s : Solver d K) : ((checkTermination approx s).1).work.y = s.work.y := (checkTermination_frame approx s).2.2.2.2.2.2.2.2.1
@[simp] theorem checkTermination_z (approx : Bool) (s : Solver d K) : ((checkTermination approx s).1).work.z = s.work.z := (checkTermination_frame approx s).2.2.2.2.2.2.2.2.2.1
@[simp] theorem checkTermination_x_prev (approx : Bool) (s : Solver d K) : ((checkTermination approx s).1).work.x_prev = s.work.x_prev := (checkTermination_frame approx s).2.2.2.2.2.2.2.2.2.2.1
@[simp] theorem checkTermination_z_prev (approx : Bool) (s : Solver d K) : ((checkTermination approx s).1).work.z_prev = s.work.z_prev := (checkTermination_frame approx s).2.2.2.2.2.2.2.2.2.2.2.1
@[simp] theorem checkTermination_Ax (approx : Bool) (s : Solver d K) : ((checkTermination approx s).1).work.Ax = s.work.Ax := (checkTermination_frame approx s).2.2.2.2.2.2.2.2.2.2.2.2.1
@[simp] theorem checkTermination_Px (approx : Bool) (s : Solver d K) : ((checkTermination approx s).1).work.Px = s.work.Px := (checkTermination_frame approx s).2.2.2.2.2.2.2.2.2.2.2.2.2.1
@[simp] theorem checkTermination_Aty (approx : Bool) (s : Solver d K) : ((checkTermination approx s).1).work.Aty = s.work.Aty := (checkTermination_frame approx s).2.2.2.2.2.2.2.2.2.2.2.2.2.2.1
@[simp] theorem checkTermination_scaling (approx : Bool) (s : Solver d K) : ((checkTermination approx s).1).work.scaling = s.work.scaling := (checkTermination_frame approx s).2.2.2.2.2.2.2.2.2.2.2.2.2.2.2.1
@[simp] theorem checkTermination_scaled_prim_res (approx : Bool) (s : Solver d K) : ((checkTermination approx s).1).work.scaled_prim_res = s.work.scaled_prim_res := (checkTermination_frame approx s).2.2.2.2.2.2.2.2.2.2.2.2.2.2.2.2.1
@[simp] theorem checkTermination_scaled_dual_res (approx : Bool) (s : Solver d K) : ((checkTermination approx s).1).work.scaled_dual_res = s.work.scaled_dual_res := (checkTermination_frame approx s).2.2.2.2.2.2.2.2.2.2.2.2.2.2.2.2.2.1
@[simp] theorem checkTermination_scaled_dual_gap (approx : Bool) (s : Solver d K) : ((checkTermination approx s).1).work.scaled_dual_gap = s.work.scaled_dual_gap := (checkTermination_frame approx s).2.2.2.2.2.2.2.2.2.2.2.2.2.2.2.2.2.2.1
@[simp] theorem checkTermination_xtPx (approx : Bool) (s : Solver d K) : ((checkTermination approx s).1).work.xtPx = s.work.xtPx := (checkTermination_frame approx s).2.2.2.2.2.2.2.2.2.2.2.2.2.2.2.2.2.2.2.1
@[simp] theorem checkTermination_qtx (approx : Bool) (s : Solver d K) : ((checkTermination approx s).1).work.qtx = s.work.qtx := (checkTermination_frame approx s).2.2.2.2.2.2.2.2.2.2.2.2.2.2.2.2.2.2.2.2.1
@[simp] theorem checkTermination_SC (approx : Bool) (s : Solver d K) : ((checkTermination approx s).1).work.SC = s.work.SC := (checkTermination_frame approx s).2.2.2.2.2.2.2.2.2.2.2.2.2.2.2.2.2.2.2.2.2.1
@[simp] theorem checkTermination_rho_updated (approx : Bool) (s : Solver d K) : ((checkTermination approx s).1).work.rho_updated = s.work.rho_updated := (checkTermination_frame approx s).2.2.2.2.2.2.2.2.2.2.2.2.2.2.2.2.2.2.2.2.2.2.1
@[simp] theorem checkTermination_last_rel_kkt (approx : Bool) (s : Solver d K) : ((checkTermination approx s).1).work.last_rel_kkt = s.work.last_rel_kkt := (checkTermination_frame approx s).2.2.2.2.2.2.2.2.2.2.2.2.2.2.2.2.2.2.2.2.2.2.2.1
@[simp] theorem checkTermination_first_run (approx : Bool) (s : Solver d K) : ((checkTermination approx s).1).work.first_run = s.work.first_run := (checkTermination_frame approx s).2.2.2.2.2.2.2.2.2.2.2.2.2.2.2.2.2.2.2.2.2.2.2.2.1
@[simp] theorem checkTermination_clear_update_time (approx : Bool) (s : Solver d K) : ((checkTermination approx s).1).work.clear_update_time = s.work.clear_update_time := (checkTermination_frame approx s).2.2.2.2.2.2.2.2.2.2.2.2.2.2.2.2.2.2.2.2.2.2.2.2.2.1
@[simp] theorem checkTermination_rho_update_from_solve (approx : Bool) (s : Solver d K) : ((checkTermination approx s).1).work.rho_update_from_solve = s.work.rho_update_from_solve := (checkTermination_frame approx s).2.2.2.2.2.2.2.2.2.2.2.2.2.2.2.2.2.2.2.2.2.2.2.2.2.2.1
@[simp] theorem checkTermination_info_status_polish (approx : Bool) (s : Solver d K) : ((checkTermination approx s).1).info.status_polish = s.info.status_polish := (checkTermination_frame approx s).2.2.2.2.2.2.2.2.2.2.2.2.2.2.2.2.2.2.2.2.2.2.2.2.2.2.2.1
@[simp] theorem checkTermination_info_dual_obj_val (approx : Bool) (s : Solver d K) : ((checkTermination approx s).1).info.dual_obj_val = s.info.dual_obj_val := (checkTermination_frame approx s).2.2.2.2.2.2.2.2.2.2.2.2.2.2.2.2.2.2.2.2.2.2.2.2.2.2.2.2.1
@[simp] theorem checkTermination_info_prim_res (approx : Bool) (s : Solver d K) : ((checkTermination approx s).1).info.prim_res = s.info.prim_res := (checkTermination_frame approx s).2.2.2.2.2.2.2.2.2.2.2.2.2.2.2.2.2.2.2.2.2.2.2.2.2.2.2.2.2.1
@[simp] theorem checkTermination_info_dual_res (approx : Bool) (s : Solver d K) : ((checkTermination approx s).1).info.dual_res = s.info.dual_res := (checkTermination_frame approx s).2.2.2.2.2.2.2.2.2.2.2.2.2.2.2.2.2.2.2.2.2.2.2.2.2.2.2.2.2.2.1
@[simp] theorem checkTermination_info_duality_gap (approx : Bool) (s : Solver d K) : ((checkTermination approx s).1).info.duality_gap = s.info.duality_gap := (checkTermination_frame approx s).2.2.2.2.2.2.2.2.2.2.2.2.2.2.2.2.2.2.2.2.2.2.2.2.2.2.2.2.2.2.2.1
@[simp] theorem checkTermination_info_iter (approx : Bool) (s : Solver d K) : ((checkTermination approx s).1).info.iter = s.info.iter := (checkTermination_frame approx s).2.2.2.2.2.2.2.2.2.2.2.2.2.2.2.2.2.2.2.2.2.2.2.2.2.2.2.2.2.2.2.2.1
@[simp] theorem checkTermination_info_rho_updates (approx : Bool) (s : Solver d K) : ((checkTermination approx s).1).info.rho_updates = s.info.rho_updates := (checkTermination_frame approx s).2.2.2.2.2.2.2.2.2.2.2.2.2.2.2.2.2.2.2.2.2.2.2.2.2.2.2.2.2.2.2.2.2.1
@[simp] theorem checkTermination_info_rho_estimate (approx : Bool) (s : Solver d K) : ((checkTermination approx s).1).info.rho_estimate = s.info.rho_estimate := (checkTermination_frame approx s).2.2.2.2.2.2.2.2.2.2.2.2.2.2.2.2.2.2.2.2.2.2.2.2.2.2.2.2.2.2.2.2.2.2.1
@[simp] theorem checkTermination_info_setup_time (approx : Bool) (s : Solver d K) : ((checkTermination approx s).1).info.setup_time = s.info.setup_time := (checkTermination_frame approx s).2.2.2.2.2.2.2.2.2.2.2.2.2.2.2.2.2.2.2.2.2.2.2.2.2.2.2.2.2.2.2.2.2.2.2.1
@[simp] theorem checkTermination_info_solve_time (approx : Bool) (s : Solver d K) : ((checkTermination approx s).1).info.solve_time = s.info.solve_time := (checkTermination_frame approx s).2.2.2.2.2.2.2.2.2.2.2.2.2.2.2.2.2.2.2.2.2.2.2.2.2.2.2.2.2.2.2.2.2.2.2.2.1
@[simp] theorem checkTermination_info_update_time (approx : Bool) (s : Solver d K) : ((checkTermination approx s).1).info.update_time = s.info.update_time := (checkTermination_frame approx s).2.2.2.2.2.2.2.2.2.2.2.2.2.2.2.2.2.2.2.2.2.2.2.2.2.2.2.2.2.2.2.2.2.2.2.2.2.1
@[simp] theorem checkTermination_info_polish_time (approx : Bool) (s : Solver d K) : ((checkTermination approx s).1).info.polish_time = s.info.polish_time := (checkTermination_frame approx s).2.2.2.2.2.2.2.2.2.2.2.2.2.2.2.2.2.2.2.2.2.2.2.2.2.2.2.2.2.2.2.2.2.2.2.2.2.2.1
@[simp] theorem checkTermination_info_run_time (approx : Bool) (s : Solver d K) : ((checkTermination approx s).1).info.run_time = s.info.run_time := (checkTermination_frame approx s).2.2.2.2.2.2.2.2.2.2.2.2.2.2.2.2.2.2.2.2.2.2.2.2.2.2.2.2.2.2.2.2.2.2.2.2.2.2.2.1
@[simp] theorem checkTermination_info_primdual_int (approx : Bool) (s : Solver d K) : ((checkTermination approx s).1).info.primdual_int = s.info.primdual_int := (checkTermination_frame approx s).2.2.2.2.2.2.2.2.2.2.2.2.2.2.2.2.2.2.2.2.2.2.2.2.2.2.2.2.2.2.2.2.2.2.2.2.2.2.2.2.1
@[simp] theorem checkTermination_info_rel_kkt_error (approx : Bool) (s : Solver d K) : ((checkTermination approx s).1).info.rel_kkt_error = s.info.rel_kkt_error := (checkTermination_frame approx s).2.2.2.2.2.2.2.2.2.2.2.2.2.2.2.2.2.2.2.2.2.2.2.2.2.2.2.2.2.2.2.2.2.2.2.2.2.2.2.2.2.1
@[simp] theorem checkTermination_solution (approx : Bool) (s : Solver d K) : ((checkTermination approx s).1).solution = s.solution := (checkTermination_frame approx s).2.2.2.2.2.2.2.2.2.2.2.2.2.2.2.2.2.2.2.2.2.2.2.2.2.2.2.2.2.2.2.2.2.2.2.2.2.2.2.2.2.2.1
@[simp] theorem checkTermination_ticks (approx : Bool) (s : Solver d K) : ((checkTermination approx s).1).ticks = s.ticks := (checkTermination_frame approx s).2.2.2.2.2.2.2.2.2.2.2.2.2.2.2.2.2.2.2.2.2.2.2.2.2.2.2.2.2.2.2.2.2.2.2.2.2.2.2.2.2.2.2.1
@[simp] theorem checkTermination_polls (approx : Bool) (s : Solver d K) : ((checkTermination approx s).1).polls = s.polls := (checkTermination_frame approx s).2.2.2.2.2.2.2.2.2.2.2.2.2.2.2.2.2.2.2.2.2.2.2.2.2.2.2.2.2.2.2.2.2.2.2.2.2.2.2.2.2.2.2.2.1
@[simp] theorem checkTermination_handler (approx : Bool) (s : Solver d K) : ((checkTermination approx s).1).handler = s.handler := (checkTermination_frame approx s).2.2.2.2.2.2.2.2.2.2.2.2.2.2.2.2.2.2.2.2.2.2.2.2.2.2.2.2.2.2.2.2.2.2.2.2.2.2.2.2.2.2.2.2.2

theorem storeSolution_frame (s : Solver d K) (sol : Solution d K) :
  ((storeSolution s sol).1).settings = s.settings ∧
  ((storeSolution s sol).1).work.data = s.work.data ∧
  ((storeSolution s sol).1).work.linsys = s.work.linsys ∧
  ((storeSolution s sol).1).work.rho_vec = s.work.rho_vec ∧
  ((storeSolution s sol).1).work.rho_inv_vec = s.work.rho_inv_vec ∧
  ((storeSolution s sol).1).work.rho_inv = s.work.rho_inv ∧
  ((storeSolution s sol).1).work.constr_type = s.work.constr_type ∧
  ((storeSolution s sol).1).work.Ax = s.work.Ax ∧
  ((storeSolution s sol).1).work.Px = s.work.Px ∧
  ((storeSolution s sol).1).work.Aty = s.work.Aty ∧
  ((storeSolution s sol).1).work.scaling = s.work.scaling ∧
  ((storeSolution s sol).1).work.scaled_prim_res = s.work.scaled_prim_res ∧
  ((storeSolution s sol).1).work.scaled_dual_res = s.work.scaled_dual_res ∧
  ((storeSolution s sol).1).work.scaled_dual_gap = s.work.scaled_dual_gap ∧
  ((storeSolution s sol).1).work.xtPx = s.work.xtPx ∧
  ((storeSolution s sol).1).work.qtx = s.work.qtx ∧
  ((storeSolution s sol).1).work.SC = s.work.SC ∧
  ((storeSolution s sol).1).work.rho_updated = s.work.rho_updated ∧
  ((storeSolution s sol).1).work.last_rel_kkt = s.work.last_rel_kkt ∧
  ((storeSolution s sol).1).work.first_run = s.work.first_run ∧
  ((storeSolution s sol).1).work.clear_update_time = s.work.clear_update_time ∧
  ((storeSolution s sol).1).work.rho_update_from_solve = s.work.rho_update_from_solve ∧
  ((storeSolution s sol).1).info = s.info ∧
  ((storeSolution s sol).1).solution = s.solution ∧
  ((storeSolution s sol).1).ticks = s.ticks ∧
  ((storeSolution s sol).1).polls = s.polls ∧
  ((storeSolution s sol).1).handler = s.handler := by
  frame_tac storeSolution
@[simp] theorem storeSolution_settings (s : Solver d K) (sol : Solution d K) : ((storeSolution s sol).1).settings = s.settings := (storeSolution_frame s sol).1
@[simp] theorem storeSolution_data (s : Solver d K) (sol : Solution d K) : ((storeSolution s sol).1).work.data = s.work.data := (storeSolution_frame s sol).2.1
@[simp] theorem storeSolution_linsys (s : Solver d K) (sol : Solution d K) : ((storeSolution s sol).1).work.linsys = s.work.linsys := (storeSolution_frame s sol).2.2.1
@[simp] theorem storeSolution_rho_vec (s : Solver d K) (sol : Solution d K) : ((storeSolution s sol).1).work.rho_vec = s.work.rho_vec := (storeSolution_frame s sol).2.2.2.1
@[simp] theorem storeSolution_rho_inv_vec (s : Solver d K) (sol : Solution d K) : ((storeSolution s sol).1).work.rho_inv_vec = s.work.rho_inv_vec := (storeSolution_frame s sol).2.2.2.2.1
@[simp] theorem storeSolution_rho_inv (s : Solver d K) (sol : Solution d K) : ((storeSolution s sol).1).work.rho_inv = s.work.rho_inv := (storeSolution_frame s sol).2.2.2.2.2.1
@[simp] theorem storeSolution_constr_type (s : Solver d K) (sol : Solution d K) : ((storeSolution s sol).1).work.constr_type = s.work.constr_type := (storeSolution_frame s sol).2.2.2.2.2.2.1
@[simp] theorem storeSolution_Ax (s : Solver d K) (sol : Solution d K) : ((storeSolution s sol).1).work.Ax = s.work.Ax := (storeSolution_frame s sol).2.2.2.2.2.2.2.1
@[simp] theorem storeSolution_Px (s : Solver d K) (sol : Solution d K) : ((storeSolution s sol).1).work.Px = s.work.Px := (storeSolution_frame s sol).2.2.2.2.2.2.2.2.1
@[simp] theorem storeSolution_Aty (s : Solver d K) (sol : Solution d K) : ((storeSolution s sol).1).work.Aty = s.work.Aty := (storeSolution_frame s sol).2.2.2.2.2.2.2.2.2.1
@[simp] theorem storeSolution_scaling (s : Solver d K) (sol : Solution d K) : ((storeSolution s sol).1).work.scaling = s.work.scaling := (storeSolution_frame s sol).2.2.2.2.2.2.2.2.2.2.1
@[simp] theorem storeSolution_scaled_prim_res (s : Solver d K) (sol : Solution d K) : ((storeSolution s sol).1).work.scaled_prim_res = s.work.scaled_prim_res := (storeSolution_frame s sol).2.2.2.2.2.2.2.2.2.2.2.1
@[simp] theorem storeSolution_scaled_dual_res (s : Solver d K) (sol : Solution d K) : ((storeSolution s sol).1).work.scaled_dual_res = s.work.scaled_dual_res := (storeSolution_frame s sol).2.2.2.2.2.2.2.2.2.2.2.2.1
@[simp] theorem storeSolution_scaled_dual_gap (s : Solver d K) (sol : Solution d K) : ((storeSolution s sol).1).work.scaled_dual_gap = s.work.scaled_dual_gap := (storeSolution_frame s sol).2.2.2.2.2.2.2.2.2.2.2.2.2.1
@[simp] theorem storeSolution_xtPx (s : Solver d K) (sol : Solution d K) : ((storeSolution s sol).1).work.xtPx = s.work.xtPx := (storeSolution_frame s sol).2.2.2.2.2.2.2.2.2.2.2.2.2.2.1
@[simp] theorem storeSolution_qtx (s : Solver d K) (sol : Solution d K) : ((storeSolution s sol).1).work.qtx = s.work.qtx := (storeSolution_frame s sol).2.2.2.2.2.2.2.2.2.2.2.2.2.2.2.1
@[simp] theorem storeSolution_SC (s : Solver d K) (sol : Solution d K) : ((storeSolution s sol).1).work.SC = s.work.SC := (storeSolution_frame s sol).2.2.2.2.2.2.2.2.2.2.2.2.2.2.2.2.1
@[simp] theorem storeSolution_rho_updated (s : Solver d K) (sol : Solution d K) : ((storeSolution s sol).1).work.rho_updated = s.work.rho_updated := (storeSolution_frame s sol).2.2.2.2.2.2.2.2.2.2.2.2.2.2.2.2.2.1
@[simp] theorem storeSolution_last_rel_kkt (s : Solver d K) (sol : Solution d K) : ((storeSolution s sol).1).work.last_rel_kkt = s.work.last_rel_kkt := (storeSolution_frame s sol).2.2.2.2.2.2.2.2.2.2.2.2.2.2.2.2.2.2.1
@[simp] theorem storeSolution_first_run (s : Solver d K) (sol : Solution d K) : ((storeSolution s sol).1).work.first_run = s.work.first_run := (storeSolution_frame s sol).2.2.2.2.2.2.2.2.2.2.2.2.2.2.2.2.2.2.2.1
@[simp] theorem storeSolution_clear_update_time (s : Solver d K) (sol : Solution d K) : ((storeSolution s sol).1).work.clear_update_time = s.work.clear_update_time := (storeSolution_frame s sol).2.2.2.2.2.2.2.2.2.2.2.2.2.2.2.2.2.2.2.2.1
@[simp] theorem storeSolution_rho_update_from_solve (s : Solver d K) (sol : Solution d K) : ((storeSolution s sol).1).work.rho_update_from_solve = s.work.rho_update_from_solve := (storeSolution_frame s sol).2.2.2.2.2.2.2.2.2.2.2.2.2.2.2.2.2.2.2.2.2.1
@[simp] theorem storeSolution_info (s : Solver d K) (sol : Solution d K) : ((storeSolution s sol).1).info = s.info := (storeSolution_frame s sol).2.2.2.2.2.2.2.2.2.2.2.2.2.2.2.2.2.2.2.2.2.2.1
@[simp] theorem storeSolution_solution (s : Solver d K) (sol : Solution d K) : ((storeSolution s sol).1).solution = s.solution := (storeSolution_frame s sol).2.2.2.2.2.2.2.2.2.2.2.2.2.2.2.2.2.2.2.2.2.2.2.1
@[simp] theorem storeSolution_ticks (s : Solver d K) (sol : Solution d K) : ((storeSolution s sol).1).ticks = s.ticks := (storeSolution_frame s sol).2.2.2.2.2.2.2.2.2.2.2.2.2.2.2.2.2.2.2.2.2.2.2.2.1
@[simp] theorem storeSolution_polls (s : Solver d K) (sol : Solution d K) : ((storeSolution s sol).1).polls = s.polls := (storeSolution_frame s sol).2.2.2.2.2.2.2.2.2.2.2.2.2.2.2.2.2.2.2.2.2.2.2.2.2.1
@[simp] theorem storeSolution_handler (s : Solver d K) (sol : Solution d K) : ((storeSolution s sol).1).handler = s.handler := (storeSolution_frame s sol).2.2.2.2.2.2.2.2.2.2.2.2.2.2.2.2.2.2.2.2.2.2.2.2.2.2

theorem storeOwnSolution_frame (s : Solver d K) :
  (storeOwnSolution s).settings = s.settings ∧
  (storeOwnSolution s).work.data = s.work.data ∧
  (storeOwnSolution s).work.linsys = s.work.linsys ∧
  (storeOwnSolution s).work.rho_vec = s.work.rho_vec ∧
  (storeOwnSolution s).work.rho_inv_vec = s.work.rho_inv_vec ∧
  (storeOwnSolution s).work.rho_inv = s.work.rho_inv ∧
  (storeOwnSolution s).work.constr_type = s.work.constr_type ∧
  (storeOwnSolution s).work.Ax = s.work.Ax ∧
  (storeOwnSolution s).work.Px = s.work.Px ∧
  (storeOwnSolution s).work.Aty = s.work.Aty ∧
  (storeOwnSolution s).work.scaling = s.work.scaling ∧
  (storeOwnSolution s).work.scaled_prim_res = s.work.scaled_prim_res ∧
  (storeOwnSolution s).work.scaled_dual_res = s.work.scaled_dual_res ∧
  (storeOwnSolution s).work.scaled_dual_gap = s.work.scaled_dual_gap ∧
  (storeOwnSolution s).work.xtPx = s.work.xtPx ∧
  (storeOwnSolution s).work.qtx = s.work.qtx ∧
  (storeOwnSolution s).work.SC = s.work.SC ∧
  (storeOwnSolution s).work.rho_updated = s.work.rho_updated ∧
  (storeOwnSolution s).work.last_rel_kkt = s.work.last_rel_kkt ∧
  (storeOwnSolution s).work.first_run = s.work.first_run ∧
  (storeOwnSolution s).work.clear_update_time = s.work.clear_update_time ∧
  (storeOwnSolution s).work.rho_update_from_solve = s.work.rho_update_from_solve ∧
  (storeOwnSolution s).info = s.info ∧
  (storeOwnSolution s).ticks = s.ticks ∧
  (storeOwnSolution s).polls = s.polls ∧
  (storeOwnSolution s).handler = s.handler := by
  unfold storeOwnSolution; cases s.solution <;> simp
@[simp] theorem storeOwnSolution_settings (s : Solver d K) : (storeOwnSolution s).settings = s.settings := (storeOwnSolution_frame s).1
@[simp] theorem storeOwnSolution_data (s : Solver d K) : (storeOwnSolution s).work.data = s.work.data := (storeOwnSolution_frame s).2.1
@[simp] theorem storeOwnSolution_linsys (s : Solver d K) : (storeOwnSolution s).work.linsys = s.work.linsys := (storeOwnSolution_frame s).2.2.1
@[simp] theorem storeOwnSolution_rho_vec (s : Solver d K) : (storeOwnSolution s).work.rho_vec = s.work.rho_vec := (storeOwnSolution_frame s).2.2.2.1
@[simp] theorem storeOwnSolution_rho_inv_vec (s : Solver d K) : (storeOwnSolution s).work.rho_inv_vec = s.work.rho_inv_vec := (storeOwnSolution_frame s).2.2.2.2.1
@[simp] theorem storeOwnSolution_rho_inv (s : Solver d K) : (storeOwnSolution s).work.rho_inv = s.work.rho_inv := (storeOwnSolution_frame s).2.2.2.2.2.1
@[simp] theorem storeOwnSolution_constr_type (s : Solver d K) : (storeOwnSolution s).work.constr_type = s.work.constr_type := (storeOwnSolution_frame s).2.2.2.2.2.2.1
@[simp] theorem storeOwnSolution_Ax (s : Solver d K) : (storeOwnSolution s).work.Ax = s.work.Ax := (storeOwnSolution_frame s).2.2.2.2.2.2.2.1
@[simp] theorem storeOwnSolution_Px (s : Solver d K) : (storeOwnSolution s).work.Px = s.work.Px := (storeOwnSolution_frame s).2.2.2.2.2.2.2.2.1
@[simp] theorem storeOwnSolution_Aty (s : Solver d K) : (storeOwnSolution s).work.Aty = s.work.Aty := (storeOwnSolution_frame s).2.2.2.2.2.2.2.2.2.1
@[simp] theorem storeOwnSolution_scaling (s : Solver d K) : (storeOwnSolution s).work.scaling = s.work.scaling := (storeOwnSolution_frame s).2.2.2.2.2.2.2.2.2.2.1
@[simp] theorem storeOwnSolution_scaled_prim_res (s : Solver d K) : (storeOwnSolution s).work.scaled_prim_res = s.work.scaled_prim_res := (storeOwnSolution_frame s).2.2.2.2.2.2.2.2.2.2.2.1
@[simp] theorem storeOwnSolution_scaled_dual_res (s : Solver d K) : (storeOwnSolution s).work.scaled_dual_res = s.work.scaled_dual_res := (storeOwnSolution_frame s).2.2.2.2.2.2.2.2.2.2.2.2.1
@[simp] theorem storeOwnSolution_scaled_dual_gap (s : Solver d K) : (storeOwnSolution s).work.scaled_dual_gap = s.work.scaled_dual_gap := (storeOwnSolution_frame s).2.2.2.2.2.2.2.2.2.2.2.2.2.1
@[simp] theorem storeOwnSolution_xtPx (s : Solver d K) : (storeOwnSolution s).work.xtPx = s.work.xtPx := (storeOwnSolution_frame s).2.2.2.2.2.2.2.2.2.2.2.2.2.2.1
@[simp] theorem storeOwnSolution_qtx (s : Solver d K) : (storeOwnSolution s).work.qtx = s.work.qtx := (storeOwnSolution_frame s).2.2.2.2.2.2.2.2.2.2.2.2.2.2.2.1
@[simp] theorem storeOwnSolution_SC (s : Solver d K) : (storeOwnSolution s).work.SC = s.work.SC := (storeOwnSolution_frame s).2.2.2.2.2.2.2.2.2.2.2.2.2.2.2.2.1
@[simp] theorem storeOwnSolution_rho_updated (s : Solver d K) : (storeOwnSolution s).work.rho_updated = s.work.rho_updated := (storeOwnSolution_frame s).2.2.2.2.2.2.2.2.2.2.2.2.2.2.2.2.2.1
@[simp] theorem storeOwnSolution_last_rel_kkt (s : Solver d K) : (storeOwnSolution s).work.last_rel_kkt = s.work.last_rel_kkt := (storeOwnSolution_frame s).2.2.2.2.2.2.2.2.2.2.2.2.2.2.2.2.2.2.1
@[simp] theorem storeOwnSolution_first_run (s : Solver d K) : (storeOwnSolution s).work.first_run = s.work.first_run := (storeOwnSolution_frame s).2.2.2.2.2.2.2.2.2.2.2.2.2.2.2.2.2.2.2.1
@[simp] theorem storeOwnSolution_clear_update_time (s : Solver d K) : (storeOwnSolution s).work.clear_update_time = s.work.clear_update_time := (storeOwnSolution_frame s).2.2.2.2.2.2.2.2.2.2.2.2.2.2.2.2.2.2.2.2.1
@[simp] theorem storeOwnSolution_rho_update_from_solve (s : Solver d K) : (storeOwnSolution s).work.rho_update_from_solve = s.work.rho_update_from_solve := (storeOwnSolution_frame s).2.2.2.2.2.2.2.2.2.2.2.2.2.2.2.2.2.2.2.2.2.1
@[simp] theorem storeOwnSolution_info (s : Solver d K) : (storeOwnSolution s).info = s.info := (storeOwnSolution_frame s).2.2.2.2.2.2.2.2.2.2.2.2.2.2.2.2.2.2.2.2.2.2.1
@[simp] theorem storeOwnSolution_ticks (s : Solver d K) : (storeOwnSolution s).ticks = s.ticks := (storeOwnSolution_frame s).2.2.2.2.2.2.2.2.2.2.2.2.2.2.2.2.2.2.2.2.2.2.2.1
@[simp] theorem storeOwnSolution_polls (s : Solver d K) : (storeOwnSolution s).polls = s.polls := (storeOwnSolution_frame s).2.2.2.2.2.2.2.2.2.2.2.2.2.2.2.2.2.2.2.2.2.2.2.2.1
@[simp] theorem storeOwnSolution_handler (s : Solver d K) : (storeOwnSolution s).handler = s.handler := (storeOwnSolution_frame s).2.2.2.2.2.2.2.2.2.2.2.2.2.2.2.2.2.2.2.2.2.2.2.2.2

theorem clearUpdateTime_frame (s : Solver d K) :
  (clearUpdateTime s).settings = s.settings ∧
  (clearUpdateTime s).work.data = s.work.data ∧
  (clearUpdateTime s).work.linsys = s.work.linsys ∧
  (clearUpdateTime s).work.rho_vec = s.work.rho_vec ∧
  (clearUpdateTime s).work.rho_inv_vec = s.work.rho_inv_vec ∧
  (clearUpdateTime s).work.rho_inv = s.work.rho_inv ∧
  (clearUpdateTime s).work.constr_type = s.work.constr_type ∧
  (clearUpdateTime s).work.x = s.work.x ∧
  (clearUpdateTime s).work.y = s.work.y ∧
  (clearUpdateTime s).work.z = s.work.z ∧
  (clearUpdateTime s).work.x_prev = s.work.x_prev ∧
  (clearUpdateTime s).work.z_prev = s.work.z_prev ∧
  (clearUpdateTime s).work.Ax = s.work.Ax ∧
  (clearUpdateTime s).work.Px = s.work.Px ∧
  (clearUpdateTime s).work.Aty = s.work.Aty ∧
  (clearUpdateTime s).work.delta_y = s.work.delta_y ∧
  (clearUpdateTime s).work.delta_x = s.work.delta_x ∧
  (clearUpdateTime s).work.scaling = s.work.scaling ∧
  (clearUpdateTime s).work.scaled_prim_res = s.work.scaled_prim_res ∧
  (clearUpdateTime s).work.scaled_dual_res = s.work.scaled_dual_res ∧
  (clearUpdateTime s).work.scaled_dual_gap = s.work.scaled_dual_gap ∧
  (clearUpdateTime s).work.xtPx = s.work.xtPx ∧
  (clearUpdateTime s).work.qtx = s.work.qtx ∧
  (clearUpdateTime s).work.SC = s.work.SC ∧
  (clearUpdateTime s).work.rho_updated = s.work.rho_updated ∧
  (clearUpdateTime s).work.last_rel_kkt = s.work.last_rel_kkt ∧
  (clearUpdateTime s).work.first_run = s.work.first_run ∧
  (clearUpdateTime s).work.rho_update_from_solve = s.work.rho_update_from_solve ∧
  (clearUpdateTime s).info.status = s.info.status ∧
  (clearUpdateTime s).info.status_val = s.info.status_val ∧
  (clearUpdateTime s).info.status_polish = s.info.status_polish ∧
  (clearUpdateTime s).info.obj_val = s.info.obj_val ∧
  (clearUpdateTime s).info.dual_obj_val = s.info.dual_obj_val ∧
  (clearUpdateTime s).info.prim_res = s.info.prim_res ∧
  (clearUpdateTime s).info.dual_res = s.info.dual_res ∧
  (clearUpdateTime s).info.duality_gap = s.info.duality_gap ∧
  (clearUpdateTime s).info.iter = s.info.iter ∧
  (clearUpdateTime s).info.rho_updates = s.info.rho_updates ∧
  (clearUpdateTime s).info.rho_estimate = s.info.rho_estimate ∧
  (clearUpdateTime s).info.setup_time = s.info.setup_time ∧
  (clearUpdateTime s).info.solve_time = s.info.solve_time ∧
  (clearUpdateTime s).info.polish_time = s.info.polish_time ∧
  (clearUpdateTime s).info.run_time = s.info.run_time ∧
  (clearUpdateTime s).info.primdual_int = s.info.primdual_int ∧
  (clearUpdateTime s).info.rel_kkt_error = s.info.rel_kkt_error ∧
  (clearUpdateTime s).solution = s.solution ∧
  (clearUpdateTime s).ticks = s.ticks ∧
  (clearUpdateTime s).polls = s.polls ∧
  (clearUpdateTime s).handler = s.handler := by
  frame_tac clearUpdateTime
@[simp] theorem clearUpdateTime_settings (s : Solver d K) : (clearUpdateTime s).settings = s.settings := (clearUpdateTime_frame s).1
@[simp] theorem clearUpdateTime_data (s : Solver d K) : (clearUpdateTime s).work.data = s.work.data := (clearUpdateTime_frame s).2.1
@[simp] theorem clearUpdateTime_linsys (s : Solver d K) : (clearUpdateTime s).work.linsys = s.work.linsys := (clearUpdateTime_frame s).2.2.1
@[simp] theorem clearUpdateTime_rho_vec (s : Solver d K) : (clearUpdateTime s).work.rho_vec = s.work.rho_vec := (clearUpdateTime_frame s).2.2.2.1
@[simp] theorem clearUpdateTime_rho_inv_vec (s : Solver d K) : (clearUpdateTime s).work.rho_inv_vec = s.work.rho_inv_vec := (clearUpdateTime_frame s).2.2.2.2.1
@[simp] theorem clearUpdateTime_rho_inv (s : Solver d K) : (clearUpdateTime s).work.rho_inv = s.work.rho_inv := (clearUpdateTime_frame s).2.2.2.2.2.1
@[simp] theorem clearUpdateTime_constr_type (s : Solver d K) : (clearUpdateTime s).work.constr_type = s.work.constr_type := (clearUpdateTime_frame s).2.2.2.2.2.2.1
@[simp] theorem clearUpdateTime_x (s : Solver d K) : (clearUpdateTime s).work.x = s.work.x := (clearUpdateTime_frame s).2.2.2.2.2.2.2.1
@[simp] theorem clearUpdateTime_y (s : Solver d K) : (clearUpdateTime s).work.y = s.work.y := (clearUpdateTime_frame s).2.2.2.2.2.2.2.2.1
@[simp] theorem clearUpdateTime_z (s : Solver d K) : (clearUpdateTime s).work.z = s.work.z := (clearUpdateTime_frame s).2.2.2.2.2.2.2.2.2.1
@[simp] theorem clearUpdateTime_x_prev (s : Solver d K) : (clearUpdateTime s).work.x_prev = s.work.x_prev := (clearUpdateTime_frame s).2.2.2.2.2.2.2.2.2.2.1
@[simp] theorem clearUpdateTime_z_prev (s : Solver d K) : (clearUpdateTime s).work.z_prev = s.work.z_prev := (clearUpdateTime_frame s).2.2.2.2.2.2.2.2.2.2.2.1
@[simp] theorem clearUpdateTime_Ax (s : Solver d K) : (clearUpdateTime s).work.Ax = s.work.Ax := (clearUpdateTime_frame s).2.2.2.2.2.2.2.2.2.2.2.2.1
@[simp] theorem clearUpdateTime_Px (s : Solver d K) : (clearUpdateTime s).work.Px = s.work.Px := (clearUpdateTime_frame s).2.2.2.2.2.2.2.2.2.2.2.2.2.1
@[simp] theorem clearUpdateTime_Aty (s : Solver d K) : (clearUpdateTime s).work.Aty = s.work.Aty := (clearUpdateTime_frame s).2.2.2.2.2.2.2.2.2.2.2.2.2.2.1
@[simp] theorem clearUpdateTime_delta_y (s : Solver d K) : (clearUpdateTime s).work.delta_y = s.work.delta_y := (clearUpdateTime_frame s).2.2.2.2.2.2.2.2.2.2.2.2.2.2.2.1
@[simp] theorem clearUpdateTime_delta_x (s : Solver d K) : (clearUpdateTime s).work.delta_x = s.work.delta_x := (clearUpdateTime_frame s).2.2.2.2.2.2.2.2.2.2.2.2.2.2.2.2.1
@[simp] theorem clearUpdateTime_scaling (s : Solver d K) : (clearUpdateTime s).work.scaling = s.work.scaling := (clearUpdateTime_frame s).2.2.2.2.2.2.2.2.2.2.2.2.2.2.2.2.2.1
@[simp] theorem clearUpdateTime_scaled_prim_res (s : Solver d K) : (clearUpdateTime s).work.scaled_prim_res = s.work.scaled_prim_res := (clearUpdateTime_frame s).2.2.2.2.2.2.2.2.2.2.2.2.2.2.2.2.2.2.1
@[simp] theorem clearUpdateTime_scaled_dual_res (s : Solver d K) : (clearUpdateTime s).work.scaled_dual_res = s.work.scaled_dual_res := (clearUpdateTime_frame s).2.2.2.2.2.2.2.2.2.2.2.2.2.2.2.2.2.2.2.1
@[simp] theorem clearUpdateTime_scaled_dual_gap (s : Solver d K) : (clearUpdateTime s).work.scaled_dual_gap = s.work.scaled_dual_gap := (clearUpdateTime_frame s).2.2.2.2.2.2.2.2.2.2.2.2.2.2.2.2.2.2.2.2.1
@[simp] theorem clearUpdateTime_xtPx (s : Solver d K) : (clearUpdateTime s).work.xtPx = s.work.xtPx := (clearUpdateTime_frame s).2.2.2.2.2.2.2.2.2.2.2.2.2.2.2.2.2.2.2.2.2.1
@[simp] theorem clearUpdateTime_qtx (s : Solver d K) : (clearUpdateTime s).work.qtx = s.work.qtx := (clearUpdateTime_frame s).2.2.2.2.2.2.2.2.2.2.2.2.2.2.2.2.2.2.2.2.2.2.1
@[simp] theorem clearUpdateTime_SC (s : Solver d K) : (clearUpdateTime s).work.SC = s.work.SC := (clearUpdateTime_frame s).2.2.2.2.2.2.2.2.2.2.2.2.2.2.2.2.2.2.2.2.2.2.2.1
@[simp] theorem clearUpdateTime_rho_updated (s : Solver d K) : (clearUpdateTime s).work.rho_updated = s.work.rho_updated := (clearUpdateTime_frame s).2.2.2.2.2.2.2.2.2.2.2.2.2.2.2.2.2.2.2.2.2.2.2.2.1
@[simp] theorem clearUpdateTime_last_rel_kkt (s : Solver d K) : (clearUpdateTime s).work.last_rel_kkt = s.work.last_rel_kkt := (clearUpdateTime_frame s).2.2.2.2.2.2.2.2.2.2.2.2.2.2.2.2.2.2.2.2.2.2.2.2.2.1
@[simp] theorem clearUpdateTime_first_run (s : Solver d K) : (clearUpdateTime s).work.first_run = s.work.first_run := (clearUpdateTime_frame s).2.2.2.2.2.2.2.2.2.2.2.2.2.2.2.2.2.2.2.2.2.2.2.2.2.2.1
@[simp] theorem clearUpdateTime_rho_update_from_solve (s : Solver d K) : (clearUpdateTime s).work.rho_update_from_solve = s.work.rho_update_from_solve := (clearUpdateTime_frame s).2.2.2.2.2.2.2.2.2.2.2.2.2.2.2.2.2.2.2.2.2.2.2.2.2.2.2.1
@[simp] theorem clearUpdateTime_info_status (s : Solver d K) : (clearUpdateTime s).info.status = s.info.status := (clearUpdateTime_frame s).2.2.2.2.2.2.2.2.2.2.2.2.2.2.2.2.2.2.2.2.2.2.2.2.2.2.2.2.1
@[simp] theorem clearUpdateTime_info_status_val (s : Solver d K) : (clearUpdateTime s).info.status_val = s.info.status_val := (clearUpdateTime_frame s).2.2.2.2.2.2.2.2.2.2.2.2.2.2.2.2.2.2.2.2.2.2.2.2.2.2.2.2.2.1
@[simp] theorem clearUpdateTime_info_status_polish (s : Solver d K) : (clearUpdateTime s).info.status_polish = s.info.status_polish := (clearUpdateTime_frame s).2.2.2.2.2.2.2.2.2.2.2.2.2.2.2.2.2.2.2.2.2.2.2.2.2.2.2.2.2.2.1
@[simp] theorem clearUpdateTime_info_obj_val (s : Solver d K) : (clearUpdateTime s).info.obj_val = s.info.obj_val := (clearUpdateTime_frame s).2.2.2.2.2.2.2.2.2.2.2.2.2.2.2.2.2.2.2.2.2.2.2.2.2.2.2.2.2.2.2.1
@[simp] theorem clearUpdateTime_info_dual_obj_val (s : Solver d K) : (clearUpdateTime s).info.dual_obj_val = s.info.dual_obj_val := (clearUpdateTime_frame s).2.2.2.2.2.2.2.2.2.2.2.2.2.2.2.2.2.2.2.2.2.2.2.2.2.2.2.2.2.2.2.2.1
@[simp] theorem clearUpdateTime_info_prim_res (s : Solver d K) : (clearUpdateTime s).info.prim_res = s.info.prim_res := (clearUpdateTime_frame s).2.2.2.2.2.2.2.2.2.2.2.2.2.2.2.2.2.2.2.2.2.2.2.2.2.2.2.2.2.2.2.2.2.1
@[simp] theorem clearUpdateTime_info_dual_res (s : Solver d K) : (clearUpdateTime s).info.dual_res = s.info.dual_res := (clearUpdateTime_frame s).2.2.2.2.2.2.2.2.2.2.2.2.2.2.2.2.2.2.2.2.2.2.2.2.2.2.2.2.2.2.2.2.2.2.1
@[simp] theorem clearUpdateTime_info_duality_gap (s : Solver d K) : (clearUpdateTime s).info.duality_gap = s.info.duality_gap := (clearUpdateTime_frame s).2.2.2.2.2.2.2.2.2.2.2.2.2.2.2.2.2.2.2.2.2.2.2.2.2.2.2.2.2.2.2.2.2.2.2.1
@[simp] theorem clearUpdateTime_info_iter (s : Solver d K) : (clearUpdateTime s).info.iter = s.info.iter := (clearUpdateTime_frame s).2.2.2.2.2.2.2.2.2.2.2.2.2.2.2.2.2.2.2.2.2.2.2.2.2.2.2.2.2.2.2.2.2.2.2.2.1
@[simp] theorem clearUpdateTime_info_rho_updates (s : Solver d K) : (clearUpdateTime s).info.rho_updates = s.info.rho_updates := (clearUpdateTime_frame s).2.2.2.2.2.2.2.2.2.2.2.2.2.2.2.2.2.2.2.2.2.2.2.2.2.2.2.2.2.2.2.2.2.2.2.2.2.1
@[simp] theorem clearUpdateTime_info_rho_estimate (s : Solver d K) : (clearUpdateTime s).info.rho_estimate = s.info.rho_estimate := (clearUpdateTime_frame s).2.2.2.2.2.2.2.2.2.2.2.2.2.2.2.2.2.2.2.2.2.2.2.2.2.2.2.2.2.2.2.2.2.2.2.2.2.2.1
@[simp] theorem clearUpdateTime_info_setup_time (s : Solver d K) : (clearUpdateTime s).info.setup_time = s.info.setup_time := (clearUpdateTime_frame s).2.2.2.2.2.2.2.2.2.2.2.2.2.2.2.2.2.2.2.2.2.2.2.2.2.2.2.2.2.2.2.2.2.2.2.2.2.2.2.1
@[simp] theorem clearUpdateTime_info_solve_time (s : Solver d K) : (clearUpdateTime s).info.solve_time = s.info.solve_time := (clearUpdateTime_frame s).2.2.2.2.2.2.2.2.2.2.2.2.2.2.2.2.2.2.2.2.2.2.2.2.2.2.2.2.2.2.2.2.2.2.2.2.2.2.2.2.1
@[simp] theorem clearUpdateTime_info_polish_time (s : Solver d K) : (clearUpdateTime s).info.polish_time = s.info.polish_time := (clearUpdateTime_frame s).2.2.2.2.2.2.2.2.2.2.2.2.2.2.2.2.2.2.2.2.2.2.2.2.2.2.2.2.2.2.2.2.2.2.2.2.2.2.2.2.2.1
@[simp] theorem clearUpdateTime_info_run_time (s : Solver d K) : (clearUpdateTime s).info.run_time = s.info.run_time := (clearUpdateTime_frame s).2.2.2.2.2.2.2.2.2.2.2.2.2.2.2.2.2.2.2.2.2.2.2.2.2.2.2.2.2.2.2.2.2.2.2.2.2.2.2.2.2.2.1
@[simp] theorem clearUpdateTime_info_primdual_int (s : Solver d K) : (clearUpdateTime s).info.primdual_int = s.info.primdual_int := (clearUpdateTime_frame s).2.2.2.2.2.2.2.2.2.2.2.2.2.2.2.2.2.2.2.2.2.2.2.2.2.2.2.2.2.2.2.2.2.2.2.2.2.2.2.2.2.2.2.1
@[simp] theorem clearUpdateTime_info_rel_kkt_error (s : Solver d K) : (clearUpdateTime s).info.rel_kkt_error = s.info.rel_kkt_error := (clearUpdateTime_frame s).2.2.2.2.2.2.2.2.2.2.2.2.2.2.2.2.2.2.2.2.2.2.2.2.2.2.2.2.2.2.2.2.2.2.2.2.2.2.2.2.2.2.2.2.1
@[simp] theorem clearUpdateTime_solution (s : Solver d K) : (clearUpdateTime s).solution = s.solution := (clearUpdateTime_frame s).2.2.2.2.2.2.2.2.2.2.2.2.2.2.2.2.2.2.2.2.2.2.2.2.2.2.2.2.2.2.2.2.2.2.2.2.2.2.2.2.2.2.2.2.2.1
@[simp] theorem clearUpdateTime_ticks (s : Solver d K) : (clearUpdateTime s).ticks = s.ticks := (clearUpdateTime_frame s).2.2.2.2.2.2.2.2.2.2.2.2.2.2.2.2.2.2.2.2.2.2.2.2.2.2.2.2.2.2.2.2.2.2.2.2.2.2.2.2.2.2.2.2.2.2.1
@[simp] theorem clearUpdateTime_polls (s : Solver d K) : (clearUpdateTime s).polls = s.polls := (clearUpdateTime_frame s).2.2.2.2.2.2.2.2.2.2.2.2.2.2.2.2.2.2.2.2.2.2.2.2.2.2.2.2.2.2.2.2.2.2.2.2.2.2.2.2.2.2.2.2.2.2.2.1
@[simp] theorem clearUpdateTime_handler (s : Solver d K) : (clearUpdateTime s).handler = s.handler := (clearUpdateTime_frame s).2.2.2.2.2.2.2.2.2.2.2.2.2.2.2.2.2.2.2.2.2.2.2.2.2.2.2.2.2.2.2.2.2.2.2.2.2.2.2.2.2.2.2.2.2.2.2.2

theorem addUpdateTime_frame (env : Env d K) (s : Solver d K) :
  (addUpdateTime env s).settings = s.settings ∧
  (addUpdateTime env s).work = s.work ∧
  (addUpdateTime env s).info.status = s.info.status ∧
  (addUpdateTime env s).info.status_val = s.info.status_val ∧
  (addUpdateTime env s).info.status_polish = s.info.status_polish ∧
  (addUpdateTime env s).info.obj_val = s.info.obj_val ∧
  (addUpdateTime env s).info.dual_obj_val = s.info.dual_obj_val ∧
  (addUpdateTime env s).info.prim_res = s.info.prim_res ∧
  (addUpdateTime env s).info.dual_res = s.info.dual_res ∧
  (addUpdateTime env s).info.duality_gap = s.info.duality_gap ∧
  (addUpdateTime env s).info.iter = s.info.iter ∧
  (addUpdateTime env s).info.rho_updates = s.info.rho_updates ∧
  (addUpdateTime env s).info.rho_estimate = s.info.rho_estimate ∧
  (addUpdateTime env s).info.setup_time = s.info.setup_time ∧
  (addUpdateTime env s).info.solve_time = s.info.solve_time ∧
  (addUpdateTime env s).info.polish_time = s.info.polish_time ∧
  (addUpdateTime env s).info.run_time = s.info.run_time ∧
  (addUpdateTime env s).info.primdual_int = s.info.primdual_int ∧
  (addUpdateTime env s).info.rel_kkt_error = s.info.rel_kkt_error ∧
  (addUpdateTime env s).solution = s.solution ∧
  (addUpdateTime env s).polls = s.polls ∧
  (addUpdateTime env s).handler = s.handler := by
  frame_tac addUpdateTime
@[simp] theorem addUpdateTime_settings (env : Env d K) (s : Solver d K) : (addUpdateTime env s).settings = s.settings := (addUpdateTime_frame env s).1
@[simp] theorem addUpdateTime_work (env : Env d K) (s : Solver d K) : (addUpdateTime env s).work = s.work := (addUpdateTime_frame env s).2.1
@[simp] theorem addUpdateTime_info_status (env : Env d K) (s : Solver d K) : (addUpdateTime env s).info.status = s.info.status := (addUpdateTime_frame env s).2.2.1
@[simp] theorem addUpdateTime_info_status_val (env : Env d K) (s : Solver d K) : (addUpdateTime env s).info.status_val = s.info.status_val := (addUpdateTime_frame env s).2.2.2.1
@[simp] theorem addUpdateTime_info_status_polish (env : Env d K) (s : Solver d K) : (addUpdateTime env s).info.status_polish = s.info.status_polish := (addUpdateTime_frame env s).2.2.2.2.1
@[simp] theorem addUpdateTime_info_obj_val (env : Env d K) (s : Solver d K) : (addUpdateTime env s).info.obj_val = s.info.obj_val := (addUpdateTime_frame env s).2.2.2.2.2.1
@[simp] theorem addUpdateTime_info_dual_obj_val (env : Env d K) (s : Solver d K) : (addUpdateTime env s).info.dual_obj_val = s.info.dual_obj_val := (addUpdateTime_frame env s).2.2.2.2.2.2.1
@[simp] theorem addUpdateTime_info_prim_res (env : Env d K) (s : Solver d K) : (addUpdateTime env s).info.prim_res = s.info.prim_res := (addUpdateTime_frame env s).2.2.2.2.2.2.2.1
@[simp] theorem addUpdateTime_info_dual_res (env : Env d K) (s : Solver d K) : (addUpdateTime env s).info.dual_res = s.info.dual_res := (addUpdateTime_frame env s).2.2.2.2.2.2.2.2.1
@[simp] theorem addUpdateTime_info_duality_gap (env : Env d K) (s : Solver d K) : (addUpdateTime env s).info.duality_gap = s.info.duality_gap := (addUpdateTime_frame env s).2.2.2.2.2.2.2.2.2.1
@[simp] theorem addUpdateTime_info_iter (env : Env d K) (s : Solver d K) : (addUpdateTime env s).info.iter = s.info.iter := (addUpdateTime_frame env s).2.2.2.2.2.2.2.2.2.2.1
@[simp] theorem addUpdateTime_info_rho_updates (env : Env d K) (s : Solver d K) : (addUpdateTime env s).info.rho_updates = s.info.rho_updates := (addUpdateTime_frame env s).2.2.2.2.2.2.2.2.2.2.2.1
@[simp] theorem addUpdateTime_info_rho_estimate (env : Env d K) (s : Solver d K) : (addUpdateTime env s).info.rho_estimate = s.info.rho_estimate := (addUpdateTime_frame env s).2.2.2.2.2.2.2.2.2.2.2.2.1
@[simp] theorem addUpdateTime_info_setup_time (env : Env d K) (s : Solver d K) : (addUpdateTime env s).info.setup_time = s.info.setup_time := (addUpdateTime_frame env s).2.2.2.2.2.2.2.2.2.2.2.2.2.1
@[simp] theorem addUpdateTime_info_solve_time (env : Env d K) (s : Solver d K) : (addUpdateTime env s).info.solve_time = s.info.solve_time := (addUpdateTime_frame env s).2.2.2.2.2.2.2.2.2.2.2.2.2.2.1
@[simp] theorem addUpdateTime_info_polish_time (env : Env d K) (s : Solver d K) : (addUpdateTime env s).info.polish_time = s.info.polish_time := (addUpdateTime_frame env s).2.2.2.2.2.2.2.2.2.2.2.2.2.2.2.1
@[simp] theorem addUpdateTime_info_run_time (env : Env d K) (s : Solver d K) : (addUpdateTime env s).info.run_time = s.info.run_time := (addUpdateTime_frame env s).2.2.2.2.2.2.2.2.2.2.2.2.2.2.2.2.1
@[simp] theorem addUpdateTime_info_primdual_int (env : Env d K) (s : Solver d K) : (addUpdateTime env s).info.primdual_int = s.info.primdual_int := (addUpdateTime_frame env s).2.2.2.2.2.2.2.2.2.2.2.2.2.2.2.2.2.1
@[simp] theorem addUpdateTime_info_rel_kkt_error (env : Env d K) (s : Solver d K) : (addUpdateTime env s).info.rel_kkt_error = s.info.rel_kkt_error := (addUpdateTime_frame env s).2.2.2.2.2.2.2.2.2.2.2.2.2.2.2.2.2.2.1
@[simp] theorem addUpdateTime_solution (env : Env d K) (s : Solver d K) : (addUpdateTime env s).solution = s.solution := (addUpdateTime_frame env s).2.2.2.2.2.2.2.2.2.2.2.2.2.2.2.2.2.2.2.1
@[simp] theorem addUpdateTime_polls (env : Env d K) (s : Solver d K) : (addUpdateTime env s).polls = s.polls := (addUpdateTime_frame env s).2.2.2.2.2.2.2.2.2.2.2.2.2.2.2.2.2.2.2.2.1
@[simp] theorem addUpdateTime_handler (env : Env d K) (s : Solver d K) : (addUpdateTime env s).handler = s.handler := (addUpdateTime_frame env s).2.2.2.2.2.2.2.2.2.2.2.2.2.2.2.2.2.2.2.2.2

theorem setRho_frame (s : Solver d K) (rho_new : K) :
  (setRho s rho_new).settings.device = s.settings.device ∧
  (setRho s rho_new).settings.linsys_solver = s.settings.linsys_solver ∧
  (setRho s rho_new).settings.allocate_solution = s.settings.allocate_solution ∧
  (setRho s rho_new).settings.verbose = s.settings.verbose ∧
  (setRho s rho_new).settings.profiler_level = s.settings.profiler_level ∧
  (setRho s rho_new).settings.warm_starting = s.settings.warm_starting ∧
  (setRho s rho_new).settings.scaling = s.settings.scaling ∧
  (setRho s rho_new).settings.polishing = s.settings.polishing ∧
  (setRho s rho_new).settings.rho_is_vec = s.settings.rho_is_vec ∧
  (setRho s rho_new).settings.sigma = s.settings.sigma ∧
  (setRho s rho_new).settings.alpha = s.settings.alpha ∧
  (setRho s rho_new).settings.cg_max_iter = s.settings.cg_max_iter ∧
  (setRho s rho_new).settings.cg_tol_reduction = s.settings.cg_tol_reduction ∧
  (setRho s rho_new).settings.cg_tol_fraction = s.settings.cg_tol_fraction ∧
  (setRho s rho_new).settings.cg_precond = s.settings.cg_precond ∧
  (setRho s rho_new).settings.adaptive_rho = s.settings.adaptive_rho ∧
  (setRho s rho_new).settings.adaptive_rho_interval = s.settings.adaptive_rho_interval ∧
  (setRho s rho_new).settings.adaptive_rho_fraction = s.settings.adaptive_rho_fraction ∧
  (setRho s rho_new).settings.adaptive_rho_tolerance = s.settings.adaptive_rho_tolerance ∧
  (setRho s rho_new).settings.max_iter = s.settings.max_iter ∧
  (setRho s rho_new).settings.eps_abs = s.settings.eps_abs ∧
  (setRho s rho_new).settings.eps_rel = s.settings.eps_rel ∧
  (setRho s rho_new).settings.eps_prim_inf = s.settings.eps_prim_inf ∧
  (setRho s rho_new).settings.eps_dual_inf = s.settings.eps_dual_inf ∧
  (setRho s rho_new).settings.scaled_termination = s.settings.scaled_termination ∧
  (setRho s rho_new).settings.check_termination = s.settings.check_termination ∧
  (setRho s rho_new).settings.check_dualgap = s.settings.check_dualgap ∧
  (setRho s rho_new).settings.time_limit = s.settings.time_limit ∧
  (setRho s rho_new).settings.delta = s.settings.delta ∧
  (setRho s rho_new).settings.polish_refine_iter = s.settings.polish_refine_iter ∧
  (setRho s rho_new).work.data = s.work.data ∧
  (setRho s rho_new).work.linsys = s.work.linsys ∧
  (setRho s rho_new).work.constr_type = s.work.constr_type ∧
  (setRho s rho_new).work.x = s.work.x ∧
  (setRho s rho_new).work.y = s.work.y ∧
  (setRho s rho_new).work.z = s.work.z ∧
  (setRho s rho_new).work.x_prev = s.work.x_prev ∧
  (setRho s rho_new).work.z_prev = s.work.z_prev ∧
  (setRho s rho_new).work.Ax = s.work.Ax ∧
  (setRho s rho_new).work.Px = s.work.Px ∧
  (setRho s rho_new).work.Aty = s.work.Aty ∧
  (setRho s rho_new).work.delta_y = s.work.delta_y ∧
  (setRho s rho_new).work.delta_x = s.work.delta_x ∧
  (setRho s rho_new).work.scaling = s.work.scaling ∧
  (setRho s rho_new).work.scaled_prim_res = s.work.scaled_prim_res ∧
  (setRho s rho_new).work.scaled_dual_res = s.work.scaled_dual_res ∧
  (setRho s rho_new).work.scaled_dual_gap = s.work.scaled_dual_gap ∧
  (setRho s rho_new).work.xtPx = s.work.xtPx ∧
  (setRho s rho_new).work.qtx = s.work.qtx ∧
  (setRho s rho_new).work.SC = s.work.SC ∧
  (setRho s rho_new).work.rho_updated = s.work.rho_updated ∧
  (setRho s rho_new).work.last_rel_kkt = s.work.last_rel_kkt ∧
  (setRho s rho_new).work.first_run = s.work.first_run ∧
  (setRho s rho_new).work.clear_update_time = s.work.clear_update_time ∧
  (setRho s rho_new).work.rho_update_from_solve = s.work.rho_update_from_solve ∧
  (setRho s rho_new).info = s.info ∧
  (setRho s rho_new).solution = s.solution ∧
  (setRho s rho_new).ticks = s.ticks ∧
  (setRho s rho_new).polls = s.polls ∧
  (setRho s rho_new).handler = s.handler := by
  frame_tac setRho
@[simp] theorem setRho_settings_device (s : Solver d K) (rho_new : K) : (setRho s rho_new).settings.device = s.settings.device := (setRho_frame s rho_new).1
@[simp] theorem setRho_settings_linsys_solver (s : Solver d K) (rho_new : K) : (setRho s rho_new).settings.linsys_solver = s.settings.linsys_solver := (setRho_frame s rho_new).2.1
@[simp] theorem setRho_settings_allocate_solution (s : Solver d K) (rho_new : K) : (setRho s rho_new).settings.allocate_solution = s.settings.allocate_solution := (setRho_frame s rho_new).2.2.1
@[simp] theorem setRho_settings_verbose (s : Solver d K) (rho_new : K) : (setRho s rho_new).settings.verbose = s.settings.verbose := (setRho_frame s rho_new).2.2.2.1
@[simp] theorem setRho_settings_profiler_level (s : Solver d K) (rho_new : K) : (setRho s rho_new).settings.profiler_level = s.settings.profiler_level := (setRho_frame s rho_new).2.2.2.2.1
@[simp] theorem setRho_settings_warm_starting (s : Solver d K) (rho_new : K) : (setRho s rho_new).settings.warm_starting = s.settings.warm_starting := (setRho_frame s rho_new).2.2.2.2.2.1
@[simp] theorem setRho_settings_scaling (s : Solver d K) (rho_new : K) : (setRho s rho_new).settings.scaling = s.settings.scaling := (setRho_frame s rho_new).2.2.2.2.2.2.1
@[simp] theorem setRho_settings_polishing (s : Solver d K) (rho_new : K) : (setRho s rho_new).settings.polishing = s.settings.polishing := (setRho_frame s rho_new).2.2.2.2.2.2.2.1
@[simp] theorem setRho_settings_rho_is_vec (s : Solver d K) (rho_new : K) : (setRho s rho_new).settings.rho_is_vec = s.settings.rho_is_vec := (setRho_frame s rho_new).2.2.2.2.2.2.2.2.1
@[simp] theorem setRho_settings_sigma (s : Solver d K) (rho_new : K) : (setRho s rho_new).settings.sigma = s.settings.sigma := (setRho_frame s rho_new).2.2.2.2.2.2.2.2.2.1
@[simp] theorem setRho_settings_alpha (s : Solver d K) (rho_new : K) : (setRho s rho_new).settings.alpha = s.settings.alpha := (setRho_frame s rho_new).2.2.2.2.2.2.2.2.2.2.1
@[simp] theorem setRho_settings_cg_max_iter (s : Solver d K) (rho_new : K) : (setRho s rho_new).settings.cg_max_iter = s.settings.cg_max_iter := (setRho_frame s rho_new).2.2.2.2.2.2.2.2.2.2.2.1
@[simp] theorem setRho_settings_cg_tol_reduction (s : Solver d K) (rho_new : K) : (setRho s rho_new).settings.cg_tol_reduction = s.settings.cg_tol_reduction := (setRho_frame s rho_new).2.2.2.2.2.2.2.2.2.2.2.2.1
@[simp] theorem setRho_settings_cg_tol_fraction (s : Solver d K) (rho_new : K) : (setRho s rho_new).settings.cg_tol_fraction = s.settings.cg_tol_fraction := (setRho_frame s rho_new).2.2.2.2.2.2.2.2.2.2.2.2.2.1
@[simp] theorem setRho_settings_cg_precond (s : Solver d K) (rho_new : K) : (setRho s rho_new).settings.cg_precond = s.settings.cg_precond := (setRho_frame s rho_new).2.2.2.2.2.2.2.2.2.2.2.2.2.2.1
@[simp] theorem setRho_settings_adaptive_rho (s : Solver d K) (rho_new : K) : (setRho s rho_new).settings.adaptive_rho = s.settings.adaptive_rho := (setRho_frame s rho_new).2.2.2.2.2.2.2.2.2.2.2.2.2.2.2.1
@[simp] theorem setRho_settings_adaptive_rho_interval (s : Solver d K) (rho_new : K) : (setRho s rho_new).settings.adaptive_rho_interval = s.settings.adaptive_rho_interval := (setRho_frame s rho_new).2.2.2.2.2.2.2.2.2.2.2.2.2.2.2.2.1
@[simp] theorem setRho_settings_adaptive_rho_fraction (s : Solver d K) (rho_new : K) : (setRho s rho_new).settings.adaptive_rho_fraction = s.settings.adaptive_rho_fraction := (setRho_frame s rho_new).2.2.2.2.2.2.2.2.2.2.2.2.2.2.2.2.2.1
@[simp] theorem setRho_settings_adaptive_rho_tolerance (s : Solver d K) (rho_new : K) : (setRho s rho_new).settings.adaptive_rho_tolerance = s.settings.adaptive_rho_tolerance := (setRho_frame s rho_new).2.2.2.2.2.2.2.2.2.2.2.2.2.2.2.2.2.2.1
@[simp] theorem setRho_settings_max_iter (s : Solver d K) (rho_new : K) : (setRho s rho_new).settings.max_iter = s.settings.max_iter := (setRho_frame s rho_new).2.2.2.2.2.2.2.2.2.2.2.2.2.2.2.2.2.2.2.1
@[simp] theorem setRho_settings_eps_abs (s : Solver d K) (rho_new : K) : (setRho s rho_new).settings.eps_abs = s.settings.eps_abs := (setRho_frame s rho_new).2.2.2.2.2.2.2.2.2.2.2.2.2.2.2.2.2.2.2.2.1
@[simp] theorem setRho_settings_eps_rel (s : Solver d K) (rho_new : K) : (setRho s rho_new).settings.eps_rel = s.settings.eps_rel := (setRho_frame s rho_new).2.2.2.2.2.2.2.2.2.2.2.2.2.2.2.2.2.2.2.2.2.1
@[simp] theorem setRho_settings_eps_prim_inf (s : Solver d K) (rho_new : K) : (setRho s rho_new).settings.eps_prim_inf = s.settings.eps_prim_inf := (setRho_frame s rho_new).2.2.2.2.2.2.2.2.2.2.2.2.2.2.2.2.2.2.2.2.2.2.1
@[simp] theorem setRho_settings_eps_dual_inf (s : Solver d K) (rho_new : K) : (setRho s rho_new).settings.eps_dual_inf = s.settings.eps_dual_inf := (setRho_frame s rho_new).2.2.2.2.2.2.2.2.2.2.2.2.2.2.2.2.2.2.2.2.2.2.2.1
@[simp] theorem setRho_settings_scaled_termination (s : Solver d K) (rho_new : K) : (setRho s rho_new).settings.scaled_termination = s.settings.scaled_termination := (setRho_frame s rho_new).2.2.2.2.2.2.2.2.2.2.2.2.2.2.2.2.2.2.2.2.2.2.2.2.1
@[simp] theorem setRho_settings_check_termination (s : Solver d K) (rho_new : K) : (setRho s rho_new).settings.check_termination = s.settings.check_termination := (setRho_frame s rho_new).2.2.2.2.2.2.2.2.2.2.2.2.2.2.2.2.2.2.2.2.2.2.2.2.2.1
@[simp] theorem setRho_settings_check_dualgap (s : Solver d K) (rho_new : K) : (setRho s rho_new).settings.check_dualgap = s.settings.check_dualgap := (setRho_frame s rho_new).2.2.2.2.2.2.2.2.2.2.2.2.2.2.2.2.2.2.2.2.2.2.2.2.2.2.1
@[simp] theorem setRho_settings_time_limit (s : Solver d K) (rho_new : K) : (setRho s rho_new).settings.time_limit = s.settings.time_limit := (setRho_frame s rho_new).2.2.2.2.2.2.2.2.2.2.2.2.2.2.2.2.2.2.2.2.2.2.2.2.2.2.2.1
@[simp] theorem setRho_settings_delta (s : Solver d K) (rho_new : K) : (setRho s rho_new).settings.delta = s.settings.delta := (setRho_frame s rho_new).2.2.2.2.2.2.2.2.2.2.2.2.2.2.2.2.2.2.2.2.2.2.2.2.2.2.2.2.1
@[simp] theorem setRho_settings_polish_refine_iter (s : Solver d K) (rho_new : K) : (setRho s rho_new).settings.polish_refine_iter = s.settings.polish_refine_iter := (setRho_frame s rho_new).2.2.2.2.2.2.2.2.2.2.2.2.2.2.2.2.2.2.2.2.2.2.2.2.2.2.2.2.2.1
@[simp] theorem setRho_data (s : Solver d K) (rho_new : K) : (setRho s rho_new).work.data = s.work.data := (setRho_frame s rho_new).2.2.2.2.2.2.2.2.2.2.2.2.2.2.2.2.2.2.2.2.2.2.2.2.2.2.2.2.2.2.1
@[simp] theorem setRho_linsys (s : Solver d K) (rho_new : K) : (setRho s rho_new).work.linsys = s.work.linsys := (setRho_frame s rho_new).2.2.2.2.2.2.2.2.2.2.2.2.2.2.2.2.2.2.2.2.2.2.2.2.2.2.2.2.2.2.2.1
@[simp] theorem setRho_constr_type (s : Solver d K) (rho_new : K) : (setRho s rho_new).work.constr_type = s.work.constr_type := (setRho_frame s rho_new).2.2.2.2.2.2.2.2.2.2.2.2.2.2.2.2.2.2.2.2.2.2.2.2.2.2.2.2.2.2.2.2.1
@[simp] theorem setRho_x (s : Solver d K) (rho_new : K) : (setRho s rho_new).work.x = s.work.x := (setRho_frame s rho_new).2.2.2.2.2.2.2.2.2.2.2.2.2.2.2.2.2.2.2.2.2.2.2.2.2.2.2.2.2.2.2.2.2.1
@[simp] theorem setRho_y (s : Solver d K) (rho_new : K) : (setRho s rho_new).work.y = s.work.y := (setRho_frame s rho_new).2.2.2.2.2.2.2.2.2.2.2.2.2.2.2.2.2.2.2.2.2.2.2.2.2.2.2.2.2.2.2.2.2.2.1
@[simp] theorem setRho_z (s : Solver d K) (rho_new : K) : (setRho s rho_new).work.z = s.work.z := (setRho_frame s rho_new).2.2.2.2.2.2.2.2.2.2.2.2.2.2.2.2.2.2.2.2.2.2.2.2.2.2.2.2.2.2.2.2.2.2.2.1
@[simp] theorem setRho_x_prev (s : Solver d K) (rho_new : K) : (setRho s rho_new).work.x_prev = s.work.x_prev := (setRho_frame s rho_new).2.2.2.2.2.2.2.2.2.2.2.2.2.2.2.2.2.2.2.2.2.2.2.2.2.2.2.2.2.2.2.2.2.2.2.2.1
@[simp] theorem setRho_z_prev (s : Solver d K) (rho_new : K) : (setRho s rho_new).work.z_prev = s.work.z_prev := (setRho_frame s rho_new).2.2.2.2.2.2.2.2.2.2.2.2.2.2.2.2.2.2.2.2.2.2.2.2.2.2.2.2.2.2.2.2.2.2.2.2.2.1
@[simp] theorem setRho_Ax (s : Solver d K) (rho_new : K) : (setRho s rho_new).work.Ax = s.work.Ax := (setRho_frame s rho_new).2.2.2.2.2.2.2.2.2.2.2.2.2.2.2.2.2.2.2.2.2.2.2.2.2.2.2.2.2.2.2.2.2.2.2.2.2.2.1
@[simp] theorem setRho_Px (s : Solver d K) (rho_new : K) : (setRho s rho_new).work.Px = s.work.Px := (setRho_frame s rho_new).2.2.2.2.2.2.2.2.2.2.2.2.2.2.2.2.2.2.2.2.2.2.2.2.2.2.2.2.2.2.2.2.2.2.2.2.2.2.2.1
@[simp] theorem setRho_Aty (s : Solver d K) (rho_new : K) : (setRho s rho_new).work.Aty = s.work.Aty := (setRho_frame s rho_new).2.2.2.2.2.2.2.2.2.2.2.2.2.2.2.2.2.2.2.2.2.2.2.2.2.2.2.2.2.2.2.2.2.2.2.2.2.2.2.2.1
@[simp] theorem setRho_delta_y (s : Solver d K) (rho_new : K) : (setRho s rho_new).work.delta_y = s.work.delta_y := (setRho_frame s rho_new).2.2.2.2.2.2.2.2.2.2.2.2.2.2.2.2.2.2.2.2.2.2.2.2.2.2.2.2.2.2.2.2.2.2.2.2.2.2.2.2.2.1
@[simp] theorem setRho_delta_x (s : Solver d K) (rho_new : K) : (setRho s rho_new).work.delta_x = s.work.delta_x := (setRho_frame s rho_new).2.2.2.2.2.2.2.2.2.2.2.2.2.2.2.2.2.2.2.2.2.2.2.2.2.2.2.2.2.2.2.2.2.2.2.2.2.2.2.2.2.2.1
@[simp] theorem setRho_scaling (s : Solver d K) (rho_new : K) : (setRho s rho_new).work.scaling = s.work.scaling := (setRho_frame s rho_new).2.2.2.2.2.2.2.2.2.2.2.2.2.2.2.2.2.2.2.2.2.2.2.2.2.2.2.2.2.2.2.2.2.2.2.2.2.2.2.2.2.2.2.1
@[simp] theorem setRho_scaled_prim_res (s : Solver d K) (rho_new : K) : (setRho s rho_new).work.scaled_prim_res = s.work.scaled_prim_res := (setRho_frame s rho_new).2.2.2.2.2.2.2.2.2.2.2.2.2.2.2.2.2.2.2.2.2.2.2.2.2.2.2.2.2.2.2.2.2.2.2.2.2.2.2.2.2.2.2.2.1
@[simp] theorem setRho_scaled_dual_res (s : Solver d K) (rho_new : K) : (setRho s rho_new).work.scaled_dual_res = s.work.scaled_dual_res := (setRho_frame s rho_new).2.2.2.2.2.2.2.2.2.2.2.2.2.2.2.2.2.2.2.2.2.2.2.2.2.2.2.2.2.2.2.2.2.2.2.2.2.2.2.2.2.2.2.2.2.1
@[simp] theorem setRho_scaled_dual_gap (s : Solver d K) (rho_new : K) : (setRho s rho_new).work.scaled_dual_gap = s.work.scaled_dual_gap := (setRho_frame s rho_new).2.2.2.2.2.2.2.2.2.2.2.2.2.2.2.2.2.2.2.2.2.2.2.2.2.2.2.2.2.2.2.2.2.2.2.2.2.2.2.2.2.2.2.2.2.2.1
@[simp] theorem setRho_xtPx (s : Solver d K) (rho_new : K) : (setRho s rho_new).work.xtPx = s.work.xtPx := (setRho_frame s rho_new).2.2.2.2.2.2.2.2.2.2.2.2.2.2.2.2.2.2.2.2.2.2.2.2.2.2.2.2.2.2.2.2.2.2.2.2.2.2.2.2.2.2.2.2.2.2.2.1
@[simp] theorem setRho_qtx (s : Solver d K) (rho_new : K) : (setRho s rho_new).work.qtx = s.work.qtx := (setRho_frame s rho_new).2.2.2.2.2.2.2.2.2.2.2.2.2.2.2.2.2.2.2.2.2.2.2.2.2.2.2.2.2.2.2.2.2.2.2.2.2.2.2.2.2.2.2.2.2.2.2.2.1
@[simp] theorem setRho_SC (s : Solver d K) (rho_new : K) : (setRho s rho_new).work.SC = s.work.SC := (setRho_frame s rho_new).2.2.2.2.2.2.2.2.2.2.2.2.2.2.2.2.2.2.2.2.2.2.2.2.2.2.2.2.2.2.2.2.2.2.2.2.2.2.2.2.2.2.2.2.2.2.2.2.2.1
@[simp] theorem setRho_rho_updated (s : Solver d K) (rho_new : K) : (setRho s rho_new).work.rho_updated = s.work.rho_updated := (setRho_frame s rho_new).2.2.2.2.2.2.2.2.2.2.2.2.2.2.2.2.2.2.2.2.2.2.2.2.2.2.2.2.2.2.2.2.2.2.2.2.2.2.2.2.2.2.2.2.2.2.2.2.2.2.1
@[simp] theorem setRho_last_rel_kkt (s : Solver d K) (rho_new : K) : (setRho s rho_new).work.last_rel_kkt = s.work.last_rel_kkt := (setRho_frame s rho_new).2.2.2.2.2.2.2.2.2.2.2.2.2.2.2.2.2.2.2.2.2.2.2.2.2.2.2.2.2.2.2.2.2.2.2.2.2.2.2.2.2.2.2.2.2.2.2.2.2.2.2.1
@[simp] theorem setRho_first_run (s : Solver d K) (rho_new : K) : (setRho s rho_new).work.first_run = s.work.first_run := (setRho_frame s rho_new).2.2.2.2.2.2.2.2.2.2.2.2.2.2.2.2.2.2.2.2.2.2.2.2.2.2.2.2.2.2.2.2.2.2.2.2.2.2.2.2.2.2.2.2.2.2.2.2.2.2.2.2.1
@[simp] theorem setRho_clear_update_time (s : Solver d K) (rho_new : K) : (setRho s rho_new).work.clear_update_time = s.work.clear_update_time := (setRho_frame s rho_new).2.2.2.2.2.2.2.2.2.2.2.2.2.2.2.2.2.2.2.2.2.2.2.2.2.2.2.2.2.2.2.2.2.2.2.2.2.2.2.2.2.2.2.2.2.2.2.2.2.2.2.2.2.1
@[simp] theorem setRho_rho_update_from_solve (s : Solver d K) (rho_new : K) : (setRho s rho_new).work.rho_update_from_solve = s.work.rho_update_from_solve := (setRho_frame s rho_new).2.2.2.2.2.2.2.2.2.2.2.2.2.2.2.2.2.2.2.2.2.2.2.2.2.2.2.2.2.2.2.2.2.2.2.2.2.2.2.2.2.2.2.2.2.2.2.2.2.2.2.2.2.2.1
@[simp] theorem setRho_info (s : Solver d K) (rho_new : K) : (setRho s rho_new).info = s.info := (setRho_frame s rho_new).2.2.2.2.2.2.2.2.2.2.2.2.2.2.2.2.2.2.2.2.2.2.2.2.2.2.2.2.2.2.2.2.2.2.2.2.2.2.2.2.2.2.2.2.2.2.2.2.2.2.2.2.2.2.2.1
@[simp] theorem setRho_solution (s : Solver d K) (rho_new : K) : (setRho s rho_new).solution = s.solution := (setRho_frame s rho_new).2.2.2.2.2.2.2.2.2.2.2.2.2.2.2.2.2.2.2.2.2.2.2.2.2.2.2.2.2.2.2.2.2.2.2.2.2.2.2.2.2.2.2.2.2.2.2.2.2.2.2.2.2.2.2.2.1
@[simp] theorem setRho_ticks (s : Solver d K) (rho_new : K) : (setRho s rho_new).ticks = s.ticks := (setRho_frame s rho_new).2.2.2.2.2.2.2.2.2.2.2.2.2.2.2.2.2.2.2.2.2.2.2.2.2.2.2.2.2.2.2.2.2.2.2.2.2.2.2.2.2.2.2.2.2.2.2.2.2.2.2.2.2.2.2.2.2.1
@[simp] theorem setRho_polls (s : Solver d K) (rho_new : K) : (setRho s rho_new).polls = s.polls := (setRho_frame s rho_new).2.2.2.2.2.2.2.2.2.2.2.2.2.2.2.2.2.2.2.2.2.2.2.2.2.2.2.2.2.2.2.2.2.2.2.2.2.2.2.2.2.2.2.2.2.2.2.2.2.2.2.2.2.2.2.2.2.2.1
@[simp] theorem setRho_handler (s : Solver d K) (rho_new : K) : (setRho s rho_new).handler = s.handler := (setRho_frame s rho_new).2.2.2.2.2.2.2.2.2.2.2.2.2.2.2.2.2.2.2.2.2.2.2.2.2.2.2.2.2.2.2.2.2.2.2.2.2.2.2.2.2.2.2.2.2.2.2.2.2.2.2.2.2.2.2.2.2.2.2

theorem osqpUpdateRho_frame (cfg : Cfg) (env : Env d K) (s : Solver d K) (rho_new : K) :
  ((osqpUpdateRho cfg env s rho_new).1).settings.device = s.settings.device ∧
  ((osqpUpdateRho cfg env s rho_new).1).settings.linsys_solver = s.settings.linsys_solver ∧
  ((osqpUpdateRho cfg env s rho_new).1).settings.allocate_solution = s.settings.allocate_solution ∧
  ((osqpUpdateRho cfg env s rho_new).1).settings.verbose = s.settings.verbose ∧
  ((osqpUpdateRho cfg env s rho_new).1).settings.profiler_level = s.settings.profiler_level ∧
  ((osqpUpdateRho cfg env s rho_new).1).settings.warm_starting = s.settings.warm_starting ∧
  ((osqpUpdateRho cfg env s rho_new).1).settings.scaling = s.settings.scaling ∧
  ((osqpUpdateRho cfg env s rho_new).1).settings.polishing = s.settings.polishing ∧
  ((osqpUpdateRho cfg env s rho_new).1).settings.rho_is_vec = s.settings.rho_is_vec ∧
  ((osqpUpdateRho cfg env s rho_new).1).settings.sigma = s.settings.sigma ∧
  ((osqpUpdateRho cfg env s rho_new).1).settings.alpha = s.settings.alpha ∧
  ((osqpUpdateRho cfg env s rho_new).1).settings.cg_max_iter = s.settings.cg_max_iter ∧
  ((osqpUpdateRho cfg env s rho_new).1).settings.cg_tol_reduction = s.settings.cg_tol_reduction ∧
  ((osqpUpdateRho cfg env s rho_new).1).settings.cg_tol_fraction = s.settings.cg_tol_fraction ∧
  ((osqpUpdateRho cfg env s rho_new).1).settings.cg_precond = s.settings.cg_precond ∧
  ((osqpUpdateRho cfg env s rho_new).1).settings.adaptive_rho = s.settings.adaptive_rho ∧
  ((osqpUpdateRho cfg env s rho_new).1).settings.adaptive_rho_interval = s.settings.adaptive_rho_interval ∧
  ((osqpUpdateRho cfg env s rho_new).1).settings.adaptive_rho_fraction = s.settings.adaptive_rho_fraction ∧
  ((osqpUpdateRho cfg env s rho_new).1).settings.adaptive_rho_tolerance = s.settings.adaptive_rho_tolerance ∧
  ((osqpUpdateRho cfg env s rho_new).1).settings.max_iter = s.settings.max_iter ∧
  ((osqpUpdateRho cfg env s rho_new).1).settings.eps_abs = s.settings.eps_abs ∧
  ((osqpUpdateRho cfg env s rho_new).1).settings.eps_rel = s.settings.eps_rel ∧
  ((osqpUpdateRho cfg env s rho_new).1).settings.eps_prim_inf = s.settings.eps_prim_inf ∧
  ((osqpUpdateRho cfg env s rho_new).1).settings.eps_dual_inf = s.settings.eps_dual_inf ∧
  ((osqpUpdateRho cfg env s rho_new).1).settings.scaled_termination = s.settings.scaled_termination ∧
  ((osqpUpdateRho cfg env s rho_new).1).settings.check_termination = s.settings.check_termination ∧
  ((osqpUpdateRho cfg env s rho_new).1).settings.check_dualgap = s.settings.check_dualgap ∧
  ((osqpUpdateRho cfg env s rho_new).1).settings.time_limit = s.settings.time_limit ∧
  ((osqpUpdateRho cfg env s rho_new).1).settings.delta = s.settings.delta ∧
  ((osqpUpdateRho cfg env s rho_new).1).settings.polish_refine_iter = s.settings.polish_refine_iter ∧
  ((osqpUpdateRho cfg env s rho_new).1).work.data = s.work.data ∧
  ((osqpUpdateRho cfg env s rho_new).1).work.constr_type = s.work.constr_type ∧
  ((osqpUpdateRho cfg env s rho_new).1).work.x = s.work.x ∧
  ((osqpUpdateRho cfg env s rho_new).1).work.y = s.work.y ∧
  ((osqpUpdateRho cfg env s rho_new).1).work.z = s.work.z ∧
  ((osqpUpdateRho cfg env s rho_new).1).work.x_prev = s.work.x_prev ∧
  ((osqpUpdateRho cfg env s rho_new).1).work.z_prev = s.work.z_prev ∧
  ((osqpUpdateRho cfg env s rho_new).1).work.Ax = s.work.Ax ∧
  ((osqpUpdateRho cfg env s rho_new).1).work.Px = s.work.Px ∧
  ((osqpUpdateRho cfg env s rho_new).1).work.Aty = s.work.Aty ∧
  ((osqpUpdateRho cfg env s rho_new).1).work.delta_y = s.work.delta_y ∧
  ((osqpUpdateRho cfg env s rho_new).1).work.delta_x = s.work.delta_x ∧
  ((osqpUpdateRho cfg env s rho_new).1).work.scaling = s.work.scaling ∧
  ((osqpUpdateRho cfg env s rho_new).1).work.scaled_prim_res = s.work.scaled_prim_res ∧
  ((osqpUpdateRho cfg env s rho_new).1).work.scaled_dual_res = s.work.scaled_dual_res ∧
  ((osqpUpdateRho cfg env s rho_new).1).work.scaled_dual_gap = s.work.scaled_dual_gap ∧
  ((osqpUpdateRho cfg env s rho_new).1).work.xtPx = s.work.xtPx ∧
  ((osqpUpdateRho cfg env s rho_new).1).work.qtx = s.work.qtx ∧
  ((osqpUpdateRho cfg env s rho_new).1).work.SC = s.work.SC ∧
  ((osqpUpdateRho cfg env s rho_new).1).work.rho_updated = s.work.rho_updated ∧
  ((osqpUpdateRho cfg env s rho_new).1).work.last_rel_kkt = s.work.last_rel_kkt ∧
  ((osqpUpdateRho cfg env s rho_new).1).work.first_run = s.work.first_run ∧
  ((osqpUpdateRho cfg env s rho_new).1).work.rho_update_from_solve = s.work.rho_update_from_solve ∧
  ((osqpUpdateRho cfg env s rho_new).1).info.status = s.info.status ∧
  ((osqpUpdateRho cfg env s rho_new).1).info.status_val = s.info.status_val ∧
  ((osqpUpdateRho cfg env s rho_new).1).info.status_polish = s.info.status_polish ∧
  ((osqpUpdateRho cfg env s rho_new).1).info.obj_val = s.info.obj_val ∧
  ((osqpUpdateRho cfg env s rho_new).1).info.dual_obj_val = s.info.dual_obj_val ∧
  ((osqpUpdateRho cfg env s rho_new).1).info.prim_res = s.info.prim_res ∧
  ((osqpUpdateRho cfg env s rho_new).1).info.dual_res = s.info.dual_res ∧
  ((osqpUpdateRho cfg env s rho_new).1).info.duality_gap = s.info.duality_gap ∧
  ((osqpUpdateRho cfg env s rho_new).1).info.iter = s.info.iter ∧
  ((osqpUpdateRho cfg env s rho_new).1).info.rho_updates = s.info.rho_updates ∧
  ((osqpUpdateRho cfg env s rho_new).1).info.rho_estimate = s.info.rho_estimate ∧
  ((osqpUpdateRho cfg env s rho_new).1).info.setup_time = s.info.setup_time ∧
  ((osqpUpdateRho cfg env s rho_new).1).info.solve_time = s.info.solve_time ∧
  ((osqpUpdateRho cfg env s rho_new).1).info.polish_time = s.info.polish_time ∧
  ((osqpUpdateRho cfg env s rho_new).1).info.run_time = s.info.run_time ∧
  ((osqpUpdateRho cfg env s rho_new).1).info.primdual_int = s.info.primdual_int ∧
  ((osqpUpdateRho cfg env s rho_new).1).info.rel_kkt_error = s.info.rel_kkt_error ∧
  ((osqpUpdateRho cfg env s rho_new).1).solution = s.solution ∧
  ((osqpUpdateRho cfg env s rho_new).1).polls = s.polls ∧
  ((osqpUpdateRho cfg env s rho_new).1).handler = s.handler := by
  frame_tac osqpUpdateRho
@[simp] theorem osqpUpdateRho_settings_device (cfg : Cfg) (env : Env d K) (s : Solver d K) (rho_new : K) : ((osqpUpdateRho cfg env s rho_new).1).settings.device = s.settings.device := (osqpUpdateRho_frame cfg env s rho_new).1
@[simp] theorem osqpUpdateRho_settings_linsys_solver (cfg : Cfg) (env : Env d K) (s : Solver d K) (rho_new : K) : ((osqpUpdateRho cfg env s rho_new).1).settings.linsys_solver = s.settings.linsys_solver := (osqpUpdateRho_frame cfg env s rho_new).2.1
@[simp] theorem osqpUpdateRho_settings_allocate_solution (cfg : Cfg) (env : Env d K) (s : Solver d K) (rho_new : K) : ((osqpUpdateRho cfg env s rho_new).1).settings.allocate_solution = s.settings.allocate_solution := (osqpUpdateRho_frame cfg env s rho_new).2.2.1
@[simp] theorem osqpUpdateRho_settings_verbose (cfg : Cfg) (env : Env d K) (s : Solver d K) (rho_new : K) : ((osqpUpdateRho cfg env s rho_new).1).settings.verbose = s.settings.verbose := (osqpUpdateRho_frame cfg env s rho_new).2.2.2.1
@[simp] theorem osqpUpdateRho_settings_profiler_level (cfg : Cfg) (env : Env d K) (s : Solver d K) (rho_new : K) : ((osqpUpdateRho cfg env s rho_new).1).settings.profiler_level = s.settings.profiler_level := (osqpUpdateRho_frame cfg env s rho_new).2.2.2.2.1
@[simp] theorem osqpUpdateRho_settings_warm_starting (cfg : Cfg) (env : Env d K) (s : Solver d K) (rho_new : K) : ((osqpUpdateRho cfg env s rho_new).1).settings.warm_starting = s.settings.warm_starting := (osqpUpdateRho_frame cfg env s rho_new).2.2.2.2.2.1
@[simp] theorem osqpUpdateRho_settings_scaling (cfg : Cfg) (env : Env d K) (s : Solver d K) (rho_new : K) : ((osqpUpdateRho cfg env s rho_new).1).settings.scaling = s.settings.scaling := (osqpUpdateRho_frame cfg env s rho_new).2.2.2.2.2.2.1
@[simp] theorem osqpUpdateRho_settings_polishing (cfg : Cfg) (env : Env d K) (s : Solver d K) (rho_new : K) : ((osqpUpdateRho cfg env s rho_new).1).settings.polishing = s.settings.polishing := (osqpUpdateRho_frame cfg env s rho_new).2.2.2.2.2.2.2.1
@[simp] theorem osqpUpdateRho_settings_rho_is_vec (cfg : Cfg) (env : Env d K) (s : Solver d K) (rho_new : K) : ((osqpUpdateRho cfg env s rho_new).1).settings.rho_is_vec = s.settings.rho_is_vec := (osqpUpdateRho_frame cfg env s rho_new).2.2.2.2.2.2.2.2.1
@[simp] theorem osqpUpdateRho_settings_sigma (cfg : Cfg) (env : Env d K) (s : Solver d K) (rho_new : K) : ((osqpUpdateRho cfg env s rho_new).1).settings.sigma = s.settings.sigma := (osqpUpdateRho_frame cfg env s rho_new).2.2.2.2.2.2.2.2.2.1
@[simp] theorem osqpUpdateRho_settings_alpha (cfg : Cfg) (env : Env d K) (s : Solver d K) (rho_new : K) : ((osqpUpdateRho cfg env s rho_new).1).settings.alpha = s.settings.alpha := (osqpUpdateRho_frame cfg env s rho_new).2.2.2.2.2.2.2.2.2.2.1
@[simp] theorem osqpUpdateRho_settings_cg_max_iter (cfg : Cfg) (env : Env d K) (s : Solver d K) (rho_new : K) : ((osqpUpdateRho cfg env s rho_new).1).settings.cg_max_iter = s.settings.cg_max_iter := (osqpUpdateRho_frame cfg env s rho_new).2.2.2.2.2.2.2.2.2.2.2.1
@[simp] theorem osqpUpdateRho_settings_cg_tol_reduction (cfg : Cfg) (env : Env d K) (s : Solver d K) (rho_new : K) : ((osqpUpdateRho cfg env s rho_new).1).settings.cg_tol_reduction = s.settings.cg_tol_reduction := (osqpUpdateRho_frame cfg env s rho_new).2.2.2.2.2.2.2.2.2.2.2.2.1
@[simp] theorem osqpUpdateRho_settings_cg_tol_fraction (cfg : Cfg) (env : Env d K) (s : Solver d K) (rho_new : K) : ((osqpUpdateRho cfg env s rho_new).1).settings.cg_tol_fraction = s.settings.cg_tol_fraction := (osqpUpdateRho_frame cfg env s rho_new).2.2.2.2.2.2.2.2.2.2.2.2.2.1
@[simp] theorem osqpUpdateRho_settings_cg_precond (cfg : Cfg) (env : Env d K) (s : Solver d K) (rho_new : K) : ((osqpUpdateRho cfg env s rho_new).1).settings.cg_precond = s.settings.cg_precond := (osqpUpdateRho_frame cfg env s rho_new).2.2.2.2.2.2.2.2.2.2.2.2.2.2.1
@[simp] theorem osqpUpdateRho_settings_adaptive_rho (cfg : Cfg) (env : Env d K) (s : Solver d K) (rho_new : K) : ((osqpUpdateRho cfg env s rho_new).1).settings.adaptive_rho = s.settings.adaptive_rho := (osqpUpdateRho_frame cfg env s rho_new).2.2.2.2.2.2.2.2.2.2.2.2.2.2.2.1
@[simp] theorem osqpUpdateRho_settings_adaptive_rho_interval (cfg : Cfg) (env : Env d K) (s : Solver d K) (rho_new : K) : ((osqpUpdateRho cfg env s rho_new).1).settings.adaptive_rho_interval = s.settings.adaptive_rho_interval := (osqpUpdateRho_frame cfg env s rho_new).2.2.2.2.2.2.2.2.2.2.2.2.2.2.2.2.1
@[simp] theorem osqpUpdateRho_settings_adaptive_rho_fraction (cfg : Cfg) (env : Env d K) (s : Solver d K) (rho_new : K) : ((osqpUpdateRho cfg env s rho_new).1).settings.adaptive_rho_fraction = s.settings.adaptive_rho_fraction := (osqpUpdateRho_frame cfg env s rho_new).2.2.2.2.2.2.2.2.2.2.2.2.2.2.2.2.2.1
@[simp] theorem osqpUpdateRho_settings_adaptive_rho_tolerance (cfg : Cfg) (env : Env d K) (s : Solver d K) (rho_new : K) : ((osqpUpdateRho cfg env s rho_new).1).settings.adaptive_rho_tolerance = s.settings.adaptive_rho_tolerance := (osqpUpdateRho_frame cfg env s rho_new).2.2.2.2.2.2.2.2.2.2.2.2.2.2.2.2.2.2.1
@[simp] theorem osqpUpdateRho_settings_max_iter (cfg : Cfg) (env : Env d K) (s : Solver d K) (rho_new : K) : ((osqpUpdateRho cfg env s rho_new).1).settings.max_iter = s.settings.max_iter := (osqpUpdateRho_frame cfg env s rho_new).2.2.2.2.2.2.2.2.2.2.2.2.2.2.2.2.2.2.2.1
@[simp] theorem osqpUpdateRho_settings_eps_abs (cfg : Cfg) (env : Env d K) (s : Solver d K) (rho_new : K) : ((osqpUpdateRho cfg env s rho_new).1).settings.eps_abs = s.settings.eps_abs := (osqpUpdateRho_frame cfg env s rho_new).2.2.2.2.2.2.2.2.2.2.2.2.2.2.2.2.2.2.2.2.1
@[simp] theorem osqpUpdateRho_settings_eps_rel (cfg : Cfg) (env : Env d K) (s : Solver d K) (rho_new : K) : ((osqpUpdateRho cfg env s rho_new).1).settings.eps_rel = s.settings.eps_rel := (osqpUpdateRho_frame cfg env s rho_new).2.2.2.2.2.2.2.2.2.2.2.2.2.2.2.2.2.2.2.2.2.1
@[simp] theorem osqpUpdateRho_settings_eps_prim_inf (cfg : Cfg) (env : Env d K) (s : Solver d K) (rho_new : K) : ((osqpUpdateRho cfg env s rho_new).1).settings.eps_prim_inf = s.settings.eps_prim_inf := (osqpUpdateRho_frame cfg env s rho_new).2.2.2.2.2.2.2.2.2.2.2.2.2.2.2.2.2.2.2.2.2.2.1
@[simp] theorem osqpUpdateRho_settings_eps_dual_inf (cfg : Cfg) (env : Env d K) (s : Solver d K) (rho_new : K) : ((osqpUpdateRho cfg env s rho_new).1).settings.eps_dual_inf = s.settings.eps_dual_inf := (osqpUpdateRho_frame cfg env s rho_new).2.2.2.2.2.2.2.2.2.2.2.2.2.2.2.2.2.2.2.2.2.2.2.1
@[simp] theorem osqpUpdateRho_settings_scaled_termination (cfg : Cfg) (env : Env d K) (s : Solver d K) (rho_new : K) : ((osqpUpdateRho cfg env s rho_new).1).settings.scaled_termination = s.settings.scaled_termination := (osqpUpdateRho_frame cfg env s rho_new).2.2.2.2.2.2.2.2.2.2.2.2.2.2.2.2.2.2.2.2.2.2.2.2.1
@[simp] theorem osqpUpdateRho_settings_check_termination (cfg : Cfg) (env : Env d K) (s : Solver d K) (rho_new : K) : ((osqpUpdateRho cfg env s rho_new).1).settings.check_termination = s.settings.check_termination := (osqpUpdateRho_frame cfg env s rho_new).2.2.2.2.2.2.2.2.2.2.2.2.2.2.2.2.2.2.2.2.2.2.2.2.2.1
@[simp] theorem osqpUpdateRho_settings_check_dualgap (cfg : Cfg) (env : Env d K) (s : Solver d K) (rho_new : K) : ((osqpUpdateRho cfg env s rho_new).1).settings.check_dualgap = s.settings.check_dualgap := (osqpUpdateRho_frame cfg env s rho_new).2.2.2.2.2.2.2.2.2.2.2.2.2.2.2.2.2.2.2.2.2.2.2.2.2.2.1
@[simp] theorem osqpUpdateRho_settings_time_limit (cfg : Cfg) (env : Env d K) (s : Solver d K) (rho_new : K) : ((osqpUpdateRho cfg env s rho_new).1).settings.time_limit = s.settings.time_limit := (osqpUpdateRho_frame cfg env s rho_new).2.2.2.2.2.2.2.2.2.2.2.2.2.2.2.2.2.2.2.2.2.2.2.2.2.2.2.1
@[simp] theorem osqpUpdateRho_settings_delta (cfg : Cfg) (env : Env d K) (s : Solver d K) (rho_new : K) : ((osqpUpdateRho cfg env s rho_new).1).settings.delta = s.settings.delta := (osqpUpdateRho_frame cfg env s rho_new).2.2.2.2.2.2.2.2.2.2.2.2.2.2.2.2.2.2.2.2.2.2.2.2.2.2.2.2.1
@[simp] theorem osqpUpdateRho_settings_polish_refine_iter (cfg : Cfg) (env : Env d K) (s : Solver d K) (rho_new : K) : ((osqpUpdateRho cfg env s rho_new).1).settings.polish_refine_iter = s.settings.polish_refine_iter := (osqpUpdateRho_frame cfg env s rho_new).2.2.2.2.2.2.2.2.2.2.2.2.2.2.2.2.2.2.2.2.2.2.2.2.2.2.2.2.2.1
@[simp] theorem osqpUpdateRho_data (cfg : Cfg) (env : Env d K) (s : Solver d K) (rho_new : K) : ((osqpUpdateRho cfg env s rho_new).1).work.data = s.work.data := (osqpUpdateRho_frame cfg env s rho_new).2.2.2.2.2.2.2.2.2.2.2.2.2.2.2.2.2.2.2.2.2.2.2.2.2.2.2.2.2.2.1
@[simp] theorem osqpUpdateRho_constr_type (cfg : Cfg) (env : Env d K) (s : Solver d K) (rho_new : K) : ((osqpUpdateRho cfg env s rho_new).1).work.constr_type = s.work.constr_type := (osqpUpdateRho_frame cfg env s rho_new).2.2.2.2.2.2.2.2.2.2.2.2.2.2.2.2.2.2.2.2.2.2.2.2.2.2.2.2.2.2.2.1
@[simp] theorem osqpUpdateRho_x (cfg : Cfg) (env : Env d K) (s : Solver d K) (rho_new : K) : ((osqpUpdateRho cfg env s rho_new).1).work.x = s.work.x := (osqpUpdateRho_frame cfg env s rho_new).2.2.2.2.2.2.2.2.2.2.2.2.2.2.2.2.2.2.2.2.2.2.2.2.2.2.2.2.2.2.2.2.1
@[simp] theorem osqpUpdateRho_y (cfg : Cfg) (env : Env d K) (s : Solver d K) (rho_new : K) : ((osqpUpdateRho cfg env s rho_new).1).work.y = s.work.y := (osqpUpdateRho_frame cfg env s rho_new).2.2.2.2.2.2.2.2.2.2.2.2.2.2.2.2.2.2.2.2.2.2.2.2.2.2.2.2.2.2.2.2.2.1
@[simp] theorem osqpUpdateRho_z (cfg : Cfg) (env : Env d K) (s : Solver d K) (rho_new : K) : ((osqpUpdateRho cfg env s rho_new).1).work.z = s.work.z := (osqpUpdateRho_frame cfg env s rho_new).2.2.2.2.2.2.2.2.2.2.2.2.2.2.2.2.2.2.2.2.2.2.2.2.2.2.2.2.2.2.2.2.2.2.1
@[simp] theorem osqpUpdateRho_x_prev (cfg : Cfg) (env : Env d K) (s : Solver d K) (rho_new : K) : ((osqpUpdateRho cfg env s rho_new).1).work.x_prev = s.work.x_prev := (osqpUpdateRho_frame cfg env s rho_new).2.2.2.2.2.2.2.2.2.2.2.2.2.2.2.2.2.2.2.2.2.2.2.2.2.2.2.2.2.2.2.2.2.2.2.1
@[simp] theorem osqpUpdateRho_z_prev (cfg : Cfg) (env : Env d K) (s : Solver d K) (rho_new : K) : ((osqpUpdateRho cfg env s rho_new).1).work.z_prev = s.work.z_prev := (osqpUpdateRho_frame cfg env s rho_new).2.2.2.2.2.2.2.2.2.2.2.2.2.2.2.2.2.2.2.2.2.2.2.2.2.2.2.2.2.2.2.2.2.2.2.2.1
@[simp] theorem osqpUpdateRho_Ax (cfg : Cfg) (env : Env d K) (s : Solver d K) (rho_new : K) : ((osqpUpdateRho cfg env s rho_new).1).work.Ax = s.work.Ax := (osqpUpdateRho_frame cfg env s rho_new).2.2.2.2.2.2.2.2.2.2.2.2.2.2.2.2.2.2.2.2.2.2.2.2.2.2.2.2.2.2.2.2.2.2.2.2.2.1
@[simp] theorem osqpUpdateRho_Px (cfg : Cfg) (env : Env d K) (s : Solver d K) (rho_new : K) : ((osqpUpdateRho cfg env s rho_new).1).work.Px = s.work.Px := (osqpUpdateRho_frame cfg env s rho_new).2.2.2.2.2.2.2.2.2.2.2.2.2.2.2.2.2.2.2.2.2.2.2.2.2.2.2.2.2.2.2.2.2.2.2.2.2.2.1
@[simp] theorem osqpUpdateRho_Aty (cfg : Cfg) (env : Env d K) (s : Solver d K) (rho_new : K) : ((osqpUpdateRho cfg env s rho_new).1).work.Aty = s.work.Aty := (osqpUpdateRho_frame cfg env s rho_new).2.2.2.2.2.2.2.2.2.2.2.2.2.2.2.2.2.2.2.2.2.2.2.2.2.2.2.2.2.2.2.2.2.2.2.2.2.2.2.1
@[simp] theorem osqpUpdateRho_delta_y (cfg : Cfg) (env : Env d K) (s : Solver d K) (rho_new : K) : ((osqpUpdateRho cfg env s rho_new).1).work.delta_y = s.work.delta_y := (osqpUpdateRho_frame cfg env s rho_new).2.2.2.2.2.2.2.2.2.2.2.2.2.2.2.2.2.2.2.2.2.2.2.2.2.2.2.2.2.2.2.2.2.2.2.2.2.2.2.2.1
@[simp] theorem osqpUpdateRho_delta_x (cfg : Cfg) (env : Env d K) (s : Solver d K) (rho_new : K) : ((osqpUpdateRho cfg env s rho_new).1).work.delta_x = s.work.delta_x := (osqpUpdateRho_frame cfg env s rho_new).2.2.2.2.2.2.2.2.2.2.2.2.2.2.2.2.2.2.2.2.2.2.2.2.2.2.2.2.2.2.2.2.2.2.2.2.2.2.2.2.2.1
@[simp] theorem osqpUpdateRho_scaling (cfg : Cfg) (env : Env d K) (s : Solver d K) (rho_new : K) : ((osqpUpdateRho cfg env s rho_new).1).work.scaling = s.work.scaling := (osqpUpdateRho_frame cfg env s rho_new).2.2.2.2.2.2.2.2.2.2.2.2.2.2.2.2.2.2.2.2.2.2.2.2.2.2.2.2.2.2.2.2.2.2.2.2.2.2.2.2.2.2.1
@[simp] theorem osqpUpdateRho_scaled_prim_res (cfg : Cfg) (env : Env d K) (s : Solver d K) (rho_new : K) : ((osqpUpdateRho cfg env s rho_new).1).work.scaled_prim_res = s.work.scaled_prim_res := (osqpUpdateRho_frame cfg env s rho_new).2.2.2.2.2.2.2.2.2.2.2.2.2.2.2.2.2.2.2.2.2.2.2.2.2.2.2.2.2.2.2.2.2.2.2.2.2.2.2.2.2.2.2.1
@[simp] theorem osqpUpdateRho_scaled_dual_res (cfg : Cfg) (env : Env d K) (s : Solver d K) (rho_new : K) : ((osqpUpdateRho cfg env s rho_new).1).work.scaled_dual_res = s.work.scaled_dual_res := (osqpUpdateRho_frame cfg env s rho_new).2.2.2.2.2.2.2.2.2.2.2.2.2.2.2.2.2.2.2.2.2.2.2.2.2.2.2.2.2.2.2.2.2.2.2.2.2.2.2.2.2.2.2.2.1
@[simp] theorem osqpUpdateRho_scaled_dual_gap (cfg : Cfg) (env : Env d K) (s : Solver d K) (rho_new : K) : ((osqpUpdateRho cfg env s rho_new).1).work.scaled_dual_gap = s.work.scaled_dual_gap := (osqpUpdateRho_frame cfg env s rho_new).2.2.2.2.2.2.2.2.2.2.2.2.2.2.2.2.2.2.2.2.2.2.2.2.2.2.2.2.2.2.2.2.2.2.2.2.2.2.2.2.2.2.2.2.2.1
@[simp] theorem osqpUpdateRho_xtPx (cfg : Cfg) (env : Env d K) (s : Solver d K) (rho_new : K) : ((osqpUpdateRho cfg env s rho_new).1).work.xtPx = s.work.xtPx := (osqpUpdateRho_frame cfg env s rho_new).2.2.2.2.2.2.2.2.2.2.2.2.2.2.2.2.2.2.2.2.2.2.2.2.2.2.2.2.2.2.2.2.2.2.2.2.2.2.2.2.2.2.2.2.2.2.1
@[simp] theorem osqpUpdateRho_qtx (cfg : Cfg) (env : Env d K) (s : Solver d K) (rho_new : K) : ((osqpUpdateRho cfg env s rho_new).1).work.qtx = s.work.qtx := (osqpUpdateRho_frame cfg env s rho_new).2.2.2.2.2.2.2.2.2.2.2.2.2.2.2.2.2.2.2.2.2.2.2.2.2.2.2.2.2.2.2.2.2.2.2.2.2.2.2.2.2.2.2.2.2.2.2.1
@[simp] theorem osqpUpdateRho_SC (cfg : Cfg) (env : Env d K) (s : Solver d K) (rho_new : K) : ((osqpUpdateRho cfg env s rho_new).1).work.SC = s.work.SC := (osqpUpdateRho_frame cfg env s rho_new).2.2.2.2.2.2.2.2.2.2.2.2.2.2.2.2.2.2.2.2.2.2.2.2.2.2.2.2.2.2.2.2.2.2.2.2.2.2.2.2.2.2.2.2.2.2.2.2.1
@[simp] theorem osqpUpdateRho_rho_updated (cfg : Cfg) (env : Env d K) (s : Solver d K) (rho_new : K) : ((osqpUpdateRho cfg env s rho_new).1).work.rho_updated = s.work.rho_updated := (osqpUpdateRho_frame cfg env s rho_new).2.2.2.2.2.2.2.2.2.2.2.2.2.2.2.2.2.2.2.2.2.2.2.2.2.2.2.2.2.2.2.2.2.2.2.2.2.2.2.2.2.2.2.2.2.2.2.2.2.1
@[simp] theorem osqpUpdateRho_last_rel_kkt (cfg : Cfg) (env : Env d K) (s : Solver d K) (rho_new : K) : ((osqpUpdateRho cfg env s rho_new).1).work.last_rel_kkt = s.work.last_rel_kkt := (osqpUpdateRho_frame cfg env s rho_new).2.2.2.2.2.2.2.2.2.2.2.2.2.2.2.2.2.2.2.2.2.2.2.2.2.2.2.2.2.2.2.2.2.2.2.2.2.2.2.2.2.2.2.2.2.2.2.2.2.2.1
@[simp] theorem osqpUpdateRho_first_run (cfg : Cfg) (env : Env d K) (s : Solver d K) (rho_new : K) : ((osqpUpdateRho cfg env s rho_new).1).work.first_run = s.work.first_run := (osqpUpdateRho_frame cfg env s rho_new).2.2.2.2.2.2.2.2.2.2.2.2.2.2.2.2.2.2.2.2.2.2.2.2.2.2.2.2.2.2.2.2.2.2.2.2.2.2.2.2.2.2.2.2.2.2.2.2.2.2.2.1
@[simp] theorem osqpUpdateRho_rho_update_from_solve (cfg : Cfg) (env : Env d K) (s : Solver d K) (rho_new : K) : ((osqpUpdateRho cfg env s rho_new).1).work.rho_update_from_solve = s.work.rho_update_from_solve := (osqpUpdateRho_frame cfg env s rho_new).2.2.2.2.2.2.2.2.2.2.2.2.2.2.2.2.2.2.2.2.2.2.2.2.2.2.2.2.2.2.2.2.2.2.2.2.2.2.2.2.2.2.2.2.2.2.2.2.2.2.2.2.1
@[simp] theorem osqpUpdateRho_info_status (cfg : Cfg) (env : Env d K) (s : Solver d K) (rho_new : K) : ((osqpUpdateRho cfg env s rho_new).1).info.status = s.info.status := (osqpUpdateRho_frame cfg env s rho_new).2.2.2.2.2.2.2.2.2.2.2.2.2.2.2.2.2.2.2.2.2.2.2.2.2.2.2.2.2.2.2.2.2.2.2.2.2.2.2.2.2.2.2.2.2.2.2.2.2.2.2.2.2.1
@[simp] theorem osqpUpdateRho_info_status_val (cfg : Cfg) (env : Env d K) (s : Solver d K) (rho_new : K) : ((osqpUpdateRho cfg env s rho_new).1).info.status_val = s.info.status_val := (osqpUpdateRho_frame cfg env s rho_new).2.2.2.2.2.2.2.2.2.2.2.2.2.2.2.2.2.2.2.2.2.2.2.2.2.2.2.2.2.2.2.2.2.2.2.2.2.2.2.2.2.2.2.2.2.2.2.2.2.2.2.2.2.2.1
@[simp] theorem osqpUpdateRho_info_status_polish (cfg : Cfg) (env : Env d K) (s : Solver d K) (rho_new : K) : ((osqpUpdateRho cfg env s rho_new).1).info.status_polish = s.info.status_polish := (osqpUpdateRho_frame cfg env s rho_new).2.2.2.2.2.2.2.2.2.2.2.2.2.2.2.2.2.2.2.2.2.2.2.2.2.2.2.2.2.2.2.2.2.2.2.2.2.2.2.2.2.2.2.2.2.2.2.2.2.2.2.2.2.2.2.1
@[simp] theorem osqpUpdateRho_info_obj_val (cfg : Cfg) (env : Env d K) (s : Solver d K) (rho_new : K) : ((osqpUpdateRho cfg env s rho_new).1).info.obj_val = s.info.obj_val := (osqpUpdateRho_frame cfg env s rho_new).2.2.2.2.2.2.2.2.2.2.2.2.2.2.2.2.2.2.2.2.2.2.2.2.2.2.2.2.2.2.2.2.2.2.2.2.2.2.2.2.2.2.2.2.2.2.2.2.2.2.2.2.2.2.2.2.1
@[simp] theorem osqpUpdateRho_info_dual_obj_val (cfg : Cfg) (env : Env d K) (s : Solver d K) (rho_new : K) : ((osqpUpdateRho cfg env s rho_new).1).info.dual_obj_val = s.info.dual_obj_val := (osqpUpdateRho_frame cfg env s rho_new).2.2.2.2.2.2.2.2.2.2.2.2.2.2.2.2.2.2.2.2.2.2.2.2.2.2.2.2.2.2.2.2.2.2.2.2.2.2.2.2.2.2.2.2.2.2.2.2.2.2.2.2.2.2.2.2.2.1
@[simp] theorem osqpUpdateRho_info_prim_res (cfg : Cfg) (env : Env d K) (s : Solver d K) (rho_new : K) : ((osqpUpdateRho cfg env s rho_new).1).info.prim_res = s.info.prim_res := (osqpUpdateRho_frame cfg env s rho_new).2.2.2.2.2.2.2.2.2.2.2.2.2.2.2.2.2.2.2.2.2.2.2.2.2.2.2.2.2.2.2.2.2.2.2.2.2.2.2.2.2.2.2.2.2.2.2.2.2.2.2.2.2.2.2.2.2.2.1
@[simp] theorem osqpUpdateRho_info_dual_res (cfg : Cfg) (env : Env d K) (s : Solver d K) (rho_new : K) : ((osqpUpdateRho cfg env s rho_new).1).info.dual_res = s.info.dual_res := (osqpUpdateRho_frame cfg env s rho_new).2.2.2.2.2.2.2.2.2.2.2.2.2.2.2.2.2.2.2.2.2.2.2.2.2.2.2.2.2.2.2.2.2.2.2.2.2.2.2.2.2.2.2.2.2.2.2.2.2.2.2.2.2.2.2.2.2.2.2.1
@[simp] theorem osqpUpdateRho_info_duality_gap (cfg : Cfg) (env : Env d K) (s : Solver d K) (rho_new : K) : ((osqpUpdateRho cfg env s rho_new).1).info.duality_gap = s.info.duality_gap := (osqpUpdateRho_frame cfg env s rho_new).2.2.2.2.2.2.2.2.2.2.2.2.2.2.2.2.2.2.2.2.2.2.2.2.2.2.2.2.2.2.2.2.2.2.2.2.2.2.2.2.2.2.2.2.2.2.2.2.2.2.2.2.2.2.2.2.2.2.2.2.1
@[simp] theorem osqpUpdateRho_info_iter (cfg : Cfg) (env : Env d K) (s : Solver d K) (rho_new : K) : ((osqpUpdateRho cfg env s rho_new).1).info.iter = s.info.iter := (osqpUpdateRho_frame cfg env s rho_new).2.2.2.2.2.2.2.2.2.2.2.2.2.2.2.2.2.2.2.2.2.2.2.2.2.2.2.2.2.2.2.2.2.2.2.2.2.2.2.2.2.2.2.2.2.2.2.2.2.2.2.2.2.2.2.2.2.2.2.2.2.1
@[simp] theorem osqpUpdateRho_info_rho_updates (cfg : Cfg) (env : Env d K) (s : Solver d K) (rho_new : K) : ((osqpUpdateRho cfg env s rho_new).1).info.rho_updates = s.info.rho_updates := (osqpUpdateRho_frame cfg env s rho_new).2.2.2.2.2.2.2.2.2.2.2.2.2.2.2.2.2.2.2.2.2.2.2.2.2.2.2.2.2.2.2.2.2.2.2.2.2.2.2.2.2.2.2.2.2.2.2.2.2.2.2.2.2.2.2.2.2.2.2.2.2.2.1
@[simp] theorem osqpUpdateRho_info_rho_estimate (cfg : Cfg) (env : Env d K) (s : Solver d K) (rho_new : K) : ((osqpUpdateRho cfg env s rho_new).1).info.rho_estimate = s.info.rho_estimate := (osqpUpdateRho_frame cfg env s rho_new).2.2.2.2.2.2.2.2.2.2.2.2.2.2.2.2.2.2.2.2.2.2.2.2.2.2.2.2.2.2.2.2.2.2.2.2.2.2.2.2.2.2.2.2.2.2.2.2.2.2.2.2.2.2.2.2.2.2.2.2.2.2.2.1
@[simp] theorem osqpUpdateRho_info_setup_time (cfg : Cfg) (env : Env d K) (s : Solver d K) (rho_new : K) : ((osqpUpdateRho cfg env s rho_new).1).info.setup_time = s.info.setup_time := (osqpUpdateRho_frame cfg env s rho_new).2.2.2.2.2.2.2.2.2.2.2.2.2.2.2.2.2.2.2.2.2.2.2.2.2.2.2.2.2.2.2.2.2.2.2.2.2.2.2.2.2.2.2.2.2.2.2.2.2.2.2.2.2.2.2.2.2.2.2.2.2.2.2.2.1
@[simp] theorem osqpUpdateRho_info_solve_time (cfg : Cfg) (env : Env d K) (s : Solver d K) (rho_new : K) : ((osqpUpdateRho cfg env s rho_new).1).info.solve_time = s.info.solve_time := (osqpUpdateRho_frame cfg env s rho_new).2.2.2.2.2.2.2.2.2.2.2.2.2.2.2.2.2.2.2.2.2.2.2.2.2.2.2.2.2.2.2.2.2.2.2.2.2.2.2.2.2.2.2.2.2.2.2.2.2.2.2.2.2.2.2.2.2.2.2.2.2.2.2.2.2.1
@[simp] theorem osqpUpdateRho_info_polish_time (cfg : Cfg) (env : Env d K) (s : Solver d K) (rho_new : K) : ((osqpUpdateRho cfg env s rho_new).1).info.polish_time = s.info.polish_time := (osqpUpdateRho_frame cfg env s rho_new).2.2.2.2.2.2.2.2.2.2.2.2.2.2.2.2.2.2.2.2.2.2.2.2.2.2.2.2.2.2.2.2.2.2.2.2.2.2.2.2.2.2.2.2.2.2.2.2.2.2.2.2.2.2.2.2.2.2.2.2.2.2.2.2.2.2.1
@[simp] theorem osqpUpdateRho_info_run_time (cfg : Cfg) (env : Env d K) (s : Solver d K) (rho_new : K) : ((osqpUpdateRho cfg env s rho_new).1).info.run_time = s.info.run_time := (osqpUpdateRho_frame cfg env s rho_new).2.2.2.2.2.2.2.2.2.2.2.2.2.2.2.2.2.2.2.2.2.2.2.2.2.2.2.2.2.2.2.2.2.2.2.2.2.2.2.2.2.2.2.2.2.2.2.2.2.2.2.2.2.2.2.2.2.2.2.2.2.2.2.2.2.2.2.1
@[simp] theorem osqpUpdateRho_info_primdual_int (cfg : Cfg) (env : Env d K) (s : Solver d K) (rho_new : K) : ((osqpUpdateRho cfg env s rho_new).1).info.primdual_int = s.info.primdual_int := (osqpUpdateRho_frame cfg env s rho_new).2.2.2.2.2.2.2.2.2.2.2.2.2.2.2.2.2.2.2.2.2.2.2.2.2.2.2.2.2.2.2.2.2.2.2.2.2.2.2.2.2.2.2.2.2.2.2.2.2.2.2.2.2.2.2.2.2.2.2.2.2.2.2.2.2.2.2.2.1
@[simp] theorem osqpUpdateRho_info_rel_kkt_error (cfg : Cfg) (env : Env d K) (s : Solver d K) (rho_new : K) : ((osqpUpdateRho cfg env s rho_new).1).info.rel_kkt_error = s.info.rel_kkt_error := (osqpUpdateRho_frame cfg env s rho_new).2.2.2.2.2.2.2.2.2.2.2.2.2.2.2.2.2.2.2.2.2.2.2.2.2.2.2.2.2.2.2.2.2.2.2.2.2.2.2.2.2.2.2.2.2.2.2.2.2.2.2.2.2.2.2.2.2.2.2.2.2.2.2.2.2.2.2.2.2.1
@[simp] theorem osqpUpdateRho_solution (cfg : Cfg) (env : Env d K) (s : Solver d K) (rho_new : K) : ((osqpUpdateRho cfg env s rho_new).1).solution = s.solution := (osqpUpdateRho_frame cfg env s rho_new).2.2.2.2.2.2.2.2.2.2.2.2.2.2.2.2.2.2.2.2.2.2.2.2.2.2.2.2.2.2.2.2.2.2.2.2.2.2.2.2.2.2.2.2.2.2.2.2.2.2.2.2.2.2.2.2.2.2.2.2.2.2.2.2.2.2.2.2.2.2.1
@[simp] theorem osqpUpdateRho_polls (cfg : Cfg) (env : Env d K) (s : Solver d K) (rho_new : K) : ((osqpUpdateRho cfg env s rho_new).1).polls = s.polls := (osqpUpdateRho_frame cfg env s rho_new).2.2.2.2.2.2.2.2.2.2.2.2.2.2.2.2.2.2.2.2.2.2.2.2.2.2.2.2.2.2.2.2.2.2.2.2.2.2.2.2.2.2.2.2.2.2.2.2.2.2.2.2.2.2.2.2.2.2.2.2.2.2.2.2.2.2.2.2.2.2.2.1
@[simp] theorem osqpUpdateRho_handler (cfg : Cfg) (env : Env d K) (s : Solver d K) (rho_new : K) : ((osqpUpdateRho cfg env s rho_new).1).handler = s.handler := (osqpUpdateRho_frame cfg env s rho_new).2.2.2.2.2.2.2.2.2.2.2.2.2.2.2.2.2.2.2.2.2.2.2.2.2.2.2.2.2.2.2.2.2.2.2.2.2.2.2.2.2.2.2.2.2.2.2.2.2.2.2.2.2.2.2.2.2.2.2.2.2.2.2.2.2.2.2.2.2.2.2.2

theorem adaptRho_frame (cfg : Cfg) (env : Env d K) (s : Solver d K) :
  ((adaptRho cfg env s).1).settings.device = s.settings.device ∧
  ((adaptRho cfg env s).1).settings.linsys_solver = s.settings.linsys_solver ∧
  ((adaptRho cfg env s).1).settings.allocate_solution = s.settings.allocate_solution ∧
  ((adaptRho cfg env s).1).settings.verbose = s.settings.verbose ∧
  ((adaptRho cfg env s).1).settings.profiler_level = s.settings.profiler_level ∧
  ((adaptRho cfg env s).1).settings.warm_starting = s.settings.warm_starting ∧
  ((adaptRho cfg env s).1).settings.scaling = s.settings.scaling ∧
  ((adaptRho cfg env s).1).settings.polishing = s.settings.polishing ∧
  ((adaptRho cfg env s).1).settings.rho_is_vec = s.settings.rho_is_vec ∧
  ((adaptRho cfg env s).1).settings.sigma = s.settings.sigma ∧
  ((adaptRho cfg env s).1).settings.alpha = s.settings.alpha ∧
  ((adaptRho cfg env s).1).settings.cg_max_iter = s.settings.cg_max_iter ∧
  ((adaptRho cfg env s).1).settings.cg_tol_reduction = s.settings.cg_tol_reduction ∧
  ((adaptRho cfg env s).1).settings.cg_tol_fraction = s.settings.cg_tol_fraction ∧
  ((adaptRho cfg env s).1).settings.cg_precond = s.settings.cg_precond ∧
  ((adaptRho cfg env s).1).settings.adaptive_rho = s.settings.adaptive_rho ∧
  ((adaptRho cfg env s).1).settings.adaptive_rho_interval = s.settings.adaptive_rho_interval ∧
  ((adaptRho cfg env s).1).settings.adaptive_rho_fraction = s.settings.adaptive_rho_fraction ∧
  ((adaptRho cfg env s).1).settings.adaptive_rho_tolerance = s.settings.adaptive_rho_tolerance ∧
  ((adaptRho cfg env s).1).settings.max_iter = s.settings.max_iter ∧
  ((adaptRho cfg env s).1).settings.eps_abs = s.settings.eps_abs ∧
  ((adaptRho cfg env s).1).settings.eps_rel = s.settings.eps_rel ∧
  ((adaptRho cfg env s).1).settings.eps_prim_inf = s.settings.eps_prim_inf ∧
  ((adaptRho cfg env s).1).settings.eps_dual_inf = s.settings.eps_dual_inf ∧
  ((adaptRho cfg env s).1).settings.scaled_termination = s.settings.scaled_termination ∧
  ((adaptRho cfg env s).1).settings.check_termination = s.settings.check_termination ∧
  ((adaptRho cfg env s).1).settings.check_dualgap = s.settings.check_dualgap ∧
  ((adaptRho cfg env s).1).settings.time_limit = s.settings.time_limit ∧
  ((adaptRho cfg env s).1).settings.delta = s.settings.delta ∧
  ((adaptRho cfg env s).1).settings.polish_refine_iter = s.settings.polish_refine_iter ∧
  ((adaptRho cfg env s).1).work.data = s.work.data ∧
  ((adaptRho cfg env s).1).work.constr_type = s.work.constr_type ∧
  ((adaptRho cfg env s).1).work.x = s.work.x ∧
  ((adaptRho cfg env s).1).work.y = s.work.y ∧
  ((adaptRho cfg env s).1).work.z = s.work.z ∧
  ((adaptRho cfg env s).1).work.x_prev = s.work.x_prev ∧
  ((adaptRho cfg env s).1).work.z_prev = s.work.z_prev ∧
  ((adaptRho cfg env s).1).work.Ax = s.work.Ax ∧
  ((adaptRho cfg env s).1).work.Px = s.work.Px ∧
  ((adaptRho cfg env s).1).work.Aty = s.work.Aty ∧
  ((adaptRho cfg env s).1).work.delta_y = s.work.delta_y ∧
  ((adaptRho cfg env s).1).work.delta_x = s.work.delta_x ∧
  ((adaptRho cfg env s).1).work.scaling = s.work.scaling ∧
  ((adaptRho cfg env s).1).work.scaled_prim_res = s.work.scaled_prim_res ∧
  ((adaptRho cfg env s).1).work.scaled_dual_res = s.work.scaled_dual_res ∧
  ((adaptRho cfg env s).1).work.scaled_dual_gap = s.work.scaled_dual_gap ∧
  ((adaptRho cfg env s).1).work.xtPx = s.work.xtPx ∧
  ((adaptRho cfg env s).1).work.qtx = s.work.qtx ∧
  ((adaptRho cfg env s).1).work.SC = s.work.SC ∧
  ((adaptRho cfg env s).1).work.last_rel_kkt = s.work.last_rel_kkt ∧
  ((adaptRho cfg env s).1).work.first_run = s.work.first_run ∧
  ((adaptRho cfg env s).1).work.rho_update_from_solve = s.work.rho_update_from_solve ∧
  ((adaptRho cfg env s).1).info.status = s.info.status ∧
  ((adaptRho cfg env s).1).info.status_val = s.info.status_val ∧
  ((adaptRho cfg env s).1).info.status_polish = s.info.status_polish ∧
  ((adaptRho cfg env s).1).info.obj_val = s.info.obj_val ∧
  ((adaptRho cfg env s).1).info.dual_obj_val = s.info.dual_obj_val ∧
  ((adaptRho cfg env s).1).info.prim_res = s.info.prim_res ∧
  ((adaptRho cfg env s).1).info.dual_res = s.info.dual_res ∧
  ((adaptRho cfg env s).1).info.duality_gap = s.info.duality_gap ∧
  ((adaptRho cfg env s).1).info.iter = s.info.iter ∧
  ((adaptRho cfg env s).1).info.setup_time = s.info.setup_time ∧
  ((adaptRho cfg env s).1).info.solve_time = s.info.solve_time ∧
  ((adaptRho cfg env s).1).info.polish_time = s.info.polish_time ∧
  ((adaptRho cfg env s).1).info.run_time = s.info.run_time ∧
  ((adaptRho cfg env s).1).info.primdual_int = s.info.primdual_int ∧
  ((adaptRho cfg env s).1).info.rel_kkt_error = s.info.rel_kkt_error ∧
  ((adaptRho cfg env s).1).solution = s.solution ∧
  ((adaptRho cfg env s).1).polls = s.polls ∧
  ((adaptRho cfg env s).1).handler = s.handler := by
  frame_tac adaptRho
@[simp] theorem adaptRho_settings_device (cfg : Cfg) (env : Env d K) (s : Solver d K) : ((adaptRho cfg env s).1).settings.device = s.settings.device := (adaptRho_frame cfg env s).1
@[simp] theorem adaptRho_settings_linsys_solver (cfg : Cfg) (env : Env d K) (s : Solver d K) : ((adaptRho cfg env s).1).settings.linsys_solver = s.settings.linsys_solver := (adaptRho_frame cfg env s).2.1
@[simp] theorem adaptRho_settings_allocate_solution (cfg : Cfg) (env : Env d K) (s : Solver d K) : ((adaptRho cfg env s).1).settings.allocate_solution = s.settings.allocate_solution := (adaptRho_frame cfg env s).2.2.1
@[simp] theorem adaptRho_settings_verbose (cfg : Cfg) (env : Env d K) (s : Solver d K) : ((adaptRho cfg env s).1).settings.verbose = s.settings.verbose := (adaptRho_frame cfg env s).2.2.2.1
@[simp] theorem adaptRho_settings_profiler_level (cfg : Cfg) (env : Env d K) (s : Solver d K) : ((adaptRho cfg env s).1).settings.profiler_level = s.settings.profiler_level := (adaptRho_frame cfg env s).2.2.2.2.1
@[simp] theorem adaptRho_settings_warm_starting (cfg : Cfg) (env : Env d K) (s : Solver d K) : ((adaptRho cfg env s).1).settings.warm_starting = s.settings.warm_starting := (adaptRho_frame cfg env s).2.2.2.2.2.1
@[simp] theorem adaptRho_settings_scaling (cfg : Cfg) (env : Env d K) (s : Solver d K) : ((adaptRho cfg env s).1).settings.scaling = s.settings.scaling := (adaptRho_frame cfg env s).2.2.2.2.2.2.1
@[simp] theorem adaptRho_settings_polishing (cfg : Cfg) (env : Env d K) (s : Solver d K) : ((adaptRho cfg env s).1).settings.polishing = s.settings.polishing := (adaptRho_frame cfg env s).2.2.2.2.2.2.2.1
@[simp] theorem adaptRho_settings_rho_is_vec (cfg : Cfg) (env : Env d K) (s : Solver d K) : ((adaptRho cfg env s).1).settings.rho_is_vec = s.settings.rho_is_vec := (adaptRho_frame cfg env s).2.2.2.2.2.2.2.2.1
@[simp] theorem adaptRho_settings_sigma (cfg : Cfg) (env : Env d K) (s : Solver d K) : ((adaptRho cfg env s).1).settings.sigma = s.settings.sigma := (adaptRho_frame cfg env s).2.2.2.2.2.2.2.2.2.1
@[simp] theorem adaptRho_settings_alpha (cfg : Cfg) (env : Env d K) (s : Solver d K) : ((adaptRho cfg env s).1).settings.alpha = s.settings.alpha := (adaptRho_frame cfg env s).2.2.2.2.2.2.2.2.2.2.1
@[simp] theorem adaptRho_settings_cg_max_iter (cfg : Cfg) (env : Env d K) (s : Solver d K) : ((adaptRho cfg env s).1).settings.cg_max_iter = s.settings.cg_max_iter := (adaptRho_frame cfg env s).2.2.2.2.2.2.2.2.2.2.2.1
@[simp] theorem adaptRho_settings_cg_tol_reduction (cfg : Cfg) (env : Env d K) (s : Solver d K) : ((adaptRho cfg env s).1).settings.cg_tol_reduction = s.settings.cg_tol_reduction := (adaptRho_frame cfg env s).2.2.2.2.2.2.2.2.2.2.2.2.1
@[simp] theorem adaptRho_settings_cg_tol_fraction (cfg : Cfg) (env : Env d K) (s : Solver d K) : ((adaptRho cfg env s).1).settings.cg_tol_fraction = s.settings.cg_tol_fraction := (adaptRho_frame cfg env s).2.2.2.2.2.2.2.2.2.2.2.2.2.1
@[simp] theorem adaptRho_settings_cg_precond (cfg : Cfg) (env : Env d K) (s : Solver d K) : ((adaptRho cfg env s).1).settings.cg_precond = s.settings.cg_precond := (adaptRho_frame cfg env s).2.2.2.2.2.2.2.2.2.2.2.2.2.2.1
@[simp] theorem adaptRho_settings_adaptive_rho (cfg : Cfg) (env : Env d K) (s : Solver d K) : ((adaptRho cfg env s).1).settings.adaptive_rho = s.settings.adaptive_rho := (adaptRho_frame cfg env s).2.2.2.2.2.2.2.2.2.2.2.2.2.2.2.1
@[simp] theorem adaptRho_settings_adaptive_rho_interval (cfg : Cfg) (env : Env d K) (s : Solver d K) : ((adaptRho cfg env s).1).settings.adaptive_rho_interval = s.settings.adaptive_rho_interval := (adaptRho_frame cfg env s).2.2.2.2.2.2.2.2.2.2.2.2.2.2.2.2.1
@[simp] theorem adaptRho_settings_adaptive_rho_fraction (cfg : Cfg) (env : Env d K) (s : Solver d K) : ((adaptRho cfg env s).1).settings.adaptive_rho_fraction = s.settings.adaptive_rho_fraction := (adaptRho_frame cfg env s).2.2.2.2.2.2.2.2.2.2.2.2.2.2.2.2.2.1
@[simp] theorem adaptRho_settings_adaptive_rho_tolerance (cfg : Cfg) (env : Env d K) (s : Solver d K) : ((adaptRho cfg env s).1).settings.adaptive_rho_tolerance = s.settings.adaptive_rho_tolerance := (adaptRho_frame cfg env s).2.2.2.2.2.2.2.2.2.2.2.2.2.2.2.2.2.2.1
@[simp] theorem adaptRho_settings_max_iter (cfg : Cfg) (env : Env d K) (s : Solver d K) : ((adaptRho cfg env s).1).settings.max_iter = s.settings.max_iter := (adaptRho_frame cfg env s).2.2.2.2.2.2.2.2.2.2.2.2.2.2.2.2.2.2.2.1
@[simp] theorem adaptRho_settings_eps_abs (cfg : Cfg) (env : Env d K) (s : Solver d K) : ((adaptRho cfg env s).1).settings.eps_abs = s.settings.eps_abs := (adaptRho_frame cfg env s).2.2.2.2.2.2.2.2.2.2.2.2.2.2.2.2.2.2.2.2.1
@[simp] theorem adaptRho_settings_eps_rel (cfg : Cfg) (env : Env d K) (s : Solver d K) : ((adaptRho cfg env s).1).settings.eps_rel = s.settings.eps_rel := (adaptRho_frame cfg env s).2.2.2.2.2.2.2.2.2.2.2.2.2.2.2.2.2.2.2.2.2.1
@[simp] theorem adaptRho_settings_eps_prim_inf (cfg : Cfg) (env : Env d K) (s : Solver d K) : ((adaptRho cfg env s).1).settings.eps_prim_inf = s.settings.eps_prim_inf := (adaptRho_frame cfg env s).2.2.2.2.2.2.2.2.2.2.2.2.2.2.2.2.2.2.2.2.2.2.1
@[simp] theorem adaptRho_settings_eps_dual_inf (cfg : Cfg) (env : Env d K) (s : Solver d K) : ((adaptRho cfg env s).1).settings.eps_dual_inf = s.settings.eps_dual_inf := (adaptRho_frame cfg env s).2.2.2.2.2.2.2.2.2.2.2.2.2.2.2.2.2.2.2.2.2.2.2.1
@[simp] theorem adaptRho_settings_scaled_termination (cfg : Cfg) (env : Env d K) (s : Solver d K) : ((adaptRho cfg env s).1).settings.scaled_termination = s.settings.scaled_termination := (adaptRho_frame cfg env s).2.2.2.2.2.2.2.2.2.2.2.2.2.2.2.2.2.2.2.2.2.2.2.2.1
@[simp] theorem adaptRho_settings_check_termination (cfg : Cfg) (env : Env d K) (s : Solver d K) : ((adaptRho cfg env s).1).settings.check_termination = s.settings.check_termination := (adaptRho_frame cfg env s).2.2.2.2.2.2.2.2.2.2.2.2.2.2.2.2.2.2.2.2.2.2.2.2.2.1
@[simp] theorem adaptRho_settings_check_dualgap (cfg : Cfg) (env : Env d K) (s : Solver d K) : ((adaptRho cfg env s).1).settings.check_dualgap = s.settings.check_dualgap := (adaptRho_frame cfg env s).2.2.2.2.2.2.2.2.2.2.2.2.2.2.2.2.2.2.2.2.2.2.2.2.2.2.1
@[simp] theorem adaptRho_settings_time_limit (cfg : Cfg) (env : Env d K) (s : Solver d K) : ((adaptRho cfg env s).1).settings.time_limit = s.settings.time_limit := (adaptRho_frame cfg env s).2.2.2.2.2.2.2.2.2.2.2.2.2.2.2.2.2.2.2.2.2.2.2.2.2.2.2.1
@[simp] theorem adaptRho_settings_delta (cfg : Cfg) (env : Env d K) (s : Solver d K) : ((adaptRho cfg env s).1).settings.delta = s.settings.delta := (adaptRho_frame cfg env s).2.2.2.2.2.2.2.2.2.2.2.2.2.2.2.2.2.2.2.2.2.2.2.2.2.2.2.2.1
@[simp] theorem adaptRho_settings_polish_refine_iter (cfg : Cfg) (env : Env d K) (s : Solver d K) : ((adaptRho cfg env s).1).settings.polish_refine_iter = s.settings.polish_refine_iter := (adaptRho_frame cfg env s).2.2.2.2.2.2.2.2.2.2.2.2.2.2.2.2.2.2.2.2.2.2.2.2.2.2.2.2.2.1
@[simp] theorem adaptRho_data (cfg : Cfg) (env : Env d K) (s : Solver d K) : ((adaptRho cfg env s).1).work.data = s.work.data := (adaptRho_frame cfg env s).2.2.2.2.2.2.2.2.2.2.2.2.2.2.2.2.2.2.2.2.2.2.2.2.2.2.2.2.2.2.1
@[simp] theorem adaptRho_constr_type (cfg : Cfg) (env : Env d K) (s : Solver d K) : ((adaptRho cfg env s).1).work.constr_type = s.work.constr_type := (adaptRho_frame cfg env s).2.2.2.2.2.2.2.2.2.2.2.2.2.2.2.2.2.2.2.2.2.2.2.2.2.2.2.2.2.2.2.1
@[simp] theorem adaptRho_x (cfg : Cfg) (env : Env d K) (s : Solver d K) : ((adaptRho cfg env s).1).work.x = s.work.x := (adaptRho_frame cfg env s).2.2.2.2.2.2.2.2.2.2.2.2.2.2.2.2.2.2.2.2.2.2.2.2.2.2.2.2.2.2.2.2.1
@[simp] theorem adaptRho_y (cfg : Cfg) (env : Env d K) (s : Solver d K) : ((adaptRho cfg env s).1).work.y = s.work.y := (adaptRho_frame cfg env s).2.2.2.2.2.2.2.2.2.2.2.2.2.2.2.2.2.2.2.2.2.2.2.2.2.2.2.2.2.2.2.2.2.1
@[simp] theorem adaptRho_z (cfg : Cfg) (env : Env d K) (s : Solver d K) : ((adaptRho cfg env s).1).work.z = s.work.z := (adaptRho_frame cfg env s).2.2.2.2.2.2.2.2.2.2.2.2.2.2.2.2.2.2.2.2.2.2.2.2.2.2.2.2.2.2.2.2.2.2.1
@[simp] theorem adaptRho_x_prev (cfg : Cfg) (env : Env d K) (s : Solver d K) : ((adaptRho cfg env s).1).work.x_prev = s.work.x_prev := (adaptRho_frame cfg env s).2.2.2.2.2.2.2.2.2.2.2.2.2.2.2.2.2.2.2.2.2.2.2.2.2.2.2.2.2.2.2.2.2.2.2.1
@[simp] theorem adaptRho_z_prev (cfg : Cfg) (env : Env d K) (s : Solver d K) : ((adaptRho cfg env s).1).work.z_prev = s.work.z_prev := (adaptRho_frame cfg env s).2.2.2.2.2.2.2.2.2.2.2.2.2.2.2.2.2.2.2.2.2.2.2.2.2.2.2.2.2.2.2.2.2.2.2.2.1
@[simp] theorem adaptRho_Ax (cfg : Cfg) (env : Env d K) (s : Solver d K) : ((adaptRho cfg env s).1).work.Ax = s.work.Ax := (adaptRho_frame cfg env s).2.2.2.2.2.2.2.2.2.2.2.2.2.2.2.2.2.2.2.2.2.2.2.2.2.2.2.2.2.2.2.2.2.2.2.2.2.1
@[simp] theorem adaptRho_Px (cfg : Cfg) (env : Env d K) (s : Solver d K) : ((adaptRho cfg env s).1).work.Px = s.work.Px := (adaptRho_frame cfg env s).2.2.2.2.2.2.2.2.2.2.2.2.2.2.2.2.2.2.2.2.2.2.2.2.2.2.2.2.2.2.2.2.2.2.2.2.2.2.1
@[simp] theorem adaptRho_Aty (cfg : Cfg) (env : Env d K) (s : Solver d K) : ((adaptRho cfg env s).1).work.Aty = s.work.Aty := (adaptRho_frame cfg env s).2.2.2.2.2.2.2.2.2.2.2.2.2.2.2.2.2.2.2.2.2.2.2.2.2.2.2.2.2.2.2.2.2.2.2.2.2.2.2.1
@[simp] theorem adaptRho_delta_y (cfg : Cfg) (env : Env d K) (s : Solver d K) : ((adaptRho cfg env s).1).work.delta_y = s.work.delta_y := (adaptRho_frame cfg env s).2.2.2.2.2.2.2.2.2.2.2.2.2.2.2.2.2.2.2.2.2.2.2.2.2.2.2.2.2.2.2.2.2.2.2.2.2.2.2.2.1
@[simp] theorem adaptRho_delta_x (cfg : Cfg) (env : Env d K) (s : Solver d K) : ((adaptRho cfg env s).1).work.delta_x = s.work.delta_x := (adaptRho_frame cfg env s).2.2.2.2.2.2.2.2.2.2.2.2.2.2.2.2.2.2.2.2.2.2.2.2.2.2.2.2.2.2.2.2.2.2.2.2.2.2.2.2.2.1
@[simp] theorem adaptRho_scaling (cfg : Cfg) (env : Env d K) (s : Solver d K) : ((adaptRho cfg env s).1).work.scaling = s.work.scaling := (adaptRho_frame cfg env s).2.2.2.2.2.2.2.2.2.2.2.2.2.2.2.2.2.2.2.2.2.2.2.2.2.2.2.2.2.2.2.2.2.2.2.2.2.2.2.2.2.2.1
@[simp] theorem adaptRho_scaled_prim_res (cfg : Cfg) (env : Env d K) (s : Solver d K) : ((adaptRho cfg env s).1).work.scaled_prim_res = s.work.scaled_prim_res := (adaptRho_frame cfg env s).2.2.2.2.2.2.2.2.2.2.2.2.2.2.2.2.2.2.2.2.2.2.2.2.2.2.2.2.2.2.2.2.2.2.2.2.2.2.2.2.2.2.2.1
@[simp] theorem adaptRho_scaled_dual_res (cfg : Cfg) (env : Env d K) (s : Solver d K) : ((adaptRho cfg env s).1).work.scaled_dual_res = s.work.scaled_dual_res := (adaptRho_frame cfg env s).2.2.2.2.2.2.2.2.2.2.2.2.2.2.2.2.2.2.2.2.2.2.2.2.2.2.2.2.2.2.2.2.2.2.2.2.2.2.2.2.2.2.2.2.1
@[simp] theorem adaptRho_scaled_dual_gap (cfg : Cfg) (env : Env d K) (s : Solver d K) : ((adaptRho cfg env s).1).work.scaled_dual_gap = s.work.scaled_dual_gap := (adaptRho_frame cfg env s).2.2.2.2.2.2.2.2.2.2.2.2.2.2.2.2.2.2.2.2.2.2.2.2.2.2.2.2.2.2.2.2.2.2.2.2.2.2.2.2.2.2.2.2.2.1
@[simp] theorem adaptRho_xtPx (cfg : Cfg) (env : Env d K) (s : Solver d K) : ((adaptRho cfg env s).1).work.xtPx = s.work.xtPx := (adaptRho_frame cfg env s).2.2.2.2.2.2.2.2.2.2.2.2.2.2.2.2.2.2.2.2.2.2.2.2.2.2.2.2.2.2.2.2.2.2.2.2.2.2.2.2.2.2.2.2.2.2.1
@[simp] theorem adaptRho_qtx (cfg : Cfg) (env : Env d K) (s : Solver d K) : ((adaptRho cfg env s).1).work.qtx = s.work.qtx := (adaptRho_frame cfg env s).2.2.2.2.2.2.2.2.2.2.2.2.2.2.2.2.2.2.2.2.2.2.2.2.2.2.2.2.2.2.2.2.2.2.2.2.2.2.2.2.2.2.2.2.2.2.2.1
@[simp] theorem adaptRho_SC (cfg : Cfg) (env : Env d K) (s : Solver d K) : ((adaptRho cfg env s).1).work.SC = s.work.SC := (adaptRho_frame cfg env s).2.2.2.2.2.2.2.2.2.2.2.2.2.2.2.2.2.2.2.2.2.2.2.2.2.2.2.2.2.2.2.2.2.2.2.2.2.2.2.2.2.2.2.2.2.2.2.2.1
@[simp] theorem adaptRho_last_rel_kkt (cfg : Cfg) (env : Env d K) (s : Solver d K) : ((adaptRho cfg env s).1).work.last_rel_kkt = s.work.last_rel_kkt := (adaptRho_frame cfg env s).2.2.2.2.2.2.2.2.2.2.2.2.2.2.2.2.2.2.2.2.2.2.2.2.2.2.2.2.2.2.2.2.2.2.2.2.2.2.2.2.2.2.2.2.2.2.2.2.2.1
@[simp] theorem adaptRho_first_run (cfg : Cfg) (env : Env d K) (s : Solver d K) : ((adaptRho cfg env s).1).work.first_run = s.work.first_run := (adaptRho_frame cfg env s).2.2.2.2.2.2.2.2.2.2.2.2.2.2.2.2.2.2.2.2.2.2.2.2.2.2.2.2.2.2.2.2.2.2.2.2.2.2.2.2.2.2.2.2.2.2.2.2.2.2.1
@[simp] theorem adaptRho_rho_update_from_solve (cfg : Cfg) (env : Env d K) (s : Solver d K) : ((adaptRho cfg env s).1).work.rho_update_from_solve = s.work.rho_update_from_solve := (adaptRho_frame cfg env s).2.2.2.2.2.2.2.2.2.2.2.2.2.2.2.2.2.2.2.2.2.2.2.2.2.2.2.2.2.2.2.2.2.2.2.2.2.2.2.2.2.2.2.2.2.2.2.2.2.2.2.1
@[simp] theorem adaptRho_info_status (cfg : Cfg) (env : Env d K) (s : Solver d K) : ((adaptRho cfg env s).1).info.status = s.info.status := (adaptRho_frame cfg env s).2.2.2.2.2.2.2.2.2.2.2.2.2.2.2.2.2.2.2.2.2.2.2.2.2.2.2.2.2.2.2.2.2.2.2.2.2.2.2.2.2.2.2.2.2.2.2.2.2.2.2.2.1
@[simp] theorem adaptRho_info_status_val (cfg : Cfg) (env : Env d K) (s : Solver d K) : ((adaptRho cfg env s).1).info.status_val = s.info.status_val := (adaptRho_frame cfg env s).2.2.2.2.2.2.2.2.2.2.2.2.2.2.2.2.2.2.2.2.2.2.2.2.2.2.2.2.2.2.2.2.2.2.2.2.2.2.2.2.2.2.2.2.2.2.2.2.2.2.2.2.2.1
@[simp] theorem adaptRho_info_status_polish (cfg : Cfg) (env : Env d K) (s : Solver d K) : ((adaptRho cfg env s).1).info.status_polish = s.info.status_polish := (adaptRho_frame cfg env s).2.2.2.2.2.2.2.2.2.2.2.2.2.2.2.2.2.2.2.2.2.2.2.2.2.2.2.2.2.2.2.2.2.2.2.2.2.2.2.2.2.2.2.2.2.2.2.2.2.2.2.2.2.2.1
@[simp] theorem adaptRho_info_obj_val (cfg : Cfg) (env : Env d K) (s : Solver d K) : ((adaptRho cfg env s).1).info.obj_val = s.info.obj_val := (adaptRho_frame cfg env s).2.2.2.2.2.2.2.2.2.2.2.2.2.2.2.2.2.2.2.2.2.2.2.2.2.2.2.2.2.2.2.2.2.2.2.2.2.2.2.2.2.2.2.2.2.2.2.2.2.2.2.2.2.2.2.1
@[simp] theorem adaptRho_info_dual_obj_val (cfg : Cfg) (env : Env d K) (s : Solver d K) : ((adaptRho cfg env s).1).info.dual_obj_val = s.info.dual_obj_val := (adaptRho_frame cfg env s).2.2.2.2.2.2.2.2.2.2.2.2.2.2.2.2.2.2.2.2.2.2.2.2.2.2.2.2.2.2.2.2.2.2.2.2.2.2.2.2.2.2.2.2.2.2.2.2.2.2.2.2.2.2.2.2.1
@[simp] theorem adaptRho_info_prim_res (cfg : Cfg) (env : Env d K) (s : Solver d K) : ((adaptRho cfg env s).1).info.prim_res = s.info.prim_res := (adaptRho_frame cfg env s).2.2.2.2.2.2.2.2.2.2.2.2.2.2.2.2.2.2.2.2.2.2.2.2.2.2.2.2.2.2.2.2.2.2.2.2.2.2.2.2.2.2.2.2.2.2.2.2.2.2.2.2.2.2.2.2.2.1
@[simp] theorem adaptRho_info_dual_res (cfg : Cfg) (env : Env d K) (s : Solver d K) : ((adaptRho cfg env s).1).info.dual_res = s.info.dual_res := (adaptRho_frame cfg env s).2.2.2.2.2.2.2.2.2.2.2.2.2.2.2.2.2.2.2.2.2.2.2.2.2.2.2.2.2.2.2.2.2.2.2.2.2.2.2.2.2.2.2.2.2.2.2.2.2.2.2.2.2.2.2.2.2.2.1
@[simp] theorem adaptRho_info_duality_gap (cfg : Cfg) (env : Env d K) (s : Solver d K) : ((adaptRho cfg env s).1).info.duality_gap = s.info.duality_gap := (adaptRho_frame cfg env s).2.2.2.2.2.2.2.2.2.2.2.2.2.2.2.2.2.2.2.2.2.2.2.2.2.2.2.2.2.2.2.2.2.2.2.2.2.2.2.2.2.2.2.2.2.2.2.2.2.2.2.2.2.2.2.2.2.2.2.1
@[simp] theorem adaptRho_info_iter (cfg : Cfg) (env : Env d K) (s : Solver d K) : ((adaptRho cfg env s).1).info.iter = s.info.iter := (adaptRho_frame cfg env s).2.2.2.2.2.2.2.2.2.2.2.2.2.2.2.2.2.2.2.2.2.2.2.2.2.2.2.2.2.2.2.2.2.2.2.2.2.2.2.2.2.2.2.2.2.2.2.2.2.2.2.2.2.2.2.2.2.2.2.2.1
@[simp] theorem adaptRho_info_setup_time (cfg : Cfg) (env : Env d K) (s : Solver d K) : ((adaptRho cfg env s).1).info.setup_time = s.info.setup_time := (adaptRho_frame cfg env s).2.2.2.2.2.2.2.2.2.2.2.2.2.2.2.2.2.2.2.2.2.2.2.2.2.2.2.2.2.2.2.2.2.2.2.2.2.2.2.2.2.2.2.2.2.2.2.2.2.2.2.2.2.2.2.2.2.2.2.2.2.1
@[simp] theorem adaptRho_info_solve_time (cfg : Cfg) (env : Env d K) (s : Solver d K) : ((adaptRho cfg env s).1).info.solve_time = s.info.solve_time := (adaptRho_frame cfg env s).2.2.2.2.2.2.2.2.2.2.2.2.2.2.2.2.2.2.2.2.2.2.2.2.2.2.2.2.2.2.2.2.2.2.2.2.2.2.2.2.2.2.2.2.2.2.2.2.2.2.2.2.2.2.2.2.2.2.2.2.2.2.1
@[simp] theorem adaptRho_info_polish_time (cfg : Cfg) (env : Env d K) (s : Solver d K) : ((adaptRho cfg env s).1).info.polish_time = s.info.polish_time := (adaptRho_frame cfg env s).2.2.2.2.2.2.2.2.2.2.2.2.2.2.2.2.2.2.2.2.2.2.2.2.2.2.2.2.2.2.2.2.2.2.2.2.2.2.2.2.2.2.2.2.2.2.2.2.2.2.2.2.2.2.2.2.2.2.2.2.2.2.2.1
@[simp] theorem adaptRho_info_run_time (cfg : Cfg) (env : Env d K) (s : Solver d K) : ((adaptRho cfg env s).1).info.run_time = s.info.run_time := (adaptRho_frame cfg env s).2.2.2.2.2.2.2.2.2.2.2.2.2.2.2.2.2.2.2.2.2.2.2.2.2.2.2.2.2.2.2.2.2.2.2.2.2.2.2.2.2.2.2.2.2.2.2.2.2.2.2.2.2.2.2.2.2.2.2.2.2.2.2.2.1
@[simp] theorem adaptRho_info_primdual_int (cfg : Cfg) (env : Env d K) (s : Solver d K) : ((adaptRho cfg env s).1).info.primdual_int = s.info.primdual_int := (adaptRho_frame cfg env s).2.2.2.2.2.2.2.2.2.2.2.2.2.2.2.2.2.2.2.2.2.2.2.2.2.2.2.2.2.2.2.2.2.2.2.2.2.2.2.2.2.2.2.2.2.2.2.2.2.2.2.2.2.2.2.2.2.2.2.2.2.2.2.2.2.1
@[simp] theorem adaptRho_info_rel_kkt_error (cfg : Cfg) (env : Env d K) (s : Solver d K) : ((adaptRho cfg env s).1).info.rel_kkt_error = s.info.rel_kkt_error := (adaptRho_frame cfg env s).2.2.2.2.2.2.2.2.2.2.2.2.2.2.2.2.2.2.2.2.2.2.2.2.2.2.2.2.2.2.2.2.2.2.2.2.2.2.2.2.2.2.2.2.2.2.2.2.2.2.2.2.2.2.2.2.2.2.2.2.2.2.2.2.2.2.1
@[simp] theorem adaptRho_solution (cfg : Cfg) (env : Env d K) (s : Solver d K) : ((adaptRho cfg env s).1).solution = s.solution := (adaptRho_frame cfg env s).2.2.2.2.2.2.2.2.2.2.2.2.2.2.2.2.2.2.2.2.2.2.2.2.2.2.2.2.2.2.2.2.2.2.2.2.2.2.2.2.2.2.2.2.2.2.2.2.2.2.2.2.2.2.2.2.2.2.2.2.2.2.2.2.2.2.2.1
@[simp] theorem adaptRho_polls (cfg : Cfg) (env : Env d K) (s : Solver d K) : ((adaptRho cfg env s).1).polls = s.polls := (adaptRho_frame cfg env s).2.2.2.2.2.2.2.2.2.2.2.2.2.2.2.2.2.2.2.2.2.2.2.2.2.2.2.2.2.2.2.2.2.2.2.2.2.2.2.2.2.2.2.2.2.2.2.2.2.2.2.2.2.2.2.2.2.2.2.2.2.2.2.2.2.2.2.2.1
@[simp] theorem adaptRho_handler (cfg : Cfg) (env : Env d K) (s : Solver d K) : ((adaptRho cfg env s).1).handler = s.handler := (adaptRho_frame cfg env s).2.2.2.2.2.2.2.2.2.2.2.2.2.2.2.2.2.2.2.2.2.2.2.2.2.2.2.2.2.2.2.2.2.2.2.2.2.2.2.2.2.2.2.2.2.2.2.2.2.2.2.2.2.2.2.2.2.2.2.2.2.2.2.2.2.2.2.2.2

theorem adaptDecision_frame (cfg : Cfg) (env : Env d K) (iter : ℤ) (s : Solver d K) :
  ((adaptDecision cfg env iter s).1).settings.device = s.settings.device ∧
  ((adaptDecision cfg env iter s).1).settings.linsys_solver = s.settings.linsys_solver ∧
  ((adaptDecision cfg env iter s).1).settings.allocate_solution = s.settings.allocate_solution ∧
  ((adaptDecision cfg env iter s).1).settings.verbose = s.settings.verbose ∧
  ((adaptDecision cfg env iter s).1).settings.profiler_level = s.settings.profiler_level ∧
  ((adaptDecision cfg env iter s).1).settings.warm_starting = s.settings.warm_starting ∧
  ((adaptDecision cfg env iter s).1).settings.scaling = s.settings.scaling ∧
  ((adaptDecision cfg env iter s).1).settings.polishing = s.settings.polishing ∧
  ((adaptDecision cfg env iter s).1).settings.rho = s.settings.rho ∧
  ((adaptDecision cfg env iter s).1).settings.rho_is_vec = s.settings.rho_is_vec ∧
  ((adaptDecision cfg env iter s).1).settings.sigma = s.settings.sigma ∧
  ((adaptDecision cfg env iter s).1).settings.alpha = s.settings.alpha ∧
  ((adaptDecision cfg env iter s).1).settings.cg_max_iter = s.settings.cg_max_iter ∧
  ((adaptDecision cfg env iter s).1).settings.cg_tol_reduction = s.settings.cg_tol_reduction ∧
  ((adaptDecision cfg env iter s).1).settings.cg_tol_fraction = s.settings.cg_tol_fraction ∧
  ((adaptDecision cfg env iter s).1).settings.cg_precond = s.settings.cg_precond ∧
  ((adaptDecision cfg env iter s).1).settings.adaptive_rho = s.settings.adaptive_rho ∧
  ((adaptDecision cfg env iter s).1).settings.adaptive_rho_fraction = s.settings.adaptive_rho_fraction ∧
  ((adaptDecision cfg env iter s).1).settings.adaptive_rho_tolerance = s.settings.adaptive_rho_tolerance ∧
  ((adaptDecision cfg env iter s).1).settings.max_iter = s.settings.max_iter ∧
  ((adaptDecision cfg env iter s).1).settings.eps_abs = s.settings.eps_abs ∧
  ((adaptDecision cfg env iter s).1).settings.eps_rel = s.settings.eps_rel ∧
  ((adaptDecision cfg env iter s).1).settings.eps_prim_inf = s.settings.eps_prim_inf ∧
  ((adaptDecision cfg env iter s).1).settings.eps_dual_inf = s.settings.eps_dual_inf ∧
  ((adaptDecision cfg env iter s).1).settings.scaled_termination = s.settings.scaled_termination ∧
  ((adaptDecision cfg env iter s).1).settings.check_termination = s.settings.check_termination ∧
  ((adaptDecision cfg env iter s).1).settings.check_dualgap = s.settings.check_dualgap ∧
  ((adaptDecision cfg env iter s).1).settings.time_limit = s.settings.time_limit ∧
  ((adaptDecision cfg env iter s).1).settings.delta = s.settings.delta ∧
  ((adaptDecision cfg env iter s).1).settings.polish_refine_iter = s.settings.polish_refine_iter ∧
  ((adaptDecision cfg env iter s).1).work = s.work ∧
  ((adaptDecision cfg env iter s).1).info = s.info ∧
  ((adaptDecision cfg env iter s).1).solution = s.solution ∧
  ((adaptDecision cfg env iter s).1).polls = s.polls ∧
  ((adaptDecision cfg env iter s).1).handler = s.handler := by
  frame_tac adaptDecision
@[simp] theorem adaptDecision_settings_device (cfg : Cfg) (env : Env d K) (iter : ℤ) (s : Solver d K) : ((adaptDecision cfg env iter s).1).settings.device = s.settings.device := (adaptDecision_frame cfg env iter s).1
@[simp] theorem adaptDecision_settings_linsys_solver (cfg : Cfg) (env : Env d K) (iter : ℤ) (s : Solver d K) : ((adaptDecision cfg env iter s).1).settings.linsys_solver = s.settings.linsys_solver := (adaptDecision_frame cfg env iter s).2.1
@[simp] theorem adaptDecision_settings_allocate_solution (cfg : Cfg) (env : Env d K) (iter : ℤ) (s : Solver d K) : ((adaptDecision cfg env iter s).1).settings.allocate_solution = s.settings.allocate_solution := (adaptDecision_frame cfg env iter s).2.2.1
@[simp] theorem adaptDecision_settings_verbose (cfg : Cfg) (env : Env d K) (iter : ℤ) (s : Solver d K) : ((adaptDecision cfg env iter s).1).settings.verbose = s.settings.verbose := (adaptDecision_frame cfg env iter s).2.2.2.1
@[simp] theorem adaptDecision_settings_profiler_level (cfg : Cfg) (env : Env d K) (iter : ℤ) (s : Solver d K) : ((adaptDecision cfg env iter s).1).settings.profiler_level = s.settings.profiler_level := (adaptDecision_frame cfg env iter s).2.2.2.2.1
@[simp] theorem adaptDecision_settings_warm_starting (cfg : Cfg) (env : Env d K) (iter : ℤ) (s : Solver d K) : ((adaptDecision cfg env iter s).1).settings.warm_starting = s.settings.warm_starting := (adaptDecision_frame cfg env iter s).2.2.2.2.2.1
@[simp] theorem adaptDecision_settings_scaling (cfg : Cfg) (env : Env d K) (iter : ℤ) (s : Solver d K) : ((adaptDecision cfg env iter s).1).settings.scaling = s.settings.scaling := (adaptDecision_frame cfg env iter s).2.2.2.2.2.2.1
@[simp] theorem adaptDecision_settings_polishing (cfg : Cfg) (env : Env d K) (iter : ℤ) (s : Solver d K) : ((adaptDecision cfg env iter s).1).settings.polishing = s.settings.polishing := (adaptDecision_frame cfg env iter s).2.2.2.2.2.2.2.1
@[simp] theorem adaptDecision_settings_rho (cfg : Cfg) (env : Env d K) (iter : ℤ) (s : Solver d K) : ((adaptDecision cfg env iter s).1).settings.rho = s.settings.rho := (adaptDecision_frame cfg env iter s).2.2.2.2.2.2.2.2.1
@[simp] theorem adaptDecision_settings_rho_is_vec (cfg : Cfg) (env : Env d K) (iter : ℤ) (s : Solver d K) : ((adaptDecision cfg env iter s).1).settings.rho_is_vec = s.settings.rho_is_vec := (adaptDecision_frame cfg env iter s).2.2.2.2.2.2.2.2.2.1
@[simp] theorem adaptDecision_settings_sigma (cfg : Cfg) (env : Env d K) (iter : ℤ) (s : Solver d K) : ((adaptDecision cfg env iter s).1).settings.sigma = s.settings.sigma := (adaptDecision_frame cfg env iter s).2.2.2.2.2.2.2.2.2.2.1
@[simp] theorem adaptDecision_settings_alpha (cfg : Cfg) (env : Env d K) (iter : ℤ) (s : Solver d K) : ((adaptDecision cfg env iter s).1).settings.alpha = s.settings.alpha := (adaptDecision_frame cfg env iter s).2.2.2.2.2.2.2.2.2.2.2.1
@[simp] theorem adaptDecision_settings_cg_max_iter (cfg : Cfg) (env : Env d K) (iter : ℤ) (s : Solver d K) : ((adaptDecision cfg env iter s).1).settings.cg_max_iter = s.settings.cg_max_iter := (adaptDecision_frame cfg env iter s).2.2.2.2.2.2.2.2.2.2.2.2.1
@[simp] theorem adaptDecision_settings_cg_tol_reduction (cfg : Cfg) (env : Env d K) (iter : ℤ) (s : Solver d K) : ((adaptDecision cfg env iter s).1).settings.cg_tol_reduction = s.settings.cg_tol_reduction := (adaptDecision_frame cfg env iter s).2.2.2.2.2.2.2.2.2.2.2.2.2.1
@[simp] theorem adaptDecision_settings_cg_tol_fraction (cfg : Cfg) (env : Env d K) (iter : ℤ) (s : Solver d K) : ((adaptDecision cfg env iter s).1).settings.cg_tol_fraction = s.settings.cg_tol_fraction := (adaptDecision_frame cfg env iter s).2.2.2.2.2.2.2.2.2.2.2.2.2.2.1
@[simp] theorem adaptDecision_settings_cg_precond (cfg : Cfg) (env : Env d K) (iter : ℤ) (s : Solver d K) : ((adaptDecision cfg env iter s).1).settings.cg_precond = s.settings.cg_precond := (adaptDecision_frame cfg env iter s).2.2.2.2.2.2.2.2.2.2.2.2.2.2.2.1
@[simp] theorem adaptDecision_settings_adaptive_rho (cfg : Cfg) (env : Env d K) (iter : ℤ) (s : Solver d K) : ((adaptDecision cfg env iter s).1).settings.adaptive_rho = s.settings.adaptive_rho := (adaptDecision_frame cfg env iter s).2.2.2.2.2.2.2.2.2.2.2.2.2.2.2.2.1
@[simp] theorem adaptDecision_settings_adaptive_rho_fraction (cfg : Cfg) (env : Env d K) (iter : ℤ) (s : Solver d K) : ((adaptDecision cfg env iter s).1).settings.adaptive_rho_fraction = s.settings.adaptive_rho_fraction := (adaptDecision_frame cfg env iter s).2.2.2.2.2.2.2.2.2.2.2.2.2.2.2.2.2.1
@[simp] theorem adaptDecision_settings_adaptive_rho_tolerance (cfg : Cfg) (env : Env d K) (iter : ℤ) (s : Solver d K) : ((adaptDecision cfg env iter s).1).settings.adaptive_rho_tolerance = s.settings.adaptive_rho_tolerance := (adaptDecision_frame cfg env iter s).2.2.2.2.2.2.2.2.2.2.2.2.2.2.2.2.2.2.1
@[simp] theorem adaptDecision_settings_max_iter (cfg : Cfg) (env : Env d K) (iter : ℤ) (s : Solver d K) : ((adaptDecision cfg env iter s).1).settings.max_iter = s.settings.max_iter := (adaptDecision_frame cfg env iter s).2.2.2.2.2.2.2.2.2.2.2.2.2.2.2.2.2.2.2.1
@[simp] theorem adaptDecision_settings_eps_abs (cfg : Cfg) (env : Env d K) (iter : ℤ) (s : Solver d K) : ((adaptDecision cfg env iter s).1).settings.eps_abs = s.settings.eps_abs := (adaptDecision_frame cfg env iter s).2.2.2.2.2.2.2.2.2.2.2.2.2.2.2.2.2.2.2.2.1
@[simp] theorem adaptDecision_settings_eps_rel (cfg : Cfg) (env : Env d K) (iter : ℤ) (s : Solver d K) : ((adaptDecision cfg env iter s).1).settings.eps_rel = s.settings.eps_rel := (adaptDecision_frame cfg env iter s).2.2.2.2.2.2.2.2.2.2.2.2.2.2.2.2.2.2.2.2.2.1
@[simp] theorem adaptDecision_settings_eps_prim_inf (cfg : Cfg) (env : Env d K) (iter : ℤ) (s : Solver d K) : ((adaptDecision cfg env iter s).1).settings.eps_prim_inf = s.settings.eps_prim_inf := (adaptDecision_frame cfg env iter s).2.2.2.2.2.2.2.2.2.2.2.2.2.2.2.2.2.2.2.2.2.2.1
@[simp] theorem adaptDecision_settings_eps_dual_inf (cfg : Cfg) (env : Env d K) (iter : ℤ) (s : Solver d K) : ((adaptDecision cfg env iter s).1).settings.eps_dual_inf = s.settings.eps_dual_inf := (adaptDecision_frame cfg env iter s).2.2.2.2.2.2.2.2.2.2.2.2.2.2.2.2.2.2.2.2.2.2.2.1
@[simp] theorem adaptDecision_settings_scaled_termination (cfg : Cfg) (env : Env d K) (iter : ℤ) (s : Solver d K) : ((adaptDecision cfg env iter s).1).settings.scaled_termination = s.settings.scaled_termination := (adaptDecision_frame cfg env iter s).2.2.2.2.2.2.2.2.2.2.2.2.2.2.2.2.2.2.2.2.2.2.2.2.1
@[simp] theorem adaptDecision_settings_check_termination (cfg : Cfg) (env : Env d K) (iter : ℤ) (s : Solver d K) : ((adaptDecision cfg env iter s).1).settings.check_termination = s.settings.check_termination := (adaptDecision_frame cfg env iter s).2.2.2.2.2.2.2.2.2.2.2.2.2.2.2.2.2.2.2.2.2.2.2.2.2.1
@[simp] theorem adaptDecision_settings_check_dualgap (cfg : Cfg) (env : Env d K) (iter : ℤ) (s : Solver d K) : ((adaptDecision cfg env iter s).1).settings.check_dualgap = s.settings.check_dualgap := (adaptDecision_frame cfg env iter s).2.2.2.2.2.2.2.2.2.2.2.2.2.2.2.2.2.2.2.2.2.2.2.2.2.2.1
@[simp] theorem adaptDecision_settings_time_limit (cfg : Cfg) (env : Env d K) (iter : ℤ) (s : Solver d K) : ((adaptDecision cfg env iter s).1).settings.time_limit = s.settings.time_limit := (adaptDecision_frame cfg env iter s).2.2.2.2.2.2.2.2.2.2.2.2.2.2.2.2.2.2.2.2.2.2.2.2.2.2.2.1
@[simp] theorem adaptDecision_settings_delta (cfg : Cfg) (env : Env d K) (iter : ℤ) (s : Solver d K) : ((adaptDecision cfg env iter s).1).settings.delta = s.settings.delta := (adaptDecision_frame cfg env iter s).2.2.2.2.2.2.2.2.2.2.2.2.2.2.2.2.2.2.2.2.2.2.2.2.2.2.2.2.1
@[simp] theorem adaptDecision_settings_polish_refine_iter (cfg : Cfg) (env : Env d K) (iter : ℤ) (s : Solver d K) : ((adaptDecision cfg env iter s).1).settings.polish_refine_iter = s.settings.polish_refine_iter := (adaptDecision_frame cfg env iter s).2.2.2.2.2.2.2.2.2.2.2.2.2.2.2.2.2.2.2.2.2.2.2.2.2.2.2.2.2.1
@[simp] theorem adaptDecision_work (cfg : Cfg) (env : Env d K) (iter : ℤ) (s : Solver d K) : ((adaptDecision cfg env iter s).1).work = s.work := (adaptDecision_frame cfg env iter s).2.2.2.2.2.2.2.2.2.2.2.2.2.2.2.2.2.2.2.2.2.2.2.2.2.2.2.2.2.2.1
@[simp] theorem adaptDecision_info (cfg : Cfg) (env : Env d K) (iter : ℤ) (s : Solver d K) : ((adaptDecision cfg env iter s).1).info = s.info := (adaptDecision_frame cfg env iter s).2.2.2.2.2.2.2.2.2.2.2.2.2.2.2.2.2.2.2.2.2.2.2.2.2.2.2.2.2.2.2.1
@[simp] theorem adaptDecision_solution (cfg : Cfg) (env : Env d K) (iter : ℤ) (s : Solver d K) : ((adaptDecision cfg env iter s).1).solution = s.solution := (adaptDecision_frame cfg env iter s).2.2.2.2.2.2.2.2.2.2.2.2.2.2.2.2.2.2.2.2.2.2.2.2.2.2.2.2.2.2.2.2.1
@[simp] theorem adaptDecision_polls (cfg : Cfg) (env : Env d K) (iter : ℤ) (s : Solver d K) : ((adaptDecision cfg env iter s).1).polls = s.polls := (adaptDecision_frame cfg env iter s).2.2.2.2.2.2.2.2.2.2.2.2.2.2.2.2.2.2.2.2.2.2.2.2.2.2.2.2.2.2.2.2.2.1
@[simp] theorem adaptDecision_handler (cfg : Cfg) (env : Env d K) (iter : ℤ) (s : Solver d K) : ((adaptDecision cfg env iter s).1).handler = s.handler := (adaptDecision_frame cfg env iter s).2.2.2.2.2.2.2.2.2.2.2.2.2.2.2.2.2.2.2.2.2.2.2.2.2.2.2.2.2.2.2.2.2.2

theorem timeCheck_frame (cfg : Cfg) (env : Env d K) (s : Solver d K) :
  ((timeCheck cfg env s).1).settings = s.settings ∧
  ((timeCheck cfg env s).1).work = s.work ∧
  ((timeCheck cfg env s).1).info = s.info ∧
  ((timeCheck cfg env s).1).solution = s.solution ∧
  ((timeCheck cfg env s).1).polls = s.polls ∧
  ((timeCheck cfg env s).1).handler = s.handler := by
  frame_tac timeCheck
@[simp] theorem timeCheck_settings (cfg : Cfg) (env : Env d K) (s : Solver d K) : ((timeCheck cfg env s).1).settings = s.settings := (timeCheck_frame cfg env s).1
@[simp] theorem timeCheck_work (cfg : Cfg) (env : Env d K) (s : Solver d K) : ((timeCheck cfg env s).1).work = s.work := (timeCheck_frame cfg env s).2.1
@[simp] theorem timeCheck_info (cfg : Cfg) (env : Env d K) (s : Solver d K) : ((timeCheck cfg env s).1).info = s.info := (timeCheck_frame cfg env s).2.2.1
@[simp] theorem timeCheck_solution (cfg : Cfg) (env : Env d K) (s : Solver d K) : ((timeCheck cfg env s).1).solution = s.solution := (timeCheck_frame cfg env s).2.2.2.1
@[simp] theorem timeCheck_polls (cfg : Cfg) (env : Env d K) (s : Solver d K) : ((timeCheck cfg env s).1).polls = s.polls := (timeCheck_frame cfg env s).2.2.2.2.1
@[simp] theorem timeCheck_handler (cfg : Cfg) (env : Env d K) (s : Solver d K) : ((timeCheck cfg env s).1).handler = s.handler := (timeCheck_frame cfg env s).2.2.2.2.2

theorem intrCheck_frame (cfg : Cfg) (env : Env d K) (s : Solver d K) :
  ((intrCheck cfg env s).1).settings = s.settings ∧
  ((intrCheck cfg env s).1).work = s.work ∧
  ((intrCheck cfg env s).1).info = s.info ∧
  ((intrCheck cfg env s).1).solution = s.solution ∧
  ((intrCheck cfg env s).1).ticks = s.ticks ∧
  ((intrCheck cfg env s).1).handler = s.handler := by
  frame_tac intrCheck
@[simp] theorem intrCheck_settings (cfg : Cfg) (env : Env d K) (s : Solver d K) : ((intrCheck cfg env s).1).settings = s.settings := (intrCheck_frame cfg env s).1
@[simp] theorem intrCheck_work (cfg : Cfg) (env : Env d K) (s : Solver d K) : ((intrCheck cfg env s).1).work = s.work := (intrCheck_frame cfg env s).2.1
@[simp] theorem intrCheck_info (cfg : Cfg) (env : Env d K) (s : Solver d K) : ((intrCheck cfg env s).1).info = s.info := (intrCheck_frame cfg env s).2.2.1
@[simp] theorem intrCheck_solution (cfg : Cfg) (env : Env d K) (s : Solver d K) : ((intrCheck cfg env s).1).solution = s.solution := (intrCheck_frame cfg env s).2.2.2.1
@[simp] theorem intrCheck_ticks (cfg : Cfg) (env : Env d K) (s : Solver d K) : ((intrCheck cfg env s).1).ticks = s.ticks := (intrCheck_frame cfg env s).2.2.2.2.1
@[simp] theorem intrCheck_handler (cfg : Cfg) (env : Env d K) (s : Solver d K) : ((intrCheck cfg env s).1).handler = s.handler := (intrCheck_frame cfg env s).2.2.2.2.2

theorem adaptPhase_frame (cfg : Cfg) (env : Env d K) (ca : Bool) (s : Solver d K) :
  ((adaptPhase cfg env ca s).1).settings.device = s.settings.device ∧
  ((adaptPhase cfg env ca s).1).settings.linsys_solver = s.settings.linsys_solver ∧
  ((adaptPhase cfg env ca s).1).settings.allocate_solution = s.settings.allocate_solution ∧
  ((adaptPhase cfg env ca s).1).settings.verbose = s.settings.verbose ∧
  ((adaptPhase cfg env ca s).1).settings.profiler_level = s.settings.profiler_level ∧
  ((adaptPhase cfg env ca s).1).settings.warm_starting = s.settings.warm_starting ∧
  ((adaptPhase cfg env ca s).1).settings.scaling = s.settings.scaling ∧
  ((adaptPhase cfg env ca s).1).settings.polishing = s.settings.polishing ∧
  ((adaptPhase cfg env ca s).1).settings.rho_is_vec = s.settings.rho_is_vec ∧
  ((adaptPhase cfg env ca s).1).settings.sigma = s.settings.sigma ∧
  ((adaptPhase cfg env ca s).1).settings.alpha = s.settings.alpha ∧
  ((adaptPhase cfg env ca s).1).settings.cg_max_iter = s.settings.cg_max_iter ∧
  ((adaptPhase cfg env ca s).1).settings.cg_tol_reduction = s.settings.cg_tol_reduction ∧
  ((adaptPhase cfg env ca s).1).settings.cg_tol_fraction = s.settings.cg_tol_fraction ∧
  ((adaptPhase cfg env ca s).1).settings.cg_precond = s.settings.cg_precond ∧
  ((adaptPhase cfg env ca s).1).settings.adaptive_rho = s.settings.adaptive_rho ∧
  ((adaptPhase cfg env ca s).1).settings.adaptive_rho_interval = s.settings.adaptive_rho_interval ∧
  ((adaptPhase cfg env ca s).1).settings.adaptive_rho_fraction = s.settings.adaptive_rho_fraction ∧
  ((adaptPhase cfg env ca s).1).settings.adaptive_rho_tolerance = s.settings.adaptive_rho_tolerance ∧
  ((adaptPhase cfg env ca s).1).settings.max_iter = s.settings.max_iter ∧
  ((adaptPhase cfg env ca s).1).settings.eps_abs = s.settings.eps_abs ∧
  ((adaptPhase cfg env ca s).1).settings.eps_rel = s.settings.eps_rel ∧
  ((adaptPhase cfg env ca s).1).settings.eps_prim_inf = s.settings.eps_prim_inf ∧
  ((adaptPhase cfg env ca s).1).settings.eps_dual_inf = s.settings.eps_dual_inf ∧
  ((adaptPhase cfg env ca s).1).settings.scaled_termination = s.settings.scaled_termination ∧
  ((adaptPhase cfg env ca s).1).settings.check_termination = s.settings.check_termination ∧
  ((adaptPhase cfg env ca s).1).settings.check_dualgap = s.settings.check_dualgap ∧
  ((adaptPhase cfg env ca s).1).settings.time_limit = s.settings.time_limit ∧
  ((adaptPhase cfg env ca s).1).settings.delta = s.settings.delta ∧
  ((adaptPhase cfg env ca s).1).settings.polish_refine_iter = s.settings.polish_refine_iter ∧
  ((adaptPhase cfg env ca s).1).work.data = s.work.data ∧
  ((adaptPhase cfg env ca s).1).work.constr_type = s.work.constr_type ∧
  ((adaptPhase cfg env ca s).1).work.x = s.work.x ∧
  ((adaptPhase cfg env ca s).1).work.y = s.work.y ∧
  ((adaptPhase cfg env ca s).1).work.z = s.work.z ∧
  ((adaptPhase cfg env ca s).1).work.x_prev = s.work.x_prev ∧
  ((adaptPhase cfg env ca s).1).work.z_prev = s.work.z_prev ∧
  ((adaptPhase cfg env ca s).1).work.Ax = s.work.Ax ∧
  ((adaptPhase cfg env ca s).1).work.Px = s.work.Px ∧
  ((adaptPhase cfg env ca s).1).work.Aty = s.work.Aty ∧
  ((adaptPhase cfg env ca s).1).work.delta_y = s.work.delta_y ∧
  ((adaptPhase cfg env ca s).1).work.delta_x = s.work.delta_x ∧
  ((adaptPhase cfg env ca s).1).work.scaling = s.work.scaling ∧
  ((adaptPhase cfg env ca s).1).work.scaled_prim_res = s.work.scaled_prim_res ∧
  ((adaptPhase cfg env ca s).1).work.scaled_dual_res = s.work.scaled_dual_res ∧
  ((adaptPhase cfg env ca s).1).work.scaled_dual_gap = s.work.scaled_dual_gap ∧
  ((adaptPhase cfg env ca s).1).work.xtPx = s.work.xtPx ∧
  ((adaptPhase cfg env ca s).1).work.qtx = s.work.qtx ∧
  ((adaptPhase cfg env ca s).1).work.SC = s.work.SC ∧
  ((adaptPhase cfg env ca s).1).work.first_run = s.work.first_run ∧
  ((adaptPhase cfg env ca s).1).work.rho_update_from_solve = s.work.rho_update_from_solve ∧
  ((adaptPhase cfg env ca s).1).info.status = s.info.status ∧
  ((adaptPhase cfg env ca s).1).info.status_val = s.info.status_val ∧
  ((adaptPhase cfg env ca s).1).info.status_polish = s.info.status_polish ∧
  ((adaptPhase cfg env ca s).1).info.obj_val = s.info.obj_val ∧
  ((adaptPhase cfg env ca s).1).info.dual_obj_val = s.info.dual_obj_val ∧
  ((adaptPhase cfg env ca s).1).info.prim_res = s.info.prim_res ∧
  ((adaptPhase cfg env ca s).1).info.dual_res = s.info.dual_res ∧
  ((adaptPhase cfg env ca s).1).info.duality_gap = s.info.duality_gap ∧
  ((adaptPhase cfg env ca s).1).info.iter = s.info.iter ∧
  ((adaptPhase cfg env ca s).1).info.setup_time = s.info.setup_time ∧
  ((adaptPhase cfg env ca s).1).info.solve_time = s.info.solve_time ∧
  ((adaptPhase cfg env ca s).1).info.polish_time = s.info.polish_time ∧
  ((adaptPhase cfg env ca s).1).info.run_time = s.info.run_time ∧
  ((adaptPhase cfg env ca s).1).info.primdual_int = s.info.primdual_int ∧
  ((adaptPhase cfg env ca s).1).info.rel_kkt_error = s.info.rel_kkt_error ∧
  ((adaptPhase cfg env ca s).1).solution = s.solution ∧
  ((adaptPhase cfg env ca s).1).polls = s.polls ∧
  ((adaptPhase cfg env ca s).1).handler = s.handler := by
  frame_tac adaptPhase
@[simp] theorem adaptPhase_settings_device (cfg : Cfg) (env : Env d K) (ca : Bool) (s : Solver d K) : ((adaptPhase cfg env ca s).1).settings.device = s.settings.device := (adaptPhase_frame cfg env ca s).1
@[simp] theorem adaptPhase_settings_linsys_solver (cfg : Cfg) (env : Env d K) (ca : Bool) (s : Solver d K) : ((adaptPhase cfg env ca s).1).settings.linsys_solver = s.settings.linsys_solver := (adaptPhase_frame cfg env ca s).2.1
@[simp] theorem adaptPhase_settings_allocate_solution (cfg : Cfg) (env : Env d K) (ca : Bool) (s : Solver d K) : ((adaptPhase cfg env ca s).1).settings.allocate_solution = s.settings.allocate_solution := (adaptPhase_frame cfg env ca s).2.2.1
@[simp] theorem adaptPhase_settings_verbose (cfg : Cfg) (env : Env d K) (ca : Bool) (s : Solver d K) : ((adaptPhase cfg env ca s).1).settings.verbose = s.settings.verbose := (adaptPhase_frame cfg env ca s).2.2.2.1
@[simp] theorem adaptPhase_settings_profiler_level (cfg : Cfg) (env : Env d K) (ca : Bool) (s : Solver d K) : ((adaptPhase cfg env ca s).1).settings.profiler_level = s.settings.profiler_level := (adaptPhase_frame cfg env ca s).2.2.2.2.1
@[simp] theorem adaptPhase_settings_warm_starting (cfg : Cfg) (env : Env d K) (ca : Bool) (s : Solver d K) : ((adaptPhase cfg env ca s).1).settings.warm_starting = s.settings.warm_starting := (adaptPhase_frame cfg env ca s).2.2.2.2.2.1
@[simp] theorem adaptPhase_settings_scaling (cfg : Cfg) (env : Env d K) (ca : Bool) (s : Solver d K) : ((adaptPhase cfg env ca s).1).settings.scaling = s.settings.scaling := (adaptPhase_frame cfg env ca s).2.2.2.2.2.2.1
@[simp] theorem adaptPhase_settings_polishing (cfg : Cfg) (env : Env d K) (ca : Bool) (s : Solver d K) : ((adaptPhase cfg env ca s).1).settings.polishing = s.settings.polishing := (adaptPhase_frame cfg env ca s).2.2.2.2.2.2.2.1
@[simp] theorem adaptPhase_settings_rho_is_vec (cfg : Cfg) (env : Env d K) (ca : Bool) (s : Solver d K) : ((adaptPhase cfg env ca s).1).settings.rho_is_vec = s.settings.rho_is_vec := (adaptPhase_frame cfg env ca s).2.2.2.2.2.2.2.2.1
@[simp] theorem adaptPhase_settings_sigma (cfg : Cfg) (env : Env d K) (ca : Bool) (s : Solver d K) : ((adaptPhase cfg env ca s).1).settings.sigma = s.settings.sigma := (adaptPhase_frame cfg env ca s).2.2.2.2.2.2.2.2.2.1
@[simp] theorem adaptPhase_settings_alpha (cfg : Cfg) (env : Env d K) (ca : Bool) (s : Solver d K) : ((adaptPhase cfg env ca s).1).settings.alpha = s.settings.alpha := (adaptPhase_frame cfg env ca s).2.2.2.2.2.2.2.2.2.2.1
@[simp] theorem adaptPhase_settings_cg_max_iter (cfg : Cfg) (env : Env d K) (ca : Bool) (s : Solver d K) : ((adaptPhase cfg env ca s).1).settings.cg_max_iter = s.settings.cg_max_iter := (adaptPhase_frame cfg env ca s).2.2.2.2.2.2.2.2.2.2.2.1
@[simp] theorem adaptPhase_settings_cg_tol_reduction (cfg : Cfg) (env : Env d K) (ca : Bool) (s : Solver d K) : ((adaptPhase cfg env ca s).1).settings.cg_tol_reduction = s.settings.cg_tol_reduction := (adaptPhase_frame cfg env ca s).2.2.2.2.2.2.2.2.2.2.2.2.1
@[simp] theorem adaptPhase_settings_cg_tol_fraction (cfg : Cfg) (env : Env d K) (ca : Bool) (s : Solver d K) : ((adaptPhase cfg env ca s).1).settings.cg_tol_fraction = s.settings.cg_tol_fraction := (adaptPhase_frame cfg env ca s).2.2.2.2.2.2.2.2.2.2.2.2.2.1
@[simp] theorem adaptPhase_settings_cg_precond (cfg : Cfg) (env : Env d K) (ca : Bool) (s : Solver d K) : ((adaptPhase cfg env ca s).1).settings.cg_precond = s.settings.cg_precond := (adaptPhase_frame cfg env ca s).2.2.2.2.2.2.2.2.2.2.2.2.2.2.1
@[simp] theorem adaptPhase_settings_adaptive_rho (cfg : Cfg) (env : Env d K) (ca : Bool) (s : Solver d K) : ((adaptPhase cfg env ca s).1).settings.adaptive_rho = s.settings.adaptive_rho := (adaptPhase_frame cfg env ca s).2.2.2.2.2.2.2.2.2.2.2.2.2.2.2.1
@[simp] theorem adaptPhase_settings_adaptive_rho_interval (cfg : Cfg) (env : Env d K) (ca : Bool) (s : Solver d K) : ((adaptPhase cfg env ca s).1).settings.adaptive_rho_interval = s.settings.adaptive_rho_interval := (adaptPhase_frame cfg env ca s).2.2.2.2.2.2.2.2.2.2.2.2.2.2.2.2.1
@[simp] theorem adaptPhase_settings_adaptive_rho_fraction (cfg : Cfg) (env : Env d K) (ca : Bool) (s : Solver d K) : ((adaptPhase cfg env ca s).1).settings.adaptive_rho_fraction = s.settings.adaptive_rho_fraction := (adaptPhase_frame cfg env ca s).2.2.2.2.2.2.2.2.2.2.2.2.2.2.2.2.2.1
@[simp] theorem adaptPhase_settings_adaptive_rho_tolerance (cfg : Cfg) (env : Env d K) (ca : Bool) (s : Solver d K) : ((adaptPhase cfg env ca s).1).settings.adaptive_rho_tolerance = s.settings.adaptive_rho_tolerance := (adaptPhase_frame cfg env ca s).2.2.2.2.2.2.2.2.2.2.2.2.2.2.2.2.2.2.1
@[simp] theorem adaptPhase_settings_max_iter (cfg : Cfg) (env : Env d K) (ca : Bool) (s : Solver d K) : ((adaptPhase cfg env ca s).1).settings.max_iter = s.settings.max_iter := (adaptPhase_frame cfg env ca s).2.2.2.2.2.2.2.2.2.2.2.2.2.2.2.2.2.2.2.1
@[simp] theorem adaptPhase_settings_eps_abs (cfg : Cfg) (env : Env d K) (ca : Bool) (s : Solver d K) : ((adaptPhase cfg env ca s).1).settings.eps_abs = s.settings.eps_abs := (adaptPhase_frame cfg env ca s).2.2.2.2.2.2.2.2.2.2.2.2.2.2.2.2.2.2.2.2.1
@[simp] theorem adaptPhase_settings_eps_rel (cfg : Cfg) (env : Env d K) (ca : Bool) (s : Solver d K) : ((adaptPhase cfg env ca s).1).settings.eps_rel = s.settings.eps_rel := (adaptPhase_frame cfg env ca s).2.2.2.2.2.2.2.2.2.2.2.2.2.2.2.2.2.2.2.2.2.1
@[simp] theorem adaptPhase_settings_eps_prim_inf (cfg : Cfg) (env : Env d K) (ca : Bool) (s : Solver d K) : ((adaptPhase cfg env ca s).1).settings.eps_prim_inf = s.settings.eps_prim_inf := (adaptPhase_frame cfg env ca s).2.2.2.2.2.2.2.2.2.2.2.2.2.2.2.2.2.2.2.2.2.2.1
@[simp] theorem adaptPhase_settings_eps_dual_inf (cfg : Cfg) (env : Env d K) (ca : Bool) (s : Solver d K) : ((adaptPhase cfg env ca s).1).settings.eps_dual_inf = s.settings.eps_dual_inf := (adaptPhase_frame cfg env ca s).2.2.2.2.2.2.2.2.2.2.2.2.2.2.2.2.2.2.2.2.2.2.2.1
@[simp] theorem adaptPhase_settings_scaled_termination (cfg : Cfg) (env : Env d K) (ca : Bool) (s : Solver d K) : ((adaptPhase cfg env ca s).1).settings.scaled_termination = s.settings.scaled_termination := (adaptPhase_frame cfg env ca s).2.2.2.2.2.2.2.2.2.2.2.2.2.2.2.2.2.2.2.2.2.2.2.2.1
@[simp] theorem adaptPhase_settings_check_termination (cfg : Cfg) (env : Env d K) (ca : Bool) (s : Solver d K) : ((adaptPhase cfg env ca s).1).settings.check_termination = s.settings.check_termination := (adaptPhase_frame cfg env ca s).2.2.2.2.2.2.2.2.2.2.2.2.2.2.2.2.2.2.2.2.2.2.2.2.2.1
@[simp] theorem adaptPhase_settings_check_dualgap (cfg : Cfg) (env : Env d K) (ca : Bool) (s : Solver d K) : ((adaptPhase cfg env ca s).1).settings.check_dualgap = s.settings.check_dualgap := (adaptPhase_frame cfg env ca s).2.2.2.2.2.2.2.2.2.2.2.2.2.2.2.2.2.2.2.2.2.2.2.2.2.2.1
@[simp] theorem adaptPhase_settings_time_limit (cfg : Cfg) (env : Env d K) (ca : Bool) (s : Solver d K) : ((adaptPhase cfg env ca s).1).settings.time_limit = s.settings.time_limit := (adaptPhase_frame cfg env ca s).2.2.2.2.2.2.2.2.2.2.2.2.2.2.2.2.2.2.2.2.2.2.2.2.2.2.2.1
@[simp] theorem adaptPhase_settings_delta (cfg : Cfg) (env : Env d K) (ca : Bool) (s : Solver d K) : ((adaptPhase cfg env ca s).1).settings.delta = s.settings.delta := (adaptPhase_frame cfg env ca s).2.2.2.2.2.2.2.2.2.2.2.2.2.2.2.2.2.2.2.2.2.2.2.2.2.2.2.2.1
@[simp] theorem adaptPhase_settings_polish_refine_iter (cfg : Cfg) (env : Env d K) (ca : Bool) (s : Solver d K) : ((adaptPhase cfg env ca s).1).settings.polish_refine_iter = s.settings.polish_refine_iter := (adaptPhase_frame cfg env ca s).2.2.2.2.2.2.2.2.2.2.2.2.2.2.2.2.2.2.2.2.2.2.2.2.2.2.2.2.2.1
@[simp] theorem adaptPhase_data (cfg : Cfg) (env : Env d K) (ca : Bool) (s : Solver d K) : ((adaptPhase cfg env ca s).1).work.data = s.work.data := (adaptPhase_frame cfg env ca s).2.2.2.2.2.2.2.2.2.2.2.2.2.2.2.2.2.2.2.2.2.2.2.2.2.2.2.2.2.2.1
@[simp] theorem adaptPhase_constr_type (cfg : Cfg) (env : Env d K) (ca : Bool) (s : Solver d K) : ((adaptPhase cfg env ca s).1).work.constr_type = s.work.constr_type := (adaptPhase_frame cfg env ca s).2.2.2.2.2.2.2.2.2.2.2.2.2.2.2.2.2.2.2.2.2.2.2.2.2.2.2.2.2.2.2.1
@[simp] theorem adaptPhase_x (cfg : Cfg) (env : Env d K) (ca : Bool) (s : Solver d K) : ((adaptPhase cfg env ca s).1).work.x = s.work.x := (adaptPhase_frame cfg env ca s).2.2.2.2.2.2.2.2.2.2.2.2.2.2.2.2.2.2.2.2.2.2.2.2.2.2.2.2.2.2.2.2.1
@[simp] theorem adaptPhase_y (cfg : Cfg) (env : Env d K) (ca : Bool) (s : Solver d K) : ((adaptPhase cfg env ca s).1).work.y = s.work.y := (adaptPhase_frame cfg env ca s).2.2.2.2.2.2.2.2.2.2.2.2.2.2.2.2.2.2.2.2.2.2.2.2.2.2.2.2.2.2.2.2.2.1
@[simp] theorem adaptPhase_z (cfg : Cfg) (env : Env d K) (ca : Bool) (s : Solver d K) : ((adaptPhase cfg env ca s).1).work.z = s.work.z := (adaptPhase_frame cfg env ca s).2.2.2.2.2.2.2.2.2.2.2.2.2.2.2.2.2.2.2.2.2.2.2.2.2.2.2.2.2.2.2.2.2.2.1
@[simp] theorem adaptPhase_x_prev (cfg : Cfg) (env : Env d K) (ca : Bool) (s : Solver d K) : ((adaptPhase cfg env ca s).1).work.x_prev = s.work.x_prev := (adaptPhase_frame cfg env ca s).2.2.2.2.2.2.2.2.2.2.2.2.2.2.2.2.2.2.2.2.2.2.2.2.2.2.2.2.2.2.2.2.2.2.2.1
@[simp] theorem adaptPhase_z_prev (cfg : Cfg) (env : Env d K) (ca : Bool) (s : Solver d K) : ((adaptPhase cfg env ca s).1).work.z_prev = s.work.z_prev := (adaptPhase_frame cfg env ca s).2.2.2.2.2.2.2.2.2.2.2.2.2.2.2.2.2.2.2.2.2.2.2.2.2.2.2.2.2.2.2.2.2.2.2.2.1
@[simp] theorem adaptPhase_Ax (cfg : Cfg) (env : Env d K) (ca : Bool) (s : Solver d K) : ((adaptPhase cfg env ca s).1).work.Ax = s.work.Ax := (adaptPhase_frame cfg env ca s).2.2.2.2.2.2.2.2.2.2.2.2.2.2.2.2.2.2.2.2.2.2.2.2.2.2.2.2.2.2.2.2.2.2.2.2.2.1
@[simp] theorem adaptPhase_Px (cfg : Cfg) (env : Env d K) (ca : Bool) (s : Solver d K) : ((adaptPhase cfg env ca s).1).work.Px = s.work.Px := (adaptPhase_frame cfg env ca s).2.2.2.2.2.2.2.2.2.2.2.2.2.2.2.2.2.2.2.2.2.2.2.2.2.2.2.2.2.2.2.2.2.2.2.2.2.2.1
@[simp] theorem adaptPhase_Aty (cfg : Cfg) (env : Env d K) (ca : Bool) (s : Solver d K) : ((adaptPhase cfg env ca s).1).work.Aty = s.work.Aty := (adaptPhase_frame cfg env ca s).2.2.2.2.2.2.2.2.2.2.2.2.2.2.2.2.2.2.2.2.2.2.2.2.2.2.2.2.2.2.2.2.2.2.2.2.2.2.2.1
@[simp] theorem adaptPhase_delta_y (cfg : Cfg) (env : Env d K) (ca : Bool) (s : Solver d K) : ((adaptPhase cfg env ca s).1).work.delta_y = s.work.delta_y := (adaptPhase_frame cfg env ca s).2.2.2.2.2.2.2.2.2.2.2.2.2.2.2.2.2.2.2.2.2.2.2.2.2.2.2.2.2.2.2.2.2.2.2.2.2.2.2.2.1
@[simp] theorem adaptPhase_delta_x (cfg : Cfg) (env : Env d K) (ca : Bool) (s : Solver d K) : ((adaptPhase cfg env ca s).1).work.delta_x = s.work.delta_x := (adaptPhase_frame cfg env ca s).2.2.2.2.2.2.2.2.2.2.2.2.2.2.2.2.2.2.2.2.2.2.2.2.2.2.2.2.2.2.2.2.2.2.2.2.2.2.2.2.2.1
@[simp] theorem adaptPhase_scaling (cfg : Cfg) (env : Env d K) (ca : Bool) (s : Solver d K) : ((adaptPhase cfg env ca s).1).work.scaling = s.work.scaling := (adaptPhase_frame cfg env ca s).2.2.2.2.2.2.2.2.2.2.2.2.2.2.2.2.2.2.2.2.2.2.2.2.2.2.2.2.2.2.2.2.2.2.2.2.2.2.2.2.2.2.1
@[simp] theorem adaptPhase_scaled_prim_res (cfg : Cfg) (env : Env d K) (ca : Bool) (s : Solver d K) : ((adaptPhase cfg env ca s).1).work.scaled_prim_res = s.work.scaled_prim_res := (adaptPhase_frame cfg env ca s).2.2.2.2.2.2.2.2.2.2.2.2.2.2.2.2.2.2.2.2.2.2.2.2.2.2.2.2.2.2.2.2.2.2.2.2.2.2.2.2.2.2.2.1
@[simp] theorem adaptPhase_scaled_dual_res (cfg : Cfg) (env : Env d K) (ca : Bool) (s : Solver d K) : ((adaptPhase cfg env ca s).1).work.scaled_dual_res = s.work.scaled_dual_res := (adaptPhase_frame cfg env ca s).2.2.2.2.2.2.2.2.2.2.2.2.2.2.2.2.2.2.2.2.2.2.2.2.2.2.2.2.2.2.2.2.2.2.2.2.2.2.2.2.2.2.2.2.1
@[simp] theorem adaptPhase_scaled_dual_gap (cfg : Cfg) (env : Env d K) (ca : Bool) (s : Solver d K) : ((adaptPhase cfg env ca s).1).work.scaled_dual_gap = s.work.scaled_dual_gap := (adaptPhase_frame cfg env ca s).2.2.2.2.2.2.2.2.2.2.2.2.2.2.2.2.2.2.2.2.2.2.2.2.2.2.2.2.2.2.2.2.2.2.2.2.2.2.2.2.2.2.2.2.2.1
@[simp] theorem adaptPhase_xtPx (cfg : Cfg) (env : Env d K) (ca : Bool) (s : Solver d K) : ((adaptPhase cfg env ca s).1).work.xtPx = s.work.xtPx := (adaptPhase_frame cfg env ca s).2.2.2.2.2.2.2.2.2.2.2.2.2.2.2.2.2.2.2.2.2.2.2.2.2.2.2.2.2.2.2.2.2.2.2.2.2.2.2.2.2.2.2.2.2.2.1
@[simp] theorem adaptPhase_qtx (cfg : Cfg) (env : Env d K) (ca : Bool) (s : Solver d K) : ((adaptPhase cfg env ca s).1).work.qtx = s.work.qtx := (adaptPhase_frame cfg env ca s).2.2.2.2.2.2.2.2.2.2.2.2.2.2.2.2.2.2.2.2.2.2.2.2.2.2.2.2.2.2.2.2.2.2.2.2.2.2.2.2.2.2.2.2.2.2.2.1
@[simp] theorem adaptPhase_SC (cfg : Cfg) (env : Env d K) (ca : Bool) (s : Solver d K) : ((adaptPhase cfg env ca s).1).work.SC = s.work.SC := (adaptPhase_frame cfg env ca s).2.2.2.2.2.2.2.2.2.2.2.2.2.2.2.2.2.2.2.2.2.2.2.2.2.2.2.2.2.2.2.2.2.2.2.2.2.2.2.2.2.2.2.2.2.2.2.2.1
@[simp] theorem adaptPhase_first_run (cfg : Cfg) (env : Env d K) (ca : Bool) (s : Solver d K) : ((adaptPhase cfg env ca s).1).work.first_run = s.work.first_run := (adaptPhase_frame cfg env ca s).2.2.2.2.2.2.2.2.2.2.2.2.2.2.2.2.2.2.2.2.2.2.2.2.2.2.2.2.2.2.2.2.2.2.2.2.2.2.2.2.2.2.2.2.2.2.2.2.2.1
@[simp] theorem adaptPhase_rho_update_from_solve (cfg : Cfg) (env : Env d K) (ca : Bool) (s : Solver d K) : ((adaptPhase cfg env ca s).1).work.rho_update_from_solve = s.work.rho_update_from_solve := (adaptPhase_frame cfg env ca s).2.2.2.2.2.2.2.2.2.2.2.2.2.2.2.2.2.2.2.2.2.2.2.2.2.2.2.2.2.2.2.2.2.2.2.2.2.2.2.2.2.2.2.2.2.2.2.2.2.2.1
@[simp] theorem adaptPhase_info_status (cfg : Cfg) (env : Env d K) (ca : Bool) (s : Solver d K) : ((adaptPhase cfg env ca s).1).info.status = s.info.status := (adaptPhase_frame cfg env ca s).2.2.2.2.2.2.2.2.2.2.2.2.2.2.2.2.2.2.2.2.2.2.2.2.2.2.2.2.2.2.2.2.2.2.2.2.2.2.2.2.2.2.2.2.2.2.2.2.2.2.2.1
@[simp] theorem adaptPhase_info_status_val (cfg : Cfg) (env : Env d K) (ca : Bool) (s : Solver d K) : ((adaptPhase cfg env ca s).1).info.status_val = s.info.status_val := (adaptPhase_frame cfg env ca s).2.2.2.2.2.2.2.2.2.2.2.2.2.2.2.2.2.2.2.2.2.2.2.2.2.2.2.2.2.2.2.2.2.2.2.2.2.2.2.2.2.2.2.2.2.2.2.2.2.2.2.2.1
@[simp] theorem adaptPhase_info_status_polish (cfg : Cfg) (env : Env d K) (ca : Bool) (s : Solver d K) : ((adaptPhase cfg env ca s).1).info.status_polish = s.info.status_polish := (adaptPhase_frame cfg env ca s).2.2.2.2.2.2.2.2.2.2.2.2.2.2.2.2.2.2.2.2.2.2.2.2.2.2.2.2.2.2.2.2.2.2.2.2.2.2.2.2.2.2.2.2.2.2.2.2.2.2.2.2.2.1
@[simp] theorem adaptPhase_info_obj_val (cfg : Cfg) (env : Env d K) (ca : Bool) (s : Solver d K) : ((adaptPhase cfg env ca s).1).info.obj_val = s.info.obj_val := (adaptPhase_frame cfg env ca s).2.2.2.2.2.2.2.2.2.2.2.2.2.2.2.2.2.2.2.2.2.2.2.2.2.2.2.2.2.2.2.2.2.2.2.2.2.2.2.2.2.2.2.2.2.2.2.2.2.2.2.2.2.2.1
@[simp] theorem adaptPhase_info_dual_obj_val (cfg : Cfg) (env : Env d K) (ca : Bool) (s : Solver d K) : ((adaptPhase cfg env ca s).1).info.dual_obj_val = s.info.dual_obj_val := (adaptPhase_frame cfg env ca s).2.2.2.2.2.2.2.2.2.2.2.2.2.2.2.2.2.2.2.2.2.2.2.2.2.2.2.2.2.2.2.2.2.2.2.2.2.2.2.2.2.2.2.2.2.2.2.2.2.2.2.2.2.2.2.1
@[simp] theorem adaptPhase_info_prim_res (cfg : Cfg) (env : Env d K) (ca : Bool) (s : Solver d K) : ((adaptPhase cfg env ca s).1).info.prim_res = s.info.prim_res := (adaptPhase_frame cfg env ca s).2.2.2.2.2.2.2.2.2.2.2.2.2.2.2.2.2.2.2.2.2.2.2.2.2.2.2.2.2.2.2.2.2.2.2.2.2.2.2.2.2.2.2.2.2.2.2.2.2.2.2.2.2.2.2.2.1
@[simp] theorem adaptPhase_info_dual_res (cfg : Cfg) (env : Env d K) (ca : Bool) (s : Solver d K) : ((adaptPhase cfg env ca s).1).info.dual_res = s.info.dual_res := (adaptPhase_frame cfg env ca s).2.2.2.2.2.2.2.2.2.2.2.2.2.2.2.2.2.2.2.2.2.2.2.2.2.2.2.2.2.2.2.2.2.2.2.2.2.2.2.2.2.2.2.2.2.2.2.2.2.2.2.2.2.2.2.2.2.1
@[simp] theorem adaptPhase_info_duality_gap (cfg : Cfg) (env : Env d K) (ca : Bool) (s : Solver d K) : ((adaptPhase cfg env ca s).1).info.duality_gap = s.info.duality_gap := (adaptPhase_frame cfg env ca s).2.2.2.2.2.2.2.2.2.2.2.2.2.2.2.2.2.2.2.2.2.2.2.2.2.2.2.2.2.2.2.2.2.2.2.2.2.2.2.2.2.2.2.2.2.2.2.2.2.2.2.2.2.2.2.2.2.2.1
@[simp] theorem adaptPhase_info_iter (cfg : Cfg) (env : Env d K) (ca : Bool) (s : Solver d K) : ((adaptPhase cfg env ca s).1).info.iter = s.info.iter := (adaptPhase_frame cfg env ca s).2.2.2.2.2.2.2.2.2.2.2.2.2.2.2.2.2.2.2.2.2.2.2.2.2.2.2.2.2.2.2.2.2.2.2.2.2.2.2.2.2.2.2.2.2.2.2.2.2.2.2.2.2.2.2.2.2.2.2.1
@[simp] theorem adaptPhase_info_setup_time (cfg : Cfg) (env : Env d K) (ca : Bool) (s : Solver d K) : ((adaptPhase cfg env ca s).1).info.setup_time = s.info.setup_time := (adaptPhase_frame cfg env ca s).2.2.2.2.2.2.2.2.2.2.2.2.2.2.2.2.2.2.2.2.2.2.2.2.2.2.2.2.2.2.2.2.2.2.2.2.2.2.2.2.2.2.2.2.2.2.2.2.2.2.2.2.2.2.2.2.2.2.2.2.1
@[simp] theorem adaptPhase_info_solve_time (cfg : Cfg) (env : Env d K) (ca : Bool) (s : Solver d K) : ((adaptPhase cfg env ca s).1).info.solve_time = s.info.solve_time := (adaptPhase_frame cfg env ca s).2.2.2.2.2.2.2.2.2.2.2.2.2.2.2.2.2.2.2.2.2.2.2.2.2.2.2.2.2.2.2.2.2.2.2.2.2.2.2.2.2.2.2.2.2.2.2.2.2.2.2.2.2.2.2.2.2.2.2.2.2.1
@[simp] theorem adaptPhase_info_polish_time (cfg : Cfg) (env : Env d K) (ca : Bool) (s : Solver d K) : ((adaptPhase cfg env ca s).1).info.polish_time = s.info.polish_time := (adaptPhase_frame cfg env ca s).2.2.2.2.2.2.2.2.2.2.2.2.2.2.2.2.2.2.2.2.2.2.2.2.2.2.2.2.2.2.2.2.2.2.2.2.2.2.2.2.2.2.2.2.2.2.2.2.2.2.2.2.2.2.2.2.2.2.2.2.2.2.1
@[simp] theorem adaptPhase_info_run_time (cfg : Cfg) (env : Env d K) (ca : Bool) (s : Solver d K) : ((adaptPhase cfg env ca s).1).info.run_time = s.info.run_time := (adaptPhase_frame cfg env ca s).2.2.2.2.2.2.2.2.2.2.2.2.2.2.2.2.2.2.2.2.2.2.2.2.2.2.2.2.2.2.2.2.2.2.2.2.2.2.2.2.2.2.2.2.2.2.2.2.2.2.2.2.2.2.2.2.2.2.2.2.2.2.2.1
@[simp] theorem adaptPhase_info_primdual_int (cfg : Cfg) (env : Env d K) (ca : Bool) (s : Solver d K) : ((adaptPhase cfg env ca s).1).info.primdual_int = s.info.primdual_int := (adaptPhase_frame cfg env ca s).2.2.2.2.2.2.2.2.2.2.2.2.2.2.2.2.2.2.2.2.2.2.2.2.2.2.2.2.2.2.2.2.2.2.2.2.2.2.2.2.2.2.2.2.2.2.2.2.2.2.2.2.2.2.2.2.2.2.2.2.2.2.2.2.1
@[simp] theorem adaptPhase_info_rel_kkt_error (cfg : Cfg) (env : Env d K) (ca : Bool) (s : Solver d K) : ((adaptPhase cfg env ca s).1).info.rel_kkt_error = s.info.rel_kkt_error := (adaptPhase_frame cfg env ca s).2.2.2.2.2.2.2.2.2.2.2.2.2.2.2.2.2.2.2.2.2.2.2.2.2.2.2.2.2.2.2.2.2.2.2.2.2.2.2.2.2.2.2.2.2.2.2.2.2.2.2.2.2.2.2.2.2.2.2.2.2.2.2.2.2.1
@[simp] theorem adaptPhase_solution (cfg : Cfg) (env : Env d K) (ca : Bool) (s : Solver d K) : ((adaptPhase cfg env ca s).1).solution = s.solution := (adaptPhase_frame cfg env ca s).2.2.2.2.2.2.2.2.2.2.2.2.2.2.2.2.2.2.2.2.2.2.2.2.2.2.2.2.2.2.2.2.2.2.2.2.2.2.2.2.2.2.2.2.2.2.2.2.2.2.2.2.2.2.2.2.2.2.2.2.2.2.2.2.2.2.1
@[simp] theorem adaptPhase_polls (cfg : Cfg) (env : Env d K) (ca : Bool) (s : Solver d K) : ((adaptPhase cfg env ca s).1).polls = s.polls := (adaptPhase_frame cfg env ca s).2.2.2.2.2.2.2.2.2.2.2.2.2.2.2.2.2.2.2.2.2.2.2.2.2.2.2.2.2.2.2.2.2.2.2.2.2.2.2.2.2.2.2.2.2.2.2.2.2.2.2.2.2.2.2.2.2.2.2.2.2.2.2.2.2.2.2.1
@[simp] theorem adaptPhase_handler (cfg : Cfg) (env : Env d K) (ca : Bool) (s : Solver d K) : ((adaptPhase cfg env ca s).1).handler = s.handler := (adaptPhase_frame cfg env ca s).2.2.2.2.2.2.2.2.2.2.2.2.2.2.2.2.2.2.2.2.2.2.2.2.2.2.2.2.2.2.2.2.2.2.2.2.2.2.2.2.2.2.2.2.2.2.2.2.2.2.2.2.2.2.2.2.2.2.2.2.2.2.2.2.2.2.2.2

theorem solveEntry_frame (cfg : Cfg) (s : Solver d K) :
  ((solveEntry cfg s).s).settings = s.settings ∧
  ((solveEntry cfg s).s).work.data = s.work.data ∧
  ((solveEntry cfg s).s).work.linsys = s.work.linsys ∧
  ((solveEntry cfg s).s).work.rho_vec = s.work.rho_vec ∧
  ((solveEntry cfg s).s).work.rho_inv_vec = s.work.rho_inv_vec ∧
  ((solveEntry cfg s).s).work.rho_inv = s.work.rho_inv ∧
  ((solveEntry cfg s).s).work.constr_type = s.work.constr_type ∧
  ((solveEntry cfg s).s).work.x_prev = s.work.x_prev ∧
  ((solveEntry cfg s).s).work.z_prev = s.work.z_prev ∧
  ((solveEntry cfg s).s).work.Ax = s.work.Ax ∧
  ((solveEntry cfg s).s).work.Px = s.work.Px ∧
  ((solveEntry cfg s).s).work.Aty = s.work.Aty ∧
  ((solveEntry cfg s).s).work.delta_y = s.work.delta_y ∧
  ((solveEntry cfg s).s).work.delta_x = s.work.delta_x ∧
  ((solveEntry cfg s).s).work.scaling = s.work.scaling ∧
  ((solveEntry cfg s).s).work.scaled_prim_res = s.work.scaled_prim_res ∧
  ((solveEntry cfg s).s).work.scaled_dual_res = s.work.scaled_dual_res ∧
  ((solveEntry cfg s).s).work.scaled_dual_gap = s.work.scaled_dual_gap ∧
  ((solveEntry cfg s).s).work.xtPx = s.work.xtPx ∧
  ((solveEntry cfg s).s).work.qtx = s.work.qtx ∧
  ((solveEntry cfg s).s).work.SC = s.work.SC ∧
  ((solveEntry cfg s).s).work.rho_updated = s.work.rho_updated ∧
  ((solveEntry cfg s).s).work.last_rel_kkt = s.work.last_rel_kkt ∧
  ((solveEntry cfg s).s).work.first_run = s.work.first_run ∧
  ((solveEntry cfg s).s).work.clear_update_time = s.work.clear_update_time ∧
  ((solveEntry cfg s).s).info.status = s.info.status ∧
  ((solveEntry cfg s).s).info.status_val = s.info.status_val ∧
  ((solveEntry cfg s).s).info.status_polish = s.info.status_polish ∧
  ((solveEntry cfg s).s).info.obj_val = s.info.obj_val ∧
  ((solveEntry cfg s).s).info.dual_obj_val = s.info.dual_obj_val ∧
  ((solveEntry cfg s).s).info.prim_res = s.info.prim_res ∧
  ((solveEntry cfg s).s).info.dual_res = s.info.dual_res ∧
  ((solveEntry cfg s).s).info.duality_gap = s.info.duality_gap ∧
  ((solveEntry cfg s).s).info.iter = s.info.iter ∧
  ((solveEntry cfg s).s).info.rho_updates = s.info.rho_updates ∧
  ((solveEntry cfg s).s).info.rho_estimate = s.info.rho_estimate ∧
  ((solveEntry cfg s).s).info.setup_time = s.info.setup_time ∧
  ((solveEntry cfg s).s).info.solve_time = s.info.solve_time ∧
  ((solveEntry cfg s).s).info.polish_time = s.info.polish_time ∧
  ((solveEntry cfg s).s).info.run_time = s.info.run_time ∧
  ((solveEntry cfg s).s).info.primdual_int = s.info.primdual_int ∧
  ((solveEntry cfg s).s).info.rel_kkt_error = s.info.rel_kkt_error ∧
  ((solveEntry cfg s).s).solution = s.solution ∧
  ((solveEntry cfg s).s).ticks = s.ticks ∧
  ((solveEntry cfg s).s).polls = s.polls := by
  frame_tac solveEntry
@[simp] theorem solveEntry_settings (cfg : Cfg) (s : Solver d K) : ((solveEntry cfg s).s).settings = s.settings := (solveEntry_frame cfg s).1
@[simp] theorem solveEntry_data (cfg : Cfg) (s : Solver d K) : ((solveEntry cfg s).s).work.data = s.work.data := (solveEntry_frame cfg s).2.1
@[simp] theorem solveEntry_linsys (cfg : Cfg) (s : Solver d K) : ((solveEntry cfg s).s).work.linsys = s.work.linsys := (solveEntry_frame cfg s).2.2.1
@[simp] theorem solveEntry_rho_vec (cfg : Cfg) (s : Solver d K) : ((solveEntry cfg s).s).work.rho_vec = s.work.rho_vec := (solveEntry_frame cfg s).2.2.2.1
@[simp] theorem solveEntry_rho_inv_vec (cfg : Cfg) (s : Solver d K) : ((solveEntry cfg s).s).work.rho_inv_vec = s.work.rho_inv_vec := (solveEntry_frame cfg s).2.2.2.2.1
@[simp] theorem solveEntry_rho_inv (cfg : Cfg) (s : Solver d K) : ((solveEntry cfg s).s).work.rho_inv = s.work.rho_inv := (solveEntry_frame cfg s).2.2.2.2.2.1
@[simp] theorem solveEntry_constr_type (cfg : Cfg) (s : Solver d K) : ((solveEntry cfg s).s).work.constr_type = s.work.constr_type := (solveEntry_frame cfg s).2.2.2.2.2.2.1
@[simp] theorem solveEntry_x_prev (cfg : Cfg) (s : Solver d K) : ((solveEntry cfg s).s).work.x_prev = s.work.x_prev := (solveEntry_frame cfg s).2.2.2.2.2.2.2.1
@[simp] theorem solveEntry_z_prev (cfg : Cfg) (s : Solver d K) : ((solveEntry cfg s).s).work.z_prev = s.work.z_prev := (solveEntry_frame cfg s).2.2.2.2.2.2.2.2.1
@[simp] theorem solveEntry_Ax (cfg : Cfg) (s : Solver d K) : ((solveEntry cfg s).s).work.Ax = s.work.Ax := (solveEntry_frame cfg s).2.2.2.2.2.2.2.2.2.1
@[simp] theorem solveEntry_Px (cfg : Cfg) (s : Solver d K) : ((solveEntry cfg s).s).work.Px = s.work.Px := (solveEntry_frame cfg s).2.2.2.2.2.2.2.2.2.2.1
@[simp] theorem solveEntry_Aty (cfg : Cfg) (s : Solver d K) : ((solveEntry cfg s).s).work.Aty = s.work.Aty := (solveEntry_frame cfg s).2.2.2.2.2.2.2.2.2.2.2.1
@[simp] theorem solveEntry_delta_y (cfg : Cfg) (s : Solver d K) : ((solveEntry cfg s).s).work.delta_y = s.work.delta_y := (solveEntry_frame cfg s).2.2.2.2.2.2.2.2.2.2.2.2.1
@[simp] theorem solveEntry_delta_x (cfg : Cfg) (s : Solver d K) : ((solveEntry cfg s).s).work.delta_x = s.work.delta_x := (solveEntry_frame cfg s).2.2.2.2.2.2.2.2.2.2.2.2.2.1
@[simp] theorem solveEntry_scaling (cfg : Cfg) (s : Solver d K) : ((solveEntry cfg s).s).work.scaling = s.work.scaling := (solveEntry_frame cfg s).2.2.2.2.2.2.2.2.2.2.2.2.2.2.1
@[simp] theorem solveEntry_scaled_prim_res (cfg : Cfg) (s : Solver d K) : ((solveEntry cfg s).s).work.scaled_prim_res = s.work.scaled_prim_res := (solveEntry_frame cfg s).2.2.2.2.2.2.2.2.2.2.2.2.2.2.2.1
@[simp] theorem solveEntry_scaled_dual_res (cfg : Cfg) (s : Solver d K) : ((solveEntry cfg s).s).work.scaled_dual_res = s.work.scaled_dual_res := (solveEntry_frame cfg s).2.2.2.2.2.2.2.2.2.2.2.2.2.2.2.2.1
@[simp] theorem solveEntry_scaled_dual_gap (cfg : Cfg) (s : Solver d K) : ((solveEntry cfg s).s).work.scaled_dual_gap = s.work.scaled_dual_gap := (solveEntry_frame cfg s).2.2.2.2.2.2.2.2.2.2.2.2.2.2.2.2.2.1
@[simp] theorem solveEntry_xtPx (cfg : Cfg) (s : Solver d K) : ((solveEntry cfg s).s).work.xtPx = s.work.xtPx := (solveEntry_frame cfg s).2.2.2.2.2.2.2.2.2.2.2.2.2.2.2.2.2.2.1
@[simp] theorem solveEntry_qtx (cfg : Cfg) (s : Solver d K) : ((solveEntry cfg s).s).work.qtx = s.work.qtx := (solveEntry_frame cfg s).2.2.2.2.2.2.2.2.2.2.2.2.2.2.2.2.2.2.2.1
@[simp] theorem solveEntry_SC (cfg : Cfg) (s : Solver d K) : ((solveEntry cfg s).s).work.SC = s.work.SC := (solveEntry_frame cfg s).2.2.2.2.2.2.2.2.2.2.2.2.2.2.2.2.2.2.2.2.1
@[simp] theorem solveEntry_rho_updated (cfg : Cfg) (s : Solver d K) : ((solveEntry cfg s).s).work.rho_updated = s.work.rho_updated := (solveEntry_frame cfg s).2.2.2.2.2.2.2.2.2.2.2.2.2.2.2.2.2.2.2.2.2.1
@[simp] theorem solveEntry_last_rel_kkt (cfg : Cfg) (s : Solver d K) : ((solveEntry cfg s).s).work.last_rel_kkt = s.work.last_rel_kkt := (solveEntry_frame cfg s).2.2.2.2.2.2.2.2.2.2.2.2.2.2.2.2.2.2.2.2.2.2.1
@[simp] theorem solveEntry_first_run (cfg : Cfg) (s : Solver d K) : ((solveEntry cfg s).s).work.first_run = s.work.first_run := (solveEntry_frame cfg s).2.2.2.2.2.2.2.2.2.2.2.2.2.2.2.2.2.2.2.2.2.2.2.1
@[simp] theorem solveEntry_clear_update_time (cfg : Cfg) (s : Solver d K) : ((solveEntry cfg s).s).work.clear_update_time = s.work.clear_update_time := (solveEntry_frame cfg s).2.2.2.2.2.2.2.2.2.2.2.2.2.2.2.2.2.2.2.2.2.2.2.2.1
@[simp] theorem solveEntry_info_status (cfg : Cfg) (s : Solver d K) : ((solveEntry cfg s).s).info.status = s.info.status := (solveEntry_frame cfg s).2.2.2.2.2.2.2.2.2.2.2.2.2.2.2.2.2.2.2.2.2.2.2.2.2.1
@[simp] theorem solveEntry_info_status_val (cfg : Cfg) (s : Solver d K) : ((solveEntry cfg s).s).info.status_val = s.info.status_val := (solveEntry_frame cfg s).2.2.2.2.2.2.2.2.2.2.2.2.2.2.2.2.2.2.2.2.2.2.2.2.2.2.1
@[simp] theorem solveEntry_info_status_polish (cfg : Cfg) (s : Solver d K) : ((solveEntry cfg s).s).info.status_polish = s.info.status_polish := (solveEntry_frame cfg s).2.2.2.2.2.2.2.2.2.2.2.2.2.2.2.2.2.2.2.2.2.2.2.2.2.2.2.1
@[simp] theorem solveEntry_info_obj_val (cfg : Cfg) (s : Solver d K) : ((solveEntry cfg s).s).info.obj_val = s.info.obj_val := (solveEntry_frame cfg s).2.2.2.2.2.2.2.2.2.2.2.2.2.2.2.2.2.2.2.2.2.2.2.2.2.2.2.2.1
@[simp] theorem solveEntry_info_dual_obj_val (cfg : Cfg) (s : Solver d K) : ((solveEntry cfg s).s).info.dual_obj_val = s.info.dual_obj_val := (solveEntry_frame cfg s).2.2.2.2.2.2.2.2.2.2.2.2.2.2.2.2.2.2.2.2.2.2.2.2.2.2.2.2.2.1
@[simp] theorem solveEntry_info_prim_res (cfg : Cfg) (s : Solver d K) : ((solveEntry cfg s).s).info.prim_res = s.info.prim_res := (solveEntry_frame cfg s).2.2.2.2.2.2.2.2.2.2.2.2.2.2.2.2.2.2.2.2.2.2.2.2.2.2.2.2.2.2.1
@[simp] theorem solveEntry_info_dual_res (cfg : Cfg) (s : Solver d K) : ((solveEntry cfg s).s).info.dual_res = s.info.dual_res := (solveEntry_frame cfg s).2.2.2.2.2.2.2.2.2.2.2.2.2.2.2.2.2.2.2.2.2.2.2.2.2.2.2.2.2.2.2.1
@[simp] theorem solveEntry_info_duality_gap (cfg : Cfg) (s : Solver d K) : ((solveEntry cfg s).s).info.duality_gap = s.info.duality_gap := (solveEntry_frame cfg s).2.2.2.2.2.2.2.2.2.2.2.2.2.2.2.2.2.2.2.2.2.2.2.2.2.2.2.2.2.2.2.2.1
@[simp] theorem solveEntry_info_iter (cfg : Cfg) (s : Solver d K) : ((solveEntry cfg s).s).info.iter = s.info.iter := (solveEntry_frame cfg s).2.2.2.2.2.2.2.2.2.2.2.2.2.2.2.2.2.2.2.2.2.2.2.2.2.2.2.2.2.2.2.2.2.1
@[simp] theorem solveEntry_info_rho_updates (cfg : Cfg) (s : Solver d K) : ((solveEntry cfg s).s).info.rho_updates = s.info.rho_updates := (solveEntry_frame cfg s).2.2.2.2.2.2.2.2.2.2.2.2.2.2.2.2.2.2.2.2.2.2.2.2.2.2.2.2.2.2.2.2.2.2.1
@[simp] theorem solveEntry_info_rho_estimate (cfg : Cfg) (s : Solver d K) : ((solveEntry cfg s).s).info.rho_estimate = s.info.rho_estimate := (solveEntry_frame cfg s).2.2.2.2.2.2.2.2.2.2.2.2.2.2.2.2.2.2.2.2.2.2.2.2.2.2.2.2.2.2.2.2.2.2.2.1
@[simp] theorem solveEntry_info_setup_time (cfg : Cfg) (s : Solver d K) : ((solveEntry cfg s).s).info.setup_time = s.info.setup_time := (solveEntry_frame cfg s).2.2.2.2.2.2.2.2.2.2.2.2.2.2.2.2.2.2.2.2.2.2.2.2.2.2.2.2.2.2.2.2.2.2.2.2.1
@[simp] theorem solveEntry_info_solve_time (cfg : Cfg) (s : Solver d K) : ((solveEntry cfg s).s).info.solve_time = s.info.solve_time := (solveEntry_frame cfg s).2.2.2.2.2.2.2.2.2.2.2.2.2.2.2.2.2.2.2.2.2.2.2.2.2.2.2.2.2.2.2.2.2.2.2.2.2.1
@[simp] theorem solveEntry_info_polish_time (cfg : Cfg) (s : Solver d K) : ((solveEntry cfg s).s).info.polish_time = s.info.polish_time := (solveEntry_frame cfg s).2.2.2.2.2.2.2.2.2.2.2.2.2.2.2.2.2.2.2.2.2.2.2.2.2.2.2.2.2.2.2.2.2.2.2.2.2.2.1
@[simp] theorem solveEntry_info_run_time (cfg : Cfg) (s : Solver d K) : ((solveEntry cfg s).s).info.run_time = s.info.run_time := (solveEntry_frame cfg s).2.2.2.2.2.2.2.2.2.2.2.2.2.2.2.2.2.2.2.2.2.2.2.2.2.2.2.2.2.2.2.2.2.2.2.2.2.2.2.1
@[simp] theorem solveEntry_info_primdual_int (cfg : Cfg) (s : Solver d K) : ((solveEntry cfg s).s).info.primdual_int = s.info.primdual_int := (solveEntry_frame cfg s).2.2.2.2.2.2.2.2.2.2.2.2.2.2.2.2.2.2.2.2.2.2.2.2.2.2.2.2.2.2.2.2.2.2.2.2.2.2.2.2.1
@[simp] theorem solveEntry_info_rel_kkt_error (cfg : Cfg) (s : Solver d K) : ((solveEntry cfg s).s).info.rel_kkt_error = s.info.rel_kkt_error := (solveEntry_frame cfg s).2.2.2.2.2.2.2.2.2.2.2.2.2.2.2.2.2.2.2.2.2.2.2.2.2.2.2.2.2.2.2.2.2.2.2.2.2.2.2.2.2.1
@[simp] theorem solveEntry_solution (cfg : Cfg) (s : Solver d K) : ((solveEntry cfg s).s).solution = s.solution := (solveEntry_frame cfg s).2.2.2.2.2.2.2.2.2.2.2.2.2.2.2.2.2.2.2.2.2.2.2.2.2.2.2.2.2.2.2.2.2.2.2.2.2.2.2.2.2.2.1
@[simp] theorem solveEntry_ticks (cfg : Cfg) (s : Solver d K) : ((solveEntry cfg s).s).ticks = s.ticks := (solveEntry_frame cfg s).2.2.2.2.2.2.2.2.2.2.2.2.2.2.2.2.2.2.2.2.2.2.2.2.2.2.2.2.2.2.2.2.2.2.2.2.2.2.2.2.2.2.2.1
@[simp] theorem solveEntry_polls (cfg : Cfg) (s : Solver d K) : ((solveEntry cfg s).s).polls = s.polls := (solveEntry_frame cfg s).2.2.2.2.2.2.2.2.2.2.2.2.2.2.2.2.2.2.2.2.2.2.2.2.2.2.2.2.2.2.2.2.2.2.2.2.2.2.2.2.2.2.2.2

theorem postCheck_frame (cfg : Cfg) (env : Env d K) (iter : ℤ) (L : LoopSt d K) :
  (postCheck cfg env iter L).settings = L.s.settings ∧
  (postCheck cfg env iter L).work.data = L.s.work.data ∧
  (postCheck cfg env iter L).work.linsys = L.s.work.linsys ∧
  (postCheck cfg env iter L).work.rho_vec = L.s.work.rho_vec ∧
  (postCheck cfg env iter L).work.rho_inv_vec = L.s.work.rho_inv_vec ∧
  (postCheck cfg env iter L).work.rho_inv = L.s.work.rho_inv ∧
  (postCheck cfg env iter L).work.constr_type = L.s.work.constr_type ∧
  (postCheck cfg env iter L).work.x = L.s.work.x ∧
  (postCheck cfg env iter L).work.y = L.s.work.y ∧
  (postCheck cfg env iter L).work.z = L.s.work.z ∧
  (postCheck cfg env iter L).work.scaling = L.s.work.scaling ∧
  (postCheck cfg env iter L).work.rho_updated = L.s.work.rho_updated ∧
  (postCheck cfg env iter L).work.last_rel_kkt = L.s.work.last_rel_kkt ∧
  (postCheck cfg env iter L).work.first_run = L.s.work.first_run ∧
  (postCheck cfg env iter L).work.clear_update_time = L.s.work.clear_update_time ∧
  (postCheck cfg env iter L).work.rho_update_from_solve = L.s.work.rho_update_from_solve ∧
  (postCheck cfg env iter L).info.status_polish = L.s.info.status_polish ∧
  (postCheck cfg env iter L).info.rho_updates = L.s.info.rho_updates ∧
  (postCheck cfg env iter L).info.rho_estimate = L.s.info.rho_estimate ∧
  (postCheck cfg env iter L).info.setup_time = L.s.info.setup_time ∧
  (postCheck cfg env iter L).info.update_time = L.s.info.update_time ∧
  (postCheck cfg env iter L).info.polish_time = L.s.info.polish_time ∧
  (postCheck cfg env iter L).info.run_time = L.s.info.run_time ∧
  (postCheck cfg env iter L).solution = L.s.solution ∧
  (postCheck cfg env iter L).polls = L.s.polls ∧
  (postCheck cfg env iter L).handler = L.s.handler := by
  frame_tac postCheck
@[simp] theorem postCheck_settings (cfg : Cfg) (env : Env d K) (iter : ℤ) (L : LoopSt d K) : (postCheck cfg env iter L).settings = L.s.settings := (postCheck_frame cfg env iter L).1
@[simp] theorem postCheck_data (cfg : Cfg) (env : Env d K) (iter : ℤ) (L : LoopSt d K) : (postCheck cfg env iter L).work.data = L.s.work.data := (postCheck_frame cfg env iter L).2.1
@[simp] theorem postCheck_linsys (cfg : Cfg) (env : Env d K) (iter : ℤ) (L : LoopSt d K) : (postCheck cfg env iter L).work.linsys = L.s.work.linsys := (postCheck_frame cfg env iter L).2.2.1
@[simp] theorem postCheck_rho_vec (cfg : Cfg) (env : Env d K) (iter : ℤ) (L : LoopSt d K) : (postCheck cfg env iter L).work.rho_vec = L.s.work.rho_vec := (postCheck_frame cfg env iter L).2.2.2.1
@[simp] theorem postCheck_rho_inv_vec (cfg : Cfg) (env : Env d K) (iter : ℤ) (L : LoopSt d K) : (postCheck cfg env iter L).work.rho_inv_vec = L.s.work.rho_inv_vec := (postCheck_frame cfg env iter L).2.2.2.2.1
@[simp] theorem postCheck_rho_inv (cfg : Cfg) (env : Env d K) (iter : ℤ) (L : LoopSt d K) : (postCheck cfg env iter L).work.rho_inv = L.s.work.rho_inv := (postCheck_frame cfg env iter L).2.2.2.2.2.1
@[simp] theorem postCheck_constr_type (cfg : Cfg) (env : Env d K) (iter : ℤ) (L : LoopSt d K) : (postCheck cfg env iter L).work.constr_type = L.s.work.constr_type := (postCheck_frame cfg env iter L).2.2.2.2.2.2.1
@[simp] theorem postCheck_x (cfg : Cfg) (env : Env d K) (iter : ℤ) (L : LoopSt d K) : (postCheck cfg env iter L).work.x = L.s.work.x := (postCheck_frame cfg env iter L).2.2.2.2.2.2.2.1
@[simp] theorem postCheck_y (cfg : Cfg) (env : Env d K) (iter : ℤ) (L : LoopSt d K) : (postCheck cfg env iter L).work.y = L.s.work.y := (postCheck_frame cfg env iter L).2.2.2.2.2.2.2.2.1
@[simp] theorem postCheck_z (cfg : Cfg) (env : Env d K) (iter : ℤ) (L : LoopSt d K) : (postCheck cfg env iter L).work.z = L.s.work.z := (postCheck_frame cfg env iter L).2.2.2.2.2.2.2.2.2.1
@[simp] theorem postCheck_scaling (cfg : Cfg) (env : Env d K) (iter : ℤ) (L : LoopSt d K) : (postCheck cfg env iter L).work.scaling = L.s.work.scaling := (postCheck_frame cfg env iter L).2.2.2.2.2.2.2.2.2.2.1
@[simp] theorem postCheck_rho_updated (cfg : Cfg) (env : Env d K) (iter : ℤ) (L : LoopSt d K) : (postCheck cfg env iter L).work.rho_updated = L.s.work.rho_updated := (postCheck_frame cfg env iter L).2.2.2.2.2.2.2.2.2.2.2.1
@[simp] theorem postCheck_last_rel_kkt (cfg : Cfg) (env : Env d K) (iter : ℤ) (L : LoopSt d K) : (postCheck cfg env iter L).work.last_rel_kkt = L.s.work.last_rel_kkt := (postCheck_frame cfg env iter L).2.2.2.2.2.2.2.2.2.2.2.2.1
@[simp] theorem postCheck_first_run (cfg : Cfg) (env : Env d K) (iter : ℤ) (L : LoopSt d K) : (postCheck cfg env iter L).work.first_run = L.s.work.first_run := (postCheck_frame cfg env iter L).2.2.2.2.2.2.2.2.2.2.2.2.2.1
@[simp] theorem postCheck_clear_update_time (cfg : Cfg) (env : Env d K) (iter : ℤ) (L : LoopSt d K) : (postCheck cfg env iter L).work.clear_update_time = L.s.work.clear_update_time := (postCheck_frame cfg env iter L).2.2.2.2.2.2.2.2.2.2.2.2.2.2.1
@[simp] theorem postCheck_rho_update_from_solve (cfg : Cfg) (env : Env d K) (iter : ℤ) (L : LoopSt d K) : (postCheck cfg env iter L).work.rho_update_from_solve = L.s.work.rho_update_from_solve := (postCheck_frame cfg env iter L).2.2.2.2.2.2.2.2.2.2.2.2.2.2.2.1
@[simp] theorem postCheck_info_status_polish (cfg : Cfg) (env : Env d K) (iter : ℤ) (L : LoopSt d K) : (postCheck cfg env iter L).info.status_polish = L.s.info.status_polish := (postCheck_frame cfg env iter L).2.2.2.2.2.2.2.2.2.2.2.2.2.2.2.2.1
@[simp] theorem postCheck_info_rho_updates (cfg : Cfg) (env : Env d K) (iter : ℤ) (L : LoopSt d K) : (postCheck cfg env iter L).info.rho_updates = L.s.info.rho_updates := (postCheck_frame cfg env iter L).2.2.2.2.2.2.2.2.2.2.2.2.2.2.2.2.2.1
@[simp] theorem postCheck_info_rho_estimate (cfg : Cfg) (env : Env d K) (iter : ℤ) (L : LoopSt d K) : (postCheck cfg env iter L).info.rho_estimate = L.s.info.rho_estimate := (postCheck_frame cfg env iter L).2.2.2.2.2.2.2.2.2.2.2.2.2.2.2.2.2.2.1
@[simp] theorem postCheck_info_setup_time (cfg : Cfg) (env : Env d K) (iter : ℤ) (L : LoopSt d K) : (postCheck cfg env iter L).info.setup_time = L.s.info.setup_time := (postCheck_frame cfg env iter L).2.2.2.2.2.2.2.2.2.2.2.2.2.2.2.2.2.2.2.1
@[simp] theorem postCheck_info_update_time (cfg : Cfg) (env : Env d K) (iter : ℤ) (L : LoopSt d K) : (postCheck cfg env iter L).info.update_time = L.s.info.update_time := (postCheck_frame cfg env iter L).2.2.2.2.2.2.2.2.2.2.2.2.2.2.2.2.2.2.2.2.1
@[simp] theorem postCheck_info_polish_time (cfg : Cfg) (env : Env d K) (iter : ℤ) (L : LoopSt d K) : (postCheck cfg env iter L).info.polish_time = L.s.info.polish_time := (postCheck_frame cfg env iter L).2.2.2.2.2.2.2.2.2.2.2.2.2.2.2.2.2.2.2.2.2.1
@[simp] theorem postCheck_info_run_time (cfg : Cfg) (env : Env d K) (iter : ℤ) (L : LoopSt d K) : (postCheck cfg env iter L).info.run_time = L.s.info.run_time := (postCheck_frame cfg env iter L).2.2.2.2.2.2.2.2.2.2.2.2.2.2.2.2.2.2.2.2.2.2.1
@[simp] theorem postCheck_solution (cfg : Cfg) (env : Env d K) (iter : ℤ) (L : LoopSt d K) : (postCheck cfg env iter L).solution = L.s.solution := (postCheck_frame cfg env iter L).2.2.2.2.2.2.2.2.2.2.2.2.2.2.2.2.2.2.2.2.2.2.2.1
@[simp] theorem postCheck_polls (cfg : Cfg) (env : Env d K) (iter : ℤ) (L : LoopSt d K) : (postCheck cfg env iter L).polls = L.s.polls := (postCheck_frame cfg env iter L).2.2.2.2.2.2.2.2.2.2.2.2.2.2.2.2.2.2.2.2.2.2.2.2.1
@[simp] theorem postCheck_handler (cfg : Cfg) (env : Env d K) (iter : ℤ) (L : LoopSt d K) : (postCheck cfg env iter L).handler = L.s.handler := (postCheck_frame cfg env iter L).2.2.2.2.2.2.2.2.2.2.2.2.2.2.2.2.2.2.2.2.2.2.2.2.2

theorem postObj_frame (s : Solver d K) :
  (postObj s).settings = s.settings ∧
  (postObj s).work.data = s.work.data ∧
  (postObj s).work.linsys = s.work.linsys ∧
  (postObj s).work.rho_vec = s.work.rho_vec ∧
  (postObj s).work.rho_inv_vec = s.work.rho_inv_vec ∧
  (postObj s).work.rho_inv = s.work.rho_inv ∧
  (postObj s).work.constr_type = s.work.constr_type ∧
  (postObj s).work.x = s.work.x ∧
  (postObj s).work.y = s.work.y ∧
  (postObj s).work.z = s.work.z ∧
  (postObj s).work.x_prev = s.work.x_prev ∧
  (postObj s).work.Ax = s.work.Ax ∧
  (postObj s).work.Px = s.work.Px ∧
  (postObj s).work.Aty = s.work.Aty ∧
  (postObj s).work.delta_y = s.work.delta_y ∧
  (postObj s).work.delta_x = s.work.delta_x ∧
  (postObj s).work.scaling = s.work.scaling ∧
  (postObj s).work.scaled_prim_res = s.work.scaled_prim_res ∧
  (postObj s).work.scaled_dual_res = s.work.scaled_dual_res ∧
  (postObj s).work.rho_updated = s.work.rho_updated ∧
  (postObj s).work.last_rel_kkt = s.work.last_rel_kkt ∧
  (postObj s).work.first_run = s.work.first_run ∧
  (postObj s).work.clear_update_time = s.work.clear_update_time ∧
  (postObj s).work.rho_update_from_solve = s.work.rho_update_from_solve ∧
  (postObj s).info.status = s.info.status ∧
  (postObj s).info.status_val = s.info.status_val ∧
  (postObj s).info.status_polish = s.info.status_polish ∧
  (postObj s).info.prim_res = s.info.prim_res ∧
  (postObj s).info.dual_res = s.info.dual_res ∧
  (postObj s).info.iter = s.info.iter ∧
  (postObj s).info.rho_updates = s.info.rho_updates ∧
  (postObj s).info.rho_estimate = s.info.rho_estimate ∧
  (postObj s).info.setup_time = s.info.setup_time ∧
  (postObj s).info.solve_time = s.info.solve_time ∧
  (postObj s).info.update_time = s.info.update_time ∧
  (postObj s).info.polish_time = s.info.polish_time ∧
  (postObj s).info.run_time = s.info.run_time ∧
  (postObj s).info.primdual_int = s.info.primdual_int ∧
  (postObj s).info.rel_kkt_error = s.info.rel_kkt_error ∧
  (postObj s).solution = s.solution ∧
  (postObj s).ticks = s.ticks ∧
  (postObj s).polls = s.polls ∧
  (postObj s).handler = s.handler := by
  frame_tac postObj
@[simp] theorem postObj_settings (s : Solver d K) : (postObj s).settings = s.settings := (postObj_frame s).1
@[simp] theorem postObj_data (s : Solver d K) : (postObj s).work.data = s.work.data := (postObj_frame s).2.1
@[simp] theorem postObj_linsys (s : Solver d K) : (postObj s).work.linsys = s.work.linsys := (postObj_frame s).2.2.1
@[simp] theorem postObj_rho_vec (s : Solver d K) : (postObj s).work.rho_vec = s.work.rho_vec := (postObj_frame s).2.2.2.1
@[simp] theorem postObj_rho_inv_vec (s : Solver d K) : (postObj s).work.rho_inv_vec = s.work.rho_inv_vec := (postObj_frame s).2.2.2.2.1
@[simp] theorem postObj_rho_inv (s : Solver d K) : (postObj s).work.rho_inv = s.work.rho_inv := (postObj_frame s).2.2.2.2.2.1
@[simp] theorem postObj_constr_type (s : Solver d K) : (postObj s).work.constr_type = s.work.constr_type := (postObj_frame s).2.2.2.2.2.2.1
@[simp] theorem postObj_x (s : Solver d K) : (postObj s).work.x = s.work.x := (postObj_frame s).2.2.2.2.2.2.2.1
@[simp] theorem postObj_y (s : Solver d K) : (postObj s).work.y = s.work.y := (postObj_frame s).2.2.2.2.2.2.2.2.1
@[simp] theorem postObj_z (s : Solver d K) : (postObj s).work.z = s.work.z := (postObj_frame s).2.2.2.2.2.2.2.2.2.1
@[simp] theorem postObj_x_prev (s : Solver d K) : (postObj s).work.x_prev = s.work.x_prev := (postObj_frame s).2.2.2.2.2.2.2.2.2.2.1
@[simp] theorem postObj_Ax (s : Solver d K) : (postObj s).work.Ax = s.work.Ax := (postObj_frame s).2.2.2.2.2.2.2.2.2.2.2.1
@[simp] theorem postObj_Px (s : Solver d K) : (postObj s).work.Px = s.work.Px := (postObj_frame s).2.2.2.2.2.2.2.2.2.2.2.2.1
@[simp] theorem postObj_Aty (s : Solver d K) : (postObj s).work.Aty = s.work.Aty := (postObj_frame s).2.2.2.2.2.2.2.2.2.2.2.2.2.1
@[simp] theorem postObj_delta_y (s : Solver d K) : (postObj s).work.delta_y = s.work.delta_y := (postObj_frame s).2.2.2.2.2.2.2.2.2.2.2.2.2.2.1
@[simp] theorem postObj_delta_x (s : Solver d K) : (postObj s).work.delta_x = s.work.delta_x := (postObj_frame s).2.2.2.2.2.2.2.2.2.2.2.2.2.2.2.1
@[simp] theorem postObj_scaling (s : Solver d K) : (postObj s).work.scaling = s.work.scaling := (postObj_frame s).2.2.2.2.2.2.2.2.2.2.2.2.2.2.2.2.1
@[simp] theorem postObj_scaled_prim_res (s : Solver d K) : (postObj s).work.scaled_prim_res = s.work.scaled_prim_res := (postObj_frame s).2.2.2.2.2.2.2.2.2.2.2.2.2.2.2.2.2.1
@[simp] theorem postObj_scaled_dual_res (s : Solver d K) : (postObj s).work.scaled_dual_res = s.work.scaled_dual_res := (postObj_frame s).2.2.2.2.2.2.2.2.2.2.2.2.2.2.2.2.2.2.1
@[simp] theorem postObj_rho_updated (s : Solver d K) : (postObj s).work.rho_updated = s.work.rho_updated := (postObj_frame s).2.2.2.2.2.2.2.2.2.2.2.2.2.2.2.2.2.2.2.1
@[simp] theorem postObj_last_rel_kkt (s : Solver d K) : (postObj s).work.last_rel_kkt = s.work.last_rel_kkt := (postObj_frame s).2.2.2.2.2.2.2.2.2.2.2.2.2.2.2.2.2.2.2.2.1
@[simp] theorem postObj_first_run (s : Solver d K) : (postObj s).work.first_run = s.work.first_run := (postObj_frame s).2.2.2.2.2.2.2.2.2.2.2.2.2.2.2.2.2.2.2.2.2.1
@[simp] theorem postObj_clear_update_time (s : Solver d K) : (postObj s).work.clear_update_time = s.work.clear_update_time := (postObj_frame s).2.2.2.2.2.2.2.2.2.2.2.2.2.2.2.2.2.2.2.2.2.2.1
@[simp] theorem postObj_rho_update_from_solve (s : Solver d K) : (postObj s).work.rho_update_from_solve = s.work.rho_update_from_solve := (postObj_frame s).2.2.2.2.2.2.2.2.2.2.2.2.2.2.2.2.2.2.2.2.2.2.2.1
@[simp] theorem postObj_info_status (s : Solver d K) : (postObj s).info.status = s.info.status := (postObj_frame s).2.2.2.2.2.2.2.2.2.2.2.2.2.2.2.2.2.2.2.2.2.2.2.2.1
@[simp] theorem postObj_info_status_val (s : Solver d K) : (postObj s).info.status_val = s.info.status_val := (postObj_frame s).2.2.2.2.2.2.2.2.2.2.2.2.2.2.2.2.2.2.2.2.2.2.2.2.2.1
@[simp] theorem postObj_info_status_polish (s : Solver d K) : (postObj s).info.status_polish = s.info.status_polish := (postObj_frame s).2.2.2.2.2.2.2.2.2.2.2.2.2.2.2.2.2.2.2.2.2.2.2.2.2.2.1
@[simp] theorem postObj_info_prim_res (s : Solver d K) : (postObj s).info.prim_res = s.info.prim_res := (postObj_frame s).2.2.2.2.2.2.2.2.2.2.2.2.2.2.2.2.2.2.2.2.2.2.2.2.2.2.2.1
@[simp] theorem postObj_info_dual_res (s : Solver d K) : (postObj s).info.dual_res = s.info.dual_res := (postObj_frame s).2.2.2.2.2.2.2.2.2.2.2.2.2.2.2.2.2.2.2.2.2.2.2.2.2.2.2.2.1
@[simp] theorem postObj_info_iter (s : Solver d K) : (postObj s).info.iter = s.info.iter := (postObj_frame s).2.2.2.2.2.2.2.2.2.2.2.2.2.2.2.2.2.2.2.2.2.2.2.2.2.2.2.2.2.1
@[simp] theorem postObj_info_rho_updates (s : Solver d K) : (postObj s).info.rho_updates = s.info.rho_updates := (postObj_frame s).2.2.2.2.2.2.2.2.2.2.2.2.2.2.2.2.2.2.2.2.2.2.2.2.2.2.2.2.2.2.1
@[simp] theorem postObj_info_rho_estimate (s : Solver d K) : (postObj s).info.rho_estimate = s.info.rho_estimate := (postObj_frame s).2.2.2.2.2.2.2.2.2.2.2.2.2.2.2.2.2.2.2.2.2.2.2.2.2.2.2.2.2.2.2.1
@[simp] theorem postObj_info_setup_time (s : Solver d K) : (postObj s).info.setup_time = s.info.setup_time := (postObj_frame s).2.2.2.2.2.2.2.2.2.2.2.2.2.2.2.2.2.2.2.2.2.2.2.2.2.2.2.2.2.2.2.2.1
@[simp] theorem postObj_info_solve_time (s : Solver d K) : (postObj s).info.solve_time = s.info.solve_time := (postObj_frame s).2.2.2.2.2.2.2.2.2.2.2.2.2.2.2.2.2.2.2.2.2.2.2.2.2.2.2.2.2.2.2.2.2.1
@[simp] theorem postObj_info_update_time (s : Solver d K) : (postObj s).info.update_time = s.info.update_time := (postObj_frame s).2.2.2.2.2.2.2.2.2.2.2.2.2.2.2.2.2.2.2.2.2.2.2.2.2.2.2.2.2.2.2.2.2.2.1
@[simp] theorem postObj_info_polish_time (s : Solver d K) : (postObj s).info.polish_time = s.info.polish_time := (postObj_frame s).2.2.2.2.2.2.2.2.2.2.2.2.2.2.2.2.2.2.2.2.2.2.2.2.2.2.2.2.2.2.2.2.2.2.2.1
@[simp] theorem postObj_info_run_time (s : Solver d K) : (postObj s).info.run_time = s.info.run_time := (postObj_frame s).2.2.2.2.2.2.2.2.2.2.2.2.2.2.2.2.2.2.2.2.2.2.2.2.2.2.2.2.2.2.2.2.2.2.2.2.1
@[simp] theorem postObj_info_primdual_int (s : Solver d K) : (postObj s).info.primdual_int = s.info.primdual_int := (postObj_frame s).2.2.2.2.2.2.2.2.2.2.2.2.2.2.2.2.2.2.2.2.2.2.2.2.2.2.2.2.2.2.2.2.2.2.2.2.2.1
@[simp] theorem postObj_info_rel_kkt_error (s : Solver d K) : (postObj s).info.rel_kkt_error = s.info.rel_kkt_error := (postObj_frame s).2.2.2.2.2.2.2.2.2.2.2.2.2.2.2.2.2.2.2.2.2.2.2.2.2.2.2.2.2.2.2.2.2.2.2.2.2.2.1
@[simp] theorem postObj_solution (s : Solver d K) : (postObj s).solution = s.solution := (postObj_frame s).2.2.2.2.2.2.2.2.2.2.2.2.2.2.2.2.2.2.2.2.2.2.2.2.2.2.2.2.2.2.2.2.2.2.2.2.2.2.2.1
@[simp] theorem postObj_ticks (s : Solver d K) : (postObj s).ticks = s.ticks := (postObj_frame s).2.2.2.2.2.2.2.2.2.2.2.2.2.2.2.2.2.2.2.2.2.2.2.2.2.2.2.2.2.2.2.2.2.2.2.2.2.2.2.2.1
@[simp] theorem postObj_polls (s : Solver d K) : (postObj s).polls = s.polls := (postObj_frame s).2.2.2.2.2.2.2.2.2.2.2.2.2.2.2.2.2.2.2.2.2.2.2.2.2.2.2.2.2.2.2.2.2.2.2.2.2.2.2.2.2.1
@[simp] theorem postObj_handler (s : Solver d K) : (postObj s).handler = s.handler := (postObj_frame s).2.2.2.2.2.2.2.2.2.2.2.2.2.2.2.2.2.2.2.2.2.2.2.2.2.2.2.2.2.2.2.2.2.2.2.2.2.2.2.2.2.2

theorem postMaxIter_frame (s : Solver d K) :
  (postMaxIter s).settings = s.settings ∧
  (postMaxIter s).work.data = s.work.data ∧
  (postMaxIter s).work.linsys = s.work.linsys ∧
  (postMaxIter s).work.rho_vec = s.work.rho_vec ∧
  (postMaxIter s).work.rho_inv_vec = s.work.rho_inv_vec ∧
  (postMaxIter s).work.rho_inv = s.work.rho_inv ∧
  (postMaxIter s).work.constr_type = s.work.constr_type ∧
  (postMaxIter s).work.x = s.work.x ∧
  (postMaxIter s).work.y = s.work.y ∧
  (postMaxIter s).work.z = s.work.z ∧
  (postMaxIter s).work.x_prev = s.work.x_prev ∧
  (postMaxIter s).work.z_prev = s.work.z_prev ∧
  (postMaxIter s).work.Ax = s.work.Ax ∧
  (postMaxIter s).work.Px = s.work.Px ∧
  (postMaxIter s).work.Aty = s.work.Aty ∧
  (postMaxIter s).work.scaling = s.work.scaling ∧
  (postMaxIter s).work.scaled_prim_res = s.work.scaled_prim_res ∧
  (postMaxIter s).work.scaled_dual_res = s.work.scaled_dual_res ∧
  (postMaxIter s).work.scaled_dual_gap = s.work.scaled_dual_gap ∧
  (postMaxIter s).work.xtPx = s.work.xtPx ∧
  (postMaxIter s).work.qtx = s.work.qtx ∧
  (postMaxIter s).work.SC = s.work.SC ∧
  (postMaxIter s).work.rho_updated = s.work.rho_updated ∧
  (postMaxIter s).work.last_rel_kkt = s.work.last_rel_kkt ∧
  (postMaxIter s).work.first_run = s.work.first_run ∧
  (postMaxIter s).work.clear_update_time = s.work.clear_update_time ∧
  (postMaxIter s).work.rho_update_from_solve = s.work.rho_update_from_solve ∧
  (postMaxIter s).info.status_polish = s.info.status_polish ∧
  (postMaxIter s).info.dual_obj_val = s.info.dual_obj_val ∧
  (postMaxIter s).info.prim_res = s.info.prim_res ∧
  (postMaxIter s).info.dual_res = s.info.dual_res ∧
  (postMaxIter s).info.duality_gap = s.info.duality_gap ∧
  (postMaxIter s).info.iter = s.info.iter ∧
  (postMaxIter s).info.rho_updates = s.info.rho_updates ∧
  (postMaxIter s).info.rho_estimate = s.info.rho_estimate ∧
  (postMaxIter s).info.setup_time = s.info.setup_time ∧
  (postMaxIter s).info.solve_time = s.info.solve_time ∧
  (postMaxIter s).info.update_time = s.info.update_time ∧
  (postMaxIter s).info.polish_time = s.info.polish_time ∧
  (postMaxIter s).info.run_time = s.info.run_time ∧
  (postMaxIter s).info.primdual_int = s.info.primdual_int ∧
  (postMaxIter s).info.rel_kkt_error = s.info.rel_kkt_error ∧
  (postMaxIter s).solution = s.solution ∧
  (postMaxIter s).ticks = s.ticks ∧
  (postMaxIter s).polls = s.polls ∧
  (postMaxIter s).handler = s.handler := by
  frame_tac postMaxIter
@[simp] theorem postMaxIter_settings (s : Solver d K) : (postMaxIter s).settings = s.settings := (postMaxIter_frame s).1
@[simp] theorem postMaxIter_data (s : Solver d K) : (postMaxIter s).work.data = s.work.data := (postMaxIter_frame s).2.1
@[simp] theorem postMaxIter_linsys (s : Solver d K) : (postMaxIter s).work.linsys = s.work.linsys := (postMaxIter_frame s).2.2.1
@[simp] theorem postMaxIter_rho_vec (s : Solver d K) : (postMaxIter s).work.rho_vec = s.work.rho_vec := (postMaxIter_frame s).2.2.2.1
@[simp] theorem postMaxIter_rho_inv_vec (s : Solver d K) : (postMaxIter s).work.rho_inv_vec = s.work.rho_inv_vec := (postMaxIter_frame s).2.2.2.2.1
@[simp] theorem postMaxIter_rho_inv (s : Solver d K) : (postMaxIter s).work.rho_inv = s.work.rho_inv := (postMaxIter_frame s).2.2.2.2.2.1
@[simp] theorem postMaxIter_constr_type (s : Solver d K) : (postMaxIter s).work.constr_type = s.work.constr_type := (postMaxIter_frame s).2.2.2.2.2.2.1
@[simp] theorem postMaxIter_x (s : Solver d K) : (postMaxIter s).work.x = s.work.x := (postMaxIter_frame s).2.2.2.2.2.2.2.1
@[simp] theorem postMaxIter_y (s : Solver d K) : (postMaxIter s).work.y = s.work.y := (postMaxIter_frame s).2.2.2.2.2.2.2.2.1
@[simp] theorem postMaxIter_z (s : Solver d K) : (postMaxIter s).work.z = s.work.z := (postMaxIter_frame s).2.2.2.2.2.2.2.2.2.1
@[simp] theorem postMaxIter_x_prev (s : Solver d K) : (postMaxIter s).work.x_prev = s.work.x_prev := (postMaxIter_frame s).2.2.2.2.2.2.2.2.2.2.1
@[simp] theorem postMaxIter_z_prev (s : Solver d K) : (postMaxIter s).work.z_prev = s.work.z_prev := (postMaxIter_frame s).2.2.2.2.2.2.2.2.2.2.2.1
@[simp] theorem postMaxIter_Ax (s : Solver d K) : (postMaxIter s).work.Ax = s.work.Ax := (postMaxIter_frame s).2.2.2.2.2.2.2.2.2.2.2.2.1
@[simp] theorem postMaxIter_Px (s : Solver d K) : (postMaxIter s).work.Px = s.work.Px := (postMaxIter_frame s).2.2.2.2.2.2.2.2.2.2.2.2.2.1
@[simp] theorem postMaxIter_Aty (s : Solver d K) : (postMaxIter s).work.Aty = s.work.Aty := (postMaxIter_frame s).2.2.2.2.2.2.2.2.2.2.2.2.2.2.1
@[simp] theorem postMaxIter_scaling (s : Solver d K) : (postMaxIter s).work.scaling = s.work.scaling := (postMaxIter_frame s).2.2.2.2.2.2.2.2.2.2.2.2.2.2.2.1
@[simp] theorem postMaxIter_scaled_prim_res (s : Solver d K) : (postMaxIter s).work.scaled_prim_res = s.work.scaled_prim_res := (postMaxIter_frame s).2.2.2.2.2.2.2.2.2.2.2.2.2.2.2.2.1
@[simp] theorem postMaxIter_scaled_dual_res (s : Solver d K) : (postMaxIter s).work.scaled_dual_res = s.work.scaled_dual_res := (postMaxIter_frame s).2.2.2.2.2.2.2.2.2.2.2.2.2.2.2.2.2.1
@[simp] theorem postMaxIter_scaled_dual_gap (s : Solver d K) : (postMaxIter s).work.scaled_dual_gap = s.work.scaled_dual_gap := (postMaxIter_frame s).2.2.2.2.2.2.2.2.2.2.2.2.2.2.2.2.2.2.1
@[simp] theorem postMaxIter_xtPx (s : Solver d K) : (postMaxIter s).work.xtPx = s.work.xtPx := (postMaxIter_frame s).2.2.2.2.2.2.2.2.2.2.2.2.2.2.2.2.2.2.2.1
@[simp] theorem postMaxIter_qtx (s : Solver d K) : (postMaxIter s).work.qtx = s.work.qtx := (postMaxIter_frame s).2.2.2.2.2.2.2.2.2.2.2.2.2.2.2.2.2.2.2.2.1
@[simp] theorem postMaxIter_SC (s : Solver d K) : (postMaxIter s).work.SC = s.work.SC := (postMaxIter_frame s).2.2.2.2.2.2.2.2.2.2.2.2.2.2.2.2.2.2.2.2.2.1
@[simp] theorem postMaxIter_rho_updated (s : Solver d K) : (postMaxIter s).work.rho_updated = s.work.rho_updated := (postMaxIter_frame s).2.2.2.2.2.2.2.2.2.2.2.2.2.2.2.2.2.2.2.2.2.2.1
@[simp] theorem postMaxIter_last_rel_kkt (s : Solver d K) : (postMaxIter s).work.last_rel_kkt = s.work.last_rel_kkt := (postMaxIter_frame s).2.2.2.2.2.2.2.2.2.2.2.2.2.2.2.2.2.2.2.2.2.2.2.1
@[simp] theorem postMaxIter_first_run (s : Solver d K) : (postMaxIter s).work.first_run = s.work.first_run := (postMaxIter_frame s).2.2.2.2.2.2.2.2.2.2.2.2.2.2.2.2.2.2.2.2.2.2.2.2.1
@[simp] theorem postMaxIter_clear_update_time (s : Solver d K) : (postMaxIter s).work.clear_update_time = s.work.clear_update_time := (postMaxIter_frame s).2.2.2.2.2.2.2.2.2.2.2.2.2.2.2.2.2.2.2.2.2.2.2.2.2.1
@[simp] theorem postMaxIter_rho_update_from_solve (s : Solver d K) : (postMaxIter s).work.rho_update_from_solve = s.work.rho_update_from_solve := (postMaxIter_frame s).2.2.2.2.2.2.2.2.2.2.2.2.2.2.2.2.2.2.2.2.2.2.2.2.2.2.1
@[simp] theorem postMaxIter_info_status_polish (s : Solver d K) : (postMaxIter s).info.status_polish = s.info.status_polish := (postMaxIter_frame s).2.2.2.2.2.2.2.2.2.2.2.2.2.2.2.2.2.2.2.2.2.2.2.2.2.2.2.1
@[simp] theorem postMaxIter_info_dual_obj_val (s : Solver d K) : (postMaxIter s).info.dual_obj_val = s.info.dual_obj_val := (postMaxIter_frame s).2.2.2.2.2.2.2.2.2.2.2.2.2.2.2.2.2.2.2.2.2.2.2.2.2.2.2.2.1
@[simp] theorem postMaxIter_info_prim_res (s : Solver d K) : (postMaxIter s).info.prim_res = s.info.prim_res := (postMaxIter_frame s).2.2.2.2.2.2.2.2.2.2.2.2.2.2.2.2.2.2.2.2.2.2.2.2.2.2.2.2.2.1
@[simp] theorem postMaxIter_info_dual_res (s : Solver d K) : (postMaxIter s).info.dual_res = s.info.dual_res := (postMaxIter_frame s).2.2.2.2.2.2.2.2.2.2.2.2.2.2.2.2.2.2.2.2.2.2.2.2.2.2.2.2.2.2.1
@[simp] theorem postMaxIter_info_duality_gap (s : Solver d K) : (postMaxIter s).info.duality_gap = s.info.duality_gap := (postMaxIter_frame s).2.2.2.2.2.2.2.2.2.2.2.2.2.2.2.2.2.2.2.2.2.2.2.2.2.2.2.2.2.2.2.1
@[simp] theorem postMaxIter_info_iter (s : Solver d K) : (postMaxIter s).info.iter = s.info.iter := (postMaxIter_frame s).2.2.2.2.2.2.2.2.2.2.2.2.2.2.2.2.2.2.2.2.2.2.2.2.2.2.2.2.2.2.2.2.1
@[simp] theorem postMaxIter_info_rho_updates (s : Solver d K) : (postMaxIter s).info.rho_updates = s.info.rho_updates := (postMaxIter_frame s).2.2.2.2.2.2.2.2.2.2.2.2.2.2.2.2.2.2.2.2.2.2.2.2.2.2.2.2.2.2.2.2.2.1
@[simp] theorem postMaxIter_info_rho_estimate (s : Solver d K) : (postMaxIter s).info.rho_estimate = s.info.rho_estimate := (postMaxIter_frame s).2.2.2.2.2.2.2.2.2.2.2.2.2.2.2.2.2.2.2.2.2.2.2.2.2.2.2.2.2.2.2.2.2.2.1
@[simp] theorem postMaxIter_info_setup_time (s : Solver d K) : (postMaxIter s).info.setup_time = s.info.setup_time := (postMaxIter_frame s).2.2.2.2.2.2.2.2.2.2.2.2.2.2.2.2.2.2.2.2.2.2.2.2.2.2.2.2.2.2.2.2.2.2.2.1
@[simp] theorem postMaxIter_info_solve_time (s : Solver d K) : (postMaxIter s).info.solve_time = s.info.solve_time := (postMaxIter_frame s).2.2.2.2.2.2.2.2.2.2.2.2.2.2.2.2.2.2.2.2.2.2.2.2.2.2.2.2.2.2.2.2.2.2.2.2.1
@[simp] theorem postMaxIter_info_update_time (s : Solver d K) : (postMaxIter s).info.update_time = s.info.update_time := (postMaxIter_frame s).2.2.2.2.2.2.2.2.2.2.2.2.2.2.2.2.2.2.2.2.2.2.2.2.2.2.2.2.2.2.2.2.2.2.2.2.2.1
@[simp] theorem postMaxIter_info_polish_time (s : Solver d K) : (postMaxIter s).info.polish_time = s.info.polish_time := (postMaxIter_frame s).2.2.2.2.2.2.2.2.2.2.2.2.2.2.2.2.2.2.2.2.2.2.2.2.2.2.2.2.2.2.2.2.2.2.2.2.2.2.1
@[simp] theorem postMaxIter_info_run_time (s : Solver d K) : (postMaxIter s).info.run_time = s.info.run_time := (postMaxIter_frame s).2.2.2.2.2.2.2.2.2.2.2.2.2.2.2.2.2.2.2.2.2.2.2.2.2.2.2.2.2.2.2.2.2.2.2.2.2.2.2.1
@[simp] theorem postMaxIter_info_primdual_int (s : Solver d K) : (postMaxIter s).info.primdual_int = s.info.primdual_int := (postMaxIter_frame s).2.2.2.2.2.2.2.2.2.2.2.2.2.2.2.2.2.2.2.2.2.2.2.2.2.2.2.2.2.2.2.2.2.2.2.2.2.2.2.2.1
@[simp] theorem postMaxIter_info_rel_kkt_error (s : Solver d K) : (postMaxIter s).info.rel_kkt_error = s.info.rel_kkt_error := (postMaxIter_frame s).2.2.2.2.2.2.2.2.2.2.2.2.2.2.2.2.2.2.2.2.2.2.2.2.2.2.2.2.2.2.2.2.2.2.2.2.2.2.2.2.2.1
@[simp] theorem postMaxIter_solution (s : Solver d K) : (postMaxIter s).solution = s.solution := (postMaxIter_frame s).2.2.2.2.2.2.2.2.2.2.2.2.2.2.2.2.2.2.2.2.2.2.2.2.2.2.2.2.2.2.2.2.2.2.2.2.2.2.2.2.2.2.1
@[simp] theorem postMaxIter_ticks (s : Solver d K) : (postMaxIter s).ticks = s.ticks := (postMaxIter_frame s).2.2.2.2.2.2.2.2.2.2.2.2.2.2.2.2.2.2.2.2.2.2.2.2.2.2.2.2.2.2.2.2.2.2.2.2.2.2.2.2.2.2.2.1
@[simp] theorem postMaxIter_polls (s : Solver d K) : (postMaxIter s).polls = s.polls := (postMaxIter_frame s).2.2.2.2.2.2.2.2.2.2.2.2.2.2.2.2.2.2.2.2.2.2.2.2.2.2.2.2.2.2.2.2.2.2.2.2.2.2.2.2.2.2.2.2.1
@[simp] theorem postMaxIter_handler (s : Solver d K) : (postMaxIter s).handler = s.handler := (postMaxIter_frame s).2.2.2.2.2.2.2.2.2.2.2.2.2.2.2.2.2.2.2.2.2.2.2.2.2.2.2.2.2.2.2.2.2.2.2.2.2.2.2.2.2.2.2.2.2

theorem postTimeLimit_frame (cfg : Cfg) (s : Solver d K) :
  (postTimeLimit cfg s).settings = s.settings ∧
  (postTimeLimit cfg s).work.data = s.work.data ∧
  (postTimeLimit cfg s).work.linsys = s.work.linsys ∧
  (postTimeLimit cfg s).work.rho_vec = s.work.rho_vec ∧
  (postTimeLimit cfg s).work.rho_inv_vec = s.work.rho_inv_vec ∧
  (postTimeLimit cfg s).work.rho_inv = s.work.rho_inv ∧
  (postTimeLimit cfg s).work.constr_type = s.work.constr_type ∧
  (postTimeLimit cfg s).work.x = s.work.x ∧
  (postTimeLimit cfg s).work.y = s.work.y ∧
  (postTimeLimit cfg s).work.z = s.work.z ∧
  (postTimeLimit cfg s).work.x_prev = s.work.x_prev ∧
  (postTimeLimit cfg s).work.z_prev = s.work.z_prev ∧
  (postTimeLimit cfg s).work.Ax = s.work.Ax ∧
  (postTimeLimit cfg s).work.Px = s.work.Px ∧
  (postTimeLimit cfg s).work.Aty = s.work.Aty ∧
  (postTimeLimit cfg s).work.scaling = s.work.scaling ∧
  (postTimeLimit cfg s).work.scaled_prim_res = s.work.scaled_prim_res ∧
  (postTimeLimit cfg s).work.scaled_dual_res = s.work.scaled_dual_res ∧
  (postTimeLimit cfg s).work.scaled_dual_gap = s.work.scaled_dual_gap ∧
  (postTimeLimit cfg s).work.xtPx = s.work.xtPx ∧
  (postTimeLimit cfg s).work.qtx = s.work.qtx ∧
  (postTimeLimit cfg s).work.SC = s.work.SC ∧
  (postTimeLimit cfg s).work.rho_updated = s.work.rho_updated ∧
  (postTimeLimit cfg s).work.last_rel_kkt = s.work.last_rel_kkt ∧
  (postTimeLimit cfg s).work.first_run = s.work.first_run ∧
  (postTimeLimit cfg s).work.clear_update_time = s.work.clear_update_time ∧
  (postTimeLimit cfg s).work.rho_update_from_solve = s.work.rho_update_from_solve ∧
  (postTimeLimit cfg s).info.status_polish = s.info.status_polish ∧
  (postTimeLimit cfg s).info.dual_obj_val = s.info.dual_obj_val ∧
  (postTimeLimit cfg s).info.prim_res = s.info.prim_res ∧
  (postTimeLimit cfg s).info.dual_res = s.info.dual_res ∧
  (postTimeLimit cfg s).info.duality_gap = s.info.duality_gap ∧
  (postTimeLimit cfg s).info.iter = s.info.iter ∧
  (postTimeLimit cfg s).info.rho_updates = s.info.rho_updates ∧
  (postTimeLimit cfg s).info.rho_estimate = s.info.rho_estimate ∧
  (postTimeLimit cfg s).info.setup_time = s.info.setup_time ∧
  (postTimeLimit cfg s).info.solve_time = s.info.solve_time ∧
  (postTimeLimit cfg s).info.update_time = s.info.update_time ∧
  (postTimeLimit cfg s).info.polish_time = s.info.polish_time ∧
  (postTimeLimit cfg s).info.run_time = s.info.run_time ∧
  (postTimeLimit cfg s).info.primdual_int = s.info.primdual_int ∧
  (postTimeLimit cfg s).info.rel_kkt_error = s.info.rel_kkt_error ∧
  (postTimeLimit cfg s).solution = s.solution ∧
  (postTimeLimit cfg s).ticks = s.ticks ∧
  (postTimeLimit cfg s).polls = s.polls ∧
  (postTimeLimit cfg s).handler = s.handler := by
  frame_tac postTimeLimit
@[simp] theorem postTimeLimit_settings (cfg : Cfg) (s : Solver d K) : (postTimeLimit cfg s).settings = s.settings := (postTimeLimit_frame cfg s).1
@[simp] theorem postTimeLimit_data (cfg : Cfg) (s : Solver d K) : (postTimeLimit cfg s).work.data = s.work.data := (postTimeLimit_frame cfg s).2.1
@[simp] theorem postTimeLimit_linsys (cfg : Cfg) (s : Solver d K) : (postTimeLimit cfg s).work.linsys = s.work.linsys := (postTimeLimit_frame cfg s).2.2.1
@[simp] theorem postTimeLimit_rho_vec (cfg : Cfg) (s : Solver d K) : (postTimeLimit cfg s).work.rho_vec = s.work.rho_vec := (postTimeLimit_frame cfg s).2.2.2.1
@[simp] theorem postTimeLimit_rho_inv_vec (cfg : Cfg) (s : Solver d K) : (postTimeLimit cfg s).work.rho_inv_vec = s.work.rho_inv_vec := (postTimeLimit_frame cfg s).2.2.2.2.1
@[simp] theorem postTimeLimit_rho_inv (cfg : Cfg) (s : Solver d K) : (postTimeLimit cfg s).work.rho_inv = s.work.rho_inv := (postTimeLimit_frame cfg s).2.2.2.2.2.1
@[simp] theorem postTimeLimit_constr_type (cfg : Cfg) (s : Solver d K) : (postTimeLimit cfg s).work.constr_type = s.work.constr_type := (postTimeLimit_frame cfg s).2.2.2.2.2.2.1
@[simp] theorem postTimeLimit_x (cfg : Cfg) (s : Solver d K) : (postTimeLimit cfg s).work.x = s.work.x := (postTimeLimit_frame cfg s).2.2.2.2.2.2.2.1
@[simp] theorem postTimeLimit_y (cfg : Cfg) (s : Solver d K) : (postTimeLimit cfg s).work.y = s.work.y := (postTimeLimit_frame cfg s).2.2.2.2.2.2.2.2.1
@[simp] theorem postTimeLimit_z (cfg : Cfg) (s : Solver d K) : (postTimeLimit cfg s).work.z = s.work.z := (postTimeLimit_frame cfg s).2.2.2.2.2.2.2.2.2.1
@[simp] theorem postTimeLimit_x_prev (cfg : Cfg) (s : Solver d K) : (postTimeLimit cfg s).work.x_prev = s.work.x_prev := (postTimeLimit_frame cfg s).2.2.2.2.2.2.2.2.2.2.1
@[simp] theorem postTimeLimit_z_prev (cfg : Cfg) (s : Solver d K) : (postTimeLimit cfg s).work.z_prev = s.work.z_prev := (postTimeLimit_frame cfg s).2.2.2.2.2.2.2.2.2.2.2.1
@[simp] theorem postTimeLimit_Ax (cfg : Cfg) (s : Solver d K) : (postTimeLimit cfg s).work.Ax = s.work.Ax := (postTimeLimit_frame cfg s).2.2.2.2.2.2.2.2.2.2.2.2.1
@[simp] theorem postTimeLimit_Px (cfg : Cfg) (s : Solver d K) : (postTimeLimit cfg s).work.Px = s.work.Px := (postTimeLimit_frame cfg s).2.2.2.2.2.2.2.2.2.2.2.2.2.1
@[simp] theorem postTimeLimit_Aty (cfg : Cfg) (s : Solver d K) : (postTimeLimit cfg s).work.Aty = s.work.Aty := (postTimeLimit_frame cfg s).2.2.2.2.2.2.2.2.2.2.2.2.2.2.1
@[simp] theorem postTimeLimit_scaling (cfg : Cfg) (s : Solver d K) : (postTimeLimit cfg s).work.scaling = s.work.scaling := (postTimeLimit_frame cfg s).2.2.2.2.2.2.2.2.2.2.2.2.2.2.2.1
@[simp] theorem postTimeLimit_scaled_prim_res (cfg : Cfg) (s : Solver d K) : (postTimeLimit cfg s).work.scaled_prim_res = s.work.scaled_prim_res := (postTimeLimit_frame cfg s).2.2.2.2.2.2.2.2.2.2.2.2.2.2.2.2.1
@[simp] theorem postTimeLimit_scaled_dual_res (cfg : Cfg) (s : Solver d K) : (postTimeLimit cfg s).work.scaled_dual_res = s.work.scaled_dual_res := (postTimeLimit_frame cfg s).2.2.2.2.2.2.2.2.2.2.2.2.2.2.2.2.2.1
@[simp] theorem postTimeLimit_scaled_dual_gap (cfg : Cfg) (s : Solver d K) : (postTimeLimit cfg s).work.scaled_dual_gap = s.work.scaled_dual_gap := (postTimeLimit_frame cfg s).2.2.2.2.2.2.2.2.2.2.2.2.2.2.2.2.2.2.1
@[simp] theorem postTimeLimit_xtPx (cfg : Cfg) (s : Solver d K) : (postTimeLimit cfg s).work.xtPx = s.work.xtPx := (postTimeLimit_frame cfg s).2.2.2.2.2.2.2.2.2.2.2.2.2.2.2.2.2.2.2.1
@[simp] theorem postTimeLimit_qtx (cfg : Cfg) (s : Solver d K) : (postTimeLimit cfg s).work.qtx = s.work.qtx := (postTimeLimit_frame cfg s).2.2.2.2.2.2.2.2.2.2.2.2.2.2.2.2.2.2.2.2.1
@[simp] theorem postTimeLimit_SC (cfg : Cfg) (s : Solver d K) : (postTimeLimit cfg s).work.SC = s.work.SC := (postTimeLimit_frame cfg s).2.2.2.2.2.2.2.2.2.2.2.2.2.2.2.2.2.2.2.2.2.1
@[simp] theorem postTimeLimit_rho_updated (cfg : Cfg) (s : Solver d K) : (postTimeLimit cfg s).work.rho_updated = s.work.rho_updated := (postTimeLimit_frame cfg s).2.2.2.2.2.2.2.2.2.2.2.2.2.2.2.2.2.2.2.2.2.2.1
@[simp] theorem postTimeLimit_last_rel_kkt (cfg : Cfg) (s : Solver d K) : (postTimeLimit cfg s).work.last_rel_kkt = s.work.last_rel_kkt := (postTimeLimit_frame cfg s).2.2.2.2.2.2.2.2.2.2.2.2.2.2.2.2.2.2.2.2.2.2.2.1
@[simp] theorem postTimeLimit_first_run (cfg : Cfg) (s : Solver d K) : (postTimeLimit cfg s).work.first_run = s.work.first_run := (postTimeLimit_frame cfg s).2.2.2.2.2.2.2.2.2.2.2.2.2.2.2.2.2.2.2.2.2.2.2.2.1
@[simp] theorem postTimeLimit_clear_update_time (cfg : Cfg) (s : Solver d K) : (postTimeLimit cfg s).work.clear_update_time = s.work.clear_update_time := (postTimeLimit_frame cfg s).2.2.2.2.2.2.2.2.2.2.2.2.2.2.2.2.2.2.2.2.2.2.2.2.2.1
@[simp] theorem postTimeLimit_rho_update_from_solve (cfg : Cfg) (s : Solver d K) : (postTimeLimit cfg s).work.rho_update_from_solve = s.work.rho_update_from_solve := (postTimeLimit_frame cfg s).2.2.2.2.2.2.2.2.2.2.2.2.2.2.2.2.2.2.2.2.2.2.2.2.2.2.1
@[simp] theorem postTimeLimit_info_status_polish (cfg : Cfg) (s : Solver d K) : (postTimeLimit cfg s).info.status_polish = s.info.status_polish := (postTimeLimit_frame cfg s).2.2.2.2.2.2.2.2.2.2.2.2.2.2.2.2.2.2.2.2.2.2.2.2.2.2.2.1
@[simp] theorem postTimeLimit_info_dual_obj_val (cfg : Cfg) (s : Solver d K) : (postTimeLimit cfg s).info.dual_obj_val = s.info.dual_obj_val := (postTimeLimit_frame cfg s).2.2.2.2.2.2.2.2.2.2.2.2.2.2.2.2.2.2.2.2.2.2.2.2.2.2.2.2.1
@[simp] theorem postTimeLimit_info_prim_res (cfg : Cfg) (s : Solver d K) : (postTimeLimit cfg s).info.prim_res = s.info.prim_res := (postTimeLimit_frame cfg s).2.2.2.2.2.2.2.2.2.2.2.2.2.2.2.2.2.2.2.2.2.2.2.2.2.2.2.2.2.1
@[simp] theorem postTimeLimit_info_dual_res (cfg : Cfg) (s : Solver d K) : (postTimeLimit cfg s).info.dual_res = s.info.dual_res := (postTimeLimit_frame cfg s).2.2.2.2.2.2.2.2.2.2.2.2.2.2.2.2.2.2.2.2.2.2.2.2.2.2.2.2.2.2.1
@[simp] theorem postTimeLimit_info_duality_gap (cfg : Cfg) (s : Solver d K) : (postTimeLimit cfg s).info.duality_gap = s.info.duality_gap := (postTimeLimit_frame cfg s).2.2.2.2.2.2.2.2.2.2.2.2.2.2.2.2.2.2.2.2.2.2.2.2.2.2.2.2.2.2.2.1
@[simp] theorem postTimeLimit_info_iter (cfg : Cfg) (s : Solver d K) : (postTimeLimit cfg s).info.iter = s.info.iter := (postTimeLimit_frame cfg s).2.2.2.2.2.2.2.2.2.2.2.2.2.2.2.2.2.2.2.2.2.2.2.2.2.2.2.2.2.2.2.2.1
@[simp] theorem postTimeLimit_info_rho_updates (cfg : Cfg) (s : Solver d K) : (postTimeLimit cfg s).info.rho_updates = s.info.rho_updates := (postTimeLimit_frame cfg s).2.2.2.2.2.2.2.2.2.2.2.2.2.2.2.2.2.2.2.2.2.2.2.2.2.2.2.2.2.2.2.2.2.1
@[simp] theorem postTimeLimit_info_rho_estimate (cfg : Cfg) (s : Solver d K) : (postTimeLimit cfg s).info.rho_estimate = s.info.rho_estimate := (postTimeLimit_frame cfg s).2.2.2.2.2.2.2.2.2.2.2.2.2.2.2.2.2.2.2.2.2.2.2.2.2.2.2.2.2.2.2.2.2.2.1
@[simp] theorem postTimeLimit_info_setup_time (cfg : Cfg) (s : Solver d K) : (postTimeLimit cfg s).info.setup_time = s.info.setup_time := (postTimeLimit_frame cfg s).2.2.2.2.2.2.2.2.2.2.2.2.2.2.2.2.2.2.2.2.2.2.2.2.2.2.2.2.2.2.2.2.2.2.2.1
@[simp] theorem postTimeLimit_info_solve_time (cfg : Cfg) (s : Solver d K) : (postTimeLimit cfg s).info.solve_time = s.info.solve_time := (postTimeLimit_frame cfg s).2.2.2.2.2.2.2.2.2.2.2.2.2.2.2.2.2.2.2.2.2.2.2.2.2.2.2.2.2.2.2.2.2.2.2.2.1
@[simp] theorem postTimeLimit_info_update_time (cfg : Cfg) (s : Solver d K) : (postTimeLimit cfg s).info.update_time = s.info.update_time := (postTimeLimit_frame cfg s).2.2.2.2.2.2.2.2.2.2.2.2.2.2.2.2.2.2.2.2.2.2.2.2.2.2.2.2.2.2.2.2.2.2.2.2.2.1
@[simp] theorem postTimeLimit_info_polish_time (cfg : Cfg) (s : Solver d K) : (postTimeLimit cfg s).info.polish_time = s.info.polish_time := (postTimeLimit_frame cfg s).2.2.2.2.2.2.2.2.2.2.2.2.2.2.2.2.2.2.2.2.2.2.2.2.2.2.2.2.2.2.2.2.2.2.2.2.2.2.1
@[simp] theorem postTimeLimit_info_run_time (cfg : Cfg) (s : Solver d K) : (postTimeLimit cfg s).info.run_time = s.info.run_time := (postTimeLimit_frame cfg s).2.2.2.2.2.2.2.2.2.2.2.2.2.2.2.2.2.2.2.2.2.2.2.2.2.2.2.2.2.2.2.2.2.2.2.2.2.2.2.1
@[simp] theorem postTimeLimit_info_primdual_int (cfg : Cfg) (s : Solver d K) : (postTimeLimit cfg s).info.primdual_int = s.info.primdual_int := (postTimeLimit_frame cfg s).2.2.2.2.2.2.2.2.2.2.2.2.2.2.2.2.2.2.2.2.2.2.2.2.2.2.2.2.2.2.2.2.2.2.2.2.2.2.2.2.1
@[simp] theorem postTimeLimit_info_rel_kkt_error (cfg : Cfg) (s : Solver d K) : (postTimeLimit cfg s).info.rel_kkt_error = s.info.rel_kkt_error := (postTimeLimit_frame cfg s).2.2.2.2.2.2.2.2.2.2.2.2.2.2.2.2.2.2.2.2.2.2.2.2.2.2.2.2.2.2.2.2.2.2.2.2.2.2.2.2.2.1
@[simp] theorem postTimeLimit_solution (cfg : Cfg) (s : Solver d K) : (postTimeLimit cfg s).solution = s.solution := (postTimeLimit_frame cfg s).2.2.2.2.2.2.2.2.2.2.2.2.2.2.2.2.2.2.2.2.2.2.2.2.2.2.2.2.2.2.2.2.2.2.2.2.2.2.2.2.2.2.1
@[simp] theorem postTimeLimit_ticks (cfg : Cfg) (s : Solver d K) : (postTimeLimit cfg s).ticks = s.ticks := (postTimeLimit_frame cfg s).2.2.2.2.2.2.2.2.2.2.2.2.2.2.2.2.2.2.2.2.2.2.2.2.2.2.2.2.2.2.2.2.2.2.2.2.2.2.2.2.2.2.2.1
@[simp] theorem postTimeLimit_polls (cfg : Cfg) (s : Solver d K) : (postTimeLimit cfg s).polls = s.polls := (postTimeLimit_frame cfg s).2.2.2.2.2.2.2.2.2.2.2.2.2.2.2.2.2.2.2.2.2.2.2.2.2.2.2.2.2.2.2.2.2.2.2.2.2.2.2.2.2.2.2.2.1
@[simp] theorem postTimeLimit_handler (cfg : Cfg) (s : Solver d K) : (postTimeLimit cfg s).handler = s.handler := (postTimeLimit_frame cfg s).2.2.2.2.2.2.2.2.2.2.2.2.2.2.2.2.2.2.2.2.2.2.2.2.2.2.2.2.2.2.2.2.2.2.2.2.2.2.2.2.2.2.2.2.2

theorem postRho_frame (cfg : Cfg) (env : Env d K) (s : Solver d K) :
  (postRho cfg env s).settings = s.settings ∧
  (postRho cfg env s).work = s.work ∧
  (postRho cfg env s).info.status = s.info.status ∧
  (postRho cfg env s).info.status_val = s.info.status_val ∧
  (postRho cfg env s).info.status_polish = s.info.status_polish ∧
  (postRho cfg env s).info.obj_val = s.info.obj_val ∧
  (postRho cfg env s).info.dual_obj_val = s.info.dual_obj_val ∧
  (postRho cfg env s).info.prim_res = s.info.prim_res ∧
  (postRho cfg env s).info.dual_res = s.info.dual_res ∧
  (postRho cfg env s).info.duality_gap = s.info.duality_gap ∧
  (postRho cfg env s).info.iter = s.info.iter ∧
  (postRho cfg env s).info.rho_updates = s.info.rho_updates ∧
  (postRho cfg env s).info.setup_time = s.info.setup_time ∧
  (postRho cfg env s).info.update_time = s.info.update_time ∧
  (postRho cfg env s).info.polish_time = s.info.polish_time ∧
  (postRho cfg env s).info.run_time = s.info.run_time ∧
  (postRho cfg env s).info.primdual_int = s.info.primdual_int ∧
  (postRho cfg env s).info.rel_kkt_error = s.info.rel_kkt_error ∧
  (postRho cfg env s).solution = s.solution ∧
  (postRho cfg env s).polls = s.polls ∧
  (postRho cfg env s).handler = s.handler := by
  frame_tac postRho
@[simp] theorem postRho_settings (cfg : Cfg) (env : Env d K) (s : Solver d K) : (postRho cfg env s).settings = s.settings := (postRho_frame cfg env s).1
@[simp] theorem postRho_work (cfg : Cfg) (env : Env d K) (s : Solver d K) : (postRho cfg env s).work = s.work := (postRho_frame cfg env s).2.1
@[simp] theorem postRho_info_status (cfg : Cfg) (env : Env d K) (s : Solver d K) : (postRho cfg env s).info.status = s.info.status := (postRho_frame cfg env s).2.2.1
@[simp] theorem postRho_info_status_val (cfg : Cfg) (env : Env d K) (s : Solver d K) : (postRho cfg env s).info.status_val = s.info.status_val := (postRho_frame cfg env s).2.2.2.1
@[simp] theorem postRho_info_status_polish (cfg : Cfg) (env : Env d K) (s : Solver d K) : (postRho cfg env s).info.status_polish = s.info.status_polish := (postRho_frame cfg env s).2.2.2.2.1
@[simp] theorem postRho_info_obj_val (cfg : Cfg) (env : Env d K) (s : Solver d K) : (postRho cfg env s).info.obj_val = s.info.obj_val := (postRho_frame cfg env s).2.2.2.2.2.1
@[simp] theorem postRho_info_dual_obj_val (cfg : Cfg) (env : Env d K) (s : Solver d K) : (postRho cfg env s).info.dual_obj_val = s.info.dual_obj_val := (postRho_frame cfg env s).2.2.2.2.2.2.1
@[simp] theorem postRho_info_prim_res (cfg : Cfg) (env : Env d K) (s : Solver d K) : (postRho cfg env s).info.prim_res = s.info.prim_res := (postRho_frame cfg env s).2.2.2.2.2.2.2.1
@[simp] theorem postRho_info_dual_res (cfg : Cfg) (env : Env d K) (s : Solver d K) : (postRho cfg env s).info.dual_res = s.info.dual_res := (postRho_frame cfg env s).2.2.2.2.2.2.2.2.1
@[simp] theorem postRho_info_duality_gap (cfg : Cfg) (env : Env d K) (s : Solver d K) : (postRho cfg env s).info.duality_gap = s.info.duality_gap := (postRho_frame cfg env s).2.2.2.2.2.2.2.2.2.1
@[simp] theorem postRho_info_iter (cfg : Cfg) (env : Env d K) (s : Solver d K) : (postRho cfg env s).info.iter = s.info.iter := (postRho_frame cfg env s).2.2.2.2.2.2.2.2.2.2.1
@[simp] theorem postRho_info_rho_updates (cfg : Cfg) (env : Env d K) (s : Solver d K) : (postRho cfg env s).info.rho_updates = s.info.rho_updates := (postRho_frame cfg env s).2.2.2.2.2.2.2.2.2.2.2.1
@[simp] theorem postRho_info_setup_time (cfg : Cfg) (env : Env d K) (s : Solver d K) : (postRho cfg env s).info.setup_time = s.info.setup_time := (postRho_frame cfg env s).2.2.2.2.2.2.2.2.2.2.2.2.1
@[simp] theorem postRho_info_update_time (cfg : Cfg) (env : Env d K) (s : Solver d K) : (postRho cfg env s).info.update_time = s.info.update_time := (postRho_frame cfg env s).2.2.2.2.2.2.2.2.2.2.2.2.2.1
@[simp] theorem postRho_info_polish_time (cfg : Cfg) (env : Env d K) (s : Solver d K) : (postRho cfg env s).info.polish_time = s.info.polish_time := (postRho_frame cfg env s).2.2.2.2.2.2.2.2.2.2.2.2.2.2.1
@[simp] theorem postRho_info_run_time (cfg : Cfg) (env : Env d K) (s : Solver d K) : (postRho cfg env s).info.run_time = s.info.run_time := (postRho_frame cfg env s).2.2.2.2.2.2.2.2.2.2.2.2.2.2.2.1
@[simp] theorem postRho_info_primdual_int (cfg : Cfg) (env : Env d K) (s : Solver d K) : (postRho cfg env s).info.primdual_int = s.info.primdual_int := (postRho_frame cfg env s).2.2.2.2.2.2.2.2.2.2.2.2.2.2.2.2.1
@[simp] theorem postRho_info_rel_kkt_error (cfg : Cfg) (env : Env d K) (s : Solver d K) : (postRho cfg env s).info.rel_kkt_error = s.info.rel_kkt_error := (postRho_frame cfg env s).2.2.2.2.2.2.2.2.2.2.2.2.2.2.2.2.2.1
@[simp] theorem postRho_solution (cfg : Cfg) (env : Env d K) (s : Solver d K) : (postRho cfg env s).solution = s.solution := (postRho_frame cfg env s).2.2.2.2.2.2.2.2.2.2.2.2.2.2.2.2.2.2.1
@[simp] theorem postRho_polls (cfg : Cfg) (env : Env d K) (s : Solver d K) : (postRho cfg env s).polls = s.polls := (postRho_frame cfg env s).2.2.2.2.2.2.2.2.2.2.2.2.2.2.2.2.2.2.2.1
@[simp] theorem postRho_handler (cfg : Cfg) (env : Env d K) (s : Solver d K) : (postRho cfg env s).handler = s.handler := (postRho_frame cfg env s).2.2.2.2.2.2.2.2.2.2.2.2.2.2.2.2.2.2.2.2

theorem postLoop_frame (cfg : Cfg) (env : Env d K) (iter : ℤ) (L : LoopSt d K) :
  (postLoop cfg env iter L).settings = L.s.settings ∧
  (postLoop cfg env iter L).work.data = L.s.work.data ∧
  (postLoop cfg env iter L).work.linsys = L.s.work.linsys ∧
  (postLoop cfg env iter L).work.rho_vec = L.s.work.rho_vec ∧
  (postLoop cfg env iter L).work.rho_inv_vec = L.s.work.rho_inv_vec ∧
  (postLoop cfg env iter L).work.rho_inv = L.s.work.rho_inv ∧
  (postLoop cfg env iter L).work.constr_type = L.s.work.constr_type ∧
  (postLoop cfg env iter L).work.x = L.s.work.x ∧
  (postLoop cfg env iter L).work.y = L.s.work.y ∧
  (postLoop cfg env iter L).work.z = L.s.work.z ∧
  (postLoop cfg env iter L).work.scaling = L.s.work.scaling ∧
  (postLoop cfg env iter L).work.rho_updated = L.s.work.rho_updated ∧
  (postLoop cfg env iter L).work.last_rel_kkt = L.s.work.last_rel_kkt ∧
  (postLoop cfg env iter L).work.first_run = L.s.work.first_run ∧
  (postLoop cfg env iter L).work.clear_update_time = L.s.work.clear_update_time ∧
  (postLoop cfg env iter L).work.rho_update_from_solve = L.s.work.rho_update_from_solve ∧
  (postLoop cfg env iter L).info.status_polish = L.s.info.status_polish ∧
  (postLoop cfg env iter L).info.rho_updates = L.s.info.rho_updates ∧
  (postLoop cfg env iter L).info.setup_time = L.s.info.setup_time ∧
  (postLoop cfg env iter L).info.update_time = L.s.info.update_time ∧
  (postLoop cfg env iter L).info.polish_time = L.s.info.polish_time ∧
  (postLoop cfg env iter L).info.run_time = L.s.info.run_time ∧
  (postLoop cfg env iter L).solution = L.s.solution ∧
  (postLoop cfg env iter L).polls = L.s.polls ∧
  (postLoop cfg env iter L).handler = L.s.handler := by
  frame_tac postLoop
@[simp] theorem postLoop_settings (cfg : Cfg) (env : Env d K) (iter : ℤ) (L : LoopSt d K) : (postLoop cfg env iter L).settings = L.s.settings := (postLoop_frame cfg env iter L).1
@[simp] theorem postLoop_data (cfg : Cfg) (env : Env d K) (iter : ℤ) (L : LoopSt d K) : (postLoop cfg env iter L).work.data = L.s.work.data := (postLoop_frame cfg env iter L).2.1
@[simp] theorem postLoop_linsys (cfg : Cfg) (env : Env d K) (iter : ℤ) (L : LoopSt d K) : (postLoop cfg env iter L).work.linsys = L.s.work.linsys := (postLoop_frame cfg env iter L).2.2.1
@[simp] theorem postLoop_rho_vec (cfg : Cfg) (env : Env d K) (iter : ℤ) (L : LoopSt d K) : (postLoop cfg env iter L).work.rho_vec = L.s.work.rho_vec := (postLoop_frame cfg env iter L).2.2.2.1
@[simp] theorem postLoop_rho_inv_vec (cfg : Cfg) (env : Env d K) (iter : ℤ) (L : LoopSt d K) : (postLoop cfg env iter L).work.rho_inv_vec = L.s.work.rho_inv_vec := (postLoop_frame cfg env iter L).2.2.2.2.1
@[simp] theorem postLoop_rho_inv (cfg : Cfg) (env : Env d K) (iter : ℤ) (L : LoopSt d K) : (postLoop cfg env iter L).work.rho_inv = L.s.work.rho_inv := (postLoop_frame cfg env iter L).2.2.2.2.2.1
@[simp] theorem postLoop_constr_type (cfg : Cfg) (env : Env d K) (iter : ℤ) (L : LoopSt d K) : (postLoop cfg env iter L).work.constr_type = L.s.work.constr_type := (postLoop_frame cfg env iter L).2.2.2.2.2.2.1
@[simp] theorem postLoop_x (cfg : Cfg) (env : Env d K) (iter : ℤ) (L : LoopSt d K) : (postLoop cfg env iter L).work.x = L.s.work.x := (postLoop_frame cfg env iter L).2.2.2.2.2.2.2.1
@[simp] theorem postLoop_y (cfg : Cfg) (env : Env d K) (iter : ℤ) (L : LoopSt d K) : (postLoop cfg env iter L).work.y = L.s.work.y := (postLoop_frame cfg env iter L).2.2.2.2.2.2.2.2.1
@[simp] theorem postLoop_z (cfg : Cfg) (env : Env d K) (iter : ℤ) (L : LoopSt d K) : (postLoop cfg env iter L).work.z = L.s.work.z := (postLoop_frame cfg env iter L).2.2.2.2.2.2.2.2.2.1
@[simp] theorem postLoop_scaling (cfg : Cfg) (env : Env d K) (iter : ℤ) (L : LoopSt d K) : (postLoop cfg env iter L).work.scaling = L.s.work.scaling := (postLoop_frame cfg env iter L).2.2.2.2.2.2.2.2.2.2.1
@[simp] theorem postLoop_rho_updated (cfg : Cfg) (env : Env d K) (iter : ℤ) (L : LoopSt d K) : (postLoop cfg env iter L).work.rho_updated = L.s.work.rho_updated := (postLoop_frame cfg env iter L).2.2.2.2.2.2.2.2.2.2.2.1
@[simp] theorem postLoop_last_rel_kkt (cfg : Cfg) (env : Env d K) (iter : ℤ) (L : LoopSt d K) : (postLoop cfg env iter L).work.last_rel_kkt = L.s.work.last_rel_kkt := (postLoop_frame cfg env iter L).2.2.2.2.2.2.2.2.2.2.2.2.1
@[simp] theorem postLoop_first_run (cfg : Cfg) (env : Env d K) (iter : ℤ) (L : LoopSt d K) : (postLoop cfg env iter L).work.first_run = L.s.work.first_run := (postLoop_frame cfg env iter L).2.2.2.2.2.2.2.2.2.2.2.2.2.1
@[simp] theorem postLoop_clear_update_time (cfg : Cfg) (env : Env d K) (iter : ℤ) (L : LoopSt d K) : (postLoop cfg env iter L).work.clear_update_time = L.s.work.clear_update_time := (postLoop_frame cfg env iter L).2.2.2.2.2.2.2.2.2.2.2.2.2.2.1
@[simp] theorem postLoop_rho_update_from_solve (cfg : Cfg) (env : Env d K) (iter : ℤ) (L : LoopSt d K) : (postLoop cfg env iter L).work.rho_update_from_solve = L.s.work.rho_update_from_solve := (postLoop_frame cfg env iter L).2.2.2.2.2.2.2.2.2.2.2.2.2.2.2.1
@[simp] theorem postLoop_info_status_polish (cfg : Cfg) (env : Env d K) (iter : ℤ) (L : LoopSt d K) : (postLoop cfg env iter L).info.status_polish = L.s.info.status_polish := (postLoop_frame cfg env iter L).2.2.2.2.2.2.2.2.2.2.2.2.2.2.2.2.1
@[simp] theorem postLoop_info_rho_updates (cfg : Cfg) (env : Env d K) (iter : ℤ) (L : LoopSt d K) : (postLoop cfg env iter L).info.rho_updates = L.s.info.rho_updates := (postLoop_frame cfg env iter L).2.2.2.2.2.2.2.2.2.2.2.2.2.2.2.2.2.1
@[simp] theorem postLoop_info_setup_time (cfg : Cfg) (env : Env d K) (iter : ℤ) (L : LoopSt d K) : (postLoop cfg env iter L).info.setup_time = L.s.info.setup_time := (postLoop_frame cfg env iter L).2.2.2.2.2.2.2.2.2.2.2.2.2.2.2.2.2.2.1
@[simp] theorem postLoop_info_update_time (cfg : Cfg) (env : Env d K) (iter : ℤ) (L : LoopSt d K) : (postLoop cfg env iter L).info.update_time = L.s.info.update_time := (postLoop_frame cfg env iter L).2.2.2.2.2.2.2.2.2.2.2.2.2.2.2.2.2.2.2.1
@[simp] theorem postLoop_info_polish_time (cfg : Cfg) (env : Env d K) (iter : ℤ) (L : LoopSt d K) : (postLoop cfg env iter L).info.polish_time = L.s.info.polish_time := (postLoop_frame cfg env iter L).2.2.2.2.2.2.2.2.2.2.2.2.2.2.2.2.2.2.2.2.1
@[simp] theorem postLoop_info_run_time (cfg : Cfg) (env : Env d K) (iter : ℤ) (L : LoopSt d K) : (postLoop cfg env iter L).info.run_time = L.s.info.run_time := (postLoop_frame cfg env iter L).2.2.2.2.2.2.2.2.2.2.2.2.2.2.2.2.2.2.2.2.2.1
@[simp] theorem postLoop_solution (cfg : Cfg) (env : Env d K) (iter : ℤ) (L : LoopSt d K) : (postLoop cfg env iter L).solution = L.s.solution := (postLoop_frame cfg env iter L).2.2.2.2.2.2.2.2.2.2.2.2.2.2.2.2.2.2.2.2.2.2.1
@[simp] theorem postLoop_polls (cfg : Cfg) (env : Env d K) (iter : ℤ) (L : LoopSt d K) : (postLoop cfg env iter L).polls = L.s.polls := (postLoop_frame cfg env iter L).2.2.2.2.2.2.2.2.2.2.2.2.2.2.2.2.2.2.2.2.2.2.2.1
@[simp] theorem postLoop_handler (cfg : Cfg) (env : Env d K) (iter : ℤ) (L : LoopSt d K) : (postLoop cfg env iter L).handler = L.s.handler := (postLoop_frame cfg env iter L).2.2.2.2.2.2.2.2.2.2.2.2.2.2.2.2.2.2.2.2.2.2.2.2

theorem polish_frame (cfg : Cfg) (env : Env d K) (s : Solver d K) :
  ((polish cfg env s).1).settings = s.settings ∧
  ((polish cfg env s).1).work.data = s.work.data ∧
  ((polish cfg env s).1).work.linsys = s.work.linsys ∧
  ((polish cfg env s).1).work.rho_vec = s.work.rho_vec ∧
  ((polish cfg env s).1).work.rho_inv_vec = s.work.rho_inv_vec ∧
  ((polish cfg env s).1).work.rho_inv = s.work.rho_inv ∧
  ((polish cfg env s).1).work.constr_type = s.work.constr_type ∧
  ((polish cfg env s).1).work.delta_y = s.work.delta_y ∧
  ((polish cfg env s).1).work.delta_x = s.work.delta_x ∧
  ((polish cfg env s).1).work.scaling = s.work.scaling ∧
  ((polish cfg env s).1).work.rho_updated = s.work.rho_updated ∧
  ((polish cfg env s).1).work.last_rel_kkt = s.work.last_rel_kkt ∧
  ((polish cfg env s).1).work.first_run = s.work.first_run ∧
  ((polish cfg env s).1).work.clear_update_time = s.work.clear_update_time ∧
  ((polish cfg env s).1).work.rho_update_from_solve = s.work.rho_update_from_solve ∧
  ((polish cfg env s).1).info.status = s.info.status ∧
  ((polish cfg env s).1).info.status_val = s.info.status_val ∧
  ((polish cfg env s).1).info.iter = s.info.iter ∧
  ((polish cfg env s).1).info.rho_updates = s.info.rho_updates ∧
  ((polish cfg env s).1).info.rho_estimate = s.info.rho_estimate ∧
  ((polish cfg env s).1).info.setup_time = s.info.setup_time ∧
  ((polish cfg env s).1).info.solve_time = s.info.solve_time ∧
  ((polish cfg env s).1).info.update_time = s.info.update_time ∧
  ((polish cfg env s).1).info.run_time = s.info.run_time ∧
  ((polish cfg env s).1).info.primdual_int = s.info.primdual_int ∧
  ((polish cfg env s).1).solution = s.solution ∧
  ((polish cfg env s).1).polls = s.polls ∧
  ((polish cfg env s).1).handler = s.handler := by
  frame_tac polish
@[simp] theorem polish_settings (cfg : Cfg) (env : Env d K) (s : Solver d K) : ((polish cfg env s).1).settings = s.settings := (polish_frame cfg env s).1
@[simp] theorem polish_data (cfg : Cfg) (env : Env d K) (s : Solver d K) : ((polish cfg env s).1).work.data = s.work.data := (polish_frame cfg env s).2.1
@[simp] theorem polish_linsys (cfg : Cfg) (env : Env d K) (s : Solver d K) : ((polish cfg env s).1).work.linsys = s.work.linsys := (polish_frame cfg env s).2.2.1
@[simp] theorem polish_rho_vec (cfg : Cfg) (env : Env d K) (s : Solver d K) : ((polish cfg env s).1).work.rho_vec = s.work.rho_vec := (polish_frame cfg env s).2.2.2.1
@[simp] theorem polish_rho_inv_vec (cfg : Cfg) (env : Env d K) (s : Solver d K) : ((polish cfg env s).1).work.rho_inv_vec = s.work.rho_inv_vec := (polish_frame cfg env s).2.2.2.2.1
@[simp] theorem polish_rho_inv (cfg : Cfg) (env : Env d K) (s : Solver d K) : ((polish cfg env s).1).work.rho_inv = s.work.rho_inv := (polish_frame cfg env s).2.2.2.2.2.1
@[simp] theorem polish_constr_type (cfg : Cfg) (env : Env d K) (s : Solver d K) : ((polish cfg env s).1).work.constr_type = s.work.constr_type := (polish_frame cfg env s).2.2.2.2.2.2.1
@[simp] theorem polish_delta_y (cfg : Cfg) (env : Env d K) (s : Solver d K) : ((polish cfg env s).1).work.delta_y = s.work.delta_y := (polish_frame cfg env s).2.2.2.2.2.2.2.1
@[simp] theorem polish_delta_x (cfg : Cfg) (env : Env d K) (s : Solver d K) : ((polish cfg env s).1).work.delta_x = s.work.delta_x := (polish_frame cfg env s).2.2.2.2.2.2.2.2.1
@[simp] theorem polish_scaling (cfg : Cfg) (env : Env d K) (s : Solver d K) : ((polish cfg env s).1).work.scaling = s.work.scaling := (polish_frame cfg env s).2.2.2.2.2.2.2.2.2.1
@[simp] theorem polish_rho_updated (cfg : Cfg) (env : Env d K) (s : Solver d K) : ((polish cfg env s).1).work.rho_updated = s.work.rho_updated := (polish_frame cfg env s).2.2.2.2.2.2.2.2.2.2.1
@[simp] theorem polish_last_rel_kkt (cfg : Cfg) (env : Env d K) (s : Solver d K) : ((polish cfg env s).1).work.last_rel_kkt = s.work.last_rel_kkt := (polish_frame cfg env s).2.2.2.2.2.2.2.2.2.2.2.1
@[simp] theorem polish_first_run (cfg : Cfg) (env : Env d K) (s : Solver d K) : ((polish cfg env s).1).work.first_run = s.work.first_run := (polish_frame cfg env s).2.2.2.2.2.2.2.2.2.2.2.2.1
@[simp] theorem polish_clear_update_time (cfg : Cfg) (env : Env d K) (s : Solver d K) : ((polish cfg env s).1).work.clear_update_time = s.work.clear_update_time := (polish_frame cfg env s).2.2.2.2.2.2.2.2.2.2.2.2.2.1
@[simp] theorem polish_rho_update_from_solve (cfg : Cfg) (env : Env d K) (s : Solver d K) : ((polish cfg env s).1).work.rho_update_from_solve = s.work.rho_update_from_solve := (polish_frame cfg env s).2.2.2.2.2.2.2.2.2.2.2.2.2.2.1
@[simp] theorem polish_info_status (cfg : Cfg) (env : Env d K) (s : Solver d K) : ((polish cfg env s).1).info.status = s.info.status := (polish_frame cfg env s).2.2.2.2.2.2.2.2.2.2.2.2.2.2.2.1
@[simp] theorem polish_info_status_val (cfg : Cfg) (env : Env d K) (s : Solver d K) : ((polish cfg env s).1).info.status_val = s.info.status_val := (polish_frame cfg env s).2.2.2.2.2.2.2.2.2.2.2.2.2.2.2.2.1
@[simp] theorem polish_info_iter (cfg : Cfg) (env : Env d K) (s : Solver d K) : ((polish cfg env s).1).info.iter = s.info.iter := (polish_frame cfg env s).2.2.2.2.2.2.2.2.2.2.2.2.2.2.2.2.2.1
@[simp] theorem polish_info_rho_updates (cfg : Cfg) (env : Env d K) (s : Solver d K) : ((polish cfg env s).1).info.rho_updates = s.info.rho_updates := (polish_frame cfg env s).2.2.2.2.2.2.2.2.2.2.2.2.2.2.2.2.2.2.1
@[simp] theorem polish_info_rho_estimate (cfg : Cfg) (env : Env d K) (s : Solver d K) : ((polish cfg env s).1).info.rho_estimate = s.info.rho_estimate := (polish_frame cfg env s).2.2.2.2.2.2.2.2.2.2.2.2.2.2.2.2.2.2.2.1
@[simp] theorem polish_info_setup_time (cfg : Cfg) (env : Env d K) (s : Solver d K) : ((polish cfg env s).1).info.setup_time = s.info.setup_time := (polish_frame cfg env s).2.2.2.2.2.2.2.2.2.2.2.2.2.2.2.2.2.2.2.2.1
@[simp] theorem polish_info_solve_time (cfg : Cfg) (env : Env d K) (s : Solver d K) : ((polish cfg env s).1).info.solve_time = s.info.solve_time := (polish_frame cfg env s).2.2.2.2.2.2.2.2.2.2.2.2.2.2.2.2.2.2.2.2.2.1
@[simp] theorem polish_info_update_time (cfg : Cfg) (env : Env d K) (s : Solver d K) : ((polish cfg env s).1).info.update_time = s.info.update_time := (polish_frame cfg env s).2.2.2.2.2.2.2.2.2.2.2.2.2.2.2.2.2.2.2.2.2.2.1
@[simp] theorem polish_info_run_time (cfg : Cfg) (env : Env d K) (s : Solver d K) : ((polish cfg env s).1).info.run_time = s.info.run_time := (polish_frame cfg env s).2.2.2.2.2.2.2.2.2.2.2.2.2.2.2.2.2.2.2.2.2.2.2.1
@[simp] theorem polish_info_primdual_int (cfg : Cfg) (env : Env d K) (s : Solver d K) : ((polish cfg env s).1).info.primdual_int = s.info.primdual_int := (polish_frame cfg env s).2.2.2.2.2.2.2.2.2.2.2.2.2.2.2.2.2.2.2.2.2.2.2.2.1
@[simp] theorem polish_solution (cfg : Cfg) (env : Env d K) (s : Solver d K) : ((polish cfg env s).1).solution = s.solution := (polish_frame cfg env s).2.2.2.2.2.2.2.2.2.2.2.2.2.2.2.2.2.2.2.2.2.2.2.2.2.1
@[simp] theorem polish_polls (cfg : Cfg) (env : Env d K) (s : Solver d K) : ((polish cfg env s).1).polls = s.polls := (polish_frame cfg env s).2.2.2.2.2.2.2.2.2.2.2.2.2.2.2.2.2.2.2.2.2.2.2.2.2.2.1
@[simp] theorem polish_handler (cfg : Cfg) (env : Env d K) (s : Solver d K) : ((polish cfg env s).1).handler = s.handler := (polish_frame cfg env s).2.2.2.2.2.2.2.2.2.2.2.2.2.2.2.2.2.2.2.2.2.2.2.2.2.2.2

theorem postPolish_frame (cfg : Cfg) (env : Env d K) (s : Solver d K) :
  ((postPolish cfg env s).1).settings = s.settings ∧
  ((postPolish cfg env s).1).work.data = s.work.data ∧
  ((postPolish cfg env s).1).work.linsys = s.work.linsys ∧
  ((postPolish cfg env s).1).work.rho_vec = s.work.rho_vec ∧
  ((postPolish cfg env s).1).work.rho_inv_vec = s.work.rho_inv_vec ∧
  ((postPolish cfg env s).1).work.rho_inv = s.work.rho_inv ∧
  ((postPolish cfg env s).1).work.constr_type = s.work.constr_type ∧
  ((postPolish cfg env s).1).work.delta_y = s.work.delta_y ∧
  ((postPolish cfg env s).1).work.delta_x = s.work.delta_x ∧
  ((postPolish cfg env s).1).work.scaling = s.work.scaling ∧
  ((postPolish cfg env s).1).work.rho_updated = s.work.rho_updated ∧
  ((postPolish cfg env s).1).work.last_rel_kkt = s.work.last_rel_kkt ∧
  ((postPolish cfg env s).1).work.first_run = s.work.first_run ∧
  ((postPolish cfg env s).1).work.clear_update_time = s.work.clear_update_time ∧
  ((postPolish cfg env s).1).work.rho_update_from_solve = s.work.rho_update_from_solve ∧
  ((postPolish cfg env s).1).info.status = s.info.status ∧
  ((postPolish cfg env s).1).info.status_val = s.info.status_val ∧
  ((postPolish cfg env s).1).info.iter = s.info.iter ∧
  ((postPolish cfg env s).1).info.rho_updates = s.info.rho_updates ∧
  ((postPolish cfg env s).1).info.rho_estimate = s.info.rho_estimate ∧
  ((postPolish cfg env s).1).info.setup_time = s.info.setup_time ∧
  ((postPolish cfg env s).1).info.solve_time = s.info.solve_time ∧
  ((postPolish cfg env s).1).info.update_time = s.info.update_time ∧
  ((postPolish cfg env s).1).info.run_time = s.info.run_time ∧
  ((postPolish cfg env s).1).info.primdual_int = s.info.primdual_int ∧
  ((postPolish cfg env s).1).solution = s.solution ∧
  ((postPolish cfg env s).1).polls = s.polls ∧
  ((postPolish cfg env s).1).handler = s.handler := by
  frame_tac postPolish
@[simp] theorem postPolish_settings (cfg : Cfg) (env : Env d K) (s : Solver d K) : ((postPolish cfg env s).1).settings = s.settings := (postPolish_frame cfg env s).1
@[simp] theorem postPolish_data (cfg : Cfg) (env : Env d K) (s : Solver d K) : ((postPolish cfg env s).1).work.data = s.work.data := (postPolish_frame cfg env s).2.1
@[simp] theorem postPolish_linsys (cfg : Cfg) (env : Env d K) (s : Solver d K) : ((postPolish cfg env s).1).work.linsys = s.work.linsys := (postPolish_frame cfg env s).2.2.1
@[simp] theorem postPolish_rho_vec (cfg : Cfg) (env : Env d K) (s : Solver d K) : ((postPolish cfg env s).1).work.rho_vec = s.work.rho_vec := (postPolish_frame cfg env s).2.2.2.1
@[simp] theorem postPolish_rho_inv_vec (cfg : Cfg) (env : Env d K) (s : Solver d K) : ((postPolish cfg env s).1).work.rho_inv_vec = s.work.rho_inv_vec := (postPolish_frame cfg env s).2.2.2.2.1
@[simp] theorem postPolish_rho_inv (cfg : Cfg) (env : Env d K) (s : Solver d K) : ((postPolish cfg env s).1).work.rho_inv = s.work.rho_inv := (postPolish_frame cfg env s).2.2.2.2.2.1
@[simp] theorem postPolish_constr_type (cfg : Cfg) (env : Env d K) (s : Solver d K) : ((postPolish cfg env s).1).work.constr_type = s.work.constr_type := (postPolish_frame cfg env s).2.2.2.2.2.2.1
@[simp] theorem postPolish_delta_y (cfg : Cfg) (env : Env d K) (s : Solver d K) : ((postPolish cfg env s).1).work.delta_y = s.work.delta_y := (postPolish_frame cfg env s).2.2.2.2.2.2.2.1
@[simp] theorem postPolish_delta_x (cfg : Cfg) (env : Env d K) (s : Solver d K) : ((postPolish cfg env s).1).work.delta_x = s.work.delta_x := (postPolish_frame cfg env s).2.2.2.2.2.2.2.2.1
@[simp] theorem postPolish_scaling (cfg : Cfg) (env : Env d K) (s : Solver d K) : ((postPolish cfg env s).1).work.scaling = s.work.scaling := (postPolish_frame cfg env s).2.2.2.2.2.2.2.2.2.1
@[simp] theorem postPolish_rho_updated (cfg : Cfg) (env : Env d K) (s : Solver d K) : ((postPolish cfg env s).1).work.rho_updated = s.work.rho_updated := (postPolish_frame cfg env s).2.2.2.2.2.2.2.2.2.2.1
@[simp] theorem postPolish_last_rel_kkt (cfg : Cfg) (env : Env d K) (s : Solver d K) : ((postPolish cfg env s).1).work.last_rel_kkt = s.work.last_rel_kkt := (postPolish_frame cfg env s).2.2.2.2.2.2.2.2.2.2.2.1
@[simp] theorem postPolish_first_run (cfg : Cfg) (env : Env d K) (s : Solver d K) : ((postPolish cfg env s).1).work.first_run = s.work.first_run := (postPolish_frame cfg env s).2.2.2.2.2.2.2.2.2.2.2.2.1
@[simp] theorem postPolish_clear_update_time (cfg : Cfg) (env : Env d K) (s : Solver d K) : ((postPolish cfg env s).1).work.clear_update_time = s.work.clear_update_time := (postPolish_frame cfg env s).2.2.2.2.2.2.2.2.2.2.2.2.2.1
@[simp] theorem postPolish_rho_update_from_solve (cfg : Cfg) (env : Env d K) (s : Solver d K) : ((postPolish cfg env s).1).work.rho_update_from_solve = s.work.rho_update_from_solve := (postPolish_frame cfg env s).2.2.2.2.2.2.2.2.2.2.2.2.2.2.1
@[simp] theorem postPolish_info_status (cfg : Cfg) (env : Env d K) (s : Solver d K) : ((postPolish cfg env s).1).info.status = s.info.status := (postPolish_frame cfg env s).2.2.2.2.2.2.2.2.2.2.2.2.2.2.2.1
@[simp] theorem postPolish_info_status_val (cfg : Cfg) (env : Env d K) (s : Solver d K) : ((postPolish cfg env s).1).info.status_val = s.info.status_val := (postPolish_frame cfg env s).2.2.2.2.2.2.2.2.2.2.2.2.2.2.2.2.1
@[simp] theorem postPolish_info_iter (cfg : Cfg) (env : Env d K) (s : Solver d K) : ((postPolish cfg env s).1).info.iter = s.info.iter := (postPolish_frame cfg env s).2.2.2.2.2.2.2.2.2.2.2.2.2.2.2.2.2.1
@[simp] theorem postPolish_info_rho_updates (cfg : Cfg) (env : Env d K) (s : Solver d K) : ((postPolish cfg env s).1).info.rho_updates = s.info.rho_updates := (postPolish_frame cfg env s).2.2.2.2.2.2.2.2.2.2.2.2.2.2.2.2.2.2.1
@[simp] theorem postPolish_info_rho_estimate (cfg : Cfg) (env : Env d K) (s : Solver d K) : ((postPolish cfg env s).1).info.rho_estimate = s.info.rho_estimate := (postPolish_frame cfg env s).2.2.2.2.2.2.2.2.2.2.2.2.2.2.2.2.2.2.2.1
@[simp] theorem postPolish_info_setup_time (cfg : Cfg) (env : Env d K) (s : Solver d K) : ((postPolish cfg env s).1).info.setup_time = s.info.setup_time := (postPolish_frame cfg env s).2.2.2.2.2.2.2.2.2.2.2.2.2.2.2.2.2.2.2.2.1
@[simp] theorem postPolish_info_solve_time (cfg : Cfg) (env : Env d K) (s : Solver d K) : ((postPolish cfg env s).1).info.solve_time = s.info.solve_time := (postPolish_frame cfg env s).2.2.2.2.2.2.2.2.2.2.2.2.2.2.2.2.2.2.2.2.2.1
@[simp] theorem postPolish_info_update_time (cfg : Cfg) (env : Env d K) (s : Solver d K) : ((postPolish cfg env s).1).info.update_time = s.info.update_time := (postPolish_frame cfg env s).2.2.2.2.2.2.2.2.2.2.2.2.2.2.2.2.2.2.2.2.2.2.1
@[simp] theorem postPolish_info_run_time (cfg : Cfg) (env : Env d K) (s : Solver d K) : ((postPolish cfg env s).1).info.run_time = s.info.run_time := (postPolish_frame cfg env s).2.2.2.2.2.2.2.2.2.2.2.2.2.2.2.2.2.2.2.2.2.2.2.1
@[simp] theorem postPolish_info_primdual_int (cfg : Cfg) (env : Env d K) (s : Solver d K) : ((postPolish cfg env s).1).info.primdual_int = s.info.primdual_int := (postPolish_frame cfg env s).2.2.2.2.2.2.2.2.2.2.2.2.2.2.2.2.2.2.2.2.2.2.2.2.1
@[simp] theorem postPolish_solution (cfg : Cfg) (env : Env d K) (s : Solver d K) : ((postPolish cfg env s).1).solution = s.solution := (postPolish_frame cfg env s).2.2.2.2.2.2.2.2.2.2.2.2.2.2.2.2.2.2.2.2.2.2.2.2.2.1
@[simp] theorem postPolish_polls (cfg : Cfg) (env : Env d K) (s : Solver d K) : ((postPolish cfg env s).1).polls = s.polls := (postPolish_frame cfg env s).2.2.2.2.2.2.2.2.2.2.2.2.2.2.2.2.2.2.2.2.2.2.2.2.2.2.1
@[simp] theorem postPolish_handler (cfg : Cfg) (env : Env d K) (s : Solver d K) : ((postPolish cfg env s).1).handler = s.handler := (postPolish_frame cfg env s).2.2.2.2.2.2.2.2.2.2.2.2.2.2.2.2.2.2.2.2.2.2.2.2.2.2.2

theorem postTiming_frame (cfg : Cfg) (s : Solver d K) :
  (postTiming cfg s).settings = s.settings ∧
  (postTiming cfg s).work.data = s.work.data ∧
  (postTiming cfg s).work.linsys = s.work.linsys ∧
  (postTiming cfg s).work.rho_vec = s.work.rho_vec ∧
  (postTiming cfg s).work.rho_inv_vec = s.work.rho_inv_vec ∧
  (postTiming cfg s).work.rho_inv = s.work.rho_inv ∧
  (postTiming cfg s).work.constr_type = s.work.constr_type ∧
  (postTiming cfg s).work.x = s.work.x ∧
  (postTiming cfg s).work.y = s.work.y ∧
  (postTiming cfg s).work.z = s.work.z ∧
  (postTiming cfg s).work.x_prev = s.work.x_prev ∧
  (postTiming cfg s).work.z_prev = s.work.z_prev ∧
  (postTiming cfg s).work.Ax = s.work.Ax ∧
  (postTiming cfg s).work.Px = s.work.Px ∧
  (postTiming cfg s).work.Aty = s.work.Aty ∧
  (postTiming cfg s).work.delta_y = s.work.delta_y ∧
  (postTiming cfg s).work.delta_x = s.work.delta_x ∧
  (postTiming cfg s).work.scaling = s.work.scaling ∧
  (postTiming cfg s).work.scaled_prim_res = s.work.scaled_prim_res ∧
  (postTiming cfg s).work.scaled_dual_res = s.work.scaled_dual_res ∧
  (postTiming cfg s).work.scaled_dual_gap = s.work.scaled_dual_gap ∧
  (postTiming cfg s).work.xtPx = s.work.xtPx ∧
  (postTiming cfg s).work.qtx = s.work.qtx ∧
  (postTiming cfg s).work.SC = s.work.SC ∧
  (postTiming cfg s).work.rho_updated = s.work.rho_updated ∧
  (postTiming cfg s).work.last_rel_kkt = s.work.last_rel_kkt ∧
  (postTiming cfg s).info.status = s.info.status ∧
  (postTiming cfg s).info.status_val = s.info.status_val ∧
  (postTiming cfg s).info.status_polish = s.info.status_polish ∧
  (postTiming cfg s).info.obj_val = s.info.obj_val ∧
  (postTiming cfg s).info.dual_obj_val = s.info.dual_obj_val ∧
  (postTiming cfg s).info.prim_res = s.info.prim_res ∧
  (postTiming cfg s).info.dual_res = s.info.dual_res ∧
  (postTiming cfg s).info.duality_gap = s.info.duality_gap ∧
  (postTiming cfg s).info.iter = s.info.iter ∧
  (postTiming cfg s).info.rho_updates = s.info.rho_updates ∧
  (postTiming cfg s).info.rho_estimate = s.info.rho_estimate ∧
  (postTiming cfg s).info.setup_time = s.info.setup_time ∧
  (postTiming cfg s).info.solve_time = s.info.solve_time ∧
  (postTiming cfg s).info.update_time = s.info.update_time ∧
  (postTiming cfg s).info.polish_time = s.info.polish_time ∧
  (postTiming cfg s).info.primdual_int = s.info.primdual_int ∧
  (postTiming cfg s).info.rel_kkt_error = s.info.rel_kkt_error ∧
  (postTiming cfg s).solution = s.solution ∧
  (postTiming cfg s).ticks = s.ticks ∧
  (postTiming cfg s).polls = s.polls ∧
  (postTiming cfg s).handler = s.handler := by
  frame_tac postTiming
@[simp] theorem postTiming_settings (cfg : Cfg) (s : Solver d K) : (postTiming cfg s).settings = s.settings := (postTiming_frame cfg s).1
@[simp] theorem postTiming_data (cfg : Cfg) (s : Solver d K) : (postTiming cfg s).work.data = s.work.data := (postTiming_frame cfg s).2.1
@[simp] theorem postTiming_linsys (cfg : Cfg) (s : Solver d K) : (postTiming cfg s).work.linsys = s.work.linsys := (postTiming_frame cfg s).2.2.1
@[simp] theorem postTiming_rho_vec (cfg : Cfg) (s : Solver d K) : (postTiming cfg s).work.rho_vec = s.work.rho_vec := (postTiming_frame cfg s).2.2.2.1
@[simp] theorem postTiming_rho_inv_vec (cfg : Cfg) (s : Solver d K) : (postTiming cfg s).work.rho_inv_vec = s.work.rho_inv_vec := (postTiming_frame cfg s).2.2.2.2.1
@[simp] theorem postTiming_rho_inv (cfg : Cfg) (s : Solver d K) : (postTiming cfg s).work.rho_inv = s.work.rho_inv := (postTiming_frame cfg s).2.2.2.2.2.1
@[simp] theorem postTiming_constr_type (cfg : Cfg) (s : Solver d K) : (postTiming cfg s).work.constr_type = s.work.constr_type := (postTiming_frame cfg s).2.2.2.2.2.2.1
@[simp] theorem postTiming_x (cfg : Cfg) (s : Solver d K) : (postTiming cfg s).work.x = s.work.x := (postTiming_frame cfg s).2.2.2.2.2.2.2.1
@[simp] theorem postTiming_y (cfg : Cfg) (s : Solver d K) : (postTiming cfg s).work.y = s.work.y := (postTiming_frame cfg s).2.2.2.2.2.2.2.2.1
@[simp] theorem postTiming_z (cfg : Cfg) (s : Solver d K) : (postTiming cfg s).work.z = s.work.z := (postTiming_frame cfg s).2.2.2.2.2.2.2.2.2.1
@[simp] theorem postTiming_x_prev (cfg : Cfg) (s : Solver d K) : (postTiming cfg s).work.x_prev = s.work.x_prev := (postTiming_frame cfg s).2.2.2.2.2.2.2.2.2.2.1
@[simp] theorem postTiming_z_prev (cfg : Cfg) (s : Solver d K) : (postTiming cfg s).work.z_prev = s.work.z_prev := (postTiming_frame cfg s).2.2.2.2.2.2.2.2.2.2.2.1
@[simp] theorem postTiming_Ax (cfg : Cfg) (s : Solver d K) : (postTiming cfg s).work.Ax = s.work.Ax := (postTiming_frame cfg s).2.2.2.2.2.2.2.2.2.2.2.2.1
@[simp] theorem postTiming_Px (cfg : Cfg) (s : Solver d K) : (postTiming cfg s).work.Px = s.work.Px := (postTiming_frame cfg s).2.2.2.2.2.2.2.2.2.2.2.2.2.1
@[simp] theorem postTiming_Aty (cfg : Cfg) (s : Solver d K) : (postTiming cfg s).work.Aty = s.work.Aty := (postTiming_frame cfg s).2.2.2.2.2.2.2.2.2.2.2.2.2.2.1
@[simp] theorem postTiming_delta_y (cfg : Cfg) (s : Solver d K) : (postTiming cfg s).work.delta_y = s.work.delta_y := (postTiming_frame cfg s).2.2.2.2.2.2.2.2.2.2.2.2.2.2.2.1
@[simp] theorem postTiming_delta_x (cfg : Cfg) (s : Solver d K) : (postTiming cfg s).work.delta_x = s.work.delta_x := (postTiming_frame cfg s).2.2.2.2.2.2.2.2.2.2.2.2.2.2.2.2.1
@[simp] theorem postTiming_scaling (cfg : Cfg) (s : Solver d K) : (postTiming cfg s).work.scaling = s.work.scaling := (postTiming_frame cfg s).2.2.2.2.2.2.2.2.2.2.2.2.2.2.2.2.2.1
@[simp] theorem postTiming_scaled_prim_res (cfg : Cfg) (s : Solver d K) : (postTiming cfg s).work.scaled_prim_res = s.work.scaled_prim_res := (postTiming_frame cfg s).2.2.2.2.2.2.2.2.2.2.2.2.2.2.2.2.2.2.1
@[simp] theorem postTiming_scaled_dual_res (cfg : Cfg) (s : Solver d K) : (postTiming cfg s).work.scaled_dual_res = s.work.scaled_dual_res := (postTiming_frame cfg s).2.2.2.2.2.2.2.2.2.2.2.2.2.2.2.2.2.2.2.1
@[simp] theorem postTiming_scaled_dual_gap (cfg : Cfg) (s : Solver d K) : (postTiming cfg s).work.scaled_dual_gap = s.work.scaled_dual_gap := (postTiming_frame cfg s).2.2.2.2.2.2.2.2.2.2.2.2.2.2.2.2.2.2.2.2.1
@[simp] theorem postTiming_xtPx (cfg : Cfg) (s : Solver d K) : (postTiming cfg s).work.xtPx = s.work.xtPx := (postTiming_frame cfg s).2.2.2.2.2.2.2.2.2.2.2.2.2.2.2.2.2.2.2.2.2.1
@[simp] theorem postTiming_qtx (cfg : Cfg) (s : Solver d K) : (postTiming cfg s).work.qtx = s.work.qtx := (postTiming_frame cfg s).2.2.2.2.2.2.2.2.2.2.2.2.2.2.2.2.2.2.2.2.2.2.1
@[simp] theorem postTiming_SC (cfg : Cfg) (s : Solver d K) : (postTiming cfg s).work.SC = s.work.SC := (postTiming_frame cfg s).2.2.2.2.2.2.2.2.2.2.2.2.2.2.2.2.2.2.2.2.2.2.2.1
@[simp] theorem postTiming_rho_updated (cfg : Cfg) (s : Solver d K) : (postTiming cfg s).work.rho_updated = s.work.rho_updated := (postTiming_frame cfg s).2.2.2.2.2.2.2.2.2.2.2.2.2.2.2.2.2.2.2.2.2.2.2.2.1
@[simp] theorem postTiming_last_rel_kkt (cfg : Cfg) (s : Solver d K) : (postTiming cfg s).work.last_rel_kkt = s.work.last_rel_kkt := (postTiming_frame cfg s).2.2.2.2.2.2.2.2.2.2.2.2.2.2.2.2.2.2.2.2.2.2.2.2.2.1
@[simp] theorem postTiming_info_status (cfg : Cfg) (s : Solver d K) : (postTiming cfg s).info.status = s.info.status := (postTiming_frame cfg s).2.2.2.2.2.2.2.2.2.2.2.2.2.2.2.2.2.2.2.2.2.2.2.2.2.2.1
@[simp] theorem postTiming_info_status_val (cfg : Cfg) (s : Solver d K) : (postTiming cfg s).info.status_val = s.info.status_val := (postTiming_frame cfg s).2.2.2.2.2.2.2.2.2.2.2.2.2.2.2.2.2.2.2.2.2.2.2.2.2.2.2.1
@[simp] theorem postTiming_info_status_polish (cfg : Cfg) (s : Solver d K) : (postTiming cfg s).info.status_polish = s.info.status_polish := (postTiming_frame cfg s).2.2.2.2.2.2.2.2.2.2.2.2.2.2.2.2.2.2.2.2.2.2.2.2.2.2.2.2.1
@[simp] theorem postTiming_info_obj_val (cfg : Cfg) (s : Solver d K) : (postTiming cfg s).info.obj_val = s.info.obj_val := (postTiming_frame cfg s).2.2.2.2.2.2.2.2.2.2.2.2.2.2.2.2.2.2.2.2.2.2.2.2.2.2.2.2.2.1
@[simp] theorem postTiming_info_dual_obj_val (cfg : Cfg) (s : Solver d K) : (postTiming cfg s).info.dual_obj_val = s.info.dual_obj_val := (postTiming_frame cfg s).2.2.2.2.2.2.2.2.2.2.2.2.2.2.2.2.2.2.2.2.2.2.2.2.2.2.2.2.2.2.1
@[simp] theorem postTiming_info_prim_res (cfg : Cfg) (s : Solver d K) : (postTiming cfg s).info.prim_res = s.info.prim_res := (postTiming_frame cfg s).2.2.2.2.2.2.2.2.2.2.2.2.2.2.2.2.2.2.2.2.2.2.2.2.2.2.2.2.2.2.2.1
@[simp] theorem postTiming_info_dual_res (cfg : Cfg) (s : Solver d K) : (postTiming cfg s).info.dual_res = s.info.dual_res := (postTiming_frame cfg s).2.2.2.2.2.2.2.2.2.2.2.2.2.2.2.2.2.2.2.2.2.2.2.2.2.2.2.2.2.2.2.2.1
@[simp] theorem postTiming_info_duality_gap (cfg : Cfg) (s : Solver d K) : (postTiming cfg s).info.duality_gap = s.info.duality_gap := (postTiming_frame cfg s).2.2.2.2.2.2.2.2.2.2.2.2.2.2.2.2.2.2.2.2.2.2.2.2.2.2.2.2.2.2.2.2.2.1
@[simp] theorem postTiming_info_iter (cfg : Cfg) (s : Solver d K) : (postTiming cfg s).info.iter = s.info.iter := (postTiming_frame cfg s).2.2.2.2.2.2.2.2.2.2.2.2.2.2.2.2.2.2.2.2.2.2.2.2.2.2.2.2.2.2.2.2.2.2.1
@[simp] theorem postTiming_info_rho_updates (cfg : Cfg) (s : Solver d K) : (postTiming cfg s).info.rho_updates = s.info.rho_updates := (postTiming_frame cfg s).2.2.2.2.2.2.2.2.2.2.2.2.2.2.2.2.2.2.2.2.2.2.2.2.2.2.2.2.2.2.2.2.2.2.2.1
@[simp] theorem postTiming_info_rho_estimate (cfg : Cfg) (s : Solver d K) : (postTiming cfg s).info.rho_estimate = s.info.rho_estimate := (postTiming_frame cfg s).2.2.2.2.2.2.2.2.2.2.2.2.2.2.2.2.2.2.2.2.2.2.2.2.2.2.2.2.2.2.2.2.2.2.2.2.1
@[simp] theorem postTiming_info_setup_time (cfg : Cfg) (s : Solver d K) : (postTiming cfg s).info.setup_time = s.info.setup_time := (postTiming_frame cfg s).2.2.2.2.2.2.2.2.2.2.2.2.2.2.2.2.2.2.2.2.2.2.2.2.2.2.2.2.2.2.2.2.2.2.2.2.2.1
@[simp] theorem postTiming_info_solve_time (cfg : Cfg) (s : Solver d K) : (postTiming cfg s).info.solve_time = s.info.solve_time := (postTiming_frame cfg s).2.2.2.2.2.2.2.2.2.2.2.2.2.2.2.2.2.2.2.2.2.2.2.2.2.2.2.2.2.2.2.2.2.2.2.2.2.2.1
@[simp] theorem postTiming_info_update_time (cfg : Cfg) (s : Solver d K) : (postTiming cfg s).info.update_time = s.info.update_time := (postTiming_frame cfg s).2.2.2.2.2.2.2.2.2.2.2.2.2.2.2.2.2.2.2.2.2.2.2.2.2.2.2.2.2.2.2.2.2.2.2.2.2.2.2.1
@[simp] theorem postTiming_info_polish_time (cfg : Cfg) (s : Solver d K) : (postTiming cfg s).info.polish_time = s.info.polish_time := (postTiming_frame cfg s).2.2.2.2.2.2.2.2.2.2.2.2.2.2.2.2.2.2.2.2.2.2.2.2.2.2.2.2.2.2.2.2.2.2.2.2.2.2.2.2.1
@[simp] theorem postTiming_info_primdual_int (cfg : Cfg) (s : Solver d K) : (postTiming cfg s).info.primdual_int = s.info.primdual_int := (postTiming_frame cfg s).2.2.2.2.2.2.2.2.2.2.2.2.2.2.2.2.2.2.2.2.2.2.2.2.2.2.2.2.2.2.2.2.2.2.2.2.2.2.2.2.2.1
@[simp] theorem postTiming_info_rel_kkt_error (cfg : Cfg) (s : Solver d K) : (postTiming cfg s).info.rel_kkt_error = s.info.rel_kkt_error := (postTiming_frame cfg s).2.2.2.2.2.2.2.2.2.2.2.2.2.2.2.2.2.2.2.2.2.2.2.2.2.2.2.2.2.2.2.2.2.2.2.2.2.2.2.2.2.2.1
@[simp] theorem postTiming_solution (cfg : Cfg) (s : Solver d K) : (postTiming cfg s).solution = s.solution := (postTiming_frame cfg s).2.2.2.2.2.2.2.2.2.2.2.2.2.2.2.2.2.2.2.2.2.2.2.2.2.2.2.2.2.2.2.2.2.2.2.2.2.2.2.2.2.2.2.1
@[simp] theorem postTiming_ticks (cfg : Cfg) (s : Solver d K) : (postTiming cfg s).ticks = s.ticks := (postTiming_frame cfg s).2.2.2.2.2.2.2.2.2.2.2.2.2.2.2.2.2.2.2.2.2.2.2.2.2.2.2.2.2.2.2.2.2.2.2.2.2.2.2.2.2.2.2.2.1
@[simp] theorem postTiming_polls (cfg : Cfg) (s : Solver d K) : (postTiming cfg s).polls = s.polls := (postTiming_frame cfg s).2.2.2.2.2.2.2.2.2.2.2.2.2.2.2.2.2.2.2.2.2.2.2.2.2.2.2.2.2.2.2.2.2.2.2.2.2.2.2.2.2.2.2.2.2.1
@[simp] theorem postTiming_handler (cfg : Cfg) (s : Solver d K) : (postTiming cfg s).handler = s.handler := (postTiming_frame cfg s).2.2.2.2.2.2.2.2.2.2.2.2.2.2.2.2.2.2.2.2.2.2.2.2.2.2.2.2.2.2.2.2.2.2.2.2.2.2.2.2.2.2.2.2.2.2

theorem endListener_frame (cfg : Cfg) (s : Solver d K) :
  (endListener cfg s).settings = s.settings ∧
  (endListener cfg s).work = s.work ∧
  (endListener cfg s).info = s.info ∧
  (endListener cfg s).solution = s.solution ∧
  (endListener cfg s).ticks = s.ticks ∧
  (endListener cfg s).polls = s.polls := by
  frame_tac endListener
@[simp] theorem endListener_settings (cfg : Cfg) (s : Solver d K) : (endListener cfg s).settings = s.settings := (endListener_frame cfg s).1
@[simp] theorem endListener_work (cfg : Cfg) (s : Solver d K) : (endListener cfg s).work = s.work := (endListener_frame cfg s).2.1
@[simp] theorem endListener_info (cfg : Cfg) (s : Solver d K) : (endListener cfg s).info = s.info := (endListener_frame cfg s).2.2.1
@[simp] theorem endListener_solution (cfg : Cfg) (s : Solver d K) : (endListener cfg s).solution = s.solution := (endListener_frame cfg s).2.2.2.1
@[simp] theorem endListener_ticks (cfg : Cfg) (s : Solver d K) : (endListener cfg s).ticks = s.ticks := (endListener_frame cfg s).2.2.2.2.1
@[simp] theorem endListener_polls (cfg : Cfg) (s : Solver d K) : (endListener cfg s).polls = s.polls := (endListener_frame cfg s).2.2.2.2.2

end Osqp
