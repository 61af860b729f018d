import Verif.Lemmas.Idle

/-!
# Settings updates commute with the other updates
-/

set_option linter.unusedSectionVars false
namespace Osqp
variable {K : Type*} [Field K] [LinearOrder K] [IsStrictOrderedRing K] {d : Dims} (cfg : Cfg) (env : Env d K) {v : Settings K}

/-- The same solver with the settings that `osqp_update_settings` copies from `v` (osqp_api.c:1494-1526). -/
def setNew (v : Settings K) (s : Solver d K) : Solver d K :=
  { s with settings := { s.settings with
      profiler_level := v.profiler_level, verbose := v.verbose, warm_starting := v.warm_starting, polishing := v.polishing, alpha := v.alpha, cg_max_iter := v.cg_max_iter,
      cg_tol_reduction := v.cg_tol_reduction, cg_tol_fraction := v.cg_tol_fraction, cg_precond := v.cg_precond, max_iter := v.max_iter, eps_abs := v.eps_abs, eps_rel := v.eps_rel,
      eps_prim_inf := v.eps_prim_inf, eps_dual_inf := v.eps_dual_inf, scaled_termination := v.scaled_termination, check_termination := v.check_termination, check_dualgap := v.check_dualgap,
      time_limit := v.time_limit, delta := v.delta, polish_refine_iter := v.polish_refine_iter } }

theorem updateSettings_eq (s : Solver d K) (n : Settings K) :
    osqpUpdateSettings cfg s (some n) = if validateSettings cfg n false then (s, Err.settingsValidation) else (setNew n s, 0) := rfl

theorem sn_linsysUpdateRho (s : Solver d K) : linsysUpdateRho env (setNew v s).work.linsys (setNew v s).work.rho_vec (setNew v s).settings.rho =
    linsysUpdateRho env s.work.linsys s.work.rho_vec s.settings.rho := rfl

theorem sn_setRho (s : Solver d K) (r : K) : setRho (setNew v s) r = setNew v (setRho s r) := by
  unfold setRho; dsimp only
  have e : (setNew v s).settings.rho_is_vec = s.settings.rho_is_vec := rfl
  rw [e]; split_ifs <;> rfl

theorem sn_clear (s : Solver d K) : clearUpdateTime (setNew v s) = setNew v (clearUpdateTime s) := by
  unfold clearUpdateTime
  have e : (setNew v s).work = s.work := rfl
  rw [e]; split_ifs <;> rfl

theorem sn_add (s : Solver d K) : addUpdateTime env (setNew v s) = setNew v (addUpdateTime env s) := rfl

theorem sn_osqpUpdateRho (s : Solver d K) (r : K) :
    osqpUpdateRho cfg env (setNew v s) r = (setNew v (osqpUpdateRho cfg env s r).1, (osqpUpdateRho cfg env s r).2) := by
  unfold osqpUpdateRho
  by_cases hr : r ≤ 0
  · rw [if_pos hr, if_pos hr]
  rw [if_neg hr, if_neg hr]
  dsimp only
  have e : (setNew v s).work = s.work := rfl
  have h1 : (if (cfg.profiling && !(setNew v s).work.rho_update_from_solve) = true then clearUpdateTime (setNew v s) else setNew v s) =
      setNew v (if (cfg.profiling && !s.work.rho_update_from_solve) = true then clearUpdateTime s else s) := by
    rw [e, sn_clear]; split_ifs <;> rfl
  rw [h1, sn_setRho, sn_linsysUpdateRho]
  generalize setRho _ r = t
  have e2 : (setNew v t).work = t.work := rfl
  simp only [e2]
  split_ifs <;> rfl

theorem sn_updateRhoVec (s : Solver d K) : updateRhoVec env (setNew v s) = (setNew v (updateRhoVec env s).1, (updateRhoVec env s).2) := by
  have h : setRhoVec (setNew v s) = (setNew v (setRhoVec s).1, (setRhoVec s).2) := rfl
  unfold updateRhoVec
  dsimp only
  rw [h]
  dsimp only
  split_ifs <;> rfl

theorem sn_vecTail (q : Option (Vec K d.n)) (b : Bool) (s : Solver d K) : vecTail cfg env q b (setNew v s) = (setNew v (vecTail cfg env q b s).1, (vecTail cfg env q b s).2) := by
  unfold vecTail
  dsimp only
  have e : (setNew v s).settings.rho_is_vec = s.settings.rho_is_vec := rfl
  have h1 : (if (b && decide ((setNew v s).settings.rho_is_vec ≠ 0)) = true then updateRhoVec env (setNew v s) else (setNew v s, 0)) =
      (setNew v (if (b && decide (s.settings.rho_is_vec ≠ 0)) = true then updateRhoVec env s else (s, 0)).1,
        (if (b && decide (s.settings.rho_is_vec ≠ 0)) = true then updateRhoVec env s else (s, 0)).2) := by
    rw [e, sn_updateRhoVec]; split_ifs <;> rfl
  rw [h1]
  generalize (if (b && decide (s.settings.rho_is_vec ≠ 0)) = true then updateRhoVec env s else (s, 0)) = r
  obtain ⟨t, ef⟩ := r
  dsimp only
  by_cases hp : cfg.profiling = true
  · simp only [hp, if_true]
    cases q with
    | none => rfl
    | some q => dsimp only; by_cases hs : t.settings.scaling ≠ 0 <;> rfl
  · simp only [if_neg hp]
    cases q with
    | none => rfl
    | some q => dsimp only; by_cases hs : t.settings.scaling ≠ 0 <;> rfl

theorem sn_if {P : Prop} [Decidable P] {x y x' y' : Solver d K × ℤ} (h1 : x = (setNew v x'.1, x'.2)) (h2 : y = (setNew v y'.1, y'.2)) :
    (if P then x else y) = (setNew v (if P then x' else y').1, (if P then x' else y').2) := by
  split_ifs <;> assumption

theorem sn_vecCore (q : Option (Vec K d.n)) (l u : Option (Vec K d.m)) (s : Solver d K) :
    vecCore cfg env q l u (setNew v s) = (setNew v (vecCore cfg env q l u s).1, (vecCore cfg env q l u s).2) := by
  cases l with
  | none => cases u with
    | none => exact sn_vecTail cfg env q false s
    | some u => exact sn_if rfl (sn_vecTail cfg env q true { s with work := { s.work with delta_y := s.work.data.u, data := { s.work.data with u := scaled s u } } })
  | some l => cases u with
    | none => exact sn_if rfl (sn_vecTail cfg env q true { s with work := { s.work with z_prev := s.work.data.l, data := { s.work.data with l := scaled s l } } })
    | some u => exact sn_if rfl (sn_vecTail cfg env q true
        { s with work := { s.work with z_prev := s.work.data.l, delta_y := s.work.data.u, data := { s.work.data with l := scaled s l, u := scaled s u } } })

theorem sn_updateVec (q : Option (Vec K d.n)) (l u : Option (Vec K d.m)) (s : Solver d K) :
    osqpUpdateDataVec cfg env (setNew v s) q l u = (setNew v (osqpUpdateDataVec cfg env s q l u).1, (osqpUpdateDataVec cfg env s q l u).2) := by
  have h0 : (if cfg.profiling = true then clearUpdateTime (setNew v s) else setNew v s) = setNew v (if cfg.profiling = true then clearUpdateTime s else s) := by
    rw [sn_clear]; split_ifs <;> rfl
  rw [vec_core, vec_core, h0, sn_vecCore]

theorem sn_updateMat (p a : MatUpd K) (s : Solver d K) :
    osqpUpdateDataMat cfg env (setNew v s) p a = (osqpUpdateDataMat cfg env s p a).map (fun r => (setNew v r.1, r.2)) := by
  unfold osqpUpdateDataMat
  have h0 : (if cfg.profiling = true then clearUpdateTime (setNew v s) else setNew v s) = setNew v (if cfg.profiling = true then clearUpdateTime s else s) := by
    rw [sn_clear]; split_ifs <;> rfl
  rw [h0]
  generalize (if cfg.profiling = true then clearUpdateTime s else s) = s
  dsimp only
  by_cases h1 : matUpdBad d.P.nnz p = true
  · rw [if_pos h1, if_pos h1]; rfl
  rw [if_neg h1, if_neg h1]
  by_cases h2 : matUpdBad d.A.nnz a = true
  · rw [if_pos h2, if_pos h2]; rfl
  rw [if_neg h2, if_neg h2]
  have e1 : (setNew v s).settings.scaling = s.settings.scaling := rfl
  have e2 : (setNew v s).work = s.work := rfl
  have e3 : (setNew v s).info = s.info := rfl
  simp only [e1, e2, e3]
  generalize (if s.settings.scaling ≠ 0 then unscaleData s.work.scaling s.work.data else s.work.data) = D0
  cases matUpdApply D0.P p with
  | none => rfl
  | some P =>
    cases matUpdApply D0.A a with
    | none => rfl
    | some A =>
      dsimp only
      generalize (if s.settings.scaling ≠ 0 then scaleData env s.settings.scaling { D0 with P := P, A := A } else ({ D0 with P := P, A := A }, s.work.scaling)) = r
      generalize (if s.settings.scaling ≠ 0 then linsysUpdateMat env s.work.linsys r.1 none d.P.nnz none d.A.nnz
        else linsysUpdateMat env s.work.linsys r.1 p.idx (matUpdCnt d.P.nnz p) a.idx (matUpdCnt d.A.nnz a)) = w
      cases w with
      | none => rfl
      | some w => obtain ⟨ls, ef⟩ := w; dsimp only; split_ifs <;> rfl

end Osqp
