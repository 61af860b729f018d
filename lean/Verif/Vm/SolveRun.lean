import Verif.Vm.SolveLemmas
import Verif.Lemmas.Twin

/-!
# `osqp_solve` on memory computes `osqp_solve` of the solver layer: the whole call
-/

set_option linter.unusedSectionVars false
namespace Osqp.Vm
open Csc
variable {L K : Type*} [Field K] [LinearOrder K] {d : Dims}
variable {F : Fix L K} {R : LinSys d K → L → Prop} {M0 M : Mach L K} {s s' : Solver d K} {c c' : Scr d K}

/-- The memory shows `s`, whatever is in the work vectors. -/
def Sx (F : Fix L K) (R : LinSys d K → L → Prop) (M0 : Mach L K) (s : Solver d K) (M : Mach L K) : Prop := ∃ c, Sh F R M0 s c M

abbrev _root_.Osqp.Solver.so (s : Solver d K) (v : Solution d K) : Solver d K := { s with solution := some v }

variable [IsStrictOrderedRing K]

/-- Scalars are assigned. -/
scoped macro "assign" h:term : tactic => `(tactic| ((try dsimp only); exact Sh.upd $h rfl vv rr rfl))

/-! ## Storing the solution -/

theorem unscale_ok {sol : Solution d K} (hs : s.solution = some sol) (hc : s.settings.scaling ≠ 0) (h : Sh F R M0 s c M) :
    Ok ((M.vec fun W => ewProd (W .xPrev) (W .x) (W .D)).bind fun M =>
      (M.vec fun W => ewProd (W .zPrev) (W .y) (W .E)).bind fun M =>
      M.g.scl.bind fun c =>
      (M.vec fun W => multScalar (W .zPrev) c.2).bind fun M =>
      (M.vec fun W => toRaw (W .solX) (W .xPrev)).bind fun M =>
      M.vec fun W => toRaw (W .solY) (W .zPrev))
    (Sh F R M0 (((s.xp (unscaleSolution s.work.scaling s.work.x s.work.y).1).zp (unscaleSolution s.work.scaling s.work.x s.work.y).2).so
      { sol with x := (unscaleSolution s.work.scaling s.work.x s.work.y).1, y := (unscaleSolution s.work.scaling s.work.x s.work.y).2 }) c) := by
  have e : s = s.so sol := by rw [Solver.so, ← hs]
  clear hs
  rw [e] at h
  set x1 := vEwProd s.work.x s.work.scaling.D with hx1
  set y1 := vEwProd s.work.y s.work.scaling.E with hy1
  refine .bind (h.put (k := .xPrev) rfl (s' := (s.so sol).xp x1) (c' := c)
    (ewProd_holds (h.mem .xPrev _ rfl).toRoom (h.mem .x _ rfl) (h.lay.fits _ _) (h.mem .D _ (if_pos hc)) (h.lay.use _ _)) vv rfl rr) fun M h => ?_
  refine .bind (h.put (k := .zPrev) rfl (s' := ((s.so sol).xp x1).zp y1) (c' := c)
    (ewProd_holds (h.mem .zPrev _ rfl).toRoom (h.mem .y _ rfl) (h.lay.fits _ _) (h.mem .E _ (if_pos hc)) (h.lay.use _ _)) vv rfl rr) fun M h => ?_
  refine .val (v := (s.work.scaling.c, s.work.scaling.cinv)) (by rw [h.g]; exact if_pos hc) ?_
  refine .bind (h.put (k := .zPrev) rfl (s' := ((s.so sol).xp x1).zp (vScale y1 s.work.scaling.cinv)) (c' := c)
    (multScalar_holds (h.mem .zPrev _ rfl) _) vv rfl rr) fun M h => ?_
  refine .bind (h.put (k := .solX) rfl (s' := ((s.xp x1).zp (vScale y1 s.work.scaling.cinv)).so { sol with x := x1 }) (c' := c)
    (toRaw_holds (h.mem .solX _ rfl).toRoom (h.mem .xPrev _ rfl) (h.lay.use _ _)) vv rfl rr) fun M h => ?_
  exact h.put (k := .solY) rfl
    (toRaw_holds (h.mem .solY _ rfl).toRoom (h.mem .zPrev _ rfl) (h.lay.use _ _)) vv rfl rr

theorem copyOut_ok {sol : Solution d K} (hs : s.solution = some sol) (h : Sh F R M0 s c M) :
    Ok ((M.vec fun W => toRaw (W .solX) (W .x)).bind fun M => M.vec fun W => toRaw (W .solY) (W .y))
    (Sh F R M0 (s.so { sol with x := s.work.x, y := s.work.y }) c) := by
  have e : s = s.so sol := by rw [Solver.so, ← hs]
  clear hs
  rw [e] at h
  refine .bind (h.put (k := .solX) rfl (s' := s.so { sol with x := s.work.x }) (c' := c)
    (toRaw_holds (h.mem .solX _ rfl).toRoom (h.mem .x _ rfl) (h.lay.use _ _)) vv rfl rr) fun M h => ?_
  exact h.put (k := .solY) rfl (toRaw_holds (h.mem .solY _ rfl).toRoom (h.mem .y _ rfl) (h.lay.use _ _)) vv rfl rr

theorem certs_ok {sol : Solution d K} (hs : s.solution = some sol) (h : Sh F R M0 s c M) :
    Ok ((M.vec fun W => setScalar (W .dy) (Const.nan K)).bind fun M =>
      (M.vec fun W => setScalar (W .dx) (Const.nan K)).bind fun M =>
      (M.vec fun W => toRaw (W .solPc) (W .dy)).bind fun M =>
      M.vec fun W => toRaw (W .solDc) (W .dx))
    (Sh F R M0 (((s.dy (vSet (Const.nan K))).dx (vSet (Const.nan K))).so
      { sol with prim_inf_cert := vSet (Const.nan K), dual_inf_cert := vSet (Const.nan K) }) c) := by
  have e : s = s.so sol := by rw [Solver.so, ← hs]
  clear hs
  rw [e] at h
  refine .bind (h.put (k := .dy) rfl (s' := (s.so sol).dy (vSet (Const.nan K))) (c' := c) (setScalar_holds (h.mem .dy _ rfl).toRoom _) vv rfl rr) fun M h => ?_
  refine .bind (h.put (k := .dx) rfl (s' := ((s.so sol).dy (vSet (Const.nan K))).dx (vSet (Const.nan K))) (c' := c) (setScalar_holds (h.mem .dx _ rfl).toRoom _) vv rfl rr) fun M h => ?_
  refine .bind (h.put (k := .solPc) rfl (s' := ((s.dy (vSet (Const.nan K))).dx (vSet (Const.nan K))).so { sol with prim_inf_cert := vSet (Const.nan K) }) (c' := c)
    (toRaw_holds (h.mem .solPc _ rfl).toRoom (h.mem .dy _ rfl) (h.lay.use _ _)) vv rfl rr) fun M h => ?_
  exact h.put (k := .solDc) rfl (toRaw_holds (h.mem .solDc _ rfl).toRoom (h.mem .dx _ rfl) (h.lay.use _ _)) vv rfl rr

theorem primCert_ok {sol : Solution d K} (hs : s.solution = some sol) (h : Sh F R M0 s c M) :
    Ok ((normOf M .dy).bind fun r =>
      (M.vec fun W => multScalar (W .dy) (1 / r)).bind fun M =>
      (M.vec fun W => toRaw (W .solPc) (W .dy)).bind fun M =>
      (M.vec fun W => setScalar (W .dx) (Const.nan K)).bind fun M =>
      M.vec fun W => toRaw (W .solDc) (W .dx))
    (Sh F R M0 (((s.dy (vScale s.work.delta_y (1 / vNormInf s.work.delta_y))).dx (vSet (Const.nan K))).so
      { sol with prim_inf_cert := vScale s.work.delta_y (1 / vNormInf s.work.delta_y), dual_inf_cert := vSet (Const.nan K) }) c) := by
  have e : s = s.so sol := by rw [Solver.so, ← hs]
  clear hs
  rw [e] at h
  refine .val (h.norm (k := .dy) rfl) ?_
  set v := vScale s.work.delta_y (1 / vNormInf s.work.delta_y)
  refine .bind (h.put (k := .dy) rfl (s' := (s.so sol).dy v) (c' := c) (multScalar_holds (h.mem .dy _ rfl) _) vv rfl rr) fun M h => ?_
  refine .bind (h.put (k := .solPc) rfl (s' := (s.dy v).so { sol with prim_inf_cert := v }) (c' := c)
    (toRaw_holds (h.mem .solPc _ rfl).toRoom (h.mem .dy _ rfl) (h.lay.use _ _)) vv rfl rr) fun M h => ?_
  refine .bind (h.put (k := .dx) rfl (s' := ((s.dy v).dx (vSet (Const.nan K))).so { sol with prim_inf_cert := v }) (c' := c)
    (setScalar_holds (h.mem .dx _ rfl).toRoom _) vv rfl rr) fun M h => ?_
  exact h.put (k := .solDc) rfl (toRaw_holds (h.mem .solDc _ rfl).toRoom (h.mem .dx _ rfl) (h.lay.use _ _)) vv rfl rr

theorem dualCert_ok {sol : Solution d K} (hs : s.solution = some sol) (h : Sh F R M0 s c M) :
    Ok ((normOf M .dx).bind fun r =>
      (M.vec fun W => multScalar (W .dx) (1 / r)).bind fun M =>
      (M.vec fun W => toRaw (W .solDc) (W .dx)).bind fun M =>
      (M.vec fun W => setScalar (W .dy) (Const.nan K)).bind fun M =>
      M.vec fun W => toRaw (W .solPc) (W .dy))
    (Sh F R M0 (((s.dx (vScale s.work.delta_x (1 / vNormInf s.work.delta_x))).dy (vSet (Const.nan K))).so
      { sol with dual_inf_cert := vScale s.work.delta_x (1 / vNormInf s.work.delta_x), prim_inf_cert := vSet (Const.nan K) }) c) := by
  have e : s = s.so sol := by rw [Solver.so, ← hs]
  clear hs
  rw [e] at h
  refine .val (h.norm (k := .dx) rfl) ?_
  set v := vScale s.work.delta_x (1 / vNormInf s.work.delta_x)
  refine .bind (h.put (k := .dx) rfl (s' := (s.so sol).dx v) (c' := c) (multScalar_holds (h.mem .dx _ rfl) _) vv rfl rr) fun M h => ?_
  refine .bind (h.put (k := .solDc) rfl (s' := (s.dx v).so { sol with dual_inf_cert := v }) (c' := c)
    (toRaw_holds (h.mem .solDc _ rfl).toRoom (h.mem .dx _ rfl) (h.lay.use _ _)) vv rfl rr) fun M h => ?_
  refine .bind (h.put (k := .dy) rfl (s' := ((s.dx v).dy (vSet (Const.nan K))).so { sol with dual_inf_cert := v }) (c' := c)
    (setScalar_holds (h.mem .dy _ rfl).toRoom _) vv rfl rr) fun M h => ?_
  exact h.put (k := .solPc) rfl (toRaw_holds (h.mem .solPc _ rfl).toRoom (h.mem .dy _ rfl) (h.lay.use _ _)) vv rfl rr

theorem storeSolution_ok (h : Sh F R M0 s c M) : Ok (storeSolution F M) (Sh F R M0 (storeOwnSolution s) c) := by
  unfold storeSolution storeOwnSolution
  rcases hs : s.solution with _ | sol
  · rw [if_pos (by rw [h.sol, hs]; rfl)]
    exact .pure h
  rw [if_neg (by rw [h.sol, hs]; simp), h.g]
  unfold Osqp.storeSolution
  dsimp only
  by_cases c1 : hasSolution s.info = true
  · rw [if_pos c1, if_pos c1]
    by_cases c2 : s.settings.scaling ≠ 0
    · rw [if_pos c2, if_pos c2]
      exact .bind (unscale_ok hs c2 h) fun M h => certs_ok rfl h
    · rw [if_neg c2, if_neg c2]
      exact .bind (copyOut_ok hs h) fun M h => certs_ok (s := s.so { sol with x := s.work.x, y := s.work.y }) rfl h
  · rw [if_neg c1, if_neg c1]
    have e : s = s.so sol := by rw [Solver.so, ← hs]
    set nan := Const.nan K
    refine .bind (h.put (k := .x) rfl (s' := s.xx (vSet nan)) (c' := c) (setScalar_holds (h.mem .x _ rfl).toRoom _) vv rfl rr) fun M h => ?_
    refine .bind (h.put (k := .y) rfl (s' := (s.xx (vSet nan)).yy (vSet nan)) (c' := c) (setScalar_holds (h.mem .y _ rfl).toRoom _) vv rfl rr) fun M h => ?_
    rw [← Option.bind_assoc]
    refine .bind (copyOut_ok (s := (s.xx (vSet nan)).yy (vSet nan)) hs h) fun M h => ?_
    refine .bind (coldStart_ok h) fun M h => ?_
    have hg := h.g
    set s1 := (Osqp.coldStart s).so { sol with x := vSet nan, y := vSet nan } with hs1
    have h : Sh F R M0 s1 c M := h
    have ev : M.g.info.status_val = s.info.status_val := by rw [h.g]; rfl
    rw [show (Osqp.coldStart s).info.status_val = s.info.status_val from rfl]
    by_cases c3 : s.info.status_val = St.primInf ∨ s.info.status_val = St.primInfInacc
    · have c4 : ¬ (s.info.status_val = St.dualInf ∨ s.info.status_val = St.dualInfInacc) := by
        rcases c3 with c3 | c3 <;> rw [c3] <;> decide
      rw [if_pos c3, if_neg c4, if_pos (by rw [ev]; exact c3)]
      refine .bind (primCert_ok rfl h) fun M h => ?_
      rw [if_neg (by rw [h.g]; exact c4)]
      exact .pure h
    · rw [if_neg c3, if_neg (by rw [ev]; exact c3)]
      refine .bind (P := Sh F R M0 s1 c) (.pure h) fun M h => ?_
      by_cases c4 : s.info.status_val = St.dualInf ∨ s.info.status_val = St.dualInfInacc
      · rw [if_pos c4, if_pos (by rw [h.g]; exact c4)]
        exact dualCert_ok rfl h
      · rw [if_neg c4, if_neg (by rw [h.g]; exact c4)]
        exact .pure h

/-! ## Step size -/

theorem computeRhoEstimate_ok {env : Env d K} (hs : F.sqrt = env.sqrt) (h : Sh F R M0 s c M) :
    computeRhoEstimate F M = some (Osqp.computeRhoEstimate env s) := by
  unfold computeRhoEstimate
  rw [h.norm (k := .z) rfl, h.norm (k := .Ax) rfl, h.norm (k := .q) rfl, h.norm (k := .Aty) rfl, h.norm (k := .Px) rfl, h.g, hs]
  rfl

theorem rhoVec_ne (ct : Fin d.m → ℤ) {rho : K} (h : 0 < rho) (i : Fin d.m) : rhoVecOf ct rho i ≠ 0 := by
  have h1 : (0 : K) < Const.rhoMin K := rhoMin_pos
  have h2 : (0 : K) < Const.rhoEqOverIneq K := by unfold Const.rhoEqOverIneq; positivity
  unfold rhoVecOf vSetCond
  split_ifs <;> positivity

abbrev _root_.Osqp.Solver.rhoIs (s : Solver d K) (r : K) : Solver d K := { s with settings := { s.settings with rho := r } }
abbrev _root_.Osqp.Solver.rv (s : Solver d K) (v : Vec K d.m) : Solver d K := { s with work := { s.work with rho_vec := v } }
abbrev _root_.Osqp.Solver.rvi (s : Solver d K) (v : Vec K d.m) : Solver d K := { s with work := { s.work with rho_inv_vec := v } }
abbrev _root_.Osqp.Solver.ls (s : Solver d K) (v : LinSys d K) : Solver d K := { s with work := { s.work with linsys := v } }

/-- The vectors of step sizes are recomputed. -/
theorem setRho_ok (rho : K) (h : Sh F R M0 (s.rhoIs (clampRho rho)) c M) :
    Ok (if M.g.st.rho_is_vec ≠ 0 then
      (M.vec fun W => setCond (W .rho) M.ct (Const.rhoMin K) M.g.st.rho (Const.rhoEqOverIneq K * M.g.st.rho)).bind fun M =>
      M.vec fun W => reciprocal (W .rhoInv) (W .rho)
    else some (M.upd fun g => { g with rho_inv := 1 / g.st.rho }))
    (Sh F R M0 (setRho s rho) c) := by
  unfold setRho
  dsimp only
  rw [h.g]
  have hp : (0 : K) < clampRho rho := rhoMin_pos.trans_le (clampRho_lo _)
  by_cases hv : s.settings.rho_is_vec ≠ 0
  · rw [if_pos (show (scal (s.rhoIs (clampRho rho))).st.rho_is_vec ≠ 0 from hv), if_pos hv]
    set v := rhoVecOf s.work.constr_type (clampRho rho) with hvd
    have vv1 : ∀ (w : Vec K d.m), Function.update (vals (s.rhoIs (clampRho rho)) c) .rho (some w) = vals ((s.rhoIs (clampRho rho)).rv w) c := by
      intro w; funext k; cases k
      case rho => exact (if_pos hv).symm
      all_goals rfl
    have vv2 : ∀ (w : Vec K d.m), Function.update (vals ((s.rhoIs (clampRho rho)).rv v) c) .rhoInv (some w) = vals (((s.rhoIs (clampRho rho)).rv v).rvi w) c := by
      intro w; funext k; cases k
      case rhoInv => exact (if_pos hv).symm
      all_goals rfl
    refine .bind (h.put (k := .rho) rfl (s' := (s.rhoIs (clampRho rho)).rv v) (c' := c)
      (setCond_holds (h.mem .rho _ (if_pos hv)).toRoom (h.types hv) _ _ _) (vv1 _) rfl rr) fun M h => ?_
    exact h.put (k := .rhoInv) rfl (s' := ((s.rhoIs (clampRho rho)).rv v).rvi (vRecip v)) (c' := c)
      (reciprocal_holds (h.mem .rhoInv _ (if_pos hv)).toRoom (h.mem .rho _ (if_pos hv)) (h.lay.use _ _) (rhoVec_ne _ hp)) (vv2 _) rfl rr
  · rw [if_neg (show ¬ (scal (s.rhoIs (clampRho rho))).st.rho_is_vec ≠ 0 from hv), if_neg hv]
    refine .pure ?_
    exact h.upd rfl vv rr rfl

/-- The linear-system solver is updated. -/
theorem Sh.newLin {env : Env d K} (hI : Impl env F R) (h : Sh F R M0 s c M) (hp : s.settings.rho ≠ 0) (hv : s.settings.rho_is_vec ≠ 0 → ∀ i, s.work.rho_vec i ≠ 0) :
    Ok (F.updRho M.lin (if M.g.st.rho_is_vec ≠ 0 then some (M.σ (M.W .rho).blk) else none) M.g.st.rho) fun r =>
      Sh F R M0 (s.ls (linsysUpdateRho env s.work.linsys s.work.rho_vec s.settings.rho).1) c { M with lin := r.1 } ∧
      r.2 = (linsysUpdateRho env s.work.linsys s.work.rho_vec s.settings.rho).2 := by
  obtain ⟨lin', e, hR⟩ := hI.update s.work.linsys M.lin (if s.settings.rho_is_vec ≠ 0 then some (M.σ (M.W .rho).blk) else none) s.work.rho_vec s.settings.rho
    h.lin hp fun hs => ⟨hv (h.own hs), _, if_pos (h.own hs), (h.mem .rho _ (if_pos (h.own hs))).arr (h.lay.start _ (by decide))⟩
  refine ⟨_, by rw [h.g]; exact e, ⟨h.lay, h.size, ?_, h.types, hR, fun hs => h.own ?_, h.g, h.P, h.A, h.sol, h.room, h.ptrs, h.ct, h.kept⟩, rfl⟩
  · have : vals (s.ls (linsysUpdateRho env s.work.linsys s.work.rho_vec s.settings.rho).1) c = vals s c := vv
    rw [this]; exact h.mem
  · rcases e : s.work.linsys.rho_inv_vec with _ | w
    · simp [linsysUpdateRho, e] at hs
    · rfl

theorem updateRho_ok {cfg : Cfg} {env : Env d K} (hF : FixIs cfg env F) (hI : Impl env F R) (rho : K) (h : Sh F R M0 s c M) :
    Ok (updateRho F rho M) fun r => Sh F R M0 (osqpUpdateRho cfg env s rho).1 c r.1 ∧ r.2 = (osqpUpdateRho cfg env s rho).2 := by
  obtain ⟨o, ho⟩ : ∃ o, o = osqpUpdateRho cfg env s rho := ⟨_, rfl⟩
  rw [← ho]
  unfold osqpUpdateRho at ho
  unfold updateRho
  by_cases hr : rho ≤ 0
  · rw [if_pos hr] at ho ⊢
    subst ho
    exact .pure ⟨h, rfl⟩
  rw [if_neg hr] at ho ⊢
  extract_lets s1 s2 lr ls ef src s3 s4 at ho
  extract_lets M1 M2
  have h1 : Sh F R M0 s1 c M1 := by
    simp only [M1, s1, hF.cfg, h.g, clearUpdateTime]
    split_ifs
    · assign h
    · exact h
    · exact h
  clear_value M1 s1
  have h2 : Sh F R M0 (s1.rhoIs (clampRho rho)) c M2 := h1.upd rfl vv rr rfl
  clear_value M2
  have hp : (0 : K) < clampRho rho := rhoMin_pos.trans_le (clampRho_lo _)
  refine .bind (setRho_ok rho h2) fun M h => ?_
  have e1 : s2.settings.rho = clampRho rho := by simp only [s2]; unfold setRho; dsimp only; split_ifs <;> rfl
  have e2 : s2.settings.rho_is_vec ≠ 0 → ∀ i, s2.work.rho_vec i ≠ 0 := by
    simp only [s2]; unfold setRho; dsimp only; split_ifs with hv
    · exact fun _ i => rhoVec_ne _ hp i
    · exact fun hv' => absurd hv' hv
  refine .bind (h.newLin hI (by rw [e1]; exact hp.ne') e2) fun q hq => ?_
  obtain ⟨h3, eq⟩ := hq
  extract_lets M3 t M4
  have h3 : Sh F R M0 s3 c M3 := h3
  rw [ho]
  refine .pure ⟨?_, eq⟩
  clear_value s3 M3
  simp only [M4, s4, t, hF.cfg, h3.g, addUpdateTime]
  split_ifs
  · obtain ⟨e, h4⟩ := h3.toc hF.clk
    rw [e]; assign h4
  · exact h3

theorem adaptRho_ok {cfg : Cfg} {env : Env d K} (hF : FixIs cfg env F) (hI : Impl env F R) (h : Sh F R M0 s c M) :
    Ok (adaptRho F M) fun r => Sh F R M0 (Osqp.adaptRho cfg env s).1 c r.1 ∧ r.2 = (Osqp.adaptRho cfg env s).2 := by
  obtain ⟨o, ho⟩ : ∃ o, o = Osqp.adaptRho cfg env s := ⟨_, rfl⟩
  rw [← ho]
  unfold Osqp.adaptRho at ho
  unfold adaptRho
  refine .val (computeRhoEstimate_ok hF.sqrt h) ?_
  dsimp only at ho
  extract_lets M1
  set rn := Osqp.computeRhoEstimate env s
  set s1 := Solver.inf s fun i => { i with rho_estimate := rn } with hs1
  have h1 : Sh F R M0 s1 c M1 := h.upd rfl vv rr rfl
  clear_value M1
  rw [h1.g]
  refine .ite (fun c1 => ?_) fun c1 => ?_
  · rw [if_pos c1] at ho
    subst ho
    refine .bind (updateRho_ok hF hI rn h1) fun q hq => ?_
    refine .pure ⟨?_, hq.2⟩
    assign hq.1
  · rw [if_neg c1] at ho
    subst ho
    exact .pure ⟨h1, rfl⟩

/-! ## The loop -/

theorem adaptDecision_ok {cfg : Cfg} {env : Env d K} (hF : FixIs cfg env F) (iter : ℤ) (h : Sh F R M0 s c M) :
    Sh F R M0 (Osqp.adaptDecision cfg env iter s).1 c (adaptDecision F iter M).1 ∧ (adaptDecision F iter M).2 = (Osqp.adaptDecision cfg env iter s).2 := by
  obtain ⟨e, h1⟩ := h.toc hF.clk
  have hg := h1.g
  unfold adaptDecision Osqp.adaptDecision
  dsimp only
  rw [h.g, hF.cfg, e, hg]
  have h2 := h1.upd (f := fun g => { g with st := { g.st with adaptive_rho_interval := timeInterval g.st iter } })
    (s' := { (Osqp.toc env s).2 with settings := { s.settings with adaptive_rho_interval := timeInterval s.settings iter } }) (c' := c) rfl vv rr rfl
  have hg2 := h2.g
  split_ifs <;> first | exact ⟨h, rfl⟩ | exact ⟨h1, rfl⟩ | exact ⟨h2, by rw [hg2]; rfl⟩

theorem timeCheck_ok {cfg : Cfg} {env : Env d K} (hF : FixIs cfg env F) (h : Sh F R M0 s c M) :
    Sh F R M0 (Osqp.timeCheck cfg env s).1 c (timeCheck F M).1 ∧ (timeCheck F M).2 = (Osqp.timeCheck cfg env s).2 := by
  obtain ⟨e, h1⟩ := h.toc hF.clk
  have hg := h1.g
  unfold timeCheck Osqp.timeCheck
  dsimp only
  rw [hF.cfg]
  cases cfg.profiling
  · exact ⟨h, rfl⟩
  · simp only [if_true]
    rw [e, hg]; exact ⟨h1, rfl⟩

theorem intrCheck_ok {cfg : Cfg} {env : Env d K} (hF : FixIs cfg env F) (h : Sh F R M0 s c M) :
    Sh F R M0 (Osqp.intrCheck cfg env s).1 c (intrCheck F M).1 ∧ (intrCheck F M).2 = (Osqp.intrCheck cfg env s).2 := by
  unfold intrCheck Osqp.intrCheck
  rw [hF.cfg, hF.intr]
  split_ifs
  · refine ⟨?_, by rw [h.g]⟩
    assign h
  · exact ⟨h, rfl⟩

theorem adaptPhase_ok {cfg : Cfg} {env : Env d K} (hF : FixIs cfg env F) (hI : Impl env F R) (canAdapt : Bool) (h : Sh F R M0 s c M) :
    Ok (adaptPhase F canAdapt M) fun r => Sh F R M0 (Osqp.adaptPhase cfg env canAdapt s).1 c r.1 ∧ r.2 = (Osqp.adaptPhase cfg env canAdapt s).2 := by
  obtain ⟨o, ho⟩ : ∃ o, o = Osqp.adaptPhase cfg env canAdapt s := ⟨_, rfl⟩
  rw [← ho]
  unfold Osqp.adaptPhase at ho
  unfold adaptPhase
  dsimp only at ho
  extract_lets M1 ca'
  set s1 : Solver d K := { s with work := { s.work with rho_updated := false } } with hs1
  have h1 : Sh F R M0 s1 c M1 := h.upd rfl vv rr rfl
  set ca := if (canAdapt && decide (s.settings.adaptive_rho = 3)) = true then
      decide (s.info.rel_kkt_error ≤ s.settings.adaptive_rho_fraction * s.work.last_rel_kkt) else canAdapt with hca
  have ec : ca' = ca := by simp only [ca', h1.g, hca]; rfl
  rw [ec]
  clear_value M1 ca
  set r := if ca = true then Osqp.adaptRho cfg env s1 else (s1, 0) with hr
  change o = if r.2 ≠ 0 then (r.1, true) else if r.1.work.rho_updated = true then ({ r.1 with work := { r.1.work with last_rel_kkt := r.1.info.rel_kkt_error } }, false) else (r.1, false) at ho
  refine .bind (P := fun q => Sh F R M0 r.1 c q.1 ∧ q.2 = r.2) ?_ fun q hq => ?_
  · rw [hr]; split_ifs
    · exact adaptRho_ok hF hI h1
    · exact .pure ⟨h1, rfl⟩
  obtain ⟨h2, eq⟩ := hq
  clear_value r
  dsimp only
  rw [eq, h2.g, ho]
  split_ifs
  · exact .pure ⟨h2, rfl⟩
  · refine .pure ⟨?_, rfl⟩
    assign h2
  · exact .pure ⟨h2, rfl⟩

theorem admm_scal (env : Env d K) (s : Solver d K) : scal (admmStep env s) = scal s := rfl

/-- One iteration. -/
theorem iterate_ok {env : Env d K} (hI : Impl env F R) (h : Sx F R M0 s M) :
    Ok (iterate M.g.st M.g.rho_inv (F.solve M.lin) F.xz M.W M.σ) fun r => Sx F R M0 (admmStep env s) { M with W := r.1, σ := r.2 } := by
  obtain ⟨c, h⟩ := h
  obtain ⟨σ', e, ⟨hz, c', hm⟩, hk⟩ := iterate_goes (hI.solve _ _ h.lin) h.lay ⟨h.size, c, h.mem⟩
  refine ⟨_, by rw [h.g]; exact e, c', h.lay.perm mate mate_inj rfl rfl, hz, hm, h.types, h.lin, h.own, h.g, h.P, h.A, h.sol, fun k hk' => ?_, ?_, h.ct, ?_⟩
  · have em : mate k = k := by cases k <;> first | rfl | cases hk'
    obtain ⟨a1, a2⟩ := pol_apart h.lay hk'
    have r := h.room k hk'
    refine ⟨by show (M.W (mate k)).len = _; rw [em]; exact r.1, ?_⟩
    show (M.W (mate k)).off + _ ≤ (σ' (M.W (mate k)).blk).size
    rw [em, hk _ a1 fun j hj => a2 j ?_]
    · exact r.2
    · simp only [List.mem_cons, List.not_mem_nil, or_false] at hj
      rcases hj with rfl | rfl | rfl | rfl | rfl | rfl | rfl <;> rfl
  · rcases h.ptrs with e | e
    · right; show (fun k => M.W (mate k)) = _; rw [e]
    · left; show (fun k => M.W (mate k)) = _; rw [e]; funext k; cases k <;> rfl
  · intro b hb hb'
    show σ' b = _
    rw [hk b hb fun k hk' => ?_, h.kept b hb hb']
    have hmu : k.mut = true := by
      simp only [List.mem_cons, List.not_mem_nil, or_false] at hk'
      rcases hk' with rfl | rfl | rfl | rfl | rfl | rfl | rfl <;> rfl
    rcases h.ptrs with e | e
    · rw [e]; exact hb' k (.inl hmu)
    · rw [e]; exact hb' (mate k) (.inl (by rw [mut_mate]; exact hmu))

/-- The loop variables agree. -/
structure LRel (F : Fix L K) (R : LinSys d K → L → Prop) (M0 : Mach L K) (l : LoopM L K) (l' : LoopSt d K) : Prop where
  s : Sx F R M0 l'.s l.M
  print : l.canPrint = l'.canPrint
  check : l.canCheck = l'.canCheck

/-- The ends of a pass agree. -/
def IRel (F : Fix L K) (R : LinSys d K → L → Prop) (M0 : Mach L K) : IterM L K → IterOut d K → Prop
  | .cont l, .cont l' => LRel F R M0 l l'
  | .brk l, .brk l' => LRel F R M0 l l'
  | .exit M, .exit s => Sx F R M0 s M
  | _, _ => False

/-- The ends of the loop agree. -/
def ERel (F : Fix L K) (R : LinSys d K → L → Prop) (M0 : Mach L K) : LoopEnd L K → LoopOut d K → Prop
  | .done i l, .done i' l' => i = i' ∧ LRel F R M0 l l'
  | .exit M, .exit s => Sx F R M0 s M
  | _, _ => False

theorem iterBody_ok {cfg : Cfg} {env : Env d K} (hF : FixIs cfg env F) (hI : Impl env F R) (iter : ℤ) {l : LoopM L K} {l' : LoopSt d K} (h : LRel F R M0 l l') :
    Ok (iterBody F iter l) fun r => IRel F R M0 r (Osqp.iterBody cfg env iter l') := by
  obtain ⟨o, ho⟩ : ∃ o, o = Osqp.iterBody cfg env iter l' := ⟨_, rfl⟩
  rw [← ho]
  unfold Osqp.iterBody at ho
  unfold iterBody
  refine .bind (iterate_ok hI h.s) fun q hq => ?_
  obtain ⟨c, h1⟩ := hq
  dsimp only at ho ⊢
  generalize { l.M with W := q.1, σ := q.2 } = M1 at h1 ⊢
  generalize admmStep env l'.s = s1 at h1 ho
  obtain ⟨h2, e2⟩ := intrCheck_ok hF h1
  rw [e2]
  generalize (intrCheck F M1).1 = M2 at h2 ⊢
  generalize Osqp.intrCheck cfg env s1 = r2 at h2 ho ⊢
  obtain ⟨s2, hit⟩ := r2
  dsimp only at h2 ho ⊢
  cases hit
  swap
  · simp only [if_true] at ho ⊢
    subst ho
    exact .pure ⟨c, h2.status _⟩
  simp only [Bool.false_eq_true, if_false] at ho ⊢
  obtain ⟨h3, e3⟩ := timeCheck_ok hF h2
  rw [e3]
  generalize (timeCheck F M2).1 = M3 at h3 ⊢
  generalize Osqp.timeCheck cfg env s2 = r3 at h3 ho ⊢
  obtain ⟨s3, late⟩ := r3
  dsimp only at h3 ho ⊢
  cases late
  swap
  · simp only [if_true] at ho ⊢
    subst ho
    exact .pure ⟨⟨c, h3.status _⟩, by simp only [hF.cfg, h.print], h.check⟩
  simp only [Bool.false_eq_true, if_false] at ho ⊢
  obtain ⟨h4, e4⟩ := adaptDecision_ok hF iter h3
  rw [e4, h3.g, hF.cfg]
  set cc := decide (s3.settings.check_termination ≠ 0) && decide (iter % s3.settings.check_termination = 0) with hcc
  set cp := cfg.printing && decide (s3.settings.verbose ≠ 0) && (decide (iter % 200 = 0) || decide (iter = 1)) with hcp
  generalize (adaptDecision F iter M3).1 = M4 at h4 ⊢
  generalize Osqp.adaptDecision cfg env iter s3 = r4 at h4 ho ⊢
  obtain ⟨s4, ca⟩ := r4
  dsimp only at h4 ho ⊢
  clear_value cc cp
  set s5 := if (cc || cp || ca || decide (iter = 1)) = true then Osqp.updateInfo cfg env iter s4 else s4 with hs5
  refine .bind (P := Sh F R M0 s5 c) ?_ fun M5 h5 => ?_
  · rw [hs5]; split_ifs
    · exact updateInfo_ok hF iter h4
    · exact .pure h4
  clear_value s5
  set r6 := if cc = true then Osqp.checkTermination false s5 else (s5, false) with hr6
  refine .bind (P := fun q => Sx F R M0 r6.1 q.1 ∧ q.2 = r6.2) ?_ fun q h6 => ?_
  · rw [hr6]; split_ifs
    · exact checkTermination_ok hF false h5
    · exact .pure ⟨⟨c, h5⟩, rfl⟩
  clear_value r6
  obtain ⟨s6, stop⟩ := r6
  obtain ⟨M6, q6⟩ := q
  obtain ⟨⟨c, h6⟩, e6⟩ := h6
  dsimp only at h6 e6 ho ⊢
  subst e6
  cases q6
  swap
  · simp only [if_true] at ho ⊢
    subst ho
    exact .pure ⟨⟨c, h6⟩, rfl, rfl⟩
  simp only [Bool.false_eq_true, if_false] at ho ⊢
  refine .bind (adaptPhase_ok hF hI ca h6) fun q h7 => ?_
  obtain ⟨h7, e7⟩ := h7
  rw [e7]
  generalize Osqp.adaptPhase cfg env ca s6 = r7 at h7 ho ⊢
  obtain ⟨s7, fail⟩ := r7
  dsimp only at h7 ho ⊢
  cases fail
  · simp only [Bool.false_eq_true, if_false] at ho ⊢
    subst ho
    exact .pure ⟨⟨c, h7⟩, rfl, rfl⟩
  · simp only [if_true] at ho ⊢
    subst ho
    exact .pure ⟨c, h7⟩

theorem loop_ok {cfg : Cfg} {env : Env d K} (hF : FixIs cfg env F) (hI : Impl env F R) (k : ℕ) :
    ∀ (iter : ℤ) {l : LoopM L K} {l' : LoopSt d K}, LRel F R M0 l l' → Ok (loop F k iter l) fun r => ERel F R M0 r (admmLoop cfg env k iter l') := by
  induction k with
  | zero => exact fun iter l l' h => .pure ⟨rfl, h⟩
  | succ k ih =>
    intro iter l l' h
    unfold loop admmLoop
    refine .bind (iterBody_ok hF hI iter h) fun r hr => ?_
    cases r <;> cases e : Osqp.iterBody cfg env iter l' <;> rw [e] at hr <;> dsimp only [IRel] at hr ⊢ <;> first | exact hr.elim | skip
    · exact ih (iter + 1) hr
    · exact .pure ⟨rfl, hr⟩
    · exact .pure hr

/-! ## Before and after the loop -/

theorem solveEntry_ok {cfg : Cfg} {env : Env d K} (hF : FixIs cfg env F) (h : Sh F R M0 s c M) :
    Ok (solveEntry F M) fun l => LRel F R M0 l (Osqp.solveEntry cfg s) := by
  obtain ⟨o, ho⟩ : ∃ o, o = Osqp.solveEntry cfg s := ⟨_, rfl⟩
  rw [← ho]
  unfold Osqp.solveEntry at ho
  unfold solveEntry
  extract_lets i0 s0 w0 s1 s2 s3 at ho
  extract_lets Ma M1 M2
  have h1 : Sh F R M0 s1 c M1 := by
    have ha : Sh F R M0 s0 c Ma := by
      simp only [Ma, s0, i0, h.g]
      split_ifs
      · assign h
      · exact h
    clear_value Ma s0
    simp only [M1, s1, w0, hF.cfg]
    cases cfg.profiling
    · exact h
    · simp only [if_true]
      assign ha
  clear_value s1 M1
  have h2 : Sh F R M0 s2 c M2 := by
    simp only [M2, s2, hF.cfg]
    cases cfg.interrupt
    · exact h1
    · simp only [if_true]
      assign h1
  clear_value s2 M2
  refine .bind (P := Sh F R M0 s3 c) ?_ fun M h => ?_
  · rw [h2.g]
    simp only [s3]
    refine .ite (fun c1 => ?_) fun c1 => ?_
    · rw [if_pos c1]; exact coldStart_ok h2
    · rw [if_neg c1]; exact .pure h2
  rw [ho]
  exact .pure ⟨⟨c, h⟩, by rw [h.g, hF.cfg], rfl⟩

theorem postCheck_ok {cfg : Cfg} {env : Env d K} (hF : FixIs cfg env F) (iter : ℤ) {l : LoopM L K} {l' : LoopSt d K} (h : LRel F R M0 l l') :
    Ok (postCheck F iter l) (Sx F R M0 (Osqp.postCheck cfg env iter l')) := by
  obtain ⟨⟨c, h1⟩, h2, h3⟩ := h
  unfold postCheck Osqp.postCheck
  rw [h2, h3, hF.cfg]
  split_ifs with c1 c2
  · exact .bind (P := Sh F R M0 l'.s c) (.pure h1) fun M h => .bind (checkTermination_ok hF false h) fun q hq => .pure hq.1
  · exact .bind (updateInfo_ok hF (iter - 1) h1) fun M h => .bind (checkTermination_ok hF false h) fun q hq => .pure hq.1
  · exact .pure ⟨c, h1⟩

theorem postObj_ok (h : Sx F R M0 s M) : Ok (postObj M) (Sx F R M0 (Osqp.postObj s)) := by
  obtain ⟨c, h⟩ := h
  unfold postObj Osqp.postObj
  rw [h.g]
  refine .ite (fun c1 => ?_) fun c1 => ?_
  · dsimp only
    rw [if_pos c1]
    refine .bind (computeObj_ok h) fun q hq => ?_
    obtain ⟨h1, eq⟩ := hq
    rw [eq]
    refine .pure ⟨c, ?_⟩
    assign h1
  · dsimp only
    rw [if_neg c1]
    exact .pure ⟨c, h⟩

theorem approx_ok {cfg : Cfg} {env : Env d K} (hF : FixIs cfg env F) (v : ℤ) (h : Sx F R M0 s M) :
    Ok ((checkTermination F true M).bind fun r => some (if r.2 then r.1 else r.1.status v))
      (Sx F R M0 (if (Osqp.checkTermination true s).2 then (Osqp.checkTermination true s).1 else setStatus (Osqp.checkTermination true s).1 v)) := by
  obtain ⟨c, h⟩ := h
  refine .bind (checkTermination_ok hF true h) fun q hq => ?_
  obtain ⟨⟨c, h1⟩, eq⟩ := hq
  rw [eq]
  refine .pure ⟨c, ?_⟩
  split_ifs
  · exact h1
  · exact h1.status v

theorem postMaxIter_ok {cfg : Cfg} {env : Env d K} (hF : FixIs cfg env F) (h : Sx F R M0 s M) : Ok (postMaxIter F M) (Sx F R M0 (Osqp.postMaxIter s)) := by
  unfold postMaxIter Osqp.postMaxIter
  obtain ⟨c, h'⟩ := id h
  rw [h'.g]
  refine .ite (fun c1 => ?_) fun c1 => ?_
  · rw [if_pos c1]; exact approx_ok hF _ h
  · rw [if_neg c1]; exact .pure h

theorem postTimeLimit_ok {cfg : Cfg} {env : Env d K} (hF : FixIs cfg env F) (h : Sx F R M0 s M) : Ok (postTimeLimit F M) (Sx F R M0 (Osqp.postTimeLimit cfg s)) := by
  unfold postTimeLimit Osqp.postTimeLimit
  obtain ⟨c, h'⟩ := id h
  rw [h'.g, hF.cfg]
  refine .ite (fun c1 => ?_) fun c1 => ?_
  · rw [if_pos c1]; exact approx_ok hF _ h
  · rw [if_neg c1]; exact .pure h

theorem postRho_ok {cfg : Cfg} {env : Env d K} (hF : FixIs cfg env F) (h : Sx F R M0 s M) : Ok (postRho F M) (Sx F R M0 (Osqp.postRho cfg env s)) := by
  obtain ⟨c, h⟩ := h
  unfold postRho Osqp.postRho
  refine .val (computeRhoEstimate_ok hF.sqrt h) ?_
  extract_lets M1
  set s1 := Solver.inf s fun i => { i with rho_estimate := Osqp.computeRhoEstimate env s } with hs1
  have h1 : Sh F R M0 s1 c M1 := h.upd rfl vv rr rfl
  clear_value M1
  refine .pure ⟨c, ?_⟩
  dsimp only
  rw [hF.cfg]
  cases cfg.profiling
  · exact h1
  · simp only [if_true]
    obtain ⟨e, h2⟩ := h1.toc hF.clk
    rw [e]; assign h2

theorem postTiming_ok {cfg : Cfg} {env : Env d K} (hF : FixIs cfg env F) (h : Sh F R M0 s c M) : Sh F R M0 (Osqp.postTiming cfg s) c (postTiming F M) := by
  unfold postTiming Osqp.postTiming
  rw [hF.cfg]
  cases cfg.profiling
  · exact h
  · simp only [if_true]
    rw [h.g]; assign h

theorem endListener_ok {cfg : Cfg} {env : Env d K} (hF : FixIs cfg env F) (h : Sh F R M0 s c M) : Sh F R M0 (Osqp.endListener cfg s) c (endListener F M) := by
  unfold endListener Osqp.endListener
  rw [hF.cfg]
  cases cfg.interrupt
  · exact h
  · simp only [if_true]
    assign h

theorem finish_ok {cfg : Cfg} {env : Env d K} (hF : FixIs cfg env F)
    (hP : s.settings.polishing ≠ 0 → Sx F R M0 s M → Ok (F.polish M) fun r => Sx F R M0 (polish cfg env s).1 r.1 ∧ r.2 = (polish cfg env s).2)
    (h : Sx F R M0 s M) : Ok (finish F M) fun r => Sx F R M0 (Osqp.finish cfg env s).1 r.1 ∧ r.2 = (Osqp.finish cfg env s).2 := by
  obtain ⟨o, ho⟩ : ∃ o, o = Osqp.finish cfg env s := ⟨_, rfl⟩
  rw [← ho]
  unfold Osqp.finish at ho
  unfold finish
  dsimp only at ho
  refine .bind (P := fun r => Sx F R M0 (postPolish cfg env s).1 r.1 ∧ r.2 = (postPolish cfg env s).2) ?_ fun q hq => ?_
  · unfold postPolish
    obtain ⟨c, h'⟩ := id h
    rw [h'.g]
    refine .ite (fun c1 => ?_) fun c1 => ?_
    · rw [if_pos c1]; exact hP c1.1 h
    · rw [if_neg c1]; exact .pure ⟨h, rfl⟩
  obtain ⟨⟨c, h1⟩, eq⟩ := hq
  dsimp only
  rw [eq, ho]
  refine .ite (fun c1 => ?_) fun c1 => ?_
  · rw [if_pos c1]; exact .pure ⟨⟨c, endListener_ok hF h1⟩, rfl⟩
  · rw [if_neg c1]
    exact .bind (storeSolution_ok (postTiming_ok hF h1)) fun M h => .pure ⟨⟨c, endListener_ok hF h⟩, rfl⟩

/-- The state before polishing has the polishing setting off if the first state has. -/
theorem postLoop_polish {cfg : Cfg} {env : Env d K} (h : s.settings.polishing = 0) {i : ℤ} {l : LoopSt d K}
    (e : admmLoop cfg env (Osqp.solveEntry cfg s).s.settings.max_iter.toNat 1 (Osqp.solveEntry cfg s) = .done i l) :
    (postLoop cfg env i l).settings.polishing = 0 := by
  have hs : noPolish s = s := by unfold noPolish; rw [← h]
  have h1 := np_entry (cfg := cfg) s
  rw [hs] at h1
  have h2 := np_loop (cfg := cfg) (env := env) (Osqp.solveEntry cfg s).s.settings.max_iter.toNat 1 (Osqp.solveEntry cfg s)
  rw [← h1, e] at h2
  have h3 : l = l.noPolish := by injection h2
  rw [postLoop_settings, h3]
  rfl

theorem solve_ok {cfg : Cfg} {env : Env d K} (hF : FixIs cfg env F) (hI : Impl env F R)
    (hP : s.settings.polishing ≠ 0 → ∀ s' M, Sx F R M0 s' M →
      Ok (F.polish M) fun r => Sx F R M0 (polish cfg env s').1 r.1 ∧ r.2 = (polish cfg env s').2)
    (h : Sh F R M0 s c M) : Ok (solve F M) fun r => Sx F R M0 (osqpSolve cfg env s).1 r.1 ∧ r.2 = (osqpSolve cfg env s).2 := by
  unfold solve osqpSolve
  refine .bind (solveEntry_ok (env := env) hF h) fun l hl => ?_
  have ek : l.M.g.st.max_iter = (Osqp.solveEntry cfg s).s.settings.max_iter := by
    obtain ⟨c, h⟩ := hl.s; rw [h.g]
  rw [ek]
  refine .bind (loop_ok hF hI _ 1 hl) fun r hr => ?_
  dsimp only
  cases r <;> cases e : admmLoop cfg env (Osqp.solveEntry cfg s).s.settings.max_iter.toNat 1 (Osqp.solveEntry cfg s) <;> rw [e] at hr <;>
    dsimp only [ERel] at hr ⊢ <;> first | exact hr.elim | skip
  · obtain ⟨rfl, hr⟩ := hr
    refine .bind (postCheck_ok hF _ hr) fun M h => .bind (postObj_ok h) fun M h => .bind (postMaxIter_ok hF h) fun M h =>
      .bind (postTimeLimit_ok hF h) fun M h => .bind (postRho_ok hF h) fun M h => ?_
    exact finish_ok hF (fun h1 h2 => hP (fun h0 => h1 (postLoop_polish h0 e)) _ _ h2) h
  · obtain ⟨c, h⟩ := hr
    exact .pure ⟨⟨c, endListener_ok hF h⟩, rfl⟩

end Osqp.Vm
