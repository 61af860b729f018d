import Verif.Lemmas.Twin
import Verif.Lemmas.Reduced
import Verif.Props.Limits

/-!
# Polishing (C32, C33)

The effect of polishing is described by comparing `osqp_solve` with the same call on the same solver with the `polishing`
setting off (`unpolished s`), whose result is the ADMM solution.
-/

set_option linter.unusedSectionVars false
namespace Osqp
open Spec Matrix
variable {K : Type*} [Field K] [LinearOrder K] [IsStrictOrderedRing K] {d : Dims} {cfg : Cfg} {env : Env d K}
  {D₀ U : Data d K} {st₀ : Settings K} {s s' t' : Solver d K}

/-- Polishing was tried and its result taken: polishing is on, the ADMM run (`t'`) ended with "solved" and the polish status
of the real run is "successful". -/
def PolishTaken (s s' t' : Solver d K) : Prop :=
  s.settings.polishing ≠ 0 ∧ t'.info.status_val = St.solved ∧ s'.info.status_polish = Pol.success

instance : Decidable (PolishTaken s s' t') := by unfold PolishTaken; infer_instance

theorem settings_of_solve (h : Inv cfg st₀ U s) (call : osqpSolve cfg env s = (s', 0)) :
    ∃ r i, s'.settings = { s.settings with rho := r, adaptive_rho_interval := i } := by
  obtain ⟨it, t, hf, _, hseen⟩ := solve_seen h call
  obtain ⟨r, i, e⟩ := (fromCall hf.within).settings
  exact ⟨r, i, hseen.settings.trans e⟩

/-- The two runs seen from the common state before polishing. -/
theorem polish_twin (hsq : SqrtPos env) (hist : Hist cfg env D₀ st₀ U s) (call : osqpSolve cfg env s = (s', 0)) {c : ℤ}
    (twin : osqpSolve cfg env (unpolished s) = (t', c)) :
    c = 0 ∧ ∃ t, Seen cfg env t s' ∧ t.settings.polishing = s.settings.polishing ∧
      t' = endListener cfg (storeOwnSolution (postTiming cfg (noPolish t))) ∧
      s' = endListener cfg (storeOwnSolution (postTiming cfg (postPolish cfg env t).1)) := by
  have h := hist_inv hsq hist
  rcases np_solve cfg env s with ⟨t, a, b⟩ | ⟨t, a, b⟩
  · rw [call] at a; have := congrArg Prod.snd a; simp at this
  · have hb : (t', c) = _ := twin.symm.trans b
    rw [Prod.mk.injEq] at hb
    have hfin : finish cfg env t = (s', 0) := a.symm.trans call
    have hs' := finish_ok hfin
    have hH : Hist cfg env D₀ st₀ U s' := .step (op := .solve) (code := 0) hist (by simp only [apiStep, call])
    have h0 : d.m = 0 → t.work.Aty = vSet 0 := by
      intro hm
      have h1 := (hist_inv hsq hH).aty hm
      rw [hs'] at h1
      simp only [endListener_work] at h1
      have h2 : (postPolish cfg env t).1.work.Aty = t.work.Aty := by
        unfold postPolish; split_ifs
        · exact polish_aty cfg env t hm
        · rfl
      rw [← h2]
      have h3 : (storeOwnSolution (postTiming cfg (postPolish cfg env t).1)).work.Aty = (postPolish cfg env t).1.work.Aty := by simp
      rw [← h3]; exact h1
    have hseen := seen_of_finish h0 hfin
    refine ⟨hb.2, t, hseen, ?_, hb.1, hs'⟩
    obtain ⟨r, i, e⟩ := settings_of_solve h call
    rw [← hseen.settings, e]

/-- Iterate after storing a solution-carrying result. -/
theorem stored_iterate (t : Solver d K) (hs : t.info.status_val = St.solved) :
    (endListener cfg (storeOwnSolution (postTiming cfg t))).work.x = t.work.x ∧
    (endListener cfg (storeOwnSolution (postTiming cfg t))).work.y = t.work.y ∧
    (endListener cfg (storeOwnSolution (postTiming cfg t))).work.z = t.work.z := by
  have hh : hasSolution (postTiming cfg t).info = true := by
    unfold hasSolution; simp [hs, St.solved, St.primInf, St.primInfInacc, St.dualInf, St.dualInfInacc, St.nonCvx]
  have hx : (postTiming cfg t).work.x = t.work.x ∧ (postTiming cfg t).work.y = t.work.y ∧ (postTiming cfg t).work.z = t.work.z := by simp
  simp only [endListener_work]
  rw [← hx.1, ← hx.2.1, ← hx.2.2]
  unfold storeOwnSolution
  cases (postTiming cfg t).solution with
  | none => exact ⟨rfl, rfl, rfl⟩
  | some sol =>
    dsimp only
    unfold storeSolution
    dsimp only
    rw [if_pos hh]
    split_ifs <;> exact ⟨rfl, rfl, rfl⟩

/-- Stored solution of a solution-carrying result. -/
theorem stored_solution (t : Solver d K) (hs : t.info.status_val = St.solved) (sol : Solution d K)
    (h : (endListener cfg (storeOwnSolution (postTiming cfg t))).solution = some sol) :
    sol.x = (if t.settings.scaling ≠ 0 then vEwProd t.work.x t.work.scaling.D else t.work.x) ∧
    sol.y = (if t.settings.scaling ≠ 0 then vScale (vEwProd t.work.y t.work.scaling.E) t.work.scaling.cinv else t.work.y) := by
  have hh : hasSolution (postTiming cfg t).info = true := by
    unfold hasSolution; simp [hs, St.solved, St.primInf, St.primInfInacc, St.dualInf, St.dualInfInacc, St.nonCvx]
  have hx : (postTiming cfg t).work.x = t.work.x ∧ (postTiming cfg t).work.y = t.work.y ∧ (postTiming cfg t).work.scaling = t.work.scaling ∧
    (postTiming cfg t).settings = t.settings := by simp
  simp only [endListener_solution] at h
  rw [← hx.1, ← hx.2.1, ← hx.2.2.1, ← hx.2.2.2]
  unfold storeOwnSolution at h
  cases hc : (postTiming cfg t).solution with
  | none => rw [hc] at h; dsimp only at h; rw [hc] at h; cases h
  | some sol' =>
    rw [hc] at h
    dsimp only at h
    unfold storeSolution unscaleSolution at h
    dsimp only at h
    rw [if_pos hh, Option.some.injEq] at h
    rw [← h]
    by_cases h0 : (postTiming cfg t).settings.scaling ≠ 0
    · rw [if_pos h0, if_pos h0, if_pos h0]; exact ⟨rfl, rfl⟩
    · rw [if_neg h0, if_neg h0, if_neg h0]; exact ⟨rfl, rfl⟩

/-- **C33.** If the polished point is not taken, the returned iterate, solution, status, objective and residuals are exactly
those of the ADMM run. -/
theorem c33_not_taken (hsq : SqrtPos env) (hist : Hist cfg env D₀ st₀ U s) (call : osqpSolve cfg env s = (s', 0)) {c : ℤ}
    (twin : osqpSolve cfg env (unpolished s) = (t', c)) (not_taken : ¬ PolishTaken s s' t') :
    c = 0 ∧ s'.work.x = t'.work.x ∧ s'.work.y = t'.work.y ∧ s'.work.z = t'.work.z ∧
    userX s' = userX t' ∧ userY s' = userY t' ∧ userZ s' = userZ t' ∧
    s'.info.status_val = t'.info.status_val ∧ s'.info.status = t'.info.status ∧ s'.info.iter = t'.info.iter ∧
    s'.info.obj_val = t'.info.obj_val ∧ s'.info.dual_obj_val = t'.info.dual_obj_val ∧ s'.info.duality_gap = t'.info.duality_gap ∧
    s'.info.prim_res = t'.info.prim_res ∧ s'.info.dual_res = t'.info.dual_res ∧
    (∀ sol sol', s'.solution = some sol → t'.solution = some sol' → sol.x = sol'.x ∧ sol.y = sol'.y) := by
  obtain ⟨hc, t, hseen, hpol, et, es⟩ := polish_twin hsq hist call twin
  have hstat : t'.info.status_val = t.info.status_val := by rw [et]; simp [noPolish]
  have hset : s'.settings = t.settings := hseen.settings
  have hset' : t'.settings = (noPolish t).settings := by rw [et]; simp
  have hscl : s'.work.scaling = t.work.scaling := hseen.scaling
  have hscl' : t'.work.scaling = t.work.scaling := by rw [et]; simp [noPolish]
  have huser : s'.work.x = t'.work.x → s'.work.y = t'.work.y → s'.work.z = t'.work.z →
      userX s' = userX t' ∧ userY s' = userY t' ∧ userZ s' = userZ t' := by
    intro a b c
    unfold userX userY userZ
    rw [a, b, c, hset, hset', hscl, hscl']
    exact ⟨rfl, rfl, rfl⟩
  refine ⟨hc, ?_⟩
  by_cases hd : t.settings.polishing ≠ 0 ∧ t.info.status_val = St.solved
  · have hk : PolKept t (postPolish cfg env t).1 := by
      rcases hseen.pol with h | h
      · exact h
      · refine absurd ⟨by rw [← hpol]; exact h.on, by rw [hstat]; exact h.solved, ?_⟩ not_taken
        rw [es]; simpa using h.ok
    have hps : (postPolish cfg env t).1.info.status_val = St.solved := by rw [← hd.2]; simp
    obtain ⟨a1, a2, a3⟩ := stored_iterate (cfg := cfg) (postPolish cfg env t).1 hps
    obtain ⟨b1, b2, b3⟩ := stored_iterate (cfg := cfg) (noPolish t) hd.2
    rw [← es] at a1 a2 a3
    rw [← et] at b1 b2 b3
    have ex : s'.work.x = t'.work.x := by rw [a1, b1]; exact hk.agree.x
    have ey : s'.work.y = t'.work.y := by rw [a2, b2]; exact hk.agree.y
    have ez : s'.work.z = t'.work.z := by rw [a3, b3]; exact hk.agree.z
    obtain ⟨u1, u2, u3⟩ := huser ex ey ez
    have hi : s'.info = (postTiming cfg (postPolish cfg env t).1).info := hseen.info
    have hi' : t'.info = (postTiming cfg (noPolish t)).info := by rw [et]; simp
    refine ⟨ex, ey, ez, u1, u2, u3, by rw [hseen.status, hstat], ?_, ?_, ?_, ?_, ?_, ?_, ?_, ?_⟩
    · rw [hi, hi']; simp [noPolish]
    · rw [hi, hi']; simp [noPolish]
    · rw [hi, hi']; simpa [noPolish] using hk.obj
    · rw [hi, hi']; simpa [noPolish] using hk.dobj
    · rw [hi, hi']; simpa [noPolish] using hk.gap
    · rw [hi, hi']; simpa [noPolish] using hk.agree.pres
    · rw [hi, hi']; simpa [noPolish] using hk.agree.dres
    · intro sol sol' h1 h2
      rw [es] at h1
      rw [et] at h2
      obtain ⟨c1, c2⟩ := stored_solution _ hps sol h1
      obtain ⟨c3, c4⟩ := stored_solution _ (show (noPolish t).info.status_val = St.solved from hd.2) sol' h2
      rw [c1, c2, c3, c4]
      have e1 : (postPolish cfg env t).1.settings = t.settings := by simp
      have e2 : (postPolish cfg env t).1.work.scaling = t.work.scaling := by simp
      rw [e1, e2, hk.agree.x, hk.agree.y]
      exact ⟨rfl, rfl⟩
  · have e0 : postPolish cfg env t = (t, 0) := by unfold postPolish; rw [if_neg hd]
    rw [e0] at es
    have hnp : t' = noPolish s' := by
      rw [et, es, np_postTiming, np_storeOwn, np_endListener]
    have hw : s'.work = t'.work := by rw [hnp]; rfl
    have hi : s'.info = t'.info := by rw [hnp]; rfl
    have hso : s'.solution = t'.solution := by rw [hnp]; rfl
    obtain ⟨u1, u2, u3⟩ := huser (by rw [hw]) (by rw [hw]) (by rw [hw])
    refine ⟨by rw [hw], by rw [hw], by rw [hw], u1, u2, u3, ?_⟩
    rw [hi]
    refine ⟨rfl, rfl, rfl, rfl, rfl, rfl, rfl, rfl, fun sol sol' h1 h2 => ?_⟩
    rw [hso, h2, Option.some.injEq] at h1
    rw [h1]; exact ⟨rfl, rfl⟩

/-- **C33.** The polished point is taken only if both residuals became smaller, or one did while the other was already below
`1e-10`. -/
theorem c33_taken_better (hsq : SqrtPos env) (hist : Hist cfg env D₀ st₀ U s) (call : osqpSolve cfg env s = (s', 0)) {c : ℤ}
    (twin : osqpSolve cfg env (unpolished s) = (t', c)) (taken : PolishTaken s s' t') :
    (s'.info.prim_res < t'.info.prim_res ∧ s'.info.dual_res < t'.info.dual_res) ∨
    (s'.info.prim_res < t'.info.prim_res ∧ t'.info.dual_res < 1 / 10 ^ 10) ∨
    (s'.info.dual_res < t'.info.dual_res ∧ t'.info.prim_res < 1 / 10 ^ 10) := by
  obtain ⟨hc, t, hseen, hpol, et, es⟩ := polish_twin hsq hist call twin
  obtain ⟨a, b, c⟩ := taken
  have hstat : t'.info.status_val = t.info.status_val := by rw [et]; simp [noPolish]
  have hi : s'.info = (postTiming cfg (postPolish cfg env t).1).info := hseen.info
  have hi' : t'.info = (postTiming cfg (noPolish t)).info := by rw [et]; simp
  rcases hseen.pol with h | h
  · refine absurd ?_ (h.not_ok (by rw [hpol]; exact a) (by rw [← hstat]; exact b))
    rw [hi] at c; simpa using c
  · have := h.better
    rw [hi, hi']; simpa [noPolish] using this

/-- The state after a taken polish. -/
theorem taken_done (hsq : SqrtPos env) (hist : Hist cfg env D₀ st₀ U s) (call : osqpSolve cfg env s = (s', 0)) {c : ℤ}
    (twin : osqpSolve cfg env (unpolished s) = (t', c)) (taken : PolishTaken s s' t') :
    ∃ t, Seen cfg env t s' ∧ PolDone t (postPolish cfg env t).1 ∧ t'.work.z = t.work.z ∧ t'.work.y = t.work.y ∧ t'.work.data = t.work.data ∧
      s'.work.x = (polish cfg env t).1.work.x ∧ s'.work.y = (polish cfg env t).1.work.y ∧ s'.work.z = (polish cfg env t).1.work.z ∧
      postPolish cfg env t = polish cfg env t := by
  obtain ⟨hc, t, hseen, hpol, et, es⟩ := polish_twin hsq hist call twin
  obtain ⟨a, b, c⟩ := taken
  have hstat : t'.info.status_val = t.info.status_val := by rw [et]; simp [noPolish]
  have hi : s'.info = (postTiming cfg (postPolish cfg env t).1).info := hseen.info
  have hts : t.info.status_val = St.solved := by rw [← hstat]; exact b
  have hd : t.settings.polishing ≠ 0 ∧ t.info.status_val = St.solved := ⟨by rw [hpol]; exact a, hts⟩
  have e0 : postPolish cfg env t = polish cfg env t := by unfold postPolish; rw [if_pos hd]
  refine ⟨t, hseen, ?_, ?_, ?_, ?_, ?_, ?_, ?_, e0⟩
  · rcases hseen.pol with h | h
    · refine absurd ?_ (h.not_ok hd.1 hts)
      rw [hi] at c; simpa using c
    · exact h
  · rw [et, (stored_iterate (cfg := cfg) (noPolish t) hts).2.2]; rfl
  · rw [et, (stored_iterate (cfg := cfg) (noPolish t) hts).2.1]; rfl
  · rw [et]; simp [noPolish]
  all_goals
    have hps : (postPolish cfg env t).1.info.status_val = St.solved := by rw [← hts]; simp
    obtain ⟨a1, a2, a3⟩ := stored_iterate (cfg := cfg) (postPolish cfg env t).1 hps
    rw [← es, e0] at a1 a2 a3
    assumption

/-- **C32.** A taken polish leaves a `z` between the bounds and a multiplier in the normal cone there; the reported residuals
and objective are those of the polished point. -/
theorem c32_consistent (hsq : SqrtPos env) (hist : Hist cfg env D₀ st₀ U s) (call : osqpSolve cfg env s = (s', 0)) {c : ℤ}
    (twin : osqpSolve cfg env (unpolished s) = (t', c)) (taken : PolishTaken s s' t') :
    (ofData U).InBox (userZ s') ∧ (ofData U).NormalCone (userZ s') (userY s') ∧
    s'.info.obj_val = (ofData U).obj (userX s') ∧
    (UserCriteria s → s'.info.prim_res = (ofData U).primRes (userX s') (userZ s') ∧
      s'.info.dual_res = (ofData U).dualRes (userX s') (userY s')) ∧
    ∀ sol, s'.solution = some sol → sol.x = userX s' ∧ sol.y = userY s' := by
  have h := hist_inv hsq hist
  have hH : Hist cfg env D₀ st₀ U s' := .step (op := .solve) (code := 0) hist (by simp only [apiStep, call])
  have h' := hist_inv hsq hH
  obtain ⟨t, hseen, hdone, _, _, _, ex, ey, ez, e0⟩ := taken_done hsq hist call twin taken
  obtain ⟨r, i, eset⟩ := settings_of_solve h call
  generalize hp : (postPolish cfg env t).1 = p at *
  have hpp : (polish cfg env t).1 = p := by rw [← e0]; exact hp
  rw [hpp] at ex ey ez
  have hpset : p.settings = t.settings := by rw [← hp]; simp
  have hpd : p.work.data = t.work.data := by rw [← hp]; simp
  have hpsc : p.work.scaling = t.work.scaling := by rw [← hp]; simp
  have hrep : Represents p.settings p.work.scaling U p.work.data := by
    rw [hpset, hpd, hpsc, ← hseen.settings, ← hseen.data, ← hseen.scaling]; exact h'.rep
  have heff : effSc s' = effSc p := effSc_congr (by rw [hseen.settings, hpset]) (by rw [hseen.scaling, hpsc])
  have hb : ∀ i, p.work.data.l i ≤ p.work.data.u i := rep_bounds hrep h'.bounds
  have hcone : Cone p.work.data p.work.z p.work.y := by rw [hpd]; exact hdone.cone (by rw [← hpd]; exact hb)
  have hi : s'.info = (postTiming cfg p).info := by rw [hseen.info, hp]
  have uX : userX s' = toX (effSc p) p.work.x := by rw [userX_eq, heff, ex]
  have uY : userY s' = toY (effSc p) p.work.y := by rw [userY_eq, heff, ey]
  have uZ : userZ s' = toZ (effSc p) p.work.z := by rw [userZ_eq, heff, ez]
  rw [uX, uY, uZ]
  refine ⟨user_box hrep fun i => (hcone i).1, user_cone hrep hcone, ?_, fun hu => ?_, fun sol hsol => ?_⟩
  · rw [hi]; simpa using (user_obj hrep hdone.fresh.1 hdone.fresh.2.2).1
  · have hu' : UserCriteria p := by
      unfold UserCriteria at hu ⊢; rw [hpset, ← hseen.settings, eset]; exact hu
    rw [hi]
    exact ⟨by simpa using user_pres hrep hu' hdone.fresh.2.1, by simpa using user_dres hrep hu' hdone.fresh.2.1⟩
  · have hh : hasSolution t.info = true := by
      unfold hasSolution; simp [hdone.solved, St.solved, St.primInf, St.primInfInacc, St.dualInf, St.dualInfInacc, St.nonCvx]
    obtain ⟨a, b, _⟩ := hseen.stored hsol hh
    rw [hp] at a b
    have het : effSc t = effSc p := by rw [← heff]; exact (effSc_congr (by rw [hseen.settings]) (by rw [hseen.scaling])).symm
    exact ⟨by rw [a]; first | rw [het] | rfl, by rw [b]; first | rw [het] | rfl⟩

theorem selected_eq (D : Data d K) (z y : Vec K d.m) : selected D z y = activeFlags D.l D.u z y := by
  funext i
  unfold selected
  rcases activeFlags_vals D.l D.u z y i with h | h | h
  · rw [if_pos ((activeFlags_low D z y i).1 h), h]
  · rw [if_neg, if_neg, h]
    · intro a; rw [(activeFlags_upp D z y i).2 a] at h; cases h
    · intro a; rw [(activeFlags_low D z y i).2 a] at h; cases h
  · rw [if_neg, if_pos ((activeFlags_upp D z y i).1 h), h]
    intro a; rw [(activeFlags_low D z y i).2 a] at h; cases h

/-- The pair computed by polishing (solution of the reduced system after refinement). -/
def polishSol (env : Env d K) (t : Solver d K) : Vec K d.n × (ℕ → K) :=
  let D := t.work.data
  let flags := activeFlags D.l D.u t.work.z t.work.y
  let b := formRhsRed D flags
  refineLoop env D flags t.settings.sigma b t.settings.polish_refine_iter.toNat (env.polSolve D flags t.settings.sigma b.1 b.2)

theorem polish_point {t : Solver d K} (hk : (polish cfg env t).1.info.status_polish = Pol.success) :
    let D := t.work.data
    let flags := activeFlags D.l D.u t.work.z t.work.y
    (polish cfg env t).1.work.x = (polishPoint D flags (polishSol env t)).1 ∧
    (polish cfg env t).1.work.z = (polishPoint D flags (polishSol env t)).2.1 ∧
    (polish cfg env t).1.work.y = (polishPoint D flags (polishSol env t)).2.2 := by
  intro D flags
  revert hk
  unfold polish
  dsimp only
  by_cases h1 : nActive (activeFlags t.work.data.l t.work.data.u t.work.z t.work.y) = 0
  · rw [if_pos h1]; intro hk; exact absurd hk (by simp [Pol.noActiveSet, Pol.success])
  rw [if_neg h1]
  by_cases h2 : env.polFactor t.work.data (activeFlags t.work.data.l t.work.data.u t.work.z t.work.y) t.settings.sigma < d.n
  · rw [if_pos h2]; intro hk; exact absurd hk (by simp [Pol.linsysError, Pol.success])
  rw [if_neg h2]
  have e : polishPoint t.work.data (activeFlags t.work.data.l t.work.data.u t.work.z t.work.y)
      (refineLoop env t.work.data (activeFlags t.work.data.l t.work.data.u t.work.z t.work.y) t.settings.sigma
        (formRhsRed t.work.data (activeFlags t.work.data.l t.work.data.u t.work.z t.work.y)) t.settings.polish_refine_iter.toNat
        (env.polSolve t.work.data (activeFlags t.work.data.l t.work.data.u t.work.z t.work.y) t.settings.sigma
          (formRhsRed t.work.data (activeFlags t.work.data.l t.work.data.u t.work.z t.work.y)).1
          (formRhsRed t.work.data (activeFlags t.work.data.l t.work.data.u t.work.z t.work.y)).2)) =
      polishPoint D flags (polishSol env t) := rfl
  rw [e]
  generalize polishPoint D flags (polishSol env t) = pt
  split_ifs
  · intro _; exact ⟨rfl, rfl, rfl⟩
  · intro hk; exact absurd hk (by simp [Pol.failed, Pol.success])
  · intro _; exact ⟨rfl, rfl, rfl⟩
  · intro hk; exact absurd hk (by simp [Pol.failed, Pol.success])

/-- A solution of the scaled reduced problem is one of the user's reduced problem. -/
theorem reduced_user {sc : Scaling d K} {U D : Data d K} (ok : ScalingOK sc) (hs : IsScaled sc U D) {low upp : Fin d.m → Prop}
    {x : Vec K d.n} {w : Vec K d.m} (h : ReducedSolution (ofData D) low upp x w) :
    ReducedSolution (ofData U) low upp (toX sc x) (toY sc w) := by
  refine ⟨fun j => ?_, fun i hi => ?_, fun i hi => ?_, fun i a b => ?_⟩
  · have := h.stat j
    unfold QP.stat at this ⊢
    simp only [ofData] at this ⊢
    rw [← toX_P ok hs, ← toY_AT ok hs, ← toX_q ok hs, ← mul_add, ← mul_add, ← mul_add, ← mul_add, this]; simp
  · have := h.at_low i hi
    have hE := (ok.E_pos i).ne'
    simp only [ofData] at this ⊢
    rw [← toZ_A ok hs, this, hs.l, ok.Einv]; field_simp
  · have := h.at_upp i hi
    have hE := (ok.E_pos i).ne'
    simp only [ofData] at this ⊢
    rw [← toZ_A ok hs, this, hs.u, ok.Einv]; field_simp
  · unfold toY; rw [h.off i a b]; simp

theorem c32_core (hsq : SqrtPos env) (hist : Hist cfg env D₀ st₀ U s) (call : osqpSolve cfg env s = (s', 0)) {c : ℤ}
    (twin : osqpSolve cfg env (unpolished s) = (t', c)) (taken : PolishTaken s s' t')
    (exact : ∀ v : Vec K d.n × (ℕ → K), ∀ k : ℕ,
      let F := selected t'.work.data t'.work.z t'.work.y
      let b := formRhsRed t'.work.data F
      v = refineLoop env t'.work.data F s.settings.sigma b k (env.polSolve t'.work.data F s.settings.sigma b.1 b.2) →
      k = s.settings.polish_refine_iter.toNat → SolvesReduced t'.work.data F 0 v b) :
    ∃ w, ReducedSolution (ofData U) (AtLower t'.work.data t'.work.z t'.work.y) (AtUpper t'.work.data t'.work.z t'.work.y) (userX s') w ∧
      (∀ i, userY s' i = w i + rowScale s i ^ 2 / costScale s * (((ofData U).A *ᵥ userX s') i - userZ s' i)) ∧
      (∀ j, (ofData U).stat (userX s') (userY s') j =
        ∑ i, (ofData U).A i j * (rowScale s i ^ 2 / costScale s * (((ofData U).A *ᵥ userX s') i - userZ s' i))) := by
  have h := hist_inv hsq hist
  have hH : Hist cfg env D₀ st₀ U s' := .step (op := .solve) (code := 0) hist (by simp only [apiStep, call])
  have h' := hist_inv hsq hH
  obtain ⟨t, hseen, hdone, ez', ey', ed', ex, ey, ez, e0⟩ := taken_done hsq hist call twin taken
  obtain ⟨r, i, eset⟩ := settings_of_solve h call
  have hok : (polish cfg env t).1.info.status_polish = Pol.success := by rw [← e0]; exact hdone.ok
  obtain ⟨px, pz, py⟩ := polish_point hok
  have esig : t.settings.sigma = s.settings.sigma := by rw [← hseen.settings, eset]
  have eref : t.settings.polish_refine_iter = s.settings.polish_refine_iter := by rw [← hseen.settings, eset]
  have hsolved := exact (polishSol env t) _ (by
    unfold polishSol; dsimp only
    rw [selected_eq, ez', ey', ed', esig, eref]) rfl
  rw [selected_eq, ez', ey', ed'] at hsolved
  have hred := reduced_solution _ _ _ _ hsolved
  rw [ez', ey', ed']
  generalize hsol : polishSol env t = sol at *
  obtain ⟨ok, is⟩ := rep_eff h'.rep
  rw [hseen.data] at is
  have hrow : rowScale s = (effSc s').E := by
    rw [← rowScale_eff]; exact (rowScale_congr (by rw [eset]) (by
      obtain ⟨it, t2, hf, _, hs2⟩ := solve_seen h call
      rw [hs2.scaling, (fromCall hf.within).scaling])).symm
  have hcost : costScale s = (effSc s').c := by
    rw [← costScale_eff]; exact (costScale_congr (by rw [eset]) (by
      obtain ⟨it, t2, hf, _, hs2⟩ := solve_seen h call
      rw [hs2.scaling, (fromCall hf.within).scaling])).symm
  generalize hw0 : ypolOfYred (activeFlags t.work.data.l t.work.data.u t.work.z t.work.y) sol.2 = w0 at *
  have eX : s'.work.x = sol.1 := by rw [ex, px]; rfl
  have eyz : ∀ i, s'.work.y i = w0 i + (dense d.A t.work.data.A *ᵥ sol.1) i - s'.work.z i := by
    intro i; rw [ey, ez, pz, py]; unfold polishPoint; dsimp only
    rw [hw0, spMul_eq]; rfl
  have key : ∀ i, userY s' i = toY (effSc s') w0 i + rowScale s i ^ 2 / costScale s * (((ofData U).A *ᵥ userX s') i - userZ s' i) := by
    intro i
    have hz := toZ_A ok is sol.1 i
    have hE := (ok.E_pos i).ne'
    have hc := ok.c_pos.ne'
    rw [userX_eq, userY_eq, userZ_eq, eX, hrow, hcost]
    simp only [ofData]
    rw [← hz]
    unfold toY toZ
    rw [eyz i, ok.Einv, ok.cinv]
    generalize (dense d.A t.work.data.A *ᵥ sol.1) i = g
    field_simp; ring
  refine ⟨toY (effSc s') w0, ?_, key, fun j => ?_⟩
  · rw [userX_eq, eX]; exact reduced_user ok is hred
  · have hst := (reduced_user ok is hred).stat j
    unfold QP.stat at hst ⊢
    rw [userX_eq, eX]
    have hy : userY s' = toY (effSc s') w0 + fun i => rowScale s i ^ 2 / costScale s * (((ofData U).A *ᵥ userX s') i - userZ s' i) := by
      funext i; exact key i
    rw [hy, mulVec_add, Pi.add_apply, ← add_assoc, hst, zero_add, userX_eq, eX]
    rfl

/-- **C32.** If the reduced system is solved exactly, the polished `x` meets the constraints taken to be active with equality
and is stationary with multipliers `w` supported on them; the returned multiplier differs from `w`, and stationarity of the
returned pair fails, only by the infeasibility `Ax - z` of the polished point. -/
theorem c32_exact (hsq : SqrtPos env) (hist : Hist cfg env D₀ st₀ U s) (call : osqpSolve cfg env s = (s', 0)) {c : ℤ}
    (twin : osqpSolve cfg env (unpolished s) = (t', c)) (taken : PolishTaken s s' t')
    (exact : let F := selected t'.work.data t'.work.z t'.work.y
      ∀ b : Vec K d.n × (ℕ → K), SolvesReduced t'.work.data F 0 (env.polSolve t'.work.data F s.settings.sigma b.1 b.2) b) :
    ∃ w, ReducedSolution (ofData U) (AtLower t'.work.data t'.work.z t'.work.y) (AtUpper t'.work.data t'.work.z t'.work.y) (userX s') w ∧
      (∀ i, userY s' i = w i + rowScale s i ^ 2 / costScale s * (((ofData U).A *ᵥ userX s') i - userZ s' i)) ∧
      (∀ j, (ofData U).stat (userX s') (userY s') j =
        ∑ i, (ofData U).A i j * (rowScale s i ^ 2 / costScale s * (((ofData U).A *ᵥ userX s') i - userZ s' i))) := by
  refine c32_core hsq hist call twin taken fun v k hv _ => ?_
  rw [hv]
  exact refine_exact _ _ _ _ exact k _ (exact _)

/-- **C32**, with the regularised solves the code really makes: the same holds as soon as iterative refinement has converged,
that is, one more step would change nothing. -/
theorem c32_refined (hsq : SqrtPos env) (hist : Hist cfg env D₀ st₀ U s) (call : osqpSolve cfg env s = (s', 0)) {c : ℤ}
    (twin : osqpSolve cfg env (unpolished s) = (t', c)) (taken : PolishTaken s s' t')
    (regularised : let F := selected t'.work.data t'.work.z t'.work.y
      ∀ b : Vec K d.n × (ℕ → K), SolvesReduced t'.work.data F s.settings.sigma (env.polSolve t'.work.data F s.settings.sigma b.1 b.2) b)
    (converged : let F := selected t'.work.data t'.work.z t'.work.y
      let b := formRhsRed t'.work.data F
      let v := refineLoop env t'.work.data F s.settings.sigma b s.settings.polish_refine_iter.toNat
        (env.polSolve t'.work.data F s.settings.sigma b.1 b.2)
      let r := refineRhs t'.work.data F b v
      (env.polSolve t'.work.data F s.settings.sigma r.1 r.2).1 = 0 ∧
      ∀ i, F i ≠ 0 → (env.polSolve t'.work.data F s.settings.sigma r.1 r.2).2 (rank F i) = 0) :
    ∃ w, ReducedSolution (ofData U) (AtLower t'.work.data t'.work.z t'.work.y) (AtUpper t'.work.data t'.work.z t'.work.y) (userX s') w ∧
      (∀ i, userY s' i = w i + rowScale s i ^ 2 / costScale s * (((ofData U).A *ᵥ userX s') i - userZ s' i)) ∧
      (∀ j, (ofData U).stat (userX s') (userY s') j =
        ∑ i, (ofData U).A i j * (rowScale s i ^ 2 / costScale s * (((ofData U).A *ᵥ userX s') i - userZ s' i))) := by
  refine c32_core hsq hist call twin taken fun v k hv hk => ?_
  rw [hv, hk]
  exact refine_fixed _ _ _ _ _ regularised converged.1 converged.2

/-- **C32.** If moreover the polished point is feasible (reported primal residual 0), it is an exact KKT point. -/
theorem c32_feasible_optimal (hsq : SqrtPos env) (hist : Hist cfg env D₀ st₀ U s) (call : osqpSolve cfg env s = (s', 0)) {c : ℤ}
    (twin : osqpSolve cfg env (unpolished s) = (t', c)) (taken : PolishTaken s s' t')
    (exact : let F := selected t'.work.data t'.work.z t'.work.y
      ∀ b : Vec K d.n × (ℕ → K), SolvesReduced t'.work.data F 0 (env.polSolve t'.work.data F s.settings.sigma b.1 b.2) b)
    (hu : UserCriteria s) (feasible : s'.info.prim_res = 0) : (ofData U).KKT (userX s') (userY s') := by
  obtain ⟨hbox, hcone, _, hres, _⟩ := c32_consistent hsq hist call twin taken
  obtain ⟨w, _, _, hst⟩ := c32_exact hsq hist call twin taken exact
  have hz : ∀ i, ((ofData U).A *ᵥ userX s') i = userZ s' i := by
    intro i
    have h0 := (hres hu).1.symm.trans feasible
    unfold QP.primRes at h0
    have := le_normInf (fun i => ((ofData U).A *ᵥ userX s') i - userZ s' i) i
    rw [h0] at this
    exact sub_eq_zero.1 (abs_nonpos_iff.1 this)
  have hze : (ofData U).A *ᵥ userX s' = userZ s' := funext hz
  refine ⟨?_, by rw [hze]; exact hcone, fun j => ?_⟩
  · unfold QP.Feasible; rw [hze]; exact hbox
  · rw [hst j]
    refine Finset.sum_eq_zero fun i _ => ?_
    rw [hz i]; simp

/-! ## Runs meeting the hypotheses -/

/-- The run without polishing. -/
def demoTwin : Solver Demo.dims ℚ := (osqpSolve Demo.cfg Demo.sExact.env (unpolished (Demo.sExact.start Demo.okExact))).1

/-- A run in which the reduced system is solved exactly, the polished point is taken, differs from the ADMM point and is
feasible. -/
example : ∃ (s s' t' : Solver Demo.dims ℚ), Hist Demo.cfg Demo.sExact.env Demo.sExact.data Demo.sExact.st Demo.sExact.data s ∧
    osqpSolve Demo.cfg Demo.sExact.env s = (s', 0) ∧ osqpSolve Demo.cfg Demo.sExact.env (unpolished s) = (t', 0) ∧
    PolishTaken s s' t' ∧ s'.work.x Demo.i0 ≠ t'.work.x Demo.i0 ∧ UserCriteria s ∧ s'.info.prim_res = 0 ∧
    (let F := selected t'.work.data t'.work.z t'.work.y
      ∀ b : Vec ℚ 1 × (ℕ → ℚ), SolvesReduced t'.work.data F 0 (Demo.sExact.env.polSolve t'.work.data F s.settings.sigma b.1 b.2) b) := by
  have h : osqpSolve Demo.cfg Demo.sExact.env (unpolished (Demo.sExact.start Demo.okExact)) = (demoTwin, 0) :=
    Prod.ext rfl (by decide +kernel)
  refine ⟨Demo.sExact.start Demo.okExact, Demo.sExact.done Demo.okExact, demoTwin, Demo.sExact.hist Demo.okExact,
    Demo.sExact.solve_eq Demo.okExact (by decide +kernel), h, by decide +kernel, by decide +kernel, Or.inr (by decide +kernel),
    by decide +kernel, ?_⟩
  intro F b
  have hA : demoTwin.work.data.A Demo.i0 ≠ 0 := by decide +kernel
  have hF : F = fun _ => 1 := by
    have e : activeFlags demoTwin.work.data.l demoTwin.work.data.u demoTwin.work.z demoTwin.work.y Demo.i0 = 1 := by decide +kernel
    show selected _ _ _ = _
    rw [selected_eq]
    funext i
    rw [Subsingleton.elim (α := Fin 1) i Demo.i0]; exact e
  generalize demoTwin.work.data = D at *
  have hr : rank F Demo.i0 = 0 := by
    unfold rank; rw [Finset.card_eq_zero, Finset.filter_eq_empty_iff]
    intro k _ hk; rw [Subsingleton.elim (α := Fin 1) k Demo.i0] at hk; exact lt_irrefl _ hk.1
  have ed : ∀ i j, (ofData D).A i j = D.A Demo.i0 := by
    intro i j
    show dense Demo.pat1 D.A i j = _
    unfold dense
    rw [Subsingleton.elim (α := Fin 1) i Demo.i0, Subsingleton.elim (α := Fin 1) j Demo.i0]
    simp
  have ep : ∀ i j, (ofData D).P i j = D.P Demo.i0 := by
    intro i j
    show denseSym Demo.pat1 D.P i j = _
    unfold denseSym
    rw [Subsingleton.elim (α := Fin 1) i Demo.i0, Subsingleton.elim (α := Fin 1) j Demo.i0]
    simp
  rw [hF] at *
  have esum : ∀ f : Fin 1 → ℚ, ∑ i, f i = f Demo.i0 := fun f => by simp
  refine ⟨fun j => ?_, fun i hi => ?_⟩
  · rw [Subsingleton.elim (α := Fin 1) j Demo.i0]
    show (∑ k : Fin 1, _) + _ + (∑ i : Fin 1, _) = _
    rw [esum, esum]
    simp only [ed, ep, hr, Demo.Scenario.env, Demo.env, Demo.sExact, if_true]
    simp
    field_simp
    ring
  · rw [Subsingleton.elim (α := Fin 1) i Demo.i0, hr]
    show (∑ k : Fin 1, _) - _ = _
    rw [esum]
    simp only [ed, ep, hr, Demo.Scenario.env, Demo.env, Demo.sExact, if_true]
    simp
    field_simp

/-- Runs in which polishing is tried but not taken, and not tried at all. -/
example : ¬ PolishTaken (Demo.sSolved.start Demo.okSolved) (Demo.sSolved.done Demo.okSolved) (Demo.sSolved.done Demo.okSolved) := by
  decide +kernel

end Osqp
