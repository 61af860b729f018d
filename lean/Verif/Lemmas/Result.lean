import Verif.Lemmas.Seen

/-!
# Results of a solve in the user's coordinates
-/

set_option linter.unusedSectionVars false
namespace Osqp
open Spec Matrix
variable {K : Type*} [Field K] [LinearOrder K] [IsStrictOrderedRing K] {d : Dims}
variable {cfg : Cfg} {env : Env d K}

theorem hasSolution_iff (i : Info K) : hasSolution i = true ↔ i.status_val ≠ St.primInf ∧ i.status_val ≠ St.primInfInacc ∧
    i.status_val ≠ St.dualInf ∧ i.status_val ≠ St.dualInfInacc ∧ i.status_val ≠ St.nonCvx := by
  unfold hasSolution; simp [and_assoc]

theorem Final.iterated {s0 : Solver d K} {k : ℕ} {it : ℤ} {t : Solver d K} (h : Final cfg env s0 k it t) : Iterated s0 t := by
  cases h with
  | exact s1 _ iterated _ _ _ eq => rw [eq]; exact iterated.of_frame (by simp) (by simp) (by simp)
  | approx s1 _ iterated _ _ _ eq => rw [eq]; exact iterated.of_frame (by simp) (by simp) (by simp)
  | limit s1 v _ iterated _ _ _ _ eq => rw [eq]; exact iterated.of_frame (by simp) (by simp) (by simp)
  | old p _ iterated _ _ _ _ eq => rw [eq]; exact iterated.of_frame (by simp) (by simp) (by simp)

theorem fresh_setStatus {s : Solver d K} (v : ℤ) (h : Fresh s) : Fresh (setStatus s v) := by
  apply h.of_frame <;> simp

theorem fresh_postRho {s : Solver d K} (h : Fresh s) : Fresh (postRho cfg env s) := by
  apply h.of_frame <;> simp

/-- The state a successful test leaves when it reports a solution. -/
theorem check_hasSolution {b : Bool} {s1 : Solver d K} (hc : (checkTermination b s1).2 = true)
    (hs : hasSolution (checkTermination b s1).1.info = true) :
    (checkTermination b s1).1.info.status_val = (if b then St.solvedInacc else St.solved) := by
  rw [hasSolution_iff] at hs
  rcases checkTermination_status hc with e | e | e | e
  · exact absurd e hs.2.2.2.2
  · exact e
  · cases b
    · exact absurd e hs.1
    · exact absurd e hs.2.1
  · cases b
    · exact absurd e hs.2.2.1
    · exact absurd e hs.2.2.2.1

theorem Final.fresh {s0 : Solver d K} {k : ℕ} {it : ℤ} {t : Solver d K} (h : Final cfg env s0 k it t)
    (hs : hasSolution t.info = true) : Fresh t ∨ (StaleStop cfg env s0 k it ∧
      (t.info.status_val = St.solvedInacc ∨ t.info.status_val = St.timeLimit)) := by
  cases h with
  | exact s1 within iterated fresh stop when_ eq =>
    left
    have hs' : hasSolution (checkTermination false s1).1.info = true := by
      rw [eq] at hs; unfold hasSolution at hs ⊢; simpa using hs
    have e := (check_solved stop (Or.inl (check_hasSolution stop hs'))).2.2.2
    rw [eq, e]
    exact fresh_postRho (fresh_postObj (fresh_setStatus _ fresh))
  | approx s1 within iterated fresh stop lim eq =>
    have hs' : hasSolution (checkTermination true s1).1.info = true := by
      rw [eq] at hs; unfold hasSolution at hs ⊢; simpa using hs
    have e0 := check_hasSolution stop hs'
    have e := (check_solved stop (Or.inr e0)).2.2.2
    rcases fresh with fresh | st
    · left; rw [eq, e]; exact fresh_postRho (fresh_setStatus _ fresh)
    · right; refine ⟨st, Or.inl ?_⟩; rw [eq]; simpa using e0
  | limit s1 v within iterated fresh stop lim val eq =>
    rcases fresh with fresh | st
    · left; rw [eq]; exact fresh_postRho (fresh_setStatus _ (fresh_ctState fresh))
    · right; refine ⟨st, ?_⟩
      rcases val with ⟨_, e, _⟩ | ⟨e, _⟩
      · have := st.2.1; omega
      · right; rw [eq]; simp [e]
  | old p within iterated fresh status v0 lim eq =>
    left; rw [eq]; exact fresh_postRho (fresh_postObj fresh)

theorem rhoInv_entry {st₀ : Settings K} {U : Data d K} {s : Solver d K} (h : Inv cfg st₀ U s) (hr : RhoStartOK st₀) :
    RhoInvOK (solveEntry cfg s).s := (h.rinv hr).congr (core_solveEntry cfg s)

theorem itCheck_scheduled {st : Settings K} {it : ℤ} (h : itCheck st it = true) : Scheduled st it := by
  unfold itCheck at h; simpa [Scheduled] using h

theorem max_iter_nat {st₀ : Settings K} {U : Data d K} {s : Solver d K} (h : Inv cfg st₀ U s) :
    ((s.settings.max_iter.toNat : ℕ) : ℤ) = s.settings.max_iter := by
  have := h.live.max_iter; omega

theorem staleStop_late {st₀ : Settings K} {U : Data d K} {s : Solver d K} (h : Inv cfg st₀ U s) {it : ℤ}
    (hs : StaleStop cfg env (solveEntry cfg s).s s.settings.max_iter.toNat it) : LateStop cfg env s := by
  obtain ⟨a, b, c, hit⟩ := hs
  rw [max_iter_nat h] at b
  rw [solveEntry_settings] at c
  obtain ⟨L, r, u⟩ := timeHit_clock hit
  exact ⟨it, a, itCheck_scheduled c, by omega, b, L, r, u⟩

theorem limitHit_user {st₀ : Settings K} {U : Data d K} {s : Solver d K} (h : Inv cfg st₀ U s) {it i : ℤ}
    (hc : Count cfg env (solveEntry cfg s).s s.settings.max_iter.toNat it i)
    (hs : LimitHit cfg env (solveEntry cfg s).s s.settings.max_iter.toNat it) :
    AllDone cfg env s ∨ ClockStop cfg env s it := by
  rcases hs with e | ⟨hit, a, b⟩
  · left
    obtain ⟨L, r⟩ := hc.reach
    rw [max_iter_nat h] at e; subst e
    exact ⟨L, r⟩
  · right
    rw [max_iter_nat h] at b
    obtain ⟨L, r, u⟩ := timeHit_clock hit
    exact ⟨a, b, L, r, u⟩

/-- What is known about the point stored for a solution-carrying status. -/
theorem result_point {st₀ : Settings K} {U : Data d K} {s s' : Solver d K} (h : Inv cfg st₀ U s)
    (e : osqpSolve cfg env s = (s', 0)) {sol : Solution d K} (hsol : s'.solution = some sol)
    (hs : hasSolution s'.info = true) :
    ∃ z, (ofData U).InBox z ∧ (RhoStartOK st₀ ∨ (s.settings.polishing ≠ 0 ∧ s'.info.status_polish = Pol.success ∧ s'.info.status_val = St.solved) →
        (ofData U).NormalCone z sol.y) ∧
      (UserCriteria s → (s'.info.status_val = St.solvedInacc ∨ s'.info.status_val = St.timeLimit → ¬ LateStop cfg env s) →
        ∃ y', (ofData U).Cleaned (rowScale s) (costScale s) sol.y y' ∧ ReportOf (ofData U) s'.info sol.x z sol.y y') := by
  obtain ⟨it, t, hf, hn, hseen⟩ := solve_seen h e
  have hfc := fromCall hf.within
  have hrep := hfc.rep h.rep
  have hst : hasSolution t.info = true := by unfold hasSolution at hs ⊢; rw [hseen.status] at hs; exact hs
  obtain ⟨ex, ey, _, _⟩ := hseen.stored hsol hst
  have hb : ∀ i, t.work.data.l i ≤ t.work.data.u i := rep_bounds hrep h.bounds
  generalize hp : (postPolish cfg env t).1 = p at *
  have hpset : p.settings = t.settings := by rw [← hp]; simp
  have hpd : p.work.data = t.work.data := by rw [← hp]; simp
  have hpsc : p.work.scaling = t.work.scaling := by rw [← hp]; simp
  have hpe : effSc p = effSc t := effSc_congr (by rw [hpset]) hpsc
  have hfcp : FromCall s p := by
    obtain ⟨r, i, er⟩ := hfc.settings
    exact ⟨hpd.trans hfc.data, hpsc.trans hfc.scaling, r, i, hpset.trans er⟩
  have hrepp := hfcp.rep h.rep
  have hinfo : s'.info.obj_val = p.info.obj_val ∧ s'.info.dual_obj_val = p.info.dual_obj_val ∧
      s'.info.duality_gap = p.info.duality_gap ∧ s'.info.prim_res = p.info.prim_res ∧ s'.info.dual_res = p.info.dual_res := by
    rw [hseen.info, hp]; simp
  have hpol : s'.info.status_polish = p.info.status_polish := by rw [hseen.info, hp]; simp
  rcases hseen.pol with hk | hk
  · rw [hp] at hk
    refine ⟨toZ (effSc t) t.work.z, user_box hrep hf.iterated.box, ?_, ?_⟩
    · rintro (hr | ⟨h1, h2, h3⟩)
      · rw [ey, hk.agree.y]
        exact user_cone hrep (hf.iterated.cone (rhoInv_entry h hr))
      · refine absurd (by rw [← hpol]; exact h2) (hk.not_ok ?_ ?_)
        · rwa [hfc.polishing]
        · rwa [← hseen.status]
    · intro hu hl
      have hfr : Fresh t := by
        rcases hf.fresh hst with a | ⟨a, b⟩
        · exact a
        · rw [hseen.status] at hl
          exact absurd (staleStop_late h a) (hl b)
      refine ⟨userGapY t, ?_, ?_⟩
      · have := userGapY_cleaned hrep
        rw [rowScale_congr hfc.scalingOn hfc.scaling, costScale_congr hfc.scalingOn hfc.scaling] at this
        rwa [ey, hk.agree.y]
      · obtain ⟨a1, a2, a3, a4, a5⟩ := user_report hrep (hfc.user hu) hfr
        rw [ex, ey, hk.agree.y, hk.agree.x]
        exact ⟨by rw [hinfo.1, hk.obj, a1], by rw [hinfo.2.1, hk.dobj, a2], by rw [hinfo.2.2.1, hk.gap, a3],
          by rw [hinfo.2.2.2.1, hk.agree.pres, a4], by rw [hinfo.2.2.2.2, hk.agree.dres, a5]⟩
  · rw [hp] at hk
    have hcone := hk.cone hb
    refine ⟨toZ (effSc p) p.work.z, ?_, ?_, ?_⟩
    · refine user_box hrepp fun i => ?_
      rw [hpd]; exact (hcone i).1
    · intro _
      rw [ey, ← hpe]
      refine user_cone hrepp ?_
      rw [hpd]; exact hcone
    · intro hu _
      refine ⟨userGapY p, ?_, ?_⟩
      · have := userGapY_cleaned hrepp
        rw [rowScale_congr hfcp.scalingOn hfcp.scaling, costScale_congr hfcp.scalingOn hfcp.scaling] at this
        rwa [ey, ← hpe]
      · obtain ⟨a1, a2, a3, a4, a5⟩ := user_report hrepp (hfcp.user hu) hk.fresh
        rw [ex, ey, ← hpe]
        exact ⟨by rw [hinfo.1, a1], by rw [hinfo.2.1, a2], by rw [hinfo.2.2.1, a3],
          by rw [hinfo.2.2.2.1, a4], by rw [hinfo.2.2.2.2, a5]⟩

/-- How a given status arose, unless it was already there before the call. -/
theorem final_status {s0 : Solver d K} {k : ℕ} {it : ℤ} {t : Solver d K} (h : Final cfg env s0 k it t)
    {v : ℤ} (hv : t.info.status_val = v) (h0 : s0.info.status_val ≠ v) (h1 : v ≠ St.maxIter) (h2 : v ≠ St.timeLimit) :
    (∃ s1, Within s0 s1 ∧ Iterated s0 s1 ∧ Fresh s1 ∧ (checkTermination false s1).2 = true ∧
      (checkTermination false s1).1.info.status_val = v ∧ t = postRho cfg env (postObj (checkTermination false s1).1)) ∨
    (∃ s1, Within s0 s1 ∧ Iterated s0 s1 ∧ (Fresh s1 ∨ StaleStop cfg env s0 k it) ∧ (checkTermination true s1).2 = true ∧
      (checkTermination true s1).1.info.status_val = v ∧ LimitHit cfg env s0 k it ∧ t = postRho cfg env (checkTermination true s1).1) := by
  cases h with
  | exact s1 within iterated fresh stop when_ eq =>
    left; refine ⟨s1, within, iterated, fresh, stop, ?_, eq⟩
    rw [← hv, eq]; simp
  | approx s1 within iterated fresh stop lim eq =>
    right; refine ⟨s1, within, iterated, fresh, stop, ?_, lim, eq⟩
    rw [← hv, eq]; simp
  | limit s1 v' within iterated fresh stop lim val eq =>
    have : v = v' := by rw [← hv, eq]; simp
    rcases val with ⟨e, _⟩ | ⟨e, _⟩
    · exact absurd (this.trans e) h1
    · exact absurd (this.trans e) h2
  | old p within iterated fresh status v0 lim eq =>
    refine absurd ?_ h0
    rw [← status, ← hv, eq]; simp

theorem entry_status (cfg : Cfg) (s : Solver d K) : (solveEntry cfg s).s.info.status_val = s.info.status_val := by simp

/-- What a solved / solved-inaccurate status set in this call means. -/
theorem result_solved {st₀ : Settings K} {U : Data d K} {s s' : Solver d K} (h : Inv cfg st₀ U s)
    (e : osqpSolve cfg env s = (s', 0)) {sol : Solution d K} (hsol : s'.solution = some sol) (hu : UserCriteria s)
    {b : Bool} (hst : s'.info.status_val = if b then St.solvedInacc else St.solved) (h0 : s.info.status_val ≠ s'.info.status_val)
    (hpol : b = false → s.settings.polishing = 0 ∨ s'.info.status_polish ≠ Pol.success)
    (hl : b = true → ¬ LateStop cfg env s) :
    ∃ z, (ofData U).InBox z ∧
      (ofData U).Converged (s.settings.eps_abs * ctK b) (s.settings.eps_rel * ctK b) sol.x z sol.y ∧
      (s.settings.check_dualgap ≠ 0 → ∃ y', (ofData U).Cleaned (rowScale s) (costScale s) sol.y y' ∧
        |(ofData U).gap sol.x y'| < (ofData U).gapTol (s.settings.eps_abs * ctK b) (s.settings.eps_rel * ctK b) sol.x y') := by
  obtain ⟨it, t, hf, hn, hseen⟩ := solve_seen h e
  have hfc := fromCall hf.within
  rw [hseen.status] at hst
  have hst' : hasSolution t.info = true := by rw [hasSolution_iff, hst]; cases b <;> decide
  obtain ⟨ex, ey, _, _⟩ := hseen.stored hsol hst'
  have hkept : PolKept t (postPolish cfg env t).1 := by
    rcases hseen.pol with hk | hk
    · exact hk
    · cases b with
      | true => rw [hk.solved] at hst; exact absurd hst (by decide)
      | false =>
        rcases hpol rfl with hp | hp
        · exact absurd (hfc.polishing.trans hp) hk.on
        · refine absurd hk.ok ?_
          rw [hseen.info] at hp; simpa using hp
  have key : ∀ s1, Within (solveEntry cfg s).s s1 → Iterated (solveEntry cfg s).s s1 → Fresh s1 → (checkTermination b s1).2 = true →
      (checkTermination b s1).1.info.status_val = t.info.status_val → t.work.x = s1.work.x → t.work.y = s1.work.y → 
      ∃ z, (ofData U).InBox z ∧
      (ofData U).Converged (s.settings.eps_abs * ctK b) (s.settings.eps_rel * ctK b) sol.x z sol.y ∧
      (s.settings.check_dualgap ≠ 0 → ∃ y', (ofData U).Cleaned (rowScale s) (costScale s) sol.y y' ∧
        |(ofData U).gap sol.x y'| < (ofData U).gapTol (s.settings.eps_abs * ctK b) (s.settings.eps_rel * ctK b) sol.x y') := by
    intro s1 hw hi hfr hc hs1 hx hy
    have hfc1 := fromCall hw
    have hrep := hfc1.rep h.rep
    have he : effSc t = effSc s1 := effSc_congr (by rw [hfc.scalingOn, hfc1.scalingOn]) (by rw [hfc.scaling, hfc1.scaling])
    rw [hst] at hs1
    obtain ⟨c1, c2, c3, _⟩ := check_solved hc (by cases b; exact Or.inl hs1; exact Or.inr hs1)
    rw [hkept.agree.x, hx, he] at ex
    rw [hkept.agree.y, hy, he] at ey
    refine ⟨toZ (effSc s1) s1.work.z, user_box hrep hi.box, ?_, ?_⟩
    · have := user_converged hrep (hfc1.user hu) hfr c1 c2
      rw [hfc1.eps_abs, hfc1.eps_rel] at this
      rw [ex, ey]; exact this
    · intro hg
      refine ⟨userGapY s1, ?_, ?_⟩
      · have := userGapY_cleaned hrep
        rw [rowScale_congr hfc1.scalingOn hfc1.scaling, costScale_congr hfc1.scalingOn hfc1.scaling] at this
        rw [ey]; exact this
      · have := user_gapOK hrep (hfc1.user hu) hfr c3 (by rw [hfc1.check_dualgap]; exact hg)
        rw [hfc1.eps_abs, hfc1.eps_rel] at this
        rw [ex]; exact this
  rcases final_status hf rfl (by rw [entry_status, ← hseen.status]; exact h0) (by rw [hst]; cases b <;> decide) (by rw [hst]; cases b <;> decide) with
    ⟨s1, hw, hi, hfr, hc, hv, eq⟩ | ⟨s1, hw, hi, hfr, hc, hv, hlim, eq⟩
  · have hb : b = false := by
      cases b with
      | false => rfl
      | true =>
        rw [hst] at hv
        rcases checkTermination_status hc with a | a | a | a <;> rw [a] at hv <;> exact absurd hv (by decide)
    subst hb
    exact key s1 hw hi hfr hc hv (by rw [eq]; simp) (by rw [eq]; simp)
  · have hb : b = true := by
      cases b with
      | true => rfl
      | false =>
        rw [hst] at hv
        rcases checkTermination_status hc with a | a | a | a <;> rw [a] at hv <;> exact absurd hv (by decide)
    subst hb
    have hfr' : Fresh s1 := by
      rcases hfr with a | a
      · exact a
      · exact absurd (staleStop_late h a) (hl rfl)
    exact key s1 hw hi hfr' hc hv (by rw [eq]; simp) (by rw [eq]; simp)

/-- What a primal infeasible status set in this call means. -/
theorem result_primInf {st₀ : Settings K} {U : Data d K} {s s' : Solver d K} (h : Inv cfg st₀ U s)
    (e : osqpSolve cfg env s = (s', 0)) {sol : Solution d K} (hsol : s'.solution = some sol) (hu : UserCriteria s)
    {b : Bool} (hst : s'.info.status_val = if b then St.primInfInacc else St.primInf) (h0 : s.info.status_val ≠ s'.info.status_val) :
    (ofData U).PrimalCert (rowScale s) (s.settings.eps_prim_inf * ctK b) sol.prim_inf_cert := by
  obtain ⟨it, t, hf, hn, hseen⟩ := solve_seen h e
  have hfc := fromCall hf.within
  rw [hseen.status] at hst
  have hst2 : t.info.status_val = St.primInf ∨ t.info.status_val = St.primInfInacc := by
    cases b; exact Or.inl hst; exact Or.inr hst
  have hs := hseen.storedPrim hsol hst2
  have key : ∀ b' s1, Within (solveEntry cfg s).s s1 → (checkTermination b' s1).2 = true → t.work.delta_y = (checkTermination b' s1).1.work.delta_y →
      (checkTermination b' s1).1.info.status_val = t.info.status_val →
      (ofData U).PrimalCert (rowScale s) (s.settings.eps_prim_inf * ctK b') sol.prim_inf_cert := by
    intro b' s1 hw hc hdy hv
    have hfc1 := fromCall hw
    obtain ⟨c1, c2⟩ := check_primInf (hfc1.user hu) hc (by rw [hv]; exact hst2)
    have := user_primalCert (hfc1.rep h.rep) (hfc1.user hu) c1
    rw [rowScale_congr hfc1.scalingOn hfc1.scaling, hfc1.eps_prim_inf, ← c2, ← hdy] at this
    rw [hs]; exact this
  rcases final_status hf rfl (by rw [entry_status, ← hseen.status]; exact h0) (by rw [hst]; cases b <;> decide) (by rw [hst]; cases b <;> decide) with
    ⟨s1, hw, hi, hfr, hc, hv, eq⟩ | ⟨s1, hw, hi, hfr, hc, hv, hlim, eq⟩
  · have hb : b = false := by
      cases b with
      | false => rfl
      | true =>
        rw [hst] at hv
        rcases checkTermination_status hc with a | a | a | a <;> rw [a] at hv <;> exact absurd hv (by decide)
    subst hb
    exact key false s1 hw hc (by rw [eq]; simp) hv
  · have hb : b = true := by
      cases b with
      | true => rfl
      | false =>
        rw [hst] at hv
        rcases checkTermination_status hc with a | a | a | a <;> rw [a] at hv <;> exact absurd hv (by decide)
    subst hb
    exact key true s1 hw hc (by rw [eq]; simp) hv

/-- What a dual infeasible status set in this call means. -/
theorem result_dualInf {st₀ : Settings K} {U : Data d K} {s s' : Solver d K} (h : Inv cfg st₀ U s)
    (e : osqpSolve cfg env s = (s', 0)) {sol : Solution d K} (hsol : s'.solution = some sol) (hu : UserCriteria s)
    {b : Bool} (hst : s'.info.status_val = if b then St.dualInfInacc else St.dualInf) (h0 : s.info.status_val ≠ s'.info.status_val) :
    (ofData U).DualCert (rowScale s) (s.settings.eps_dual_inf * ctK b) sol.dual_inf_cert := by
  obtain ⟨it, t, hf, hn, hseen⟩ := solve_seen h e
  have hfc := fromCall hf.within
  rw [hseen.status] at hst
  have hst2 : t.info.status_val = St.dualInf ∨ t.info.status_val = St.dualInfInacc := by
    cases b; exact Or.inl hst; exact Or.inr hst
  have hs := hseen.storedDual hsol hst2
  have key : ∀ b' s1, Within (solveEntry cfg s).s s1 → (checkTermination b' s1).2 = true → t.work.delta_x = (checkTermination b' s1).1.work.delta_x →
      (checkTermination b' s1).1.info.status_val = t.info.status_val →
      (ofData U).DualCert (rowScale s) (s.settings.eps_dual_inf * ctK b') sol.dual_inf_cert := by
    intro b' s1 hw hc hdy hv
    have hfc1 := fromCall hw
    obtain ⟨c1, c2⟩ := check_dualInf (hfc1.user hu) hc (by rw [hv]; exact hst2)
    have := user_dualCert (hfc1.rep h.rep) (hfc1.user hu) c1
    rw [rowScale_congr hfc1.scalingOn hfc1.scaling, hfc1.eps_dual_inf, ← c2, ← hdy] at this
    rw [hs]; exact this
  rcases final_status hf rfl (by rw [entry_status, ← hseen.status]; exact h0) (by rw [hst]; cases b <;> decide) (by rw [hst]; cases b <;> decide) with
    ⟨s1, hw, hi, hfr, hc, hv, eq⟩ | ⟨s1, hw, hi, hfr, hc, hv, hlim, eq⟩
  · have hb : b = false := by
      cases b with
      | false => rfl
      | true =>
        rw [hst] at hv
        rcases checkTermination_status hc with a | a | a | a <;> rw [a] at hv <;> exact absurd hv (by decide)
    subst hb
    exact key false s1 hw hc (by rw [eq]; simp) hv
  · have hb : b = true := by
      cases b with
      | true => rfl
      | false =>
        rw [hst] at hv
        rcases checkTermination_status hc with a | a | a | a <;> rw [a] at hv <;> exact absurd hv (by decide)
    subst hb
    exact key true s1 hw hc (by rw [eq]; simp) hv

end Osqp
