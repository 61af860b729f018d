import Verif.Lemmas.Solve
import Verif.Lemmas.Valid
import Verif.Lemmas.Overwrite
import Verif.Lemmas.Scaling

/-!
# Invariant of every history of API calls
-/

set_option linter.unusedSectionVars false
namespace Osqp
open Spec
variable {K : Type*} [Field K] [LinearOrder K] {d : Dims}

/-- The settings `osqp_update_settings` never touches (except rho and the interval). -/
structure SameFixed (a b : Settings K) : Prop where
  device : b.device = a.device
  linsys_solver : b.linsys_solver = a.linsys_solver
  allocate_solution : b.allocate_solution = a.allocate_solution
  scaling : b.scaling = a.scaling
  rho_is_vec : b.rho_is_vec = a.rho_is_vec
  sigma : b.sigma = a.sigma
  adaptive_rho : b.adaptive_rho = a.adaptive_rho
  adaptive_rho_fraction : b.adaptive_rho_fraction = a.adaptive_rho_fraction
  adaptive_rho_tolerance : b.adaptive_rho_tolerance = a.adaptive_rho_tolerance

/-- Status value and text agree and are one of the eleven statuses. -/
def StatusOK (i : Info K) : Prop := statusMessage i.status_val = some i.status ∧ i.status_val ≠ 0

/-- The initial step size is within limits or the solver uses one step size per constraint. -/
def RhoStartOK (st₀ : Settings K) : Prop :=
  st₀.rho_is_vec ≠ 0 ∨ (Const.rhoMin K ≤ st₀.rho ∧ st₀.rho ≤ Const.rhoMax K)

structure Inv (cfg : Cfg) (st₀ : Settings K) (U : Data d K) (s : Solver d K) : Prop where
  rep : Represents s.settings s.work.scaling U s.work.data
  bounds : ∀ i, U.l i ≤ U.u i
  sync : Sync s
  rinv : RhoStartOK st₀ → RhoInvOK s
  live : ValidMutable s.settings
  valid0 : ValidFixed cfg st₀
  fixed : SameFixed st₀ s.settings
  status : StatusOK s.info
  aty : d.m = 0 → s.work.Aty = vSet 0
  hand : s.handler = false
  sol : s.solution.isSome = true ↔ st₀.allocate_solution ≠ 0

theorem statusOK_update (i : Info K) {v : ℤ} (h : (statusMessage v).isSome = true) (h0 : v ≠ 0) :
    StatusOK (updateStatus i v) := by
  obtain ⟨t, ht⟩ := Option.isSome_iff_exists.1 h
  exact ⟨by simp [updateStatus, ht], h0⟩

theorem statusOK_setStatus (s : Solver d K) {v : ℤ} (h : (statusMessage v).isSome = true) (h0 : v ≠ 0) :
    StatusOK (setStatus s v).info := statusOK_update _ h h0

theorem StatusOK.congr {i j : Info K} (h : StatusOK i) (e1 : j.status_val = i.status_val) (e2 : j.status = i.status) :
    StatusOK j := by unfold StatusOK; rw [e1, e2]; exact h

theorem statusOK_check (b : Bool) {s : Solver d K} (h : StatusOK s.info) : StatusOK (checkTermination b s).1.info := by
  have c := checkTermination_cases b s
  dsimp only at c
  rcases c with ⟨_, e⟩ | ⟨_, ⟨_, _, _, e⟩ | ⟨_, e⟩ | ⟨_, _, e⟩ | ⟨_, _, _, e⟩⟩ <;> rw [e]
  · exact (statusOK_update s.info (v := St.nonCvx) (by decide) (by decide)).congr rfl rfl
  · exact statusOK_setStatus _ (by cases b <;> decide) (by cases b <;> decide)
  · refine StatusOK.congr (statusOK_setStatus s (v := if b then St.primInfInacc else St.primInf) (by cases b <;> decide) (by cases b <;> decide)) ?_ ?_
    · rfl
    · cases b <;> rfl
  · refine StatusOK.congr (statusOK_setStatus s (v := if b then St.dualInfInacc else St.dualInf) (by cases b <;> decide) (by cases b <;> decide)) ?_ ?_
    · rfl
    · cases b <;> rfl
  · rw [ctState_info]; exact h

/-- Preservation by anything that changes neither the data, the scaling, the settings nor the linear system. -/
theorem Inv.of_frame {cfg : Cfg} {st₀ : Settings K} {U : Data d K} {s s' : Solver d K} (h : Inv cfg st₀ U s)
    (e1 : core s' = core s) (e2 : s'.work.scaling = s.work.scaling) (e3 : s'.settings = s.settings)
    (e4 : StatusOK s'.info) (e5 : d.m = 0 → s'.work.Aty = s.work.Aty) (e6 : s'.handler = false)
    (e7 : s'.solution.isSome = s.solution.isSome) : Inv cfg st₀ U s' := by
  have ed : s'.work.data = s.work.data := by simp only [core, Prod.mk.injEq] at e1; exact e1.2.2.2.1
  exact ⟨by rw [e2, e3, ed]; exact h.rep, h.bounds, h.sync.congr e1, fun hr => (h.rinv hr).congr e1,
    by rw [e3]; exact h.live, h.valid0, by rw [e3]; exact h.fixed, e4, fun hm => (e5 hm).trans (h.aty hm), e6, by rw [e7]; exact h.sol⟩

section
variable [IsStrictOrderedRing K]

/-! ## Setup -/

theorem inv_setup {cfg : Cfg} {env : Env d K} (hs : SqrtPos env) {D : Data d K} {st : Settings K} {s : Solver d K}
    (h : osqpSetup cfg env D st = .ok s) : Inv cfg st D s := by
  have hv : ValidSettings cfg st := by
    by_contra hv
    rw [← validateSettings_setup] at hv
    unfold osqpSetup at h
    have hv' : validateSettings cfg st true = true := by simpa using hv
    simp only [hv', if_true] at h
    split_ifs at h
  have hb : ∀ i, D.l i ≤ D.u i := by
    have h1' : validateDataBad D = false := by
      by_contra hv
      unfold osqpSetup at h
      have hv' : validateDataBad D = true := by simpa using hv
      simp [hv'] at h
    intro i
    unfold validateDataBad at h1'
    simp only [Bool.or_eq_false_iff, List.any_eq_false] at h1'
    have := h1'.2 i (List.mem_finRange i)
    simpa using this
  have hst : ∀ i : Info K, StatusOK (updateStatus i St.unsolved) := fun i => statusOK_update i (by decide) (by decide)
  have hv1 : validateSettings cfg st true = false := (validateSettings_setup cfg st).2 hv
  unfold osqpSetup at h
  by_cases hp : cfg.profiling = true <;> by_cases hr : st.rho_is_vec = 0 <;> by_cases hsc : st.scaling = 0 <;>
    simp only [hv1, hp, hr, hsc, ne_eq, not_true, not_false_iff, if_true, if_false] at h <;>
    split_ifs at h <;> cases h
  all_goals
    refine ⟨?_, hb, ?_, ?_, ?_, hv.fixed, ?_, ?_, ?_, rfl, ?_⟩
    · first
      | exact ⟨fun h => absurd rfl h, fun _ => rfl⟩
      | exact ⟨fun h => absurd hsc h, fun _ => rfl⟩
      | exact ⟨fun _ => scaleData_spec hs st.scaling D, fun h => absurd h hsc⟩
    · refine ⟨rfl, rfl, rfl, clampRho_lo _, clampRho_hi _, ?_, ?_⟩
      · first
        | exact fun h => absurd rfl h
        | exact fun h => absurd hr h
        | exact fun _ => ⟨rfl, rfl, rfl⟩
      · first
        | exact fun h => absurd h hr
        | exact fun _ => ⟨rfl, rfl⟩
    · rintro hq h0
      rcases hq with hq | ⟨h1, h2⟩
      · first
        | exact absurd hr hq
        | exact absurd h0 hr
      · first
        | exact absurd h0 hr
        | (simp only [coldStart, toc]; rw [clampRho_of_mem h1 h2])
    · first
      | exact ⟨hv.live.1, hv.live.2, hv.live.3, hv.live.4, hv.live.5, hv.live.6, hv.live.7, hv.live.8, hv.live.9, hv.live.10, hv.live.11, hv.live.12, hv.live.13, hv.live.14, hv.live.15, hv.live.16, hv.live.17, hv.live.18, hv.live.19, hv.live.20⟩
    · constructor <;> first | rfl | exact hr.symm | exact hsc.symm
    · exact ⟨rfl, fun h11 => absurd (show (11 : ℤ) = 0 from h11) (by decide)⟩
    · exact fun _ => rfl
    · simp_all
end
end Osqp
