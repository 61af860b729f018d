import Verif.Lemmas.Loop

/-!
# Invariants that every function used by `osqp_solve` keeps
-/

set_option linter.unusedSectionVars false
namespace Osqp
open Spec
variable {K : Type*} [Field K] [LinearOrder K] {d : Dims}

/-- Same problem data, scaling and settings (up to the step size and the adaptation interval). -/
def Same (s s' : Solver d K) : Prop :=
  s'.work.data = s.work.data ∧ s'.work.scaling = s.work.scaling ∧
  ∃ r i, s'.settings = { s.settings with rho := r, adaptive_rho_interval := i }

theorem Same.refl (s : Solver d K) : Same s s := ⟨rfl, rfl, s.settings.rho, s.settings.adaptive_rho_interval, rfl⟩

theorem Same.trans {a b c : Solver d K} (h1 : Same a b) (h2 : Same b c) : Same a c := by
  obtain ⟨h1a, h1b, r, i, h1c⟩ := h1
  obtain ⟨h2a, h2b, r', i', h2c⟩ := h2
  refine ⟨h2a.trans h1a, h2b.trans h1b, r', i', ?_⟩
  rw [h2c, h1c]

theorem Same.of_eq {a b : Solver d K} (h1 : b.work.data = a.work.data) (h2 : b.work.scaling = a.work.scaling)
    (h3 : b.settings = a.settings) : Same a b := by
  refine ⟨h1, h2, a.settings.rho, a.settings.adaptive_rho_interval, ?_⟩; rw [h3]

theorem setRho_settings (s : Solver d K) (r : K) : (setRho s r).settings = { s.settings with rho := clampRho r } := by
  unfold setRho; dsimp only; split_ifs <;> rfl

theorem osqpUpdateRho_settings (cfg : Cfg) (env : Env d K) (s : Solver d K) (r : K) :
    (osqpUpdateRho cfg env s r).1.settings = if r ≤ 0 then s.settings else { s.settings with rho := clampRho r } := by
  by_cases h : r ≤ 0
  · simp [osqpUpdateRho, h]
  · simp only [osqpUpdateRho, h, if_false]
    split_ifs <;> simp [setRho_settings]

theorem same_osqpUpdateRho (cfg : Cfg) (env : Env d K) (s : Solver d K) (r : K) : Same s (osqpUpdateRho cfg env s r).1 := by
  refine ⟨by simp, by simp, ?_⟩
  rw [osqpUpdateRho_settings]
  split_ifs
  · exact ⟨s.settings.rho, s.settings.adaptive_rho_interval, rfl⟩
  · exact ⟨clampRho r, s.settings.adaptive_rho_interval, rfl⟩

theorem same_adaptRho (cfg : Cfg) (env : Env d K) (s : Solver d K) : Same s (adaptRho cfg env s).1 := by
  unfold adaptRho; dsimp only; split_ifs
  · refine Same.trans (b := { s with info := { s.info with rho_estimate := computeRhoEstimate env s } }) ?_ ?_
    · exact Same.of_eq rfl rfl rfl
    · refine Same.trans (same_osqpUpdateRho cfg env _ (computeRhoEstimate env s)) ?_
      exact Same.of_eq rfl rfl rfl
  · exact Same.of_eq rfl rfl rfl

/-- Form of the result of `adaptPhase`. -/
theorem adaptPhase_form (cfg : Cfg) (env : Env d K) (ca : Bool) (s : Solver d K) :
    ∃ b : Bool, ∃ k : K, (b = true → ca = true) ∧ (adaptPhase cfg env ca s).1 =
      (let r := (if b = true then adaptRho cfg env { s with work := { s.work with rho_updated := false } }
      else ({ s with work := { s.work with rho_updated := false } }, 0)).1
      { r with work := { r.work with last_rel_kkt := k } }) := by
  refine ⟨if (ca && decide (s.settings.adaptive_rho = 3)) = true then
      decide (s.info.rel_kkt_error ≤ s.settings.adaptive_rho_fraction * s.work.last_rel_kkt) else ca,
      (adaptPhase cfg env ca s).1.work.last_rel_kkt, ?_, ?_⟩
  · intro h; split_ifs at h with h1
    · simp at h1; exact h1.1
    · exact h
  · unfold adaptPhase; dsimp only
    split_ifs <;> rfl

theorem same_adaptPhase (cfg : Cfg) (env : Env d K) (ca : Bool) (s : Solver d K) : Same s (adaptPhase cfg env ca s).1 := by
  obtain ⟨b, k, _, e⟩ := adaptPhase_form cfg env ca s
  rw [e]
  cases b
  · exact Same.of_eq rfl rfl rfl
  · refine Same.trans (b := (adaptRho cfg env { s with work := { s.work with rho_updated := false } }).1) ?_ (Same.of_eq rfl rfl rfl)
    exact Same.trans (b := { s with work := { s.work with rho_updated := false } }) (Same.of_eq rfl rfl rfl) (same_adaptRho cfg env _)

theorem same_adaptDecision (cfg : Cfg) (env : Env d K) (iter : ℤ) (s : Solver d K) :
    Same s (adaptDecision cfg env iter s).1 := by
  refine ⟨by simp, by simp, ?_⟩
  unfold adaptDecision; dsimp only
  split_ifs
  all_goals first
    | exact ⟨s.settings.rho, s.settings.adaptive_rho_interval, rfl⟩
    | exact ⟨s.settings.rho, timeInterval s.settings iter, rfl⟩

theorem same_itTerm (cfg : Cfg) (env : Env d K) (iter : ℤ) (L : LoopSt d K) :
    Same L.s (itDec cfg env iter L).1 ∧ Same L.s (itInfo cfg env iter L) ∧ Same L.s (itTerm cfg env iter L).1 := by
  have h1 : Same L.s (itTimed cfg env L) := Same.of_eq (by simp [itTimed, itAdmm]) (by simp [itTimed, itAdmm]) (by simp [itTimed, itAdmm])
  have h2 : Same L.s (itDec cfg env iter L).1 := h1.trans (same_adaptDecision cfg env iter _)
  have h3 : Same L.s (itInfo cfg env iter L) := by
    unfold itInfo; split_ifs
    · exact h2.trans (Same.of_eq (by simp) (by simp) (by simp))
    · exact h2
  refine ⟨h2, h3, ?_⟩
  unfold itTerm; split_ifs
  · exact h3.trans (Same.of_eq (by simp) (by simp) (by simp))
  · exact h3

/-! ## Step sizes and linear system -/

/-- Linear-system solver and step-size vectors agree with the data and `rho`. -/
structure Sync (s : Solver d K) : Prop where
  P : s.work.linsys.P = s.work.data.P
  A : s.work.linsys.A = s.work.data.A
  sigma : s.work.linsys.sigma = s.settings.sigma
  rho_lo : Const.rhoMin K ≤ s.settings.rho
  rho_hi : s.settings.rho ≤ Const.rhoMax K
  vec : s.settings.rho_is_vec ≠ 0 → s.work.rho_vec = rhoVecOf s.work.constr_type s.settings.rho ∧
    s.work.rho_inv_vec = vRecip s.work.rho_vec ∧ s.work.linsys.rho_inv_vec = some (vRecip s.work.rho_vec)
  sca : s.settings.rho_is_vec = 0 → s.work.linsys.rho_inv_vec = none ∧ s.work.linsys.rho_inv = 1 / s.settings.rho

/-- The scalar inverse used by the iteration in scalar mode. -/
def RhoInvOK (s : Solver d K) : Prop := s.settings.rho_is_vec = 0 → s.work.rho_inv = 1 / s.settings.rho

/-- The fields `Sync` and `RhoInvOK` talk about. -/
def core (s : Solver d K) := (s.settings.rho, s.settings.rho_is_vec, s.settings.sigma, s.work.data, s.work.linsys,
  s.work.rho_vec, s.work.rho_inv_vec, s.work.rho_inv, s.work.constr_type)

theorem Sync.congr {s s' : Solver d K} (h : Sync s) (e : core s' = core s) : Sync s' := by
  simp only [core, Prod.mk.injEq] at e
  obtain ⟨e1, e2, e3, e4, e5, e6, e7, e8, e9⟩ := e
  constructor <;> simp only [e1, e2, e3, e4, e5, e6, e7, e9]
  exacts [h.P, h.A, h.sigma, h.rho_lo, h.rho_hi, h.vec, h.sca]

theorem RhoInvOK.congr {s s' : Solver d K} (h : RhoInvOK s) (e : core s' = core s) : RhoInvOK s' := by
  simp only [core, Prod.mk.injEq] at e
  obtain ⟨e1, e2, e3, e4, e5, e6, e7, e8, e9⟩ := e
  unfold RhoInvOK; rw [e1, e2, e8]; exact h

section
variable [IsStrictOrderedRing K]

theorem rhoMin_pos : (0 : K) < Const.rhoMin K := by unfold Const.rhoMin; positivity
theorem rhoMin_le_rhoMax : Const.rhoMin K ≤ Const.rhoMax K := by
  unfold Const.rhoMin Const.rhoMax
  have : (1 : K) ≤ 10 ^ 6 := by norm_num
  calc (1 : K) / 10 ^ 6 ≤ 1 := by norm_num
    _ ≤ 10 ^ 6 := this

theorem clampRho_lo (x : K) : Const.rhoMin K ≤ clampRho x := by
  unfold clampRho; rw [cMin_eq, cMax_eq]; exact le_min (le_max_right _ _) rhoMin_le_rhoMax

theorem clampRho_hi (x : K) : clampRho x ≤ Const.rhoMax K := by
  unfold clampRho; rw [cMin_eq]; exact min_le_right _ _

theorem clampRho_of_mem {x : K} (h1 : Const.rhoMin K ≤ x) (h2 : x ≤ Const.rhoMax K) : clampRho x = x := by
  unfold clampRho; rw [cMin_eq, cMax_eq, max_eq_left h1, min_eq_left h2]

theorem rhoVecOf_pos {ct : Fin d.m → ℤ} {rho : K} (h : 0 < rho) (i : Fin d.m) : 0 < rhoVecOf ct rho i := by
  unfold rhoVecOf vSetCond
  split_ifs
  · exact h
  · unfold Const.rhoEqOverIneq; positivity
  · exact rhoMin_pos

theorem Sync.rhoOK {s : Solver d K} (h : Sync s) (h' : RhoInvOK s) : RhoOK s := by
  have hp : 0 < s.settings.rho := rhoMin_pos.trans_le h.rho_lo
  constructor
  · intro hv i
    obtain ⟨a, b, _⟩ := h.vec hv
    rw [b, a]; exact ⟨rhoVecOf_pos hp i, rfl⟩
  · intro hv; exact ⟨hp, h' hv⟩

theorem sync_osqpUpdateRho (cfg : Cfg) (env : Env d K) {s : Solver d K} (r : K) (h : Sync s) :
    Sync (osqpUpdateRho cfg env s r).1 := by
  by_cases hr : r ≤ 0
  · have : (osqpUpdateRho cfg env s r).1 = s := by simp [osqpUpdateRho, hr]
    rw [this]; exact h
  · have key : Sync ({ setRho s r with work := { (setRho s r).work with
        linsys := (linsysUpdateRho env (setRho s r).work.linsys (setRho s r).work.rho_vec (setRho s r).settings.rho).1 } }) := by
      by_cases hv : s.settings.rho_is_vec ≠ 0
      · obtain ⟨a, b, c⟩ := h.vec hv
        constructor <;> simp only [setRho, if_pos hv, linsysUpdateRho, c]
        · exact h.P
        · exact h.A
        · exact h.sigma
        · exact clampRho_lo r
        · exact clampRho_hi r
        · intro _; exact ⟨trivial, trivial, rfl⟩
        · intro h0; exact absurd h0 hv
      · obtain ⟨a, b⟩ := h.sca (not_not.1 hv)
        constructor <;> simp only [setRho, if_neg hv, linsysUpdateRho, a]
        · exact h.P
        · exact h.A
        · exact h.sigma
        · exact clampRho_lo r
        · exact clampRho_hi r
        · intro h0; exact absurd h0 hv
        · intro _; exact ⟨trivial, trivial⟩
    refine Sync.congr key ?_
    unfold osqpUpdateRho setRho
    simp only [if_neg hr]
    by_cases hv : s.settings.rho_is_vec = 0 <;> (split_ifs <;> simp_all [core])

theorem rhoInvOK_osqpUpdateRho (cfg : Cfg) (env : Env d K) {s : Solver d K} (r : K) (h : 0 < r ∨ RhoInvOK s) :
    RhoInvOK (osqpUpdateRho cfg env s r).1 := by
  by_cases hr : r ≤ 0
  · have : (osqpUpdateRho cfg env s r).1 = s := by simp [osqpUpdateRho, hr]
    rw [this]; rcases h with h | h
    · exact absurd h (not_lt.2 hr)
    · exact h
  · intro hv
    have hv' : s.settings.rho_is_vec = 0 := by rw [← hv]; simp
    unfold osqpUpdateRho setRho
    simp only [if_neg hr]
    split_ifs <;> simp_all

theorem sync_adaptRho (cfg : Cfg) (env : Env d K) {s : Solver d K} (h : Sync s) : Sync (adaptRho cfg env s).1 := by
  unfold adaptRho; dsimp only
  have h1 : Sync ({ s with info := { s.info with rho_estimate := computeRhoEstimate env s } } : Solver d K) := h.congr rfl
  split_ifs
  · exact (sync_osqpUpdateRho cfg env (computeRhoEstimate env s) h1).congr rfl
  · exact h1

theorem rhoInvOK_adaptRho (cfg : Cfg) (env : Env d K) {s : Solver d K} (h : RhoInvOK s) : RhoInvOK (adaptRho cfg env s).1 := by
  unfold adaptRho; dsimp only
  have h1 : RhoInvOK ({ s with info := { s.info with rho_estimate := computeRhoEstimate env s } } : Solver d K) := h.congr rfl
  split_ifs
  · exact (rhoInvOK_osqpUpdateRho cfg env (computeRhoEstimate env s) (Or.inr h1)).congr rfl
  · exact h1

theorem sync_adaptPhase (cfg : Cfg) (env : Env d K) (ca : Bool) {s : Solver d K} (h : Sync s) :
    Sync (adaptPhase cfg env ca s).1 := by
  obtain ⟨b, k, _, e⟩ := adaptPhase_form cfg env ca s
  rw [e]
  have h1 : Sync ({ s with work := { s.work with rho_updated := false } } : Solver d K) := h.congr rfl
  cases b
  · exact h1.congr rfl
  · exact (sync_adaptRho cfg env h1).congr rfl

theorem rhoInvOK_adaptPhase (cfg : Cfg) (env : Env d K) (ca : Bool) {s : Solver d K} (h : RhoInvOK s) :
    RhoInvOK (adaptPhase cfg env ca s).1 := by
  obtain ⟨b, k, _, e⟩ := adaptPhase_form cfg env ca s
  rw [e]
  have h1 : RhoInvOK ({ s with work := { s.work with rho_updated := false } } : Solver d K) := h.congr rfl
  cases b
  · exact h1.congr rfl
  · exact (rhoInvOK_adaptRho cfg env h1).congr rfl

theorem core_itTerm (cfg : Cfg) (env : Env d K) (iter : ℤ) (L : LoopSt d K) :
    core (itAdmm cfg env L) = core L.s ∧ core (itTimed cfg env L) = core L.s ∧ core (itInfo cfg env iter L) = core L.s ∧
    core (itTerm cfg env iter L).1 = core L.s := by
  have h1 : core (itAdmm cfg env L) = core L.s := by simp [itAdmm, core]
  have h2 : core (itTimed cfg env L) = core L.s := by simp [itTimed, itAdmm, core]
  have h3 : core (itInfo cfg env iter L) = core L.s := by
    rw [← h2]; unfold itInfo itDec; split_ifs <;> simp [core]
  refine ⟨h1, h2, h3, ?_⟩
  rw [← h3]
  unfold itTerm; split_ifs
  · simp [core]
  · rfl

end
end Osqp
