import Verif.Conv.Admm
import Verif.Props.LinSys
import Verif.Props.Data

/-!
# The iterations of the model are ADMM iterations
-/

set_option linter.unusedSectionVars false
namespace Osqp
open Spec Matrix Conv
variable {K : Type*} [Field K] [LinearOrder K] [IsStrictOrderedRing K] {d : Dims} {cfg : Cfg} {env : Env d K}
  {D₀ U : Data d K} {st₀ : Settings K} {s s' : Solver d K}

/-- The factorisation solves the held system exactly. -/
def ExactOn (env : Env d K) (ls : LinSys d K) : Prop :=
  ∀ bx bz, heldMatrix ls *ᵥ Sum.elim (env.kktSolve ls bx bz).1 (env.kktSolve ls bx bz).2 = Sum.elim bx bz

theorem inv_steps (h : Sync s) (hr : RhoInvOK s) (i : Fin d.m) : invSteps s i = 1 / steps s i := by
  unfold invSteps steps
  by_cases hv : s.settings.rho_is_vec = 0
  · rw [if_neg (by simp [hv]), if_neg (by simp [hv])]
    exact hr hv
  · rw [if_pos hv, if_pos hv, (h.vec hv).2.1]; rfl

/-- One iteration of the model is one ADMM iteration for the problem in the solver's units. -/
theorem admm_is_step (h : Sync s) (hr : RhoInvOK s) (hex : ExactOn env s.work.linsys) :
    Step (ofData s.work.data) s.settings.sigma s.settings.alpha (steps s) s.work.x s.work.z s.work.y
      (updateXZTilde env (swapIterates s)).1 (admmStep env s).work.x (admmStep env s).work.z (admmStep env s).work.y := by
  set Q := ofData s.work.data with hQ
  set b := computeRhs (swapIterates s) with hb
  have hbx : b.1 = fun j => s.settings.sigma * s.work.x j - Q.q j := by
    rw [hb]; funext j
    simp only [computeRhs, swapIterates, vAddScaled, hQ, ofData]; ring
  have hbz : b.2 = fun i => s.work.z i - 1 / steps s i * s.work.y i := by
    rw [hb]; funext i
    rw [← inv_steps h hr]
    exact rhs_z (swapIterates s) i
  have ex := hex b.1 b.2
  set sol := env.kktSolve s.work.linsys b.1 b.2 with hsol
  replace ex := (held_mulVec _ _ _).symm.trans ex
  have h1 : ∀ j, (Q.P *ᵥ sol.1) j + s.settings.sigma * sol.1 j + (Q.Aᵀ *ᵥ sol.2) j = b.1 j := fun j => by
    have := congrFun ex (Sum.inl j)
    rw [h.P, h.A, h.sigma] at this
    exact this
  have h2 : ∀ i, (Q.A *ᵥ sol.1) i - 1 / steps s i * sol.2 i = b.2 i := fun i => by
    have := congrFun ex (Sum.inr i)
    rw [h.A] at this
    rw [← param2_steps h]
    exact this
  have e : updateXZTilde env (swapIterates s) = (sol.1, fun i => b.2 i + 1 / steps s i * sol.2 i) := by
    unfold updateXZTilde linsysSolve
    refine Prod.ext rfl (funext fun i => ?_)
    show b.2 i + s.work.linsys.param2 i * sol.2 i = _
    rw [param2_steps h]
  have hz : (fun i => b.2 i + 1 / steps s i * sol.2 i) = Q.A *ᵥ sol.1 := by
    funext i; rw [← h2 i]; ring
  rw [hz] at e
  have hw : (fun i => steps s i * ((Q.A *ᵥ sol.1) i - s.work.z i) + s.work.y i) = sol.2 := by
    funext i
    have h0 := (steps_pos h i).ne'
    have := h2 i
    rw [hbz] at this
    have e2 : (Q.A *ᵥ sol.1) i - s.work.z i = 1 / steps s i * (sol.2 i - s.work.y i) := by linear_combination this
    rw [e2]; field_simp; ring
  have ezt : (updateXZTilde env (swapIterates s)).2 = Q.A *ᵥ sol.1 := by rw [e]
  have exz : (updateXZTilde env (swapIterates s)).1 = sol.1 := by rw [e]
  have hρ : ∀ i, (if s.settings.rho_is_vec ≠ 0 then s.work.rho_vec i else s.settings.rho) = steps s i := fun i => rfl
  have hρi : ∀ i, (if s.settings.rho_is_vec ≠ 0 then s.work.rho_inv_vec i else s.work.rho_inv) = 1 / steps s i := fun i => inv_steps h hr i
  rw [exz]
  refine ⟨fun j => ?_, fun j => ?_, fun i => ?_, fun i => ?_⟩
  · rw [hw, h1 j, hbx]
  · rw [← exz]
    show vAddScaled s.settings.alpha (updateXZTilde env (swapIterates s)).1 (1 - s.settings.alpha) s.work.x j = _
    unfold vAddScaled; ring
  · have := admmStep_z env s i
    dsimp only at this
    rw [hρi, ezt] at this
    rw [this]
    have e3 : 1 / steps s i * s.work.y i + s.settings.alpha * (Q.A *ᵥ sol.1) i + (1 - s.settings.alpha) * s.work.z i =
      s.settings.alpha * (Q.A *ᵥ sol.1) i + (1 - s.settings.alpha) * s.work.z i + s.work.y i / steps s i := by ring
    rw [e3]; rfl
  · have := admmStep_y env s i
    dsimp only at this
    rw [hρ, ezt] at this
    exact this

/-! ## Determinism -/

/-- Two states from which the iteration takes the same steps and whose iterates have the same meaning. -/
structure InStep (a b : Solver d K) : Prop where
  x : a.work.x = b.work.x
  z : a.work.z = b.work.z
  y : a.work.y = b.work.y
  core : core a = core b
  alpha : a.settings.alpha = b.settings.alpha
  on : a.settings.scaling = b.settings.scaling
  sc : a.work.scaling = b.work.scaling

theorem InStep.refl (a : Solver d K) : InStep a a := ⟨rfl, rfl, rfl, rfl, rfl, rfl, rfl⟩
theorem InStep.trans {a b c : Solver d K} (h : InStep a b) (g : InStep b c) : InStep a c :=
  ⟨h.x.trans g.x, h.z.trans g.z, h.y.trans g.y, h.core.trans g.core, h.alpha.trans g.alpha, h.on.trans g.on, h.sc.trans g.sc⟩

theorem agree_tilde {a b : Solver d K} (h : InStep a b) : updateXZTilde env (swapIterates a) = updateXZTilde env (swapIterates b) := by
  obtain ⟨hx, hz, hy, hc, ha, ho, hsc⟩ := h
  simp only [Osqp.core, Prod.mk.injEq] at hc
  obtain ⟨e1, e2, e3, e4, e5, e6, e7, e8, e9⟩ := hc
  have e : computeRhs (swapIterates a) = computeRhs (swapIterates b) := by
    unfold computeRhs swapIterates
    simp only [hx, hz, hy, e1, e2, e3, e4, e7, e8]
  unfold updateXZTilde
  rw [e]
  show linsysSolve env a.work.linsys _ = linsysSolve env b.work.linsys _
  rw [e5]

theorem InStep.step {a b : Solver d K} (h : InStep a b) : InStep (admmStep env a) (admmStep env b) := by
  have ht := agree_tilde (env := env) h
  obtain ⟨hx, hz, hy, hc, ha, ho, hsc⟩ := h
  have hc' := hc
  simp only [Osqp.core, Prod.mk.injEq] at hc
  obtain ⟨e1, e2, e3, e4, e5, e6, e7, e8, e9⟩ := hc
  have z' : (admmStep env a).work.z = (admmStep env b).work.z := by
    funext i
    have p := admmStep_z env a i
    have q := admmStep_z env b i
    dsimp only at p q
    rw [p, q, ht, hz, hy, e2, e4, e7, e8, ha]
  refine ⟨?_, z', ?_, ?_, by simpa using ha, by simpa using ho, by simpa using hsc⟩
  · show vAddScaled a.settings.alpha (updateXZTilde env (swapIterates a)).1 (1 - a.settings.alpha) a.work.x =
      vAddScaled b.settings.alpha (updateXZTilde env (swapIterates b)).1 (1 - b.settings.alpha) b.work.x
    rw [ht, ha, hx]
  · funext i
    have p := admmStep_y env a i
    have q := admmStep_y env b i
    dsimp only at p q
    rw [p, q, ht, hz, hy, e1, e2, e6, ha, z']
  · simpa [Osqp.core] using hc'

/-- With adaptation switched off, an iteration that runs to completion does nothing to the iterates after the ADMM step. -/
theorem body_agree {it : ℤ} {L L' : LoopSt d K} (off : L.s.settings.adaptive_rho = 0) (e : iterBody cfg env it L = .cont L') :
    InStep (admmStep env L.s) L'.s ∧ L'.s.settings = L.s.settings := by
  rw [iterBody_eq] at e
  generalize hgp : (if cfg.printing = true then false else L.canPrint) = cpv at e
  split_ifs at e with c1 c2 c3 c4
  simp only [IterOut.cont.injEq] at e
  have hT : (itTimed cfg env L).settings = L.s.settings := by simp [itTimed, itAdmm]
  have hdec : itDec cfg env it L = (itTimed cfg env L, false) := by
    unfold itDec adaptDecision
    rw [hT, off]; simp
  have hpd : ∀ t : Solver d K, (adaptPhase cfg env false t).1 = { t with work := { t.work with rho_updated := false } } := by
    intro t; unfold adaptPhase; simp
  rw [hdec] at e
  simp only [hpd] at e
  have hI : InStep (admmStep env L.s) (itTerm cfg env it L).1 ∧ (itTerm cfg env it L).1.settings = L.s.settings := by
    unfold itTerm itInfo
    rw [hdec]
    split_ifs <;> refine ⟨⟨?_, ?_, ?_, ?_, ?_, ?_, ?_⟩, ?_⟩ <;> simp [itTimed, itAdmm, core]
  rw [← e]
  obtain ⟨⟨a1, a2, a3, a4, a5, a6, a7⟩, a8⟩ := hI
  exact ⟨⟨a1, a2, a3, a4, a5, a6, a7⟩, a8⟩

/-- The `k`-th iterate from state `s`: what `k` ADMM steps compute. -/
def iterate (env : Env d K) (s : Solver d K) (k : ℕ) : Solver d K := (admmStep env)^[k] s

theorem iterate_succ (s : Solver d K) (k : ℕ) : iterate env s (k + 1) = admmStep env (iterate env s k) :=
  Function.iterate_succ_apply' _ _ _

theorem agree_iterate {a b : Solver d K} (h : InStep a b) (k : ℕ) : InStep (iterate env a k) (iterate env b k) := by
  induction k with
  | zero => exact h
  | succ k ih => rw [iterate_succ, iterate_succ]; exact ih.step

/-- With adaptation switched off the iterates of a solve are those of the plain iteration. -/
theorem runs_iterate {L₀ L : LoopSt d K} {it : ℤ} (off : L₀.s.settings.adaptive_rho = 0) (run : Runs cfg env L₀ it L) :
    InStep (iterate env L₀.s (it - 1).toNat) L.s ∧ L.s.settings = L₀.s.settings := by
  induction run with
  | start => exact ⟨InStep.refl _, rfl⟩
  | @step it L1 L2 r e ih =>
    have h0 := (Runs.functional r).1
    obtain ⟨b1, b2⟩ := body_agree (by rw [ih.2]; exact off) e
    refine ⟨?_, b2.trans ih.2⟩
    have : (it + 1 - 1).toNat = (it - 1).toNat + 1 := by omega
    rw [this, iterate_succ]
    exact ih.1.step.trans b1

/-! ## Convergence for the scaled problem -/

theorem iterate_frame (s : Solver d K) (k : ℕ) : core (iterate env s k) = core s ∧ (iterate env s k).settings = s.settings ∧
    (iterate env s k).work.scaling = s.work.scaling := by
  induction k with
  | zero => exact ⟨rfl, rfl, rfl⟩
  | succ k ih =>
    rw [iterate_succ]
    refine ⟨Eq.trans ?_ ih.1, ?_, ?_⟩
    · simp [core]
    · simpa using ih.2.1
    · simpa using ih.2.2

theorem steps_core {a b : Solver d K} (h : core a = core b) : steps a = steps b := by
  simp only [core, Prod.mk.injEq] at h
  obtain ⟨e1, e2, e3, e4, e5, e6, e7, e8, e9⟩ := h
  funext i; unfold steps; rw [e1, e2, e6]

/-- In the solver's own units the residuals of the iterates tend to zero. -/
theorem iterate_converges [Archimedean K] {s : Solver d K} (h : Sync s) (hr : RhoInvOK s) (hex : ExactOn env s.work.linsys)
    (hb : ∀ i, s.work.data.l i ≤ s.work.data.u i) (hP : PSD (ofData s.work.data).P) (hσ : 0 < s.settings.sigma)
    (hα : 0 < s.settings.alpha ∧ s.settings.alpha < 2) {xs : Fin d.n → K} {ys : Fin d.m → K} (hk : (ofData s.work.data).KKT xs ys) {ε : K} (hε : 0 < ε) :
    ∃ N, ∀ k ≥ N, (∀ i, |((ofData s.work.data).A *ᵥ (iterate env s k).work.x) i - (iterate env s k).work.z i| ≤ ε) ∧
      ∀ j, |(ofData s.work.data).stat (iterate env s k).work.x (iterate env s k).work.y j| ≤ ε := by
  have hc : ∀ k, core (iterate env s k) = core s := fun k => (iterate_frame s k).1
  have hse : ∀ k, (iterate env s k).settings = s.settings := fun k => (iterate_frame s k).2.1
  have hda : ∀ k, (iterate env s k).work.data = s.work.data := fun k => by
    have := hc k; simp only [core, Prod.mk.injEq] at this; exact this.2.2.2.1
  have hls : ∀ k, (iterate env s k).work.linsys = s.work.linsys := fun k => by
    have := hc k; simp only [core, Prod.mk.injEq] at this; exact this.2.2.2.2.1
  refine admm_converges (Q := ofData s.work.data) (ρ := steps s) (Xt := fun k => (updateXZTilde env (swapIterates (iterate env s k))).1)
    hP hσ hα.1 hα.2 (steps_pos h) hk (X := fun k => (iterate env s k).work.x) (Z := fun k => (iterate env s k).work.z)
    (Y := fun k => (iterate env s k).work.y) (fun k => ?_) (fun k => ?_) hε
  · have := admm_is_step (env := env) (h.congr (hc k)) (hr.congr (hc k)) (by rw [hls]; exact hex)
    rw [hda, hse, steps_core (hc k)] at this
    rw [iterate_succ]
    exact this
  · have := admmStep_cone env (iterate env s k) ((h.congr (hc k)).rhoOK (hr.congr (hc k))) (by rw [hda]; exact hb)
    rw [hda] at this
    rw [iterate_succ]
    exact ⟨fun i => (this i).1, fun i => (this i).2⟩

end Osqp
