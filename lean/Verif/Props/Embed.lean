import Verif.Lemmas.Embed
import Verif.Props.Solved

/-!
# C68: embedded builds compute what the desktop build computes
-/

namespace Osqp
open Spec
variable {K : Type*} [Field K] [LinearOrder K] [IsStrictOrderedRing K] {d : Dims} {cfg : Cfg} {env : Env d K} {e : Emb} {D₀ U : Data d K} {st₀ : Settings K}
  {s t : Solver d K}

/-- **C68 (one call).** -/
theorem c68_call_partial (hsq : SqrtPos env) (hist : Hist cfg env D₀ st₀ U t) (h : SameRun e s t) {op : Op d K} (hx : op.exists e)
    (hk : e = .one → ∀ q l u s', op = .updateDataVec q l u → l.isSome ∨ u.isSome → apiStepE e cfg env s op = some (s', 0) → TypesKept s s') :
    (apiStepE e cfg env s op = none ∧ apiStep cfg env t (offOp op) = none) ∨
    ∃ s' t' c, apiStepE e cfg env s op = some (s', c) ∧ apiStep cfg env t (offOp op) = some (t', c) ∧ SameRun e s' t' ∧
      Hist cfg env D₀ st₀ (userStep U op) t' := by
  have hi := hist_inv hsq hist
  have hm : 0 < s.settings.max_iter.toNat := by
    have := hi.live.max_iter
    rw [h.settings] at this
    cases e <;> simp [ignored] at this <;> omega
  have hu : userStep U (offOp op) = userStep U op := by
    cases op with
    | updateSettings n => cases n <;> rfl
    | _ => rfl
  rcases h.step (cfg := cfg) (env := env) hm hi.sync op hx (fun he q l u ho hl hc => hk he q l u _ ho hl (by subst ho; exact congrArg some (Prod.ext rfl hc)))
    with a | ⟨s', t', c, a, b, k⟩
  · exact .inl a
  · exact .inr ⟨s', t', c, a, b, k, hu ▸ Hist.step hist b⟩

/-- **C68.** Start an embedded solver and a desktop solver (polishing off; for mode 1 also no adaptation of rho) with the same contents and give both
the same calls, in any number and order. Then either both come to an undefined call, or all return codes agree and in the end both hold the same
settings, problem and iterates and report the same results, times and point. Missing: the infeasibility certificates, which embedded builds do not
store (`c68_certificate_lost`), and in mode 1 bounds that change a constraint's type (`c68_types_stale`). -/
theorem c68_embedded_same_partial (hsq : SqrtPos env) : ∀ {ops : List (Op d K)} {U : Data d K} {s t : Solver d K}, Hist cfg env D₀ st₀ U t → SameRun e s t →
    Fits e cfg env s ops →
    (calls (apiStepE e cfg env) s ops = none ∧ calls (apiStep cfg env) t (ops.map offOp) = none) ∨
    ∃ s' t' codes, calls (apiStepE e cfg env) s ops = some (s', codes) ∧ calls (apiStep cfg env) t (ops.map offOp) = some (t', codes) ∧ SameRun e s' t' ∧
      Hist cfg env D₀ st₀ (ops.foldl userStep U) t'
  | [], _, s, t, hist, h, _ => .inr ⟨s, t, [], rfl, rfl, h, hist⟩
  | op :: ops, U, s, t, hist, h, hf => by
    obtain ⟨f1, f2, f3⟩ := hf
    rcases c68_call_partial hsq hist h f1 f2 with ⟨a, b⟩ | ⟨s1, t1, c, a, b, k, hh⟩
    · left
      simp [calls, a, b]
    · rcases c68_embedded_same_partial hsq hh k (f3 _ _ a) with ⟨a', b'⟩ | ⟨s', t', codes, a', b', k', hh'⟩
      · left
        simp [calls, a, b, a', b']
      · right
        exact ⟨s', t', c :: codes, by simp [calls, a, a'], by simp [calls, b, b'], k', hh'⟩

/-- **C68, what "solved" means in an embedded build.** -/
theorem c68_embedded_solved (hsq : SqrtPos env) {ops : List (Op d K)} {codes : List ℤ} {s₁ s' : Solver d K} {sol : Solution d K}
    (hist : Hist cfg env D₀ st₀ U t) (h : SameRun e s t) (hf : Fits e cfg env s ops) (hrun : calls (apiStepE e cfg env) s ops = some (s₁, codes))
    (call : osqpSolveE e cfg env s₁ = (s', 0)) (hsol : s'.solution = some sol)
    (before : s₁.info.status_val ≠ St.solved) (after : s'.info.status_val = St.solved) (hu : UserCriteria s₁) :
    ∃ z, (ofData (ops.foldl userStep U)).InBox z ∧
      (ofData (ops.foldl userStep U)).Converged s₁.settings.eps_abs s₁.settings.eps_rel sol.x z sol.y := by
  rcases c68_embedded_same_partial hsq hist h hf with ⟨a, _⟩ | ⟨s2, t1, cs, a, _, k, hh⟩
  · rw [a] at hrun; simp at hrun
  obtain ⟨rfl, rfl⟩ : s2 = s₁ ∧ cs = codes := by rw [a] at hrun; simpa using hrun
  rcases c68_call_partial (op := .solve) hsq hh k trivial (fun _ _ _ _ _ h => by simp at h) with ⟨a, _⟩ | ⟨s3, t2, c, a, b, k', _⟩
  · simp [apiStepE] at a
  obtain ⟨rfl, rfl⟩ : s' = s3 ∧ (0 : ℤ) = c := by
    have : some (osqpSolveE e cfg env s2) = some (s3, c) := a
    rw [call] at this; simpa using this
  have hcall : osqpSolve cfg env t1 = (t2, 0) := by
    have : some (osqpSolve cfg env t1) = some (t2, 0) := b
    simpa using this
  have hp := k'.point
  rw [hsol] at hp
  cases ht : t2.solution with
  | none => rw [ht] at hp; simp at hp
  | some o =>
    rw [ht] at hp
    obtain ⟨px, py⟩ : sol.x = o.x ∧ sol.y = o.y := by simpa using hp
    have hsettings : t1.settings.eps_abs = s2.settings.eps_abs ∧ t1.settings.eps_rel = s2.settings.eps_rel ∧ t1.settings.polishing = 0 := by
      rw [k.settings]; cases e <;> exact ⟨rfl, rfl, rfl⟩
    have hut : UserCriteria t1 := by
      unfold UserCriteria
      rw [k.settings]
      cases e <;> exact hu
    obtain ⟨z, z1, z2, _⟩ := c01_solved_tolerances hsq hh hcall ht (by rw [k.status]; exact before) (by rw [k'.status]; exact after) hut (.inl hsettings.2.2)
    rw [hsettings.1, hsettings.2.1, ← px, ← py] at z2
    exact ⟨z, z1, z2⟩

namespace Demo

/-- `min x²/2 - x, 0 ≤ x ≤ 1/2`, started at the optimum, without adaptation of rho. -/
def sEmb : Scenario := { sSolved with st := { quick with adaptive_rho := 0 } }
theorem okEmb : sEmb.Ok := by decide +kernel

/-- `0·x` between 1 and 2, without adaptation of rho. -/
def sEmbPrim : Scenario := { sPrim with st := { quick with adaptive_rho := 0 } }
theorem okEmbPrim : sEmbPrim.Ok := by decide +kernel

/-- Solve, move the bounds and the cost, solve again, look at the solution. -/
def embOps : List (Op dims ℚ) := [.solve, .updateDataVec (some fun _ => -2) (some fun _ => 1 / 8) (some fun _ => 3 / 4), .solve,
  .updateSettings (some { sEmb.st with polishing := 1, max_iter := 5 }), .solve]

end Demo

/-- A solver with polishing and adaptation off may be taken over into an embedded build. -/
theorem SameRun.self (e : Emb) {s : Solver d K} (h1 : s.settings.polishing = 0) (h2 : e = .one → s.settings.adaptive_rho = 0)
    (h3 : s.info.polish_time = 0) : SameRun e s s := by
  refine ⟨?_, rfl, h3, rfl, rfl, rfl, rfl, rfl⟩
  obtain ⟨st, i, w, o, a, b, c⟩ := s
  obtain ⟨⟩ := st
  cases e with
  | one => have := h2 rfl; dsimp only at h1 this; subst h1 this; rfl
  | two => dsimp only at h1; subst h1; rfl

theorem fits_vec (e : Emb) {ops : List (Op d K)} {q : Option (Vec K d.n)} {l u : Option (Vec K d.m)}
    (h1 : TypesKept s (osqpUpdateDataVecE e cfg env s q l u).1) (h2 : Fits e cfg env (osqpUpdateDataVecE e cfg env s q l u).1 ops) :
    Fits e cfg env s (.updateDataVec q l u :: ops) := by
  refine ⟨trivial, ?_, ?_⟩
  · intro _ q' l' u' s' ho _ hc
    have : s' = (osqpUpdateDataVecE e cfg env s q l u).1 := by
      have h : some (osqpUpdateDataVecE e cfg env s q l u) = some (s', 0) := hc
      rw [Option.some.injEq] at h; rw [h]
    rw [this]; exact h1
  · intro s' c hc
    have : s' = (osqpUpdateDataVecE e cfg env s q l u).1 := by
      have h : some (osqpUpdateDataVecE e cfg env s q l u) = some (s', c) := hc
      rw [Option.some.injEq] at h; rw [h]
    rw [this]; exact h2

theorem fits_solve (e : Emb) {ops : List (Op d K)} (h2 : Fits e cfg env (osqpSolveE e cfg env s).1 ops) :
    Fits e cfg env s (.solve :: ops) := by
  refine ⟨trivial, fun _ _ _ _ _ ho => by simp at ho, fun s' c hc => ?_⟩
  have h : some (osqpSolveE e cfg env s) = some (s', c) := hc
  rw [Option.some.injEq] at h
  have : s' = (osqpSolveE e cfg env s).1 := by rw [h]
  rw [this]; exact h2

theorem fits_settings (e : Emb) {ops : List (Op d K)} {n : Option (Settings K)} (h2 : Fits e cfg env (osqpUpdateSettings cfg s n).1 ops) :
    Fits e cfg env s (.updateSettings n :: ops) := by
  refine ⟨trivial, fun _ _ _ _ _ ho => by simp at ho, fun s' c hc => ?_⟩
  have h : some (osqpUpdateSettings cfg s n) = some (s', c) := hc
  rw [Option.some.injEq] at h
  have : s' = (osqpUpdateSettings cfg s n).1 := by rw [h]
  rw [this]; exact h2

/-- The hypotheses of C68 are met, in both modes, by a run with three solves, an update of bounds and cost and a change of settings; all calls are
defined, and the desktop solver is not asked to polish although the embedded one is. -/
example (e : Emb) : Hist Demo.cfg Demo.sEmb.env Demo.sEmb.data Demo.sEmb.st Demo.sEmb.data (Demo.sEmb.start Demo.okEmb) ∧
    SameRun e (Demo.sEmb.start Demo.okEmb) (Demo.sEmb.start Demo.okEmb) ∧ Fits e Demo.cfg Demo.sEmb.env (Demo.sEmb.start Demo.okEmb) Demo.embOps ∧
    ((calls (apiStepE e Demo.cfg Demo.sEmb.env) (Demo.sEmb.start Demo.okEmb) Demo.embOps).map fun r => (r.2, r.1.info.status_val)) =
      some ([0, 0, 0, 0, 0], 7) ∧ SqrtPos Demo.sEmb.env := by
  refine ⟨Demo.sEmb.hist Demo.okEmb, SameRun.self e (by decide +kernel) (fun _ => by decide +kernel) (by decide +kernel), ?_, ?_, Demo.sEmb.sqrtPos⟩
  · refine fits_solve e (fits_vec e ?_ (fits_solve e (fits_settings e (fits_solve e trivial))))
    intro _
    cases e <;> decide +kernel
  · cases e <;> decide +kernel

/-- The hypotheses of `c68_embedded_solved` are met. -/
example (e : Emb) : ∃ s' sol, osqpSolveE e Demo.cfg Demo.sEmb.env (Demo.sEmb.start Demo.okEmb) = (s', 0) ∧ s'.solution = some sol ∧
    (Demo.sEmb.start Demo.okEmb).info.status_val ≠ St.solved ∧ s'.info.status_val = St.solved ∧ UserCriteria (Demo.sEmb.start Demo.okEmb) := by
  have h0 : (osqpSolveE e Demo.cfg Demo.sEmb.env (Demo.sEmb.start Demo.okEmb)).2 = 0 := by cases e <;> decide +kernel
  have h1 : (osqpSolveE e Demo.cfg Demo.sEmb.env (Demo.sEmb.start Demo.okEmb)).1.solution.isSome = true := by cases e <;> decide +kernel
  exact ⟨_, _, Prod.ext rfl h0, (Option.some_get h1).symm, by decide +kernel, by cases e <;> decide +kernel, .inr (by decide +kernel)⟩

/-- **C68, counterexample.** A primal infeasible problem, taken over from the desktop build before the solve. Both builds report "primal infeasible" and
return 0; the desktop build stores the certificate, the embedded builds leave the array as it was: it holds zeros, which certify nothing. -/
theorem c68_certificate_lost (e : Emb) : ∃ (D : Data Demo.dims ℚ) (st : Settings ℚ) (env : Env Demo.dims ℚ) (s : Solver Demo.dims ℚ),
    Hist Demo.cfg env D st D s ∧ SameRun e s s ∧ (osqpSolveE e Demo.cfg env s).2 = 0 ∧ (osqpSolve Demo.cfg env s).2 = 0 ∧
    (osqpSolveE e Demo.cfg env s).1.info.status_val = St.primInf ∧ (osqpSolve Demo.cfg env s).1.info.status_val = St.primInf ∧
    (osqpSolve Demo.cfg env s).1.solution.map (fun o => o.prim_inf_cert 0) = some (-1) ∧
    (osqpSolveE e Demo.cfg env s).1.solution.map (fun o => o.prim_inf_cert 0) = some 0 := by
  refine ⟨Demo.sEmbPrim.data, Demo.sEmbPrim.st, Demo.sEmbPrim.env, Demo.sEmbPrim.start Demo.okEmbPrim, Demo.sEmbPrim.hist Demo.okEmbPrim,
    SameRun.self e (by decide +kernel) (fun _ => by decide +kernel) (by decide +kernel), ?_, ?_, ?_, ?_, ?_, ?_⟩
  all_goals cases e <;> decide +kernel

/-- **C68, counterexample.** In mode 1, bounds that turn an inequality into an equality are stored, but the step size of the constraint stays that of an
inequality: the next solve stops at another point than the desktop build. -/
theorem c68_types_stale : ∃ (D : Data Demo.dims ℚ) (st : Settings ℚ) (env : Env Demo.dims ℚ) (s : Solver Demo.dims ℚ) (ops : List (Op Demo.dims ℚ)),
    Hist Demo.cfg env D st D s ∧ SameRun .one s s ∧ (∀ op ∈ ops, op.exists .one) ∧
    (calls (apiStepE .one Demo.cfg env) s ops).map (fun r => r.2) = (calls (apiStep Demo.cfg env) s (ops.map offOp)).map (fun r => r.2) ∧
    (calls (apiStepE .one Demo.cfg env) s ops).map (fun r => r.1.solution.map fun o => o.x 0) ≠
      (calls (apiStep Demo.cfg env) s (ops.map offOp)).map (fun r => r.1.solution.map fun o => o.x 0) := by
  refine ⟨Demo.sEmb.data, Demo.sEmb.st, Demo.sEmb.env, Demo.sEmb.start Demo.okEmb,
    [.solve, .updateDataVec none (some fun _ => 1 / 4) (some fun _ => 1 / 4), .solve], Demo.sEmb.hist Demo.okEmb,
    SameRun.self .one (by decide +kernel) (fun _ => by decide +kernel) (by decide +kernel), ?_, ?_, ?_⟩
  · intro op h
    simp only [List.mem_cons, List.not_mem_nil, or_false] at h
    rcases h with rfl | rfl | rfl <;> trivial
  · decide +kernel
  · decide +kernel

end Osqp
