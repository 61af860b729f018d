import Verif.Spec.Calls
import Verif.Props.Indep
import Verif.Cex.Indep
import Verif.Lemmas.Adapt
import Verif.Demo.Runs

/-!
# C86: only the final vectors matter

`callAll` (`Spec/Calls.lean`): a sequence of calls. `BoundsCurrent` (`Spec/Rho.lean`): a history in which the bounds were given after the last matrix update that rescaled the problem.
`SameProblem` (`Spec/Indep.lean`): everything a solve depends on besides the iterate.
-/

set_option linter.unusedSectionVars false
namespace Osqp
open Spec
variable {K : Type*} [Field K] [LinearOrder K] [IsStrictOrderedRing K] {d : Dims} {cfg : Cfg} {env : Env d K}
  {D₀ U : Data d K} {st₀ : Settings K} {s t u : Solver d K}

/-- What `osqp_update_data_vec` keeps. -/
structure VecKeep (s t : Solver d K) : Prop where
  settings : t.settings = s.settings
  scaling : t.work.scaling = s.work.scaling
  x : t.work.x = s.work.x
  y : t.work.y = s.work.y
  z : t.work.z = s.work.z
  rho_inv : t.work.rho_inv = s.work.rho_inv
  kkt : t.work.last_rel_kkt = s.work.last_rel_kkt
  alloc : t.solution = s.solution
  linsys : { t.work.linsys with rho_inv_vec := none } = { s.work.linsys with rho_inv_vec := none }
  scalar : s.settings.rho_is_vec = 0 → t.work.rho_vec = s.work.rho_vec ∧ t.work.rho_inv_vec = s.work.rho_inv_vec ∧ t.work.constr_type = s.work.constr_type

theorem VecKeep.refl (s : Solver d K) : VecKeep s s := ⟨rfl, rfl, rfl, rfl, rfl, rfl, rfl, rfl, rfl, fun _ => ⟨rfl, rfl, rfl⟩⟩

theorem VecKeep.trans (h : VecKeep s t) (k : VecKeep t u) : VecKeep s u :=
  ⟨k.settings.trans h.settings, k.scaling.trans h.scaling, k.x.trans h.x, k.y.trans h.y, k.z.trans h.z, k.rho_inv.trans h.rho_inv, k.kkt.trans h.kkt, k.alloc.trans h.alloc,
    k.linsys.trans h.linsys, fun e => by
      obtain ⟨a, b, c⟩ := h.scalar e
      obtain ⟨a', b', c'⟩ := k.scalar (by rw [h.settings]; exact e)
      exact ⟨a'.trans a, b'.trans b, c'.trans c⟩⟩

theorem keep_clear (b : Bool) (s : Solver d K) : VecKeep s (if b then clearUpdateTime s else s) := by
  unfold clearUpdateTime
  split_ifs <;> exact ⟨rfl, rfl, rfl, rfl, rfl, rfl, rfl, rfl, rfl, fun _ => ⟨rfl, rfl, rfl⟩⟩

theorem keep_rho (h : Sync s) (b : Bool) : VecKeep s (if b && decide (s.settings.rho_is_vec ≠ 0) then updateRhoVec env s else (s, 0)).1 := by
  by_cases hv : s.settings.rho_is_vec = 0
  · rw [if_neg (by simp [hv])]; exact .refl s
  cases b with
  | false => exact .refl s
  | true =>
    rw [if_pos (by simp [hv])]
    have hc : clampRho s.settings.rho = s.settings.rho := clampRho_of_mem h.rho_lo h.rho_hi
    have hl := (h.vec hv).2.2
    have e : ({ s.settings with rho := clampRho s.settings.rho } : Settings K) = s.settings := by rw [hc]
    unfold updateRhoVec setRhoVec
    dsimp only
    split_ifs
    · refine ⟨e, rfl, rfl, rfl, rfl, rfl, rfl, rfl, ?_, fun h => absurd h hv⟩
      dsimp only
      unfold linsysUpdateRho
      rw [hl]
    · exact ⟨e, rfl, rfl, rfl, rfl, rfl, rfl, rfl, rfl, fun h => absurd h hv⟩

theorem keep_q (s : Solver d K) (q : Option (Vec K d.n)) : VecKeep s (vecQ s q) := by
  cases q <;> exact ⟨rfl, rfl, rfl, rfl, rfl, rfl, rfl, rfl, rfl, fun _ => ⟨rfl, rfl, rfl⟩⟩

theorem keep_vec (h : Inv cfg st₀ U s) (q : Option (Vec K d.n)) (l u : Option (Vec K d.m)) : VecKeep s (osqpUpdateDataVec cfg env s q l u).1 := by
  rw [osqpUpdateDataVec_eq q l u (rep_bounds h.rep h.bounds)]
  have h1 : Inv cfg st₀ U (if cfg.profiling then clearUpdateTime s else s) := inv_clear h cfg.profiling
  have k1 := keep_clear cfg.profiling s
  dsimp only
  generalize (if cfg.profiling then clearUpdateTime s else s) = s1 at *
  by_cases hc : ∀ i, (l.getD U.l) i ≤ (u.getD U.u) i
  · rw [if_pos ((vec_accept_iff h l u).2 hc)]
    have k2 : VecKeep s1 (vecBounds s1 l u) := ⟨rfl, rfl, rfl, rfl, rfl, rfl, rfl, rfl, rfl, fun _ => ⟨rfl, rfl, rfl⟩⟩
    have k3 := keep_rho (env := env) (inv_vecBounds h1 l u hc).sync (l.isSome || u.isSome)
    have e : (if (l.isSome || u.isSome) && decide ((vecBounds s1 l u).settings.rho_is_vec ≠ 0) then updateRhoVec env (vecBounds s1 l u) else (vecBounds s1 l u, 0)) =
      vecRho env (vecBounds s1 l u) l u := rfl
    rw [e] at k3
    generalize vecRho env (vecBounds s1 l u) l u = r at *
    refine ((k1.trans k2).trans k3).trans ((keep_q r.1 q).trans ?_)
    generalize vecQ r.1 q = w
    dsimp only
    split_ifs <;> exact ⟨rfl, rfl, rfl, rfl, rfl, rfl, rfl, rfl, rfl, fun _ => ⟨rfl, rfl, rfl⟩⟩
  · rw [if_neg (fun hx => hc ((vec_accept_iff h l u).1 hx))]
    exact k1.trans ⟨rfl, rfl, rfl, rfl, rfl, rfl, rfl, rfl, rfl, fun _ => ⟨rfl, rfl, rfl⟩⟩

/-- The call is an update of the cost vector or the bounds. -/
def Op.IsVec : Op d K → Prop
  | .updateDataVec _ _ _ => True
  | _ => False

theorem keep_calls (hsq : SqrtPos env) {ops : List (Op d K)} (vec : ∀ op ∈ ops, op.IsVec) {codes : List ℤ} (hist : BoundsCurrent cfg env D₀ st₀ U s)
    (run : callAll cfg env s ops = some (t, codes)) : VecKeep s t ∧ BoundsCurrent cfg env D₀ st₀ (ops.foldl userStep U) t := by
  induction ops generalizing s U codes with
  | nil => obtain ⟨rfl, -⟩ := Prod.mk.inj (Option.some.inj run); exact ⟨.refl s, hist⟩
  | cons op ops ih =>
    have v := vec op (by simp)
    unfold callAll at run
    cases op with
    | updateDataVec q l u =>
      have e : apiStep cfg env s (.updateDataVec q l u) = some ((osqpUpdateDataVec cfg env s q l u).1, (osqpUpdateDataVec cfg env s q l u).2) := rfl
      rw [e] at run
      dsimp only at run
      obtain ⟨⟨t', cs⟩, r, e2⟩ := Option.map_eq_some_iff.1 run
      obtain ⟨rfl, -⟩ := Prod.mk.inj e2
      have k := keep_vec (env := env) (hist_inv hsq (typed_current hsq hist).1) q l u
      have i := ih (fun o ho => vec o (by simp [ho])) (.step hist (fun p a h => by cases h) e) r
      exact ⟨k.trans i.1, i.2⟩
    | _ => exact v.elim

theorem represents_unique {st : Settings K} {sc : Scaling d K} {D D' : Data d K} (h : Represents st sc U D) (h' : Represents st sc U D') : D = D' := by
  by_cases h0 : st.scaling = 0
  · rw [h.2 h0, h'.2 h0]
  · obtain ⟨-, a⟩ := h.1 h0
    obtain ⟨-, b⟩ := h'.1 h0
    obtain ⟨P, A, q, l, u⟩ := D
    obtain ⟨P', A', q', l', u'⟩ := D'
    have e1 : P = P' := funext fun k => (a.P k).trans (b.P k).symm
    have e2 : q = q' := funext fun k => (a.q k).trans (b.q k).symm
    have e3 : A = A' := funext fun k => (a.A k).trans (b.A k).symm
    have e4 : l = l' := funext fun k => (a.l k).trans (b.l k).symm
    have e5 : u = u' := funext fun k => (a.u k).trans (b.u k).symm
    subst e1 e2 e3 e4 e5
    rfl

/-- **C86 (partial)**. From one solver, make two sequences of updates of the cost vector and the bounds, of any lengths, in any grouping and order, with rejected ones among them. If the user's final vectors
agree, so do the solvers: the same problem, scaling, step sizes and linear system (`SameProblem`), the same iterate, KKT error of the last adaptation and stored solution.
Missing: histories in which a matrix update has rescaled the problem after the bounds were last given; there the stored constraint types may be out of date and giving the bounds again renews them (`c86_counterexample`). -/
theorem c86_grouping_partial (hsq : SqrtPos env) (hist : BoundsCurrent cfg env D₀ st₀ U s) {ops ops' : List (Op d K)} {codes codes' : List ℤ} {t t' : Solver d K}
    (vec : ∀ op ∈ ops, op.IsVec) (vec' : ∀ op ∈ ops', op.IsVec) (run : callAll cfg env s ops = some (t, codes)) (run' : callAll cfg env s ops' = some (t', codes'))
    (same : ops.foldl userStep U = ops'.foldl userStep U) :
    SameProblem t t' ∧ t.work.x = t'.work.x ∧ t.work.y = t'.work.y ∧ t.work.z = t'.work.z ∧ t.work.last_rel_kkt = t'.work.last_rel_kkt ∧ t.solution = t'.solution := by
  obtain ⟨k, b⟩ := keep_calls hsq vec hist run
  obtain ⟨k', b'⟩ := keep_calls hsq vec' hist run'
  rw [← same] at b'
  obtain ⟨hh, ty⟩ := typed_current hsq b
  obtain ⟨hh', ty'⟩ := typed_current hsq b'
  have i := hist_inv hsq hh
  have i' := hist_inv hsq hh'
  have es : t.settings = t'.settings := k.settings.trans k'.settings.symm
  have ec : t.work.scaling = t'.work.scaling := k.scaling.trans k'.scaling.symm
  have ed : t.work.data = t'.work.data := represents_unique i.rep (by rw [es, ec]; exact i'.rep)
  have el := k.linsys.trans k'.linsys.symm
  have lin : t.work.linsys.rho_inv_vec = t'.work.linsys.rho_inv_vec → t.work.linsys = t'.work.linsys := by
    intro e
    revert el e
    generalize t.work.linsys = a
    generalize t'.work.linsys = c
    obtain ⟨⟩ := a
    obtain ⟨⟩ := c
    simp only [LinSys.mk.injEq]
    rintro ⟨a1, a2, a3, -, a5⟩ a4
    exact ⟨a1, a2, a3, a4, a5⟩
  refine ⟨?_, k.x.trans k'.x.symm, k.y.trans k'.y.symm, k.z.trans k'.z.symm, k.kkt.trans k'.kkt.symm, k.alloc.trans k'.alloc.symm⟩
  by_cases hv : s.settings.rho_is_vec = 0
  · obtain ⟨a1, a2, a3⟩ := k.scalar hv
    obtain ⟨b1, b2, b3⟩ := k'.scalar hv
    have v1 := (i.sync.sca (by rw [k.settings]; exact hv)).1
    have v2 := (i'.sync.sca (by rw [k'.settings]; exact hv)).1
    exact ⟨es, ed, ec, lin (by rw [v1, v2]), a1.trans b1.symm, a2.trans b2.symm, k.rho_inv.trans k'.rho_inv.symm, a3.trans b3.symm⟩
  · have n1 : t.settings.rho_is_vec ≠ 0 := by rw [k.settings]; exact hv
    have n2 : t'.settings.rho_is_vec ≠ 0 := by rw [k'.settings]; exact hv
    have et : t.work.constr_type = t'.work.constr_type := by rw [ty n1, ty' n2, ed]
    obtain ⟨v1, v2, v3⟩ := i.sync.vec n1
    obtain ⟨w1, w2, w3⟩ := i'.sync.vec n2
    have er : t.work.rho_vec = t'.work.rho_vec := by rw [v1, w1, et, es]
    exact ⟨es, ed, ec, lin (by rw [v3, w3, er]), er, by rw [v2, w2, er], k.rho_inv.trans k'.rho_inv.symm, et⟩

/-- **C86, the next solve** (with warm starting off). After the two sequences the next solve returns the same code and the same result. The conditions on the status before and on the clock are those of
`c27_independent_partial`. -/
theorem c86_solve_partial (hsq : SqrtPos env) (hist : BoundsCurrent cfg env D₀ st₀ U s) {ops ops' : List (Op d K)} {codes codes' : List ℤ} {t t' : Solver d K}
    (vec : ∀ op ∈ ops, op.IsVec) (vec' : ∀ op ∈ ops', op.IsVec) (run : callAll cfg env s ops = some (t, codes)) (run' : callAll cfg env s ops' = some (t', codes'))
    (same : ops.foldl userStep U = ops'.foldl userStep U) (cold : s.settings.warm_starting = 0)
    (status : t.info.status_val = t'.info.status_val ∨ ¬ AllDone cfg env t) (ut : Undisturbed cfg env t) (ut' : Undisturbed cfg env t') :
    (osqpSolve cfg env t).2 = (osqpSolve cfg env t').2 ∧ ((osqpSolve cfg env t).2 = 0 → SameResult (osqpSolve cfg env t).1 (osqpSolve cfg env t').1) := by
  obtain ⟨p, -, -, -, k, a⟩ := c86_grouping_partial hsq hist vec vec' run run' same
  obtain ⟨kk, b⟩ := keep_calls hsq vec hist run
  exact c27_independent_partial hsq (typed_current hsq b).1 (typed_current hsq (keep_calls hsq vec' hist run').2).1 p (by rw [kk.settings]; exact cold) (by rw [a]) (fun _ => k) status ut ut'

/-- Cost and bounds one after the other, against a detour with another cost, a rejected pair of bounds and then everything at once. -/
def Demo.piecewise : List (Op Demo.dims ℚ) := [.updateDataVec (some fun _ => -2) none none, .updateDataVec none (some fun _ => 1 / 4) none, .updateDataVec none none (some fun _ => 1)]

def Demo.detour : List (Op Demo.dims ℚ) :=
  [.updateDataVec (some fun _ => 5) none (some fun _ => 3), .updateDataVec (some fun _ => 7) (some fun _ => 9) (some fun _ => 8), .updateDataVec (some fun _ => -2) (some fun _ => 1 / 4) (some fun _ => 1)]

example : BoundsCurrent Demo.cfg Demo.sSolved.env Demo.sSolved.data Demo.sSolved.st Demo.sSolved.data (Demo.sSolved.done Demo.okSolved) ∧
    (∀ op ∈ Demo.piecewise, op.IsVec) ∧ (∀ op ∈ Demo.detour, op.IsVec) ∧
    (callAll Demo.cfg Demo.sSolved.env (Demo.sSolved.done Demo.okSolved) Demo.piecewise).map (·.2) = some [0, 0, 0] ∧
    (callAll Demo.cfg Demo.sSolved.env (Demo.sSolved.done Demo.okSolved) Demo.detour).map (fun r => r.2.map (decide <| · = 0)) = some [true, false, true] ∧
    Demo.piecewise.foldl userStep Demo.sSolved.data = Demo.detour.foldl userStep Demo.sSolved.data := by
  refine ⟨.step (op := .solve) (.step (op := .warmStart (some fun _ => Demo.sSolved.x) (some fun _ => Demo.sSolved.y)) (.setup (Demo.got_ok Demo.okSolved)) (by simp) rfl) (by simp) rfl, ?_, ?_,
    by decide +kernel, by decide +kernel, ?_⟩
  · simp [Demo.piecewise, Op.IsVec]
  · simp [Demo.detour, Op.IsVec]
  · have e : ∀ D D' : Data Demo.dims ℚ, D.P = D'.P ∧ D.A = D'.A ∧ D.q = D'.q ∧ D.l = D'.l ∧ D.u = D'.u → D = D' := by
      rintro ⟨⟩ ⟨⟩ ⟨a, b, c, f, g⟩
      simp only at a b c f g
      subst a b c f g
      rfl
    exact e _ _ (by decide +kernel)

theorem Demo.calmAny {U : Data Demo.dims ℚ} {s : Solver Demo.dims ℚ} (h : Hist Demo.cfg Demo.sOnce.env Demo.sOnce.data Demo.sOnce.st U s)
    (ht : ¬ s.settings.time_limit ≤ (if (solveEntry Demo.cfg s).s.work.first_run then (solveEntry Demo.cfg s).s.info.setup_time else (solveEntry Demo.cfg s).s.info.update_time))
    (ha : s.settings.adaptive_rho ≠ 2) : Undisturbed Demo.cfg Demo.sOnce.env s := by
  refine ⟨?_, fun _ _ => rfl, Or.inl ha⟩
  rintro it ⟨_, _, L, run, _, _, hl⟩
  have w := (head_of_runs (hist_inv Demo.sOnce.sqrtPos h) run).within
  obtain ⟨r, i, e⟩ := (fromCall w).settings
  have ec : Demo.sOnce.env.clk L.s.ticks = 0 := rfl
  have eu := (w.cut (by rw [w.rufs]; have hp : Demo.cfg.profiling = true := rfl; unfold solveEntry; simp [hp]; split_ifs <;> simp)).2
  rw [e, w.first, w.setup, eu, ec, add_zero] at hl
  exact ht hl

theorem Demo.cold_current : BoundsCurrent Demo.cfg Demo.sOnce.env Demo.sOnce.data Demo.sOnce.st Demo.sOnce.data Demo.coldOld :=
  .step (op := .updateSettings (some Demo.coldSt)) (code := 0) (.step (op := .solve) (.step (op := .warmStart (some fun _ => Demo.sOnce.x) (some fun _ => Demo.sOnce.y))
      (.setup (Demo.got_ok Demo.okOnce)) (by simp) rfl) (by simp) rfl) (by simp) (by simp only [apiStep]; exact congrArg some (Prod.ext rfl (Demo.upd_ok _)))

/-- The solver after the two sequences of calls. -/
def Demo.after (ops : List (Op Demo.dims ℚ)) (h : (callAll Demo.cfg Demo.sOnce.env Demo.coldOld ops).isSome = true) : Solver Demo.dims ℚ × List ℤ :=
  (callAll Demo.cfg Demo.sOnce.env Demo.coldOld ops).get h

theorem Demo.ok_pieces : (callAll Demo.cfg Demo.sOnce.env Demo.coldOld Demo.piecewise).isSome = true := by decide +kernel
theorem Demo.ok_detour : (callAll Demo.cfg Demo.sOnce.env Demo.coldOld Demo.detour).isSome = true := by decide +kernel

/-- The hypotheses of `c86_solve_partial` are met, and the solves return 0. -/
example : SameResult (osqpSolve Demo.cfg Demo.sOnce.env (Demo.after Demo.piecewise Demo.ok_pieces).1).1 (osqpSolve Demo.cfg Demo.sOnce.env (Demo.after Demo.detour Demo.ok_detour).1).1 := by
  have r1 : callAll Demo.cfg Demo.sOnce.env Demo.coldOld Demo.piecewise = some ((Demo.after Demo.piecewise Demo.ok_pieces).1, (Demo.after Demo.piecewise Demo.ok_pieces).2) := (Option.some_get Demo.ok_pieces).symm
  have r2 : callAll Demo.cfg Demo.sOnce.env Demo.coldOld Demo.detour = some ((Demo.after Demo.detour Demo.ok_detour).1, (Demo.after Demo.detour Demo.ok_detour).2) := (Option.some_get Demo.ok_detour).symm
  have v1 : ∀ op ∈ Demo.piecewise, op.IsVec := by simp [Demo.piecewise, Op.IsVec]
  have v2 : ∀ op ∈ Demo.detour, op.IsVec := by simp [Demo.detour, Op.IsVec]
  have h1 := (typed_current Demo.sOnce.sqrtPos (keep_calls Demo.sOnce.sqrtPos v1 Demo.cold_current r1).2).1
  have h2 := (typed_current Demo.sOnce.sqrtPos (keep_calls Demo.sOnce.sqrtPos v2 Demo.cold_current r2).2).1
  exact (c86_solve_partial Demo.sOnce.sqrtPos Demo.cold_current v1 v2 r1 r2 (by decide +kernel) (by decide +kernel) (Or.inl (by decide +kernel))
    (Demo.calmAny h1 (by decide +kernel) (by decide +kernel)) (Demo.calmAny h2 (by decide +kernel) (by decide +kernel))).2 (by decide +kernel)

end Osqp
