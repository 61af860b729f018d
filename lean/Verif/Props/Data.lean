import Verif.Lemmas.Adapt
import Verif.Lemmas.User
import Verif.Props.Rho
import Verif.Props.Infeasible
import Verif.Demo.Runs

/-!
# Properties of the problem data: scaling (C23, C54), updates (C24, C25, C53), infinite bounds (C52)
-/

set_option linter.unusedSectionVars false
namespace Osqp
open Spec Matrix
variable {K : Type*} [Field K] [LinearOrder K] [IsStrictOrderedRing K] {d : Dims} {cfg : Cfg} {env : Env d K}
  {D₀ U : Data d K} {st₀ : Settings K} {s s' : Solver d K}

/-! ## C23 -/

/-- **C23.** After any history of calls: with scaling the factors are positive, the stored inverses are exact, and
the stored data are `cDPD`, `cDq`, `EAD`, `El`, `Eu` for the user's current data; without scaling they are the
user's data. -/
theorem c23_scaling (hsq : SqrtPos env) (hist : Hist cfg env D₀ st₀ U s) :
    (st₀.scaling ≠ 0 → ScalingOK s.work.scaling ∧ IsScaled s.work.scaling U s.work.data) ∧
    (st₀.scaling = 0 → s.work.data = U) := by
  have h := hist_inv hsq hist
  rw [← h.fixed.scaling]; exact h.rep

/-- **C23.** The data and the scaling do not change while a solve is running. -/
theorem c23_in_solve (hsq : SqrtPos env) (hist : Hist cfg env D₀ st₀ U s) {it : ℤ} {L : LoopSt d K}
    (run : Runs cfg env (solveEntry cfg s) it L) : L.s.work.data = s.work.data ∧ L.s.work.scaling = s.work.scaling :=
  let hf := fromCall (head_of_runs (hist_inv hsq hist) run).within
  ⟨hf.data, hf.scaling⟩

/-- Scaling is on in the demo run. -/
example : Hist Demo.cfg Demo.sSolved.env Demo.sSolved.data Demo.sSolved.st Demo.sSolved.data (Demo.sSolved.done Demo.okSolved) ∧
    Demo.sSolved.st.scaling ≠ 0 := ⟨Demo.sSolved.hist_done Demo.okSolved, by decide +kernel⟩

/-! ## C54 -/

section
variable {sc : Scaling d K} {D : Data d K}

/-- A user's point in scaled coordinates, `Dinv x`. -/
def scaledX (sc : Scaling d K) (x : Fin d.n → K) : Fin d.n → K := fun j => sc.Dinv j * x j
/-- A user's multiplier in scaled coordinates, `c Einv y`. -/
def scaledY (sc : Scaling d K) (y : Fin d.m → K) : Fin d.m → K := fun i => sc.c * (sc.Einv i * y i)

theorem toX_scaledX (ok : ScalingOK sc) (x : Fin d.n → K) : toX sc (scaledX sc x) = x := by
  funext j
  have := (ok.D_pos j).ne'
  unfold toX scaledX; rw [ok.Dinv]; field_simp

theorem toY_scaledY (ok : ScalingOK sc) (y : Fin d.m → K) : toY sc (scaledY sc y) = y := by
  funext i
  have := (ok.E_pos i).ne'
  have := ok.c_pos.ne'
  unfold toY scaledY; rw [ok.Einv, ok.cinv]; field_simp

theorem scaled_row (ok : ScalingOK sc) (hs : IsScaled sc U D) (x : Fin d.n → K) (i : Fin d.m) :
    ((ofData D).A *ᵥ scaledX sc x) i = sc.E i * ((ofData U).A *ᵥ x) i := by
  have h := toZ_A ok hs (scaledX sc x) i
  have := (ok.E_pos i).ne'
  rw [toX_scaledX ok, ok.Einv] at h
  simp only [ofData]
  rw [← h]; field_simp

/-- **C54.** Feasibility is the same in both coordinates. -/
theorem c54_feasible (ok : ScalingOK sc) (hs : IsScaled sc U D) (x : Fin d.n → K) :
    (ofData D).Feasible (scaledX sc x) ↔ (ofData U).Feasible x := by
  unfold QP.Feasible
  refine forall_congr' fun i => ?_
  rw [scaled_row ok hs]
  have hE := ok.E_pos i
  simp only [ofData]
  rw [hs.l, hs.u, mul_le_mul_iff_of_pos_left hE, mul_le_mul_iff_of_pos_left hE]

/-- **C54.** The scaled objective is `c` times the user's. -/
theorem c54_objective (ok : ScalingOK sc) (hs : IsScaled sc U D) (x : Fin d.n → K) :
    (ofData D).obj (scaledX sc x) = sc.c * (ofData U).obj x := by
  have h1 := quad_user ok hs (scaledX sc x)
  have h2 := lin_user ok hs (scaledX sc x)
  have := ok.c_pos.ne'
  rw [toX_scaledX ok, ok.cinv] at h1 h2
  unfold QP.obj
  simp only [ofData]
  rw [← h1, ← h2, dotProduct_comm (scaledX sc x)]
  generalize (denseSym d.P D.P *ᵥ scaledX sc x) ⬝ᵥ scaledX sc x = a
  generalize D.q ⬝ᵥ scaledX sc x = b
  field_simp

/-- **C54.** Optimality is the same in both coordinates. -/
theorem c54_minimiser (ok : ScalingOK sc) (hs : IsScaled sc U D) (x : Fin d.n → K) :
    (ofData D).Minimiser (scaledX sc x) ↔ (ofData U).Minimiser x := by
  unfold QP.Minimiser
  rw [c54_feasible ok hs]
  refine and_congr_right fun _ => ⟨fun h x' hx' => ?_, fun h x' hx' => ?_⟩
  · have := h (scaledX sc x') ((c54_feasible ok hs x').2 hx')
    rw [c54_objective ok hs, c54_objective ok hs] at this
    exact le_of_mul_le_mul_left this ok.c_pos
  · have e : scaledX sc (toX sc x') = x' := by
      funext j
      have := (ok.D_pos j).ne'
      unfold toX scaledX; rw [ok.Dinv]; field_simp
    have h1 : (ofData U).Feasible (toX sc x') := by rw [← c54_feasible ok hs, e]; exact hx'
    have := mul_le_mul_of_nonneg_left (h _ h1) ok.c_pos.le
    rwa [← c54_objective ok hs, ← c54_objective ok hs, e] at this

/-- **C54.** `x` with multiplier `y` satisfies the optimality conditions of the user's problem exactly when
`Dinv x` with `c Einv y` satisfies those of the scaled problem. -/
theorem c54_kkt (ok : ScalingOK sc) (hs : IsScaled sc U D) (x : Fin d.n → K) (y : Fin d.m → K) :
    (ofData D).KKT (scaledX sc x) (scaledY sc y) ↔ (ofData U).KKT x y := by
  unfold QP.KKT
  rw [c54_feasible ok hs]
  refine and_congr_right fun _ => and_congr ?_ ?_
  · unfold QP.NormalCone
    refine forall_congr' fun i => ?_
    have hE := ok.E_pos i
    have hy : scaledY sc y i = (sc.c / sc.E i) * y i := by unfold scaledY; rw [ok.Einv]; ring
    have hp : 0 < sc.c / sc.E i := div_pos ok.c_pos hE
    rw [scaled_row ok hs, hy, mul_pos_iff_of_pos_left hp]
    have hneg : sc.c / sc.E i * y i < 0 ↔ y i < 0 := by
      constructor
      · intro h; by_contra hc; exact absurd (mul_nonneg hp.le (not_lt.1 hc)) (not_le.2 h)
      · intro h; exact mul_neg_of_pos_of_neg hp h
    rw [hneg]
    simp only [ofData]
    rw [hs.u, hs.l, mul_right_inj' hE.ne', mul_right_inj' hE.ne']
  · refine forall_congr' fun j => ?_
    have hD := ok.D_pos j
    have e : (ofData U).stat x y j = sc.cinv * (sc.Dinv j * (ofData D).stat (scaledX sc x) (scaledY sc y) j) := by
      unfold QP.stat
      simp only [ofData]
      rw [mul_add, mul_add, mul_add, mul_add, toX_P ok hs, toX_q ok hs, toY_AT ok hs, toX_scaledX ok, toY_scaledY ok]
    have h1 : sc.cinv ≠ 0 := (cinv_pos ok).ne'
    have h2 : sc.Dinv j ≠ 0 := by rw [ok.Dinv]; exact (one_div_pos.2 hD).ne'
    rw [e]
    simp [h1, h2]

/-- **C54.** Unscaling gives the user's point back. -/
theorem c54_round_trip (ok : ScalingOK sc) (x : Fin d.n → K) (y : Fin d.m → K) :
    unscaleSolution sc (scaledX sc x) (scaledY sc y) = (x, y) := by
  have h1 := toX_scaledX ok x
  have h2 := toY_scaledY ok y
  refine Prod.ext ?_ ?_
  · rw [← h1]; funext j; simp [unscaleSolution, vEwProd, toX, toX_scaledX ok, scaledX]
    have := (ok.D_pos j).ne'
    rw [ok.Dinv]; field_simp
  · rw [← h2]; funext i
    have := (ok.E_pos i).ne'
    have := ok.c_pos.ne'
    simp only [unscaleSolution, vEwProd, vScale, toY, scaledY, ok.Einv, ok.cinv]
    field_simp

end

/-- **C54**, for the data a solver works on after any history: a pair is optimal for the user's current problem
exactly when its scaled version is optimal for the working data. -/
theorem c54_history (hsq : SqrtPos env) (hist : Hist cfg env D₀ st₀ U s) (scaled : st₀.scaling ≠ 0) (x : Fin d.n → K) (y : Fin d.m → K) :
    ((ofData s.work.data).KKT (scaledX s.work.scaling x) (scaledY s.work.scaling y) ↔ (ofData U).KKT x y) ∧
    ((ofData s.work.data).Minimiser (scaledX s.work.scaling x) ↔ (ofData U).Minimiser x) ∧
    unscaleSolution s.work.scaling (scaledX s.work.scaling x) (scaledY s.work.scaling y) = (x, y) :=
  let h := (c23_scaling hsq hist).1 scaled
  ⟨c54_kkt h.1 h.2 x y, c54_minimiser h.1 h.2 x, c54_round_trip h.1 x y⟩

/-! ## C24 and C25 -/

theorem vec_parts (h : Inv cfg st₀ U s) {q : Option (Vec K d.n)} {l u : Option (Vec K d.m)} {code : ℤ}
    (call : osqpUpdateDataVec cfg env s q l u = (s', code)) :
    ((∀ i, (l.getD U.l) i ≤ (u.getD U.u) i) →
      s'.settings = s.settings ∧ s'.work.scaling = s.work.scaling ∧ s'.work.x = s.work.x ∧ s'.work.y = s.work.y ∧
      s'.work.z = s.work.z ∧ s'.solution = s.solution ∧ s'.info.status_val = St.unsolved ∧
      ((∀ ls, 0 ≤ env.factor ls) → code = 0)) ∧
    ((¬ ∀ i, (l.getD U.l) i ≤ (u.getD U.u) i) → code = Err.dataValidation ∧
      s' = { (if cfg.profiling then clearUpdateTime s else s) with work := { (if cfg.profiling then clearUpdateTime s else s).work with
        z_prev := (l.map (scB s)).getD s.work.z_prev, delta_y := (u.map (scB s)).getD s.work.delta_y } }) := by
  rw [osqpUpdateDataVec_eq q l u (rep_bounds h.rep h.bounds)] at call
  dsimp only at call
  constructor
  · intro hacc
    rw [if_pos ((vec_accept_iff h l u).2 hacc), Prod.mk.injEq] at call
    obtain ⟨e, ec⟩ := call
    have hc : (if cfg.profiling then clearUpdateTime s else s).settings = s.settings ∧
        (if cfg.profiling then clearUpdateTime s else s).work.scaling = s.work.scaling ∧
        (if cfg.profiling then clearUpdateTime s else s).work.x = s.work.x ∧
        (if cfg.profiling then clearUpdateTime s else s).work.y = s.work.y ∧
        (if cfg.profiling then clearUpdateTime s else s).work.z = s.work.z ∧
        (if cfg.profiling then clearUpdateTime s else s).solution = s.solution := by split_ifs <;> simp
    generalize (if cfg.profiling then clearUpdateTime s else s) = s1 at *
    have hr : (vecRho env (vecBounds s1 l u) l u).1.settings = s1.settings ∧
        (vecRho env (vecBounds s1 l u) l u).1.work.scaling = s1.work.scaling ∧
        (vecRho env (vecBounds s1 l u) l u).1.work.x = s1.work.x ∧
        (vecRho env (vecBounds s1 l u) l u).1.work.y = s1.work.y ∧
        (vecRho env (vecBounds s1 l u) l u).1.work.z = s1.work.z ∧
        (vecRho env (vecBounds s1 l u) l u).1.solution = s1.solution := by
      have hrho : clampRho s1.settings.rho = s1.settings.rho := by
        rw [hc.1]; exact clampRho_of_mem h.sync.rho_lo h.sync.rho_hi
      unfold vecRho
      split_ifs
      · refine ⟨?_, by simp [vecBounds], by simp [vecBounds], by simp [vecBounds], by simp [vecBounds], by simp [vecBounds]⟩
        unfold updateRhoVec setRhoVec
        dsimp only [vecBounds]
        split_ifs <;> simp only [hrho]
      · exact ⟨rfl, rfl, rfl, rfl, rfl, rfl⟩
    have hq : ∀ t : Solver d K, (vecQ t q).settings = t.settings ∧ (vecQ t q).work.scaling = t.work.scaling ∧
        (vecQ t q).work.x = t.work.x ∧ (vecQ t q).work.y = t.work.y ∧ (vecQ t q).work.z = t.work.z ∧
        (vecQ t q).solution = t.solution := by
      intro t; unfold vecQ; cases q <;> simp
    have hadd : ∀ t : Solver d K, (if cfg.profiling then addUpdateTime env t else t).settings = t.settings ∧
        (if cfg.profiling then addUpdateTime env t else t).work = t.work ∧
        (if cfg.profiling then addUpdateTime env t else t).solution = t.solution ∧
        (if cfg.profiling then addUpdateTime env t else t).info.status_val = t.info.status_val := by intro t; split_ifs <;> simp
    generalize hvr : vecRho env (vecBounds s1 l u) l u = r at *
    obtain ⟨q1, q2, q3, q4, q5, q6⟩ := hq r.1
    obtain ⟨r1, r2, r3, r4, r5, r6⟩ := hr
    obtain ⟨c1, c2, c3, c4, c5, c6⟩ := hc
    rw [← e, (hadd _).1, (hadd _).2.1, (hadd _).2.2.1, (hadd _).2.2.2]
    refine ⟨by rw [← c1, ← r1, ← q1], by rw [← c2, ← r2, ← q2], by rw [← c3, ← r3, ← q3], by rw [← c4, ← r4, ← q4],
      by rw [← c5, ← r5, ← q5], by rw [← c6, ← r6, ← q6], rfl, fun hf => ?_⟩
    rw [← ec, ← hvr]
    unfold vecRho updateRhoVec linsysUpdateRho
    dsimp only
    split_ifs <;> first | rfl | (exfalso; rename_i hneg; exact absurd (hf _) (not_le.2 hneg))
  · intro hrej
    rw [if_neg (fun hc => hrej ((vec_accept_iff h l u).1 hc)), Prod.mk.injEq] at call
    exact ⟨call.2.symm, call.1.symm⟩

/-- **C24**, vectors. If the call returns 0, the solver works on the user's problem with exactly the given vectors
replaced; settings, scaling and iterates are untouched and the status is back to "unsolved". -/
theorem c24_vectors (hsq : SqrtPos env) (hist : Hist cfg env D₀ st₀ U s) {q : Option (Vec K d.n)} {l u : Option (Vec K d.m)}
    (call : osqpUpdateDataVec cfg env s q l u = (s', 0)) :
    Represents s'.settings s'.work.scaling
      { P := U.P, A := U.A, q := q.getD U.q, l := l.getD U.l, u := u.getD U.u } s'.work.data ∧
    s'.settings = s.settings ∧ s'.work.scaling = s.work.scaling ∧ s'.work.x = s.work.x ∧ s'.work.y = s.work.y ∧
    s'.work.z = s.work.z ∧ s'.solution = s.solution ∧ s'.info.status_val = St.unsolved := by
  have h := hist_inv hsq hist
  obtain ⟨h1, h2⟩ := vec_parts h call
  have hacc : ∀ i, (l.getD U.l) i ≤ (u.getD U.u) i := by
    by_contra hc; exact absurd (h2 hc).1 (by decide)
  obtain ⟨a1, a2, a3, a4, a5, a6, a7, _⟩ := h1 hacc
  have hH : Hist cfg env D₀ st₀ (userStep U (.updateDataVec q l u)) s' :=
    .step (op := .updateDataVec q l u) (code := 0) hist (by simp only [apiStep, call])
  have hr := (hist_inv hsq hH).rep
  rw [userStep, if_pos hacc] at hr
  exact ⟨hr, a1, a2, a3, a4, a5, a6, a7⟩

/-- A new upper bound. -/
example : Hist Demo.cfg Demo.sSolved.env Demo.sSolved.data Demo.sSolved.st Demo.sSolved.data (Demo.sSolved.done Demo.okSolved) ∧
    ∃ s', osqpUpdateDataVec Demo.cfg Demo.sSolved.env (Demo.sSolved.done Demo.okSolved) none none (some fun _ => 2) = (s', 0) :=
  ⟨Demo.sSolved.hist_done Demo.okSolved, _, Prod.ext rfl (by decide +kernel)⟩

/-- **C24**, matrices. If the call returns 0, the solver works on the user's problem with exactly the given matrix
entries replaced; settings and iterates are untouched. -/
theorem c24_matrices (hsq : SqrtPos env) (hist : Hist cfg env D₀ st₀ U s) {p a : MatUpd K}
    (call : osqpUpdateDataMat cfg env s p a = some (s', 0)) :
    Represents s'.settings s'.work.scaling { U with P := matNew U.P p, A := matNew U.A a } s'.work.data ∧
    s'.settings = s.settings ∧ s'.work.x = s.work.x ∧ s'.work.y = s.work.y ∧ s'.work.z = s.work.z ∧
    s'.solution = s.solution ∧ s'.info.status_val = St.unsolved := by
  have h := hist_inv hsq hist
  rcases osqpUpdateDataMat_some h call with ⟨_, hc, _⟩ | ⟨_, _, hc, _⟩ | ⟨hp, ha, r, ls, hr, hl, e1⟩
  · exact absurd hc (by decide)
  · exact absurd hc (by decide)
  · have hH : Hist cfg env D₀ st₀ (userStep U (.updateDataMat p a)) s' :=
      .step (op := .updateDataMat p a) (code := 0) hist (by simpa only [apiStep] using call)
    have hr := (hist_inv hsq hH).rep
    rw [userStep, if_pos ⟨hp, ha⟩] at hr
    refine ⟨hr, ?_⟩
    rw [e1]; dsimp only
    split_ifs <;> simp [resetInfo, updateStatus]

/-- **C24.** Matrix updates rebuild the internal data from scratch: they are those of a new solver set up with the
updated problem. -/
theorem c24_as_setup (hsq : SqrtPos env) (hist : Hist cfg env D₀ st₀ U s) {p a : MatUpd K}
    (call : osqpUpdateDataMat cfg env s p a = some (s', 0)) {t : Solver d K}
    (fresh : osqpSetup cfg env { U with P := matNew U.P p, A := matNew U.A a } st₀ = .ok t) :
    s'.work.data = t.work.data ∧ (st₀.scaling ≠ 0 → s'.work.scaling = t.work.scaling) := by
  have h := hist_inv hsq hist
  rcases osqpUpdateDataMat_some h call with ⟨_, hc, _⟩ | ⟨_, _, hc, _⟩ | ⟨hp, ha, r, ls, hr, hl, e1⟩
  · exact absurd hc (by decide)
  · exact absurd hc (by decide)
  · have e2 : s'.work.data = r.1 ∧ s'.work.scaling = r.2 := by
      rw [e1]; dsimp only; split_ifs <;> simp
    rw [e2.1, e2.2, hr, h.fixed.scaling]
    by_cases h0 : st₀.scaling = 0
    · rw [if_neg (not_not.2 h0), (made fresh).data h0]
      exact ⟨rfl, fun hc => absurd h0 hc⟩
    · rw [if_pos h0, (made fresh).dataScaled h0, (made fresh).scaling h0]
      exact ⟨rfl, fun _ => rfl⟩

/-- The demo problem with a new constraint coefficient. -/
def Demo.data3 : Data Demo.dims ℚ :=
  { Demo.sSolved.data with
    P := matNew Demo.sSolved.data.P ⟨none, none, 0⟩
    A := matNew Demo.sSolved.data.A ⟨some [3], some [0], 1⟩ }

/-- A new constraint coefficient, and a fresh solver for the updated problem. -/
example : Hist Demo.cfg Demo.sSolved.env Demo.sSolved.data Demo.sSolved.st Demo.sSolved.data (Demo.sSolved.done Demo.okSolved) ∧
    (∃ s', osqpUpdateDataMat Demo.cfg Demo.sSolved.env (Demo.sSolved.done Demo.okSolved) ⟨none, none, 0⟩ ⟨some [3], some [0], 1⟩ = some (s', 0)) ∧
    ∃ t, osqpSetup Demo.cfg Demo.sSolved.env Demo.data3 Demo.sSolved.st = .ok t := by
  refine ⟨Demo.sSolved.hist_done Demo.okSolved, ?_, ?_⟩
  · have h : ((osqpUpdateDataMat Demo.cfg Demo.sSolved.env (Demo.sSolved.done Demo.okSolved) ⟨none, none, 0⟩ ⟨some [3], some [0], 1⟩).map Prod.snd) =
      some 0 := by decide +kernel
    obtain ⟨⟨s', c⟩, h1, h2⟩ := Option.map_eq_some_iff.1 h
    exact ⟨s', by rw [h1]; exact congrArg (fun c => some (s', c)) h2⟩
  · have h : (Demo.got (osqpSetup Demo.cfg Demo.sSolved.env Demo.data3 Demo.sSolved.st)).isSome = true := by decide +kernel
    exact ⟨_, Demo.got_ok h⟩

/-- What "the given entries replaced" means for a list of distinct indices: entry `idx[i]` gets the value `x[i]`,
all other entries keep theirs. -/
theorem c24_entries {nnz : ℕ} (v : Fin nnz → K) {new : List K} {ix : List ℤ} {n : ℕ} (hn : 0 < n) (hlen : ix.length = n) (hnew : new.length = n)
    (nodup : ix.Nodup) (k : Fin nnz) :
    (∀ i (hi : i < n), ix[i] = ((k : ℕ) : ℤ) → matNew v ⟨some new, some ix, n⟩ k = new[i]) ∧
    (((k : ℕ) : ℤ) ∉ ix → matNew v ⟨some new, some ix, n⟩ k = v k) := by
  have hm : matNew v ⟨some new, some ix, n⟩ = overwrite v new (some ix) n := by
    unfold matNew; dsimp only
    rw [if_neg (by omega), Int.toNat_natCast]
  rw [hm]
  constructor
  · intro i hi hk
    have key : ∀ c, i < c → c ≤ n → overwrite v new (some ix) c k = new[i] := by
      intro c
      induction c with
      | zero => intro h; omega
      | succ c ih =>
        intro h1 h2
        rw [overwrite_succ]
        by_cases hc : i = c
        · subst hc
          have : position (some ix) i = some ((k : ℕ) : ℤ) := by simp [position, hk, hlen ▸ hi]
          rw [if_pos this]; simp [List.getD, show i < new.length by omega]
        · have : ¬ position (some ix) c = some ((k : ℕ) : ℤ) := by
            intro hp
            have hcl : c < ix.length := by omega
            simp only [position, List.getElem?_eq_getElem hcl, Option.some.injEq] at hp
            have := (List.Nodup.getElem_inj_iff nodup (i := i) (j := c) (hi := by omega) (hj := hcl)).1 (by rw [hk, hp])
            exact hc this
          rw [if_neg this]
          exact ih (by omega) (by omega)
    exact key n hi le_rfl
  · intro hk
    refine overwrite_untouched fun ⟨i, hi, hp⟩ => hk ?_
    have hcl : i < ix.length := by omega
    simp only [position, List.getElem?_eq_getElem hcl, Option.some.injEq] at hp
    rw [← hp]; exact List.getElem_mem _

example : ([1, 0] : List ℤ).Nodup ∧ matNew (fun _ : Fin 3 => (0 : ℚ)) ⟨some [5, 7], some [1, 0], 2⟩ 0 = 7 := by decide +kernel

/-- **C25.** If the refactorisation cannot fail, the call returns an error exactly if some new bound pair is out of
order, in the user's units. -/
theorem c25_error_iff (hsq : SqrtPos env) (hist : Hist cfg env D₀ st₀ U s) (factors : ∀ ls, 0 ≤ env.factor ls)
    {q : Option (Vec K d.n)} {l u : Option (Vec K d.m)} {code : ℤ} (call : osqpUpdateDataVec cfg env s q l u = (s', code)) :
    code ≠ 0 ↔ ∃ i, (u.getD U.u) i < (l.getD U.l) i := by
  obtain ⟨h1, h2⟩ := vec_parts (hist_inv hsq hist) call
  have e : (∃ i, (u.getD U.u) i < (l.getD U.l) i) ↔ ¬ ∀ i, (l.getD U.l) i ≤ (u.getD U.u) i := by simp
  rw [e]
  constructor
  · exact fun hc hacc => hc ((h1 hacc).2.2.2.2.2.2.2 factors)
  · exact fun hc => by rw [(h2 hc).1]; decide

/-- **C25.** A rejected update returns an error and leaves settings, problem data, scaling, linear system, step
sizes, iterates, status and stored solution alone, and (unless the status is "primal infeasible", see
`c25_counterexample`) also what `osqp_get_solution` reports. -/
theorem c25_rejected_partial (hsq : SqrtPos env) (hist : Hist cfg env D₀ st₀ U s)
    {q : Option (Vec K d.n)} {l u : Option (Vec K d.m)} {code : ℤ} (call : osqpUpdateDataVec cfg env s q l u = (s', code))
    (bad : ∃ i, (u.getD U.u) i < (l.getD U.l) i) :
    code = Err.dataValidation ∧ s'.settings = s.settings ∧ s'.work.data = s.work.data ∧ s'.work.scaling = s.work.scaling ∧
    s'.work.linsys = s.work.linsys ∧ s'.work.rho_vec = s.work.rho_vec ∧ s'.work.rho_inv_vec = s.work.rho_inv_vec ∧
    s'.work.rho_inv = s.work.rho_inv ∧ s'.work.constr_type = s.work.constr_type ∧ s'.work.x = s.work.x ∧ s'.work.y = s.work.y ∧ s'.work.z = s.work.z ∧
    s'.solution = s.solution ∧ s'.info = { s.info with update_time := s'.info.update_time } ∧
    (s.info.status_val ≠ St.primInf → s.info.status_val ≠ St.primInfInacc → ∀ dst,
      (osqpGetSolution s' dst).2 = (osqpGetSolution s dst).2) := by
  obtain ⟨_, h2⟩ := vec_parts (hist_inv hsq hist) call
  have hb : ¬ ∀ i, (l.getD U.l) i ≤ (u.getD U.u) i := by simpa using bad
  obtain ⟨hcode, e⟩ := h2 hb
  refine ⟨hcode, ?_⟩
  have hc : (if cfg.profiling then clearUpdateTime s else s).settings = s.settings ∧
      (∃ b, (if cfg.profiling then clearUpdateTime s else s).work = { s.work with clear_update_time := b }) ∧
      (if cfg.profiling then clearUpdateTime s else s).solution = s.solution ∧
      (∃ b, (if cfg.profiling then clearUpdateTime s else s).info = { s.info with update_time := b }) := by
    unfold clearUpdateTime; split_ifs <;> exact ⟨rfl, ⟨_, rfl⟩, rfl, ⟨_, rfl⟩⟩
  generalize (if cfg.profiling then clearUpdateTime s else s) = s1 at *
  obtain ⟨c1, ⟨b, c2⟩, c3, ⟨b', c4⟩⟩ := hc
  refine ⟨by rw [e]; exact c1, by rw [e]; simp [c2], by rw [e]; simp [c2], by rw [e]; simp [c2], by rw [e]; simp [c2],
    by rw [e]; simp [c2], by rw [e]; simp [c2], by rw [e]; simp [c2], by rw [e]; simp [c2], by rw [e]; simp [c2], by rw [e]; simp [c2], by rw [e]; exact c3,
    by rw [e]; simp [c4], fun n1 n2 dst => ?_⟩
  have e1 : s'.settings = s.settings := by rw [e]; exact c1
  have e2 : s'.info.status_val = s.info.status_val := by rw [e]; simp [c4]
  have e3 : hasSolution s'.info = hasSolution s.info := by unfold hasSolution; rw [e2]
  have e4 : s'.work.x = s.work.x := by rw [e]; simp [c2]
  have e5 : s'.work.y = s.work.y := by rw [e]; simp [c2]
  have e6 : s'.work.scaling = s.work.scaling := by rw [e]; simp [c2]
  have e7 : s'.work.delta_x = s.work.delta_x := by rw [e]; simp [c2]
  unfold osqpGetSolution storeSolution
  dsimp only [coldStart]
  rw [e1, e2, e3, e4, e5, e6, e7]
  split_ifs <;> first | rfl | (exfalso; rename_i hx; rcases hx with hx | hx <;> contradiction) | skip

/-- Lower bound 3 above the upper bound 1/2, after a solve. -/
example : Hist Demo.cfg Demo.sSolved.env Demo.sSolved.data Demo.sSolved.st Demo.sSolved.data (Demo.sSolved.done Demo.okSolved) ∧
    (∃ i, ((none : Option (Vec ℚ 1)).getD Demo.sSolved.data.u) i < ((some fun _ => 3 : Option (Vec ℚ 1)).getD Demo.sSolved.data.l) i) ∧
    (Demo.sSolved.done Demo.okSolved).info.status_val ≠ St.primInf ∧
    (Demo.sSolved.done Demo.okSolved).info.status_val ≠ St.primInfInacc :=
  ⟨Demo.sSolved.hist_done Demo.okSolved, by decide +kernel, by decide +kernel, by decide +kernel⟩

/-- The demo factorisation never reports a failure. -/
example : ∀ ls, 0 ≤ Demo.sSolved.env.factor ls := by
  intro ls
  change (0 : ℤ) ≤ if 0 < ls.P Demo.i0 + ls.sigma then 1 else 0
  split_ifs <;> decide

/-- **C25.** Hence the bounds are ordered in every reachable state, in the user's and in the solver's units. -/
theorem c25_ordered (hsq : SqrtPos env) (hist : Hist cfg env D₀ st₀ U s) (i : Fin d.m) :
    U.l i ≤ U.u i ∧ s.work.data.l i ≤ s.work.data.u i :=
  have h := hist_inv hsq hist
  ⟨h.bounds i, rep_bounds h.rep h.bounds i⟩

/-! ## C53 -/

/-- **C53.** Bad counts are rejected with an error code and without effect (apart from the update timer). -/
theorem c53_rejected (hsq : SqrtPos env) (hist : Hist cfg env D₀ st₀ U s) {p a : MatUpd K}
    (bad : ¬ MatArgsOK d.P.nnz p ∨ ¬ MatArgsOK d.A.nnz a) :
    ∃ code, code ≠ 0 ∧ osqpUpdateDataMat cfg env s p a = some (if cfg.profiling then clearUpdateTime s else s, code) := by
  unfold osqpUpdateDataMat; dsimp only
  by_cases hp : matUpdBad d.P.nnz p = true
  · exact ⟨1, by decide, by rw [if_pos hp]⟩
  · have hp' : matUpdBad d.P.nnz p = false := by simpa using hp
    have ha : matUpdBad d.A.nnz a = true := by
      rcases bad with hb | hb
      · exact absurd ((matUpdBad_iff _ _).1 hp') hb
      · by_contra hc
        exact hb ((matUpdBad_iff _ _).1 (by simpa using hc))
    exact ⟨2, by decide, by rw [if_neg hp, if_pos ha]⟩

/-- Two values for a matrix with one entry. -/
example : ¬ MatArgsOK Demo.dims.A.nnz (⟨some [1, 2], some [0, 0], 2⟩ : MatUpd ℚ) := by decide +kernel

/-- The index list (if any) and the value list of one matrix argument cover the accepted count with indices of
existing entries. -/
def IndicesOK (nnz : ℕ) (a : MatUpd K) : Prop :=
  ∀ i < (if a.cnt = 0 then nnz else a.cnt.toNat),
    (∃ k : ℤ, position a.idx i = some k ∧ 0 ≤ k ∧ k < nnz) ∧ ∀ new, a.x = some new → i < new.length

theorem copyValues_isSome {q : ℕ} {dst src : Vec K q} {idx : Option (List ℤ)} {c : ℕ}
    (h : ∀ i < c, ∃ k : ℤ, position idx i = some k ∧ 0 ≤ k ∧ k < q) : (copyValues dst src idx c).isSome = true := by
  induction c with
  | zero => simp [copyValues]
  | succ c ih =>
    obtain ⟨v1, h1⟩ := Option.isSome_iff_exists.1 (ih (fun i hi => h i (by omega)))
    obtain ⟨k, hk, a, b⟩ := h c (by omega)
    unfold copyValues at h1 ⊢
    rw [List.range_succ, List.foldlM_append, h1]
    have hb : k.toNat < q := by omega
    simp [idxAt_eq_position, hk, a, hb, writeAt]

/-- **C53.** Accepted counts with valid indices access only existing entries: the call is defined, returns, and
its effect is the one of C24. -/
theorem c53_defined_partial (p a : MatUpd K) (okp : IndicesOK d.P.nnz p) (oka : IndicesOK d.A.nnz a) :
    (osqpUpdateDataMat cfg env s p a).isSome = true := by
  have happ : ∀ {q : ℕ} (v : Vec K q) (b : MatUpd K), IndicesOK q b → ∃ w, matUpdApply v b = some w := by
    intro q v b hb
    unfold matUpdApply
    cases hx : b.x with
    | none => exact ⟨_, rfl⟩
    | some new =>
      exact Option.isSome_iff_exists.1 (updateValues_isSome fun i hi => ⟨(hb i hi).1, (hb i hi).2 new hx⟩)
  have hls : ∀ (ls : LinSys d K) (D : Data d K) pi pn ai an,
      (∀ i < pn, ∃ k : ℤ, position pi i = some k ∧ 0 ≤ k ∧ k < d.P.nnz) →
      (∀ i < an, ∃ k : ℤ, position ai i = some k ∧ 0 ≤ k ∧ k < d.A.nnz) → ∃ r, linsysUpdateMat env ls D pi pn ai an = some r := by
    intro ls D pi pn ai an h1 h2
    obtain ⟨a1, e1⟩ := Option.isSome_iff_exists.1 (copyValues_isSome (dst := ls.P) (src := D.P) h1)
    obtain ⟨a2, e2⟩ := Option.isSome_iff_exists.1 (copyValues_isSome (dst := ls.A) (src := D.A) h2)
    unfold linsysUpdateMat; rw [e1, e2]; exact ⟨_, rfl⟩
  have hall : ∀ (q : ℕ), ∀ i < q, ∃ k : ℤ, position none i = some k ∧ 0 ≤ k ∧ k < q := by
    intro q i hi; exact ⟨i, rfl, by omega, by omega⟩
  unfold osqpUpdateDataMat; dsimp only
  generalize (if cfg.profiling then clearUpdateTime s else s) = s1
  by_cases hp : matUpdBad d.P.nnz p = true
  · rw [if_pos hp]; rfl
  · rw [if_neg hp]
    by_cases ha : matUpdBad d.A.nnz a = true
    · rw [if_pos ha]; rfl
    · rw [if_neg ha]
      obtain ⟨w1, e1⟩ := happ (if s1.settings.scaling ≠ 0 then unscaleData s1.work.scaling s1.work.data else s1.work.data).P p okp
      obtain ⟨w2, e2⟩ := happ (if s1.settings.scaling ≠ 0 then unscaleData s1.work.scaling s1.work.data else s1.work.data).A a oka
      rw [e1, e2]; dsimp only
      by_cases h0 : s1.settings.scaling = 0
      · simp only [h0, ne_eq, not_true, if_false]
        obtain ⟨r, er⟩ := hls s1.work.linsys _ p.idx (matUpdCnt d.P.nnz p) a.idx (matUpdCnt d.A.nnz a)
          (fun i hi => (okp i hi).1) (fun i hi => (oka i hi).1)
        rw [er]; rfl
      · simp only [h0, ne_eq, not_false_iff, if_true]
        obtain ⟨r, er⟩ := hls s1.work.linsys (scaleData env s1.settings.scaling _).1 none d.P.nnz none d.A.nnz (hall _) (hall _)
        rw [er]; rfl

/-! ## C52 -/

/-- The row scaling of a solver comes from a scaling of some data with the requested number of passes. -/
theorem scaling_from (hsq : SqrtPos env) (hist : Hist cfg env D₀ st₀ U s) (scaled : st₀.scaling ≠ 0) :
    ∃ D, s.work.scaling = (scaleData env st₀.scaling D).2 := by
  induction hist with
  | setup e => exact ⟨_, (made e).scaling scaled⟩
  | @step U s s' op code hH e ih =>
    have h := hist_inv hsq hH
    have keep : s'.work.scaling = s.work.scaling → ∃ D, s'.work.scaling = (scaleData env st₀.scaling D).2 := fun k => k ▸ ih
    cases op with
    | solve =>
      simp only [apiStep, Option.some.injEq] at e
      have := solve_keeps (cfg := cfg) (env := env) (fun t => t.work.scaling = s.work.scaling) (fun t ht => by rw [← ht]; simp)
        (fun it L ht => by
          have hi : (itTerm cfg env it L).1.work.scaling = L.s.work.scaling := by
            have h1 : (itInfo cfg env it L).work.scaling = L.s.work.scaling := by
              unfold itInfo; split_ifs <;> simp [itDec, itTimed, itAdmm]
            unfold itTerm; split_ifs
            · simpa using h1
            · exact h1
          rcases endState_eq (cfg := cfg) (env := env) it L with h | h | ⟨_, h⟩ | ⟨_, h⟩ <;> rw [h, ← ht]
          · simp [itAdmm]
          · simp [itAdmm, itTimed]
          · exact hi
          · simpa using hi)
        (fun it L ht => by rw [← ht]; simp) (fun t ht => by rw [← ht]; simp) (fun t ht => by rw [← ht]; simp)
        (fun t ht => by rw [← ht]; simp) (s := s) rfl
      rw [e] at this; exact keep this
    | updateDataVec q l u =>
      simp only [apiStep, Option.some.injEq] at e
      obtain ⟨h1, h2⟩ := vec_parts h e
      by_cases hb : ∀ i, (l.getD U.l) i ≤ (u.getD U.u) i
      · exact keep (h1 hb).2.1
      · refine keep ?_
        rw [(h2 hb).2]; dsimp only; split_ifs <;> simp
    | updateDataMat p a =>
      rcases osqpUpdateDataMat_some h e with ⟨_, _, e1⟩ | ⟨_, _, _, e1⟩ | ⟨_, _, r, ls, hr, _, e1⟩
      · refine keep ?_; rw [e1]; split_ifs <;> simp
      · refine keep ?_; rw [e1]; split_ifs <;> simp
      · have e2 : s'.work.scaling = r.2 := by rw [e1]; dsimp only; split_ifs <;> simp
        rw [e2, hr, h.fixed.scaling, if_pos scaled]
        exact ⟨_, rfl⟩
    | updateRho r =>
      simp only [apiStep, Option.some.injEq] at e
      refine keep ?_
      rw [show s' = (osqpUpdateRho cfg env s r).1 by rw [e]]; simp
    | updateSettings st =>
      simp only [apiStep, Option.some.injEq] at e
      refine keep ?_
      rw [show s' = (osqpUpdateSettings cfg s st).1 by rw [e]]
      unfold osqpUpdateSettings
      cases st with
      | none => rfl
      | some n => dsimp only; split_ifs <;> rfl
    | warmStart x y =>
      simp only [apiStep, Option.some.injEq] at e
      refine keep ?_
      rw [show s' = (osqpWarmStart s x y).1 by rw [e]]
      unfold osqpWarmStart
      cases x <;> cases y <;> dsimp only <;> split_ifs <;> rfl
    | coldStart => simp only [apiStep, Option.some.injEq, Prod.mk.injEq] at e; refine keep ?_; rw [← e.1]; rfl
    | getSolution dst =>
      simp only [apiStep, Option.some.injEq, Prod.mk.injEq] at e; refine keep ?_; rw [← e.1]; simp [osqpGetSolution]

/-- **C52.** With at most one pass of scaling (and a square root that maps `(0, 1e4]` into `(0, 100]`) every row factor is
above `1e-4`, the hypothesis of the next theorems. -/
theorem c52_one_pass (hsq : SqrtPos env) (hist : Hist cfg env D₀ st₀ U s) (one : st₀.scaling ≤ 1)
    (hsqrt : ∀ x : K, 0 < x → x ≤ 10 ^ 4 → env.sqrt x ≤ 100) (i : Fin d.m) : 1 / 10 ^ 4 < rowScale s i := by
  have h := hist_inv hsq hist
  unfold rowScale
  rw [h.fixed.scaling]
  split_ifs with h0
  · obtain ⟨D, e⟩ := scaling_from hsq hist h0
    have h1 : st₀.scaling = 1 := by have := h.valid0.scaling; omega
    rw [e, h1]
    change 1 / 10 ^ 4 < 1 * (1 / env.sqrt (limitScalingVec (infNormColsKKT D).2 i))
    generalize (infNormColsKKT D).2 = v
    have hmin : Const.minScaling K = 1 / 10 ^ 4 := rfl
    have hmax : Const.maxScaling K = 10 ^ 4 := rfl
    have hpos : 0 < limitScalingVec v i ∧ limitScalingVec v i ≤ 10 ^ 4 := by
      unfold limitScalingVec vSetIfGt vSetIfLt
      rw [hmin, hmax]
      have a : (0 : K) < 1 / 10 ^ 4 := by positivity
      have b : (1 : K) ≤ 10 ^ 4 := by norm_num
      split_ifs with c1 c2 c3
      · exact ⟨by positivity, le_rfl⟩
      · exact ⟨one_pos, b⟩
      · exact ⟨by positivity, le_rfl⟩
      · exact ⟨lt_of_lt_of_le a (not_lt.1 c1), not_lt.1 c3⟩
    have hs := hsqrt _ hpos.1 hpos.2
    have hp := hsq _ hpos.1
    rw [one_mul, lt_div_iff₀ hp]
    calc 1 / 10 ^ 4 * env.sqrt (limitScalingVec v i) ≤ 1 / 10 ^ 4 * 100 := mul_le_mul_of_nonneg_left hs (by positivity)
      _ < 1 := by norm_num
  · norm_num

theorem inf_seen {e u : K} (he : 1 / 10 ^ 4 < e) (hu : 10 ^ 30 ≤ u) : 10 ^ 26 < e * u := by
  have h1 : (1 / 10 ^ 4 : K) * u < e * u := mul_lt_mul_of_pos_right he (lt_of_lt_of_le (by positivity) hu)
  have h2 : (1 / 10 ^ 4 : K) * 10 ^ 30 ≤ 1 / 10 ^ 4 * u := mul_le_mul_of_nonneg_left hu (by positivity)
  have h3 : (1 / 10 ^ 4 : K) * 10 ^ 30 = 10 ^ 26 := by norm_num
  rw [h3] at h2; exact lt_of_le_of_lt h2 h1

theorem inf_seen' {e l : K} (he : 1 / 10 ^ 4 < e) (hl : l ≤ -10 ^ 30) : e * l < -10 ^ 26 := by
  have := inf_seen he (u := -l) (by linarith)
  rw [mul_neg] at this; linarith

/-- **C52**, step sizes. If both bounds of a constraint are given as `OSQP_INFTY` (1e30) or beyond, it gets the smallest
step size, provided its row factor is above 1e-4 and has not changed since. -/
theorem c52_steps_partial (hsq : SqrtPos env) (hist : BoundsCurrent cfg env D₀ st₀ U s) (vec : s.settings.rho_is_vec ≠ 0) (i : Fin d.m)
    (row : 1 / 10 ^ 4 < rowScale s i) (hl : U.l i ≤ -10 ^ 30) (hu : 10 ^ 30 ≤ U.u i) : s.work.rho_vec i = 1 / 10 ^ 6 := by
  rw [(c19_steps_partial hsq hist vec i).1]
  unfold stepOf
  rw [if_pos ⟨inf_seen' row hl, inf_seen row hu⟩]

/-- **C52**, primal infeasibility. A returned certificate never pushes against a bound given as `OSQP_INFTY`, provided the
row factor is above 1e-4. -/
theorem c52_primal_partial (hsq : SqrtPos env) (hist : Hist cfg env D₀ st₀ U s) {sol : Solution d K}
    (call : osqpSolve cfg env s = (s', 0)) (hsol : s'.solution = some sol) (before : s.info.status_val ≠ St.primInf)
    (after : s'.info.status_val = St.primInf) (hu : UserCriteria s) (i : Fin d.m) (row : 1 / 10 ^ 4 < rowScale s i) :
    (10 ^ 30 ≤ U.u i → sol.prim_inf_cert i ≤ 0) ∧ (U.l i ≤ -10 ^ 30 → 0 ≤ sol.prim_inf_cert i) :=
  have h := c05_primal_certificate hsq hist call hsol before after hu
  ⟨fun hi => h.upper i (inf_seen row hi), fun hi => h.lower i (inf_seen' row hi)⟩

/-- **C52**, dual infeasibility. A direction that meets the documented conditions, where only the bounds that are not
`OSQP_INFTY` count, is recognised, provided the row factors are above 1e-4. -/
theorem c52_dual_partial (hsq : SqrtPos env) (hist : Hist cfg env D₀ st₀ U s) (hu : UserCriteria s)
    (row : ∀ i, 1 / 10 ^ 4 < rowScale s i) {eps : K} {v : Fin d.n → K} (hv : v = fun j => colScale s j * s.work.delta_x j)
    (big : 1 / 10 ^ 30 < normInf v) (neg : U.q ⬝ᵥ v < 0) (flat : normInf ((ofData U).P *ᵥ v) < eps * normInf v)
    (upper : ∀ i, U.u i < 10 ^ 30 → ((ofData U).A *ᵥ v) i ≤ eps * normInf v)
    (lower : ∀ i, -10 ^ 30 < U.l i → -(eps * normInf v) ≤ ((ofData U).A *ᵥ v) i) : isDualInfeasible s eps = true := by
  rw [dualInf_iff (hist_inv hsq hist).rep hu]
  have e : certX s = v := by
    rw [hv]; funext j
    unfold certX effSc colScale
    split_ifs <;> simp [unitSc, mul_comm]
  rw [e]
  refine ⟨big, neg, flat, fun i => ⟨fun hi => upper i ?_, fun hi => lower i ?_⟩⟩
  · by_contra hc; exact absurd (inf_seen (row i) (not_lt.1 hc)) (not_lt.2 hi.le)
  · by_contra hc; exact absurd (inf_seen' (row i) (not_lt.1 hc)) (not_lt.2 hi.le)

/-- One entry replaced by index; all entries replaced. -/
example : IndicesOK 3 (⟨some [5], some [2], 1⟩ : MatUpd ℚ) ∧ IndicesOK 2 (⟨some [5, 6], none, 0⟩ : MatUpd ℚ) := by
  constructor
  · intro i hi
    have : i = 0 := by simpa using hi
    subst this
    exact ⟨⟨2, rfl, by decide, by decide⟩, fun new h => by cases h; decide⟩
  · intro i hi
    have h2 : i < 2 := by simpa using hi
    exact ⟨⟨i, rfl, by omega, by omega⟩, fun new h => by cases h; exact h2⟩

namespace Demo
/-- `x ≥ 1` has no upper bound; `0·x ≥ 1` is infeasible. -/
def sOpen : Scenario := { p := 1, a := 0, q := 1, l := 1, u := 10 ^ 30, st := quick }
theorem okOpen : sOpen.Ok := by decide +kernel
theorem open_sol : (sOpen.done okOpen).solution.isSome = true := by decide +kernel
end Demo

example : BoundsCurrent Demo.cfg Demo.sDual.env Demo.sDual.data Demo.sDual.st Demo.sDual.data (Demo.sDual.start Demo.okDual) ∧
    (Demo.sDual.start Demo.okDual).settings.rho_is_vec ≠ 0 ∧ 1 / 10 ^ 4 < rowScale (Demo.sDual.start Demo.okDual) Demo.i0 ∧
    Demo.sDual.data.l Demo.i0 ≤ -10 ^ 30 ∧ 10 ^ 30 ≤ Demo.sDual.data.u Demo.i0 :=
  ⟨.step (op := .warmStart (some fun _ => Demo.sDual.x) (some fun _ => Demo.sDual.y)) (.setup (Demo.got_ok Demo.okDual)) (by simp) rfl,
    by decide +kernel, by decide +kernel, by decide +kernel, by decide +kernel⟩

example : osqpSolve Demo.cfg Demo.sOpen.env (Demo.sOpen.start Demo.okOpen) = (Demo.sOpen.done Demo.okOpen, 0) ∧
    (Demo.sOpen.done Demo.okOpen).info.status_val = St.primInf ∧ (Demo.sOpen.start Demo.okOpen).info.status_val ≠ St.primInf ∧
    UserCriteria (Demo.sOpen.start Demo.okOpen) ∧ 1 / 10 ^ 4 < rowScale (Demo.sOpen.start Demo.okOpen) Demo.i0 ∧ 10 ^ 30 ≤ Demo.sOpen.data.u Demo.i0 ∧
    (Demo.sOpen.done Demo.okOpen).solution.isSome = true :=
  ⟨Demo.sOpen.solve_eq Demo.okOpen (by decide +kernel), by decide +kernel, by decide +kernel, Or.inr (by decide +kernel), by decide +kernel,
    by decide +kernel, by decide +kernel⟩

namespace Demo
/-- The dual infeasible demo after its solve, and the direction it found. -/
def dualDone : Solver dims ℚ := sDual.done okDual
def dualV : Fin 1 → ℚ := fun j => colScale dualDone j * dualDone.work.delta_x j
end Demo

example : UserCriteria Demo.dualDone ∧ (∀ i, 1 / 10 ^ 4 < rowScale Demo.dualDone i) ∧ 1 / 10 ^ 30 < normInf Demo.dualV ∧
    Demo.sDual.data.q ⬝ᵥ Demo.dualV < 0 ∧ normInf ((ofData Demo.sDual.data).P *ᵥ Demo.dualV) < 1 / 10 ^ 4 * normInf Demo.dualV ∧
    (∀ i, Demo.sDual.data.u i < 10 ^ 30 → ((ofData Demo.sDual.data).A *ᵥ Demo.dualV) i ≤ 1 / 10 ^ 4 * normInf Demo.dualV) ∧
    ∀ i, -10 ^ 30 < Demo.sDual.data.l i → -(1 / 10 ^ 4 * normInf Demo.dualV) ≤ ((ofData Demo.sDual.data).A *ᵥ Demo.dualV) i :=
  ⟨Or.inr (by decide +kernel), by decide +kernel, by decide +kernel, by decide +kernel, by decide +kernel, by decide +kernel, by decide +kernel⟩

end Osqp
