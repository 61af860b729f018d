import Verif.Lemmas.Point
import Verif.Cex.Rho

/-!
# C90: a starting point survives updates of the vectors and the step size

`callAll` (`Spec/Calls.lean`): a sequence of calls.
-/

set_option linter.unusedSectionVars false
namespace Osqp
namespace Spec
variable {K : Type*} [Field K] [LinearOrder K] {d : Dims}

/-- The call updates the cost vector and bounds, or the step size. -/
def IsVecOrRho : Op d K → Prop
  | .updateDataVec _ _ _ => True
  | .updateRho _ => True
  | _ => False

/-- The primal point from which the next solve starts (if warm starting is on), in the user's units. -/
def startPoint (s : Solver d K) : Vec K d.n := if s.settings.scaling = 0 then s.work.x else fun j => s.work.scaling.D j * s.work.x j

end Spec
open Spec
variable {K : Type*} [Field K] [LinearOrder K] [IsStrictOrderedRing K] {d : Dims} {cfg : Cfg} {env : Env d K}

theorem point_step (s : Solver d K) (x : Option (Vec K d.n)) (y : Option (Vec K d.m)) (op : Op d K) (h : IsVecOrRho op) :
    apiStep cfg env (osqpWarmStart s x y).1 op = (apiStep cfg env s op).map fun r => ((osqpWarmStart r.1 x y).1, r.2) := by
  cases op with
  | updateDataVec q l u =>
    change some (osqpUpdateDataVec cfg env (osqpWarmStart s x y).1 q l u) = some ((osqpWarmStart (osqpUpdateDataVec cfg env s q l u).1 x y).1, (osqpUpdateDataVec cfg env s q l u).2)
    rw [warm_eq, warm_eq, sp_updateVec, (view_vec cfg env s q l u).pt]
  | updateRho r =>
    change some (osqpUpdateRho cfg env (osqpWarmStart s x y).1 r) = some ((osqpWarmStart (osqpUpdateRho cfg env s r).1 x y).1, (osqpUpdateRho cfg env s r).2)
    rw [warm_eq, warm_eq, sp_osqpUpdateRho, (view_rho cfg env s r).pt]
  | _ => exact h.elim

/-- **C90 (partial)**. A warm start can be made before or after any number of updates of the cost vector, the bounds and the step size, accepted, rejected or failed: the solver ends in the same state, in every field,
and the updates return the same codes.
Missing: matrix updates. They rescale the problem but not the starting point (`c90_counterexample`). -/
theorem c90_move_partial (s : Solver d K) (x : Option (Vec K d.n)) (y : Option (Vec K d.m)) (ops : List (Op d K)) (h : ∀ op ∈ ops, IsVecOrRho op) :
    ∃ t codes, callAll cfg env s (.warmStart x y :: ops) = some (t, 0 :: codes) ∧ callAll cfg env s (ops ++ [.warmStart x y]) = some (t, codes ++ [0]) := by
  have e1 : ∀ (t : Solver d K) (l : List (Op d K)), callAll cfg env t (.warmStart x y :: l) = (callAll cfg env (osqpWarmStart t x y).1 l).map fun r => (r.1, 0 :: r.2) := fun _ _ => rfl
  induction ops generalizing s with
  | nil => exact ⟨_, [], rfl, rfl⟩
  | cons op ops ih =>
    have ho := h op (by simp)
    obtain ⟨⟨s1, c⟩, e⟩ : ∃ r, apiStep cfg env s op = some r := by
      cases op with
      | updateDataVec q l u => exact ⟨_, rfl⟩
      | updateRho r => exact ⟨_, rfl⟩
      | _ => exact ho.elim
    obtain ⟨t, codes, a, b⟩ := ih s1 (fun o hm => h o (by simp [hm]))
    have p := point_step (cfg := cfg) (env := env) s x y op ho
    rw [e] at p
    refine ⟨t, c :: codes, ?_, ?_⟩
    · rw [e1] at a ⊢
      obtain ⟨⟨t', cs⟩, r, e2⟩ := Option.map_eq_some_iff.1 a
      obtain ⟨rfl, e3⟩ := Prod.mk.inj e2
      obtain rfl := (List.cons.inj e3).2
      conv_lhs => unfold callAll
      rw [p]
      dsimp only [Option.map_some]
      rw [r]
      rfl
    · rw [List.cons_append]
      conv_lhs => unfold callAll
      rw [e]
      dsimp only
      rw [b]
      rfl

/-- **C90 fails for matrix updates**: a solver is warm started at a point; after an accepted update of the constraint matrix the point from which the next solve starts, in the user's units, is another one. -/
theorem c90_counterexample : ∃ (env : Env Demo.dims ℚ) (D₀ : Data Demo.dims ℚ) (st : Settings ℚ) (s s1 t : Solver Demo.dims ℚ) (x : Vec ℚ Demo.dims.n) (y : Vec ℚ Demo.dims.m) (a : MatUpd ℚ),
    SqrtPos env ∧ osqpSetup Demo.cfg env D₀ st = .ok s ∧ osqpWarmStart s (some x) (some y) = (s1, 0) ∧ startPoint s1 = x ∧
    osqpUpdateDataMat Demo.cfg env s1 Demo.noP a = some (t, 0) ∧ startPoint t ≠ x := by
  refine ⟨Demo.sNarrow.env, Demo.sNarrow.data, Demo.sNarrow.st, Demo.sNarrow.made.get Demo.okNarrow, Demo.sNarrow.start Demo.okNarrow, Demo.narrowDone, fun _ => Demo.sNarrow.x, fun _ => Demo.sNarrow.y, Demo.newA,
    Demo.sNarrow.sqrtPos, Demo.got_ok Demo.okNarrow, rfl, by decide +kernel, ?_, by decide +kernel⟩
  have h : (Demo.narrowOut.get Demo.narrow_ok).2 = 0 := by decide +kernel
  exact (Option.some_get Demo.narrow_ok).symm.trans (congrArg some (Prod.ext rfl h))

/-- Updates between a warm start and a solve: accepted, rejected, and a step size. -/
example : (∀ op ∈ ([.updateDataVec (some fun _ => -2) none none, .updateDataVec none (some fun _ => 9) (some fun _ => 8), .updateRho 3] : List (Op Demo.dims ℚ)), IsVecOrRho op) ∧
    (callAll Demo.cfg Demo.sSolved.env (Demo.sSolved.done Demo.okSolved)
      [.warmStart (some fun _ => 7) none, .updateDataVec (some fun _ => -2) none none, .updateDataVec none (some fun _ => 9) (some fun _ => 8), .updateRho 3]).map
        (fun r => (startPoint r.1, r.2.map (decide <| · = 0))) = some (fun _ => 7, [true, true, false, true]) := by
  refine ⟨by simp [IsVecOrRho], by decide +kernel⟩

end Osqp
