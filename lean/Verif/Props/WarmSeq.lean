import Verif.Spec.Calls
import Verif.Demo.Runs

/-!
# C87: of several warm starts the last given vectors count

`callAll` (`Spec/Calls.lean`): a sequence of calls.
-/

set_option linter.unusedSectionVars false
namespace Osqp
namespace Spec

/-- The last vector that is given (not NULL) in a list of arguments. -/
def lastGiven {α : Type*} : List (Option α) → Option α
  | [] => none
  | a :: l => match lastGiven l with
    | some v => some v
    | none => a

end Spec
open Spec
variable {K : Type*} [Field K] [LinearOrder K] {d : Dims} {cfg : Cfg} {env : Env d K}

/-- The second of two arguments if it is given, else the first. -/
def later {α : Type*} (a b : Option α) : Option α := match b with
  | some v => some v
  | none => a

theorem warm_warm (s : Solver d K) (x x' : Option (Vec K d.n)) (y y' : Option (Vec K d.m)) :
    osqpWarmStart (osqpWarmStart s x y).1 x' y' = osqpWarmStart s (later x x') (later y y') := by
  unfold osqpWarmStart
  by_cases h : s.settings.warm_starting = 0
  · cases x <;> cases x' <;> cases y <;> cases y' <;> simp [h, later]
  · cases x <;> cases x' <;> cases y <;> cases y' <;> simp [h, later]

/-- **C87**.  After any sequence of warm starts with any arguments (each vector given or NULL), from any state of the solver, the solver is exactly what a single warm start with the last given
`x` and the last given `y` makes of it, in every field; all calls return 0. -/
theorem c87_last_counts (s : Solver d K) (a : Option (Vec K d.n) × Option (Vec K d.m)) (l : List (Option (Vec K d.n) × Option (Vec K d.m))) :
    callAll cfg env s ((a :: l).map fun p => .warmStart p.1 p.2) =
      some ((osqpWarmStart s (lastGiven ((a :: l).map (·.1))) (lastGiven ((a :: l).map (·.2)))).1, List.replicate (l.length + 1) 0) := by
  have step : ∀ (s : Solver d K) (x : Option (Vec K d.n)) (y : Option (Vec K d.m)) (r : List (Op d K)),
      callAll cfg env s (.warmStart x y :: r) = (callAll cfg env (osqpWarmStart s x y).1 r).map fun q => (q.1, 0 :: q.2) := fun _ _ _ _ => rfl
  induction l generalizing s a with
  | nil => rfl
  | cons b l ih =>
    rw [List.map_cons, step, ih, Option.map_some, warm_warm]
    rfl

/-- **C87, order**. `x` and `y` can be given in one call or in two, in either order. -/
theorem c87_split (s : Solver d K) (x : Vec K d.n) (y : Vec K d.m) :
    osqpWarmStart (osqpWarmStart s (some x) none).1 none (some y) = osqpWarmStart s (some x) (some y) ∧
    osqpWarmStart (osqpWarmStart s none (some y)).1 (some x) none = osqpWarmStart s (some x) (some y) :=
  ⟨warm_warm s (some x) none none (some y), warm_warm s none (some x) (some y) none⟩

/-- A solved problem, warm started four times: the last `x` is 3, the last `y` is 2. -/
example : (callAll Demo.cfg Demo.sSolved.env (Demo.sSolved.done Demo.okSolved)
      [.warmStart (some fun _ => 1) (some fun _ => 5), .warmStart none (some fun _ => 2), .warmStart (some fun _ => 3) none, .warmStart none none]).map
        (fun r => (r.1.work.x, r.1.work.y, r.1.work.z, r.2)) =
    some ((osqpWarmStart (Demo.sSolved.done Demo.okSolved) (some fun _ => 3) (some fun _ => 2)).1.work.x, (osqpWarmStart (Demo.sSolved.done Demo.okSolved) (some fun _ => 3) (some fun _ => 2)).1.work.y,
      (osqpWarmStart (Demo.sSolved.done Demo.okSolved) (some fun _ => 3) (some fun _ => 2)).1.work.z, [0, 0, 0, 0]) ∧
    (osqpWarmStart (Demo.sSolved.done Demo.okSolved) (some fun _ => 3) (some fun _ => 2)).1.work.x ≠ (Demo.sSolved.done Demo.okSolved).work.x := by decide +kernel

end Osqp
