import Verif.Model.Api

/-!
# Specification: sequences of API calls and the polishing parameter `delta`
-/

namespace Osqp.Spec
variable {K : Type*} [Field K] [LinearOrder K] {d : Dims}

/-- The calls one after the other: final state and return codes; `none` if one of them has undefined behaviour. -/
def callAll (cfg : Cfg) (env : Env d K) : Solver d K → List (Op d K) → Option (Solver d K × List ℤ)
  | s, [] => some (s, [])
  | s, op :: ops => match apiStep cfg env s op with
    | none => none
    | some (t, c) => (callAll cfg env t ops).map fun r => (r.1, c :: r.2)

/-- The solvers are equal in everything but the stored value of the setting `delta`. -/
def EqualButDelta (s t : Solver d K) : Prop := t = { s with settings := { s.settings with delta := t.settings.delta } }

/-- Two sequences of calls ran alike: both are undefined, or they returned the same codes and left the same solver but for `delta`. -/
def SameRuns : Option (Solver d K × List ℤ) → Option (Solver d K × List ℤ) → Prop
  | none, none => True
  | some r, some r' => r.2 = r'.2 ∧ EqualButDelta r.1 r'.1
  | _, _ => False

/-- Two set-ups ended alike: both rejected or both failed with the same code, or the solvers are equal but for `delta`. -/
def SameSetups : SetupOut d K → SetupOut d K → Prop
  | .rejected c, .rejected c' => c = c'
  | .failed c, .failed c' => c = c'
  | .ok s, .ok t => EqualButDelta s t
  | _, _ => False

end Osqp.Spec
