import Verif.Model.Embed
import Verif.Spec.History

/-!
# Specification: embedded builds compute what the desktop build computes
-/

namespace Osqp.Spec
variable {K : Type*} [Field K] [LinearOrder K] {d : Dims}

/-- The settings with those switched off that an embedded build does not read: polishing; in mode 1 also the adaptation of rho. -/
def ignored : Emb → Settings K → Settings K
  | .one, st => { st with polishing := 0, adaptive_rho := 0 }
  | .two, st => { st with polishing := 0 }

/-- The results without those an embedded build does not maintain: in mode 1, the estimate of rho and the number of its updates. -/
def maintained : Emb → Info K → Info K
  | .one, i => { i with rho_estimate := 0, rho_updates := 0 }
  | .two, i => i

/-- `s` is a solver of an embedded build, `t` one of the desktop build with polishing off (and, in mode 1, no adaptation of rho). They hold the same
settings, problem, scaling, step sizes, linear system and iterates, and report the same results, times and stored point. They may differ in the
infeasibility certificates, in the solution and in the vectors of the workspace these are read from. -/
structure SameRun (e : Emb) (s t : Solver d K) : Prop where
  settings : t.settings = ignored e s.settings
  info : maintained e t.info = maintained e s.info
  polish_time : s.info.polish_time = 0
  work : { s.work with delta_x := t.work.delta_x, delta_y := t.work.delta_y } = t.work
  point : s.solution.map (fun o => (o.x, o.y)) = t.solution.map (fun o => (o.x, o.y))
  ticks : s.ticks = t.ticks
  polls : s.polls = t.polls
  handler : s.handler = t.handler

/-- The same call, with new settings that ask for no polishing. -/
def offOp : Op d K → Op d K
  | .updateSettings (some n) => .updateSettings (some { n with polishing := if n.polishing = 1 then 0 else n.polishing })
  | op => op

/-- The states and return codes of a sequence of calls; `none` if one of them is undefined behaviour or does not exist. -/
def calls (step : Solver d K → Op d K → Option (Solver d K × ℤ)) : Solver d K → List (Op d K) → Option (Solver d K × List ℤ)
  | s, [] => some (s, [])
  | s, op :: ops =>
    match step s op with
    | none => none
    | some (s', c) =>
      match calls step s' ops with
      | none => none
      | some (s'', cs) => some (s'', c :: cs)

/-- The types of the constraints (loose, inequality, equality) in `s'` are those recorded in `s`. -/
def TypesKept (s s' : Solver d K) : Prop :=
  s.settings.rho_is_vec ≠ 0 → vBoundsType s'.work.data.l s'.work.data.u (Const.rhoTol K) (Const.infval K) = s.work.constr_type

/-- Every call exists in the build, and in mode 1 no accepted update of the bounds changes a constraint's type. -/
def Fits (e : Emb) (cfg : Cfg) (env : Env d K) : Solver d K → List (Op d K) → Prop
  | _, [] => True
  | s, op :: ops => op.exists e ∧
    (e = .one → ∀ q l u s', op = .updateDataVec q l u → l.isSome ∨ u.isSome → apiStepE e cfg env s op = some (s', 0) → TypesKept s s') ∧
    ∀ s' c, apiStepE e cfg env s op = some (s', c) → Fits e cfg env s' ops

end Osqp.Spec
