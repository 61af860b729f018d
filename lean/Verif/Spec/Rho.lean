import Verif.Spec.History
import Verif.Spec.Run
import Verif.Spec.Termination
import Mathlib.Data.Matrix.Block

/-!
# Specification: step sizes and their adaptation
-/

namespace Osqp.Spec
open Matrix
variable {K : Type*} [Field K] [LinearOrder K] {d : Dims} {n m : ℕ}

/-- Documented step size of a constraint with bounds `l`, `u`: the smallest step if both are infinite, 1000
times `rho` for an equality, `rho` otherwise. -/
def stepOf (l u rho : K) : K :=
  if l < -10 ^ 26 ∧ 10 ^ 26 < u then 1 / 10 ^ 6 else if u - l < 1 / 10 ^ 4 then 10 ^ 3 * rho else rho

/-- Step size the solver uses for each constraint. -/
def steps (s : Solver d K) : Fin d.m → K :=
  fun i => if s.settings.rho_is_vec ≠ 0 then s.work.rho_vec i else s.settings.rho

/-- Inverse step size the iteration uses for each constraint. -/
def invSteps (s : Solver d K) : Fin d.m → K :=
  fun i => if s.settings.rho_is_vec ≠ 0 then s.work.rho_inv_vec i else s.work.rho_inv

/-- The step sizes are the documented ones for the user's bounds (in the solver's units: row `i` is multiplied
by `rowScale s i`). -/
def StepsMatch (U : Data d K) (s : Solver d K) : Prop :=
  ∀ i, s.work.rho_vec i = stepOf (rowScale s i * U.l i) (rowScale s i * U.u i) s.settings.rho ∧
    s.work.rho_inv_vec i = 1 / s.work.rho_vec i

/-- Histories in which the row scaling has not changed since the bounds were last given: they end with a set-up
or an accepted bounds update followed by any calls except an accepted matrix update of a scaled problem. -/
inductive BoundsCurrent (cfg : Cfg) (env : Env d K) (D₀ : Data d K) (st₀ : Settings K) : Data d K → Solver d K → Prop
  | setup {s : Solver d K} : osqpSetup cfg env D₀ st₀ = .ok s → BoundsCurrent cfg env D₀ st₀ D₀ s
  | bounds {U : Data d K} {s s' : Solver d K} {q : Option (Vec K d.n)} {l u : Option (Vec K d.m)} {code : ℤ} :
      Hist cfg env D₀ st₀ U s → l ≠ none ∨ u ≠ none → (∀ i, (l.getD U.l) i ≤ (u.getD U.u) i) →
      apiStep cfg env s (.updateDataVec q l u) = some (s', code) →
      BoundsCurrent cfg env D₀ st₀ (userStep U (.updateDataVec q l u)) s'
  | step {U : Data d K} {s s' : Solver d K} {op : Op d K} {code : ℤ} : BoundsCurrent cfg env D₀ st₀ U s →
      (∀ p a, op = .updateDataMat p a → st₀.scaling = 0 ∨ ¬ (MatArgsOK d.P.nnz p ∧ MatArgsOK d.A.nnz a)) →
      apiStep cfg env s op = some (s', code) → BoundsCurrent cfg env D₀ st₀ (userStep U op) s'

/-! ## Adaptation -/

namespace QP
variable (Q : QP n m K)

/-- Relative primal residual. -/
def relPrim (x : Fin n → K) (z : Fin m → K) : K :=
  Q.primRes x z / (max (normInf z) (normInf (Q.A *ᵥ x)) + 1 / 10 ^ 30)

/-- Relative dual residual. -/
def relDual (x : Fin n → K) (y : Fin m → K) : K :=
  Q.dualRes x y / (max (max (normInf Q.q) (normInf (Q.Aᵀ *ᵥ y))) (normInf (Q.P *ᵥ x)) + 1 / 10 ^ 30)

/-- Step-size estimate `ρ √(relative primal residual / relative dual residual)`, kept within `[1e-6, 1e6]`
(division by zero gives the IEEE results: 0/0 ends up at the lower limit, p/0 at the upper one). -/
def estimate (sqrt : K → K) (rho : K) (x : Fin n → K) (z y : Fin m → K) : K :=
  if Q.relDual x y = 0 then if Q.relPrim x z = 0 then 1 / 10 ^ 6 else 10 ^ 6
  else min (max (rho * sqrt (Q.relPrim x z / Q.relDual x y)) (1 / 10 ^ 6)) (10 ^ 6)

end QP

/-- Solver state in which an iteration ends. -/
def endState : IterOut d K → Solver d K
  | .cont L => L.s
  | .brk L => L.s
  | .exit s => s

/-- `e` is more than `tol` times larger or smaller than `rho`. -/
def FarFrom (tol rho e : K) : Prop := rho * tol < e ∨ e < rho / tol

/-- Iteration `it`, from solver state `s` to `s'`, is one in which the settings ask for an adaptation: a
multiple of the interval (the one in force at the end of the iteration), except in mode 0; in mode 3 also the
relative KKT error must have dropped below the given fraction of its value at the last change. -/
def AdaptDue (it : ℤ) (s s' : Solver d K) : Prop :=
  s.settings.adaptive_rho ≠ 0 ∧ s'.settings.adaptive_rho_interval ≠ 0 ∧ s'.settings.adaptive_rho_interval ∣ it ∧
  (s.settings.adaptive_rho = 3 → s'.info.rel_kkt_error ≤ s.settings.adaptive_rho_fraction * s.work.last_rel_kkt)

/-- Interval documented for the iteration-based (1) and KKT-error-based (3) modes: the user's, or the default if
that is 0. -/
def documentedInterval (st : Settings K) : ℤ :=
  if st.adaptive_rho_interval ≠ 0 then st.adaptive_rho_interval
  else if st.adaptive_rho = 1 then (if st.check_termination ≠ 0 then 4 * st.check_termination else 100)
  else if st.adaptive_rho = 3 then 1
  else 0

/-! ## The linear system -/

/-- The KKT matrix of the ADMM iteration. -/
def kktMatrix (P : Matrix (Fin n) (Fin n) K) (A : Matrix (Fin m) (Fin n) K) (sigma : K) (rho : Fin m → K) :
    Matrix (Fin n ⊕ Fin m) (Fin n ⊕ Fin m) K :=
  Matrix.fromBlocks (P + Matrix.diagonal fun _ => sigma) Aᵀ A (-Matrix.diagonal fun i => 1 / rho i)

/-- The matrix held by the linear-system solver. -/
def heldMatrix (ls : LinSys d K) : Matrix (Fin d.n ⊕ Fin d.m) (Fin d.n ⊕ Fin d.m) K :=
  Matrix.fromBlocks (denseSym d.P ls.P + Matrix.diagonal fun _ => ls.sigma) (dense d.A ls.A)ᵀ (dense d.A ls.A)
    (-Matrix.diagonal fun i => match ls.rho_inv_vec with | some v => v i | none => ls.rho_inv)

/-- Column scaling factors in use: 1 without scaling. -/
def colScale (s : Solver d K) : Fin d.n → K := fun j => if s.settings.scaling ≠ 0 then s.work.scaling.D j else 1

end Osqp.Spec
