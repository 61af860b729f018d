import Verif.Model.Api
import Verif.Spec.Scaling
import Verif.Spec.Settings

/-!
# Specification: the user's view of a history of API calls

The "ghost" problem data `U` are what the user believes the solver holds: the data given to `osqp_setup`,
with every accepted update applied to it.  Nothing here mentions scaling or the workspace.
-/

namespace Osqp.Spec
variable {K : Type*} [Field K] [LinearOrder K] {d : Dims}

/-- Index of element `i` of an update: the given index list, or `i` itself without one. -/
def position (idx : Option (List ℤ)) (i : ℕ) : Option ℤ :=
  match idx with
  | some ix => ix[i]?
  | none => some (i : ℤ)

/-- Overwrite stored entries: entry `k` takes the value of the last `i < cnt` whose index is `k`, and keeps
its value if there is none. -/
def overwrite {q : ℕ} (v : Fin q → K) (new : List K) (idx : Option (List ℤ)) (cnt : ℕ) : Fin q → K := fun k =>
  match (List.range cnt).reverse.find? (fun i : ℕ => decide (position idx i = some ((k : ℕ) : ℤ))) with
  | some i => new.getD i (v k)
  | none => v k

/-- The count argument of a matrix update: at most the number of stored entries, not negative, and without
an index list all entries must be given; 0 stands for "all". -/
def MatArgsOK (nnz : ℕ) (a : MatUpd K) : Prop :=
  0 ≤ a.cnt ∧ a.cnt ≤ nnz ∧ (a.idx = none → a.cnt = 0 ∨ a.cnt = nnz)

instance (nnz : ℕ) (a : MatUpd K) : Decidable (MatArgsOK nnz a) := by unfold MatArgsOK; infer_instance

/-- New values of one matrix after an accepted update. -/
def matNew {q : ℕ} (v : Fin q → K) (a : MatUpd K) : Fin q → K :=
  match a.x with
  | some new => overwrite v new a.idx (if a.cnt = 0 then q else a.cnt.toNat)
  | none => v

/-- What an API call does to the user's problem: bounds updates are accepted iff they leave `l ≤ u`; matrix
updates iff the arguments are in range; the other calls do not change the problem. -/
def userStep (U : Data d K) : Op d K → Data d K
  | .updateDataVec q l u =>
    if ∀ i, (l.getD U.l) i ≤ (u.getD U.u) i then { U with q := q.getD U.q, l := l.getD U.l, u := u.getD U.u }
    else U
  | .updateDataMat p a =>
    if MatArgsOK d.P.nnz p ∧ MatArgsOK d.A.nnz a then { U with P := matNew U.P p, A := matNew U.A a } else U
  | _ => U

/-- `Hist cfg env D₀ st₀ U s`: the solver state `s` is reached by `osqp_setup` on data `D₀` and settings `st₀`
followed by some sequence of API calls (with any outcomes, none of them undefined behaviour), after which the
user's problem is `U`. -/
inductive Hist (cfg : Cfg) (env : Env d K) (D₀ : Data d K) (st₀ : Settings K) : Data d K → Solver d K → Prop
  | setup {s : Solver d K} : osqpSetup cfg env D₀ st₀ = .ok s → Hist cfg env D₀ st₀ D₀ s
  | step {U : Data d K} {s s' : Solver d K} {op : Op d K} {code : ℤ} : Hist cfg env D₀ st₀ U s →
      apiStep cfg env s op = some (s', code) → Hist cfg env D₀ st₀ (userStep U op) s'

/-- Positive square roots of positive numbers: all that is assumed of `c_sqrt`. -/
def SqrtPos (env : Env d K) : Prop := ∀ x : K, 0 < x → 0 < env.sqrt x

end Osqp.Spec
