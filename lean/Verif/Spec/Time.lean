import Verif.Spec.History

/-!
# Specification: which times a solve accounts for
-/

namespace Osqp.Spec
variable {K : Type*} [Field K] [LinearOrder K] {d : Dims}

/-- `v` was read from the clock (time elapsed since the call began) during the call that led from `s` to `s'`. -/
def ReadDuring (env : Env d K) (s s' : Solver d K) (v : K) : Prop := ∃ k, s.ticks ≤ k ∧ k < s'.ticks ∧ v = env.clk k

/-- Time taken by an update call from `s` to `s'`: its clock reading, 0 if the call returned before reading the clock. -/
def elapsed (env : Env d K) (s s' : Solver d K) : K := if s'.ticks = s.ticks then 0 else env.clk s.ticks

/-- `Ledger cfg env D₀ st₀ first t s`: `s` is reached from `osqp_setup` by API calls in which every `osqp_solve` returned 0;
`first` tells that there was no solve yet, and `t` is the total time of the calls made since the last solve. -/
inductive Ledger (cfg : Cfg) (env : Env d K) (D₀ : Data d K) (st₀ : Settings K) : Bool → K → Solver d K → Prop
  | setup {s : Solver d K} : osqpSetup cfg env D₀ st₀ = .ok s → Ledger cfg env D₀ st₀ true 0 s
  | solve {b : Bool} {t : K} {s s' : Solver d K} : Ledger cfg env D₀ st₀ b t s → osqpSolve cfg env s = (s', 0) →
      Ledger cfg env D₀ st₀ false 0 s'
  | other {b : Bool} {t : K} {s s' : Solver d K} {op : Op d K} {code : ℤ} : Ledger cfg env D₀ st₀ b t s → op ≠ .solve →
      apiStep cfg env s op = some (s', code) → Ledger cfg env D₀ st₀ b (t + elapsed env s s') s'

end Osqp.Spec
