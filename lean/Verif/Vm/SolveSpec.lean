import Verif.Vm.AdmmSpec
import Verif.Vm.Solve

/-!
# Specification: a solver in memory
-/

namespace Osqp.Vm
open Csc
variable {L K : Type*} [Field K] [LinearOrder K] {d : Dims}

/-- The scalar fields of a solver. -/
abbrev scal (s : Solver d K) : Scal K where
  st := s.settings
  info := s.info
  scl := if s.settings.scaling ≠ 0 then some (s.work.scaling.c, s.work.scaling.cinv) else none
  rho_inv := s.work.rho_inv
  scaled_prim_res := s.work.scaled_prim_res
  scaled_dual_res := s.work.scaled_dual_res
  scaled_dual_gap := s.work.scaled_dual_gap
  xtPx := s.work.xtPx
  qtx := s.work.qtx
  SC := s.work.SC
  last_rel_kkt := s.work.last_rel_kkt
  rho_updated := s.work.rho_updated
  first_run := s.work.first_run
  clear_update_time := s.work.clear_update_time
  rho_update_from_solve := s.work.rho_update_from_solve
  ticks := s.ticks
  polls := s.polls
  handler := s.handler

/-- The linear-system solver in memory does what the solver layer assumes: `R ls lin` says that the object `lin` is the solver for the linear
system `ls`. Its solve routine then solves that system, and its step-size update, given the array of new step sizes if there is one,
makes it the solver for the updated system, with the same exit flag. -/
structure Impl (env : Env d K) (F : Fix L K) (R : LinSys d K → L → Prop) : Prop where
  solve : ∀ ls lin, R ls lin → Solves env ls (F.solve lin)
  update : ∀ ls lin (b : Option (Buf K)) (v : Vec K d.m) (rho : K), R ls lin → rho ≠ 0 →
    (ls.rho_inv_vec.isSome → (∀ i, v i ≠ 0) ∧ ∃ c, b = some c ∧ Arr c v) →
    ∃ lin', F.updRho lin b rho = some (lin', (linsysUpdateRho env ls v rho).2) ∧ R (linsysUpdateRho env ls v rho).1 lin'

/-- The fixed parts are those of the solver layer. -/
structure FixIs (cfg : Cfg) (env : Env d K) (F : Fix L K) : Prop where
  cfg : F.cfg = cfg
  m : F.m = d.m
  sqrt : F.sqrt = env.sqrt
  clk : F.clk = env.clk
  intr : F.intr = env.intr

/-- The vectors a solve may write to, apart from those of the polishing. -/
def Name.mut : Name → Bool
  | .q | .l | .u | .D | .Dinv | .E | .Einv | .Dt | .DtA | .Et | .pX | .pZ | .pY => false
  | _ => true

/-- The vectors of the polishing. -/
def Name.pol : Name → Bool
  | .pX | .pZ | .pY => true
  | _ => false

/-- The memory `M` shows the solver state `s`: the vectors lie as setup puts them and hold those of `s`; the matrices are stored in
compressed columns; the linear-system solver is the one for the system of `s`, with step sizes of its own only if the workspace has a
vector of them; the scalar fields are equal; there is room for the vectors of the polishing. -/
structure Shows (F : Fix L K) (R : LinSys d K → L → Prop) (s : Solver d K) (M : Mach L K) : Prop where
  lay : Layout d.n d.m M.W F.xz
  mem : Holding M.σ M.W F.xz s
  types : s.settings.rho_is_vec ≠ 0 → d.m ≤ M.ct.size ∧ ∀ i : Fin d.m, M.ct.cell i = some (s.work.constr_type i)
  lin : R s.work.linsys M.lin
  own : s.work.linsys.rho_inv_vec.isSome → s.settings.rho_is_vec ≠ 0
  g : M.g = scal s
  P : Stores F.P d.P s.work.data.P
  A : Stores F.A d.A s.work.data.A
  sol : F.hasSol = s.solution.isSome
  room : ∀ k : Name, k.pol = true → Room M.σ (M.W k) (k.dim d.n d.m)

/-- Memory `M'` differs from `M` only in vectors a solve may write to; the vector pointers are the same, except that `x`, `x_prev` and
`z`, `z_prev` may both have changed places. -/
structure Kept (xz : Ref) (M M' : Mach L K) : Prop where
  ptrs : M'.W = M.W ∨ (M'.W .x = M.W .xPrev ∧ M'.W .xPrev = M.W .x ∧ M'.W .z = M.W .zPrev ∧ M'.W .zPrev = M.W .z ∧
    ∀ k, k ≠ .x → k ≠ .xPrev → k ≠ .z → k ≠ .zPrev → M'.W k = M.W k)
  ct : M'.ct = M.ct
  mem : ∀ b, b ≠ xz.blk → (∀ k : Name, k.mut = true ∨ k.pol = true → b ≠ (M.W k).blk) → M'.σ b = M.σ b

/-- `polish` in memory does what the solver layer says and touches only the vectors a solve may touch. -/
def PolishIs (cfg : Cfg) (env : Env d K) (F : Fix L K) (R : LinSys d K → L → Prop) : Prop :=
  ∀ (s : Solver d K) M, Shows F R s M →
    ∃ M', F.polish M = some (M', (polish cfg env s).2) ∧ Shows F R (polish cfg env s).1 M' ∧ Kept F.xz M M'

/-- `k` solves one after the other; the exit flags. -/
def solveTimes (F : Fix L K) : ℕ → Mach L K → Option (Mach L K × List ℤ)
  | 0, M => some (M, [])
  | k + 1, M => (solve F M).bind fun r => (solveTimes F k r.1).map fun t => (t.1, r.2 :: t.2)

/-- The same at the solver layer. -/
def specTimes (cfg : Cfg) (env : Env d K) : ℕ → Solver d K → Solver d K × List ℤ
  | 0, s => (s, [])
  | k + 1, s =>
    let r := osqpSolve cfg env s
    let t := specTimes cfg env k r.1
    (t.1, r.2 :: t.2)

end Osqp.Vm
