import Verif.Vm.Spec
import Verif.Vm.Admm
import Verif.Props.LinStep
import Verif.Props.Refine

/-!
# Specification: a workspace in memory
-/

namespace Osqp.Vm
open Csc
variable {K : Type*} [Field K] [LinearOrder K] {d : Dims}

/-- How the vectors of a workspace lie in memory (osqp_api.c:389-443): `x~` and `z~` are the first `n` and the last `m` elements of
the array `xz`, the others have an array of their own, and no two of them are the same structure. -/
structure Layout (n m : ℕ) (W : Ptrs) (xz : Ref) : Prop where
  whole : xz.off = 0 ∧ xz.len = n + m
  xt : ∃ a, W .xt = view a xz 0 n
  zt : ∃ a, W .zt = view a xz n m
  start : ∀ k, k ≠ .zt → (W k).off = 0
  own : ∀ a b, a ≠ b → ¬ (a = .xt ∧ b = .zt) → ¬ (a = .zt ∧ b = .xt) → (W a).blk ≠ (W b).blk
  addr : ∀ a b, a ≠ b → (W a).addr ≠ (W b).addr

/-- The contents of the vectors that are not part of the solver state: `x~`, `z~` and work vectors, which are always written before
they are read. Those of `OSQPPolish` (`pX`, `pZ`, `pY`) come from `malloc` and may be uninitialised. -/
structure Scr (d : Dims) (K : Type*) where
  xt : Vec K d.n
  zt : Vec K d.m
  Atdy : Vec K d.n
  Pdx : Vec K d.n
  Adx : Vec K d.m
  Dt : Vec K d.n
  DtA : Vec K d.n
  Et : Vec K d.m
  pX : Option (Vec K d.n)
  pZ : Option (Vec K d.m)
  pY : Option (Vec K d.m)

/-- What each vector should hold when the solver is in state `s`; `c` is in the work vectors. `none`: the pointer is `NULL`, or the array not
initialised. -/
def vals (s : Solver d K) (c : Scr d K) : (k : Name) → Option (Vec K (k.dim d.n d.m))
  | .x => some s.work.x
  | .y => some s.work.y
  | .z => some s.work.z
  | .xPrev => some s.work.x_prev
  | .zPrev => some s.work.z_prev
  | .dx => some s.work.delta_x
  | .dy => some s.work.delta_y
  | .xt => some c.xt
  | .zt => some c.zt
  | .q => some s.work.data.q
  | .l => some s.work.data.l
  | .u => some s.work.data.u
  | .rho => if s.settings.rho_is_vec ≠ 0 then some s.work.rho_vec else none
  | .rhoInv => if s.settings.rho_is_vec ≠ 0 then some s.work.rho_inv_vec else none
  | .Ax => some s.work.Ax
  | .Px => some s.work.Px
  | .Aty => some s.work.Aty
  | .Atdy => some c.Atdy
  | .Pdx => some c.Pdx
  | .Adx => some c.Adx
  | .D => if s.settings.scaling ≠ 0 then some s.work.scaling.D else none
  | .Dinv => if s.settings.scaling ≠ 0 then some s.work.scaling.Dinv else none
  | .E => if s.settings.scaling ≠ 0 then some s.work.scaling.E else none
  | .Einv => if s.settings.scaling ≠ 0 then some s.work.scaling.Einv else none
  | .solX => s.solution.map (·.x)
  | .solY => s.solution.map (·.y)
  | .solPc => s.solution.map (·.prim_inf_cert)
  | .solDc => s.solution.map (·.dual_inf_cert)
  | .Dt => if s.settings.scaling ≠ 0 then some c.Dt else none
  | .DtA => if s.settings.scaling ≠ 0 then some c.DtA else none
  | .Et => if s.settings.scaling ≠ 0 then some c.Et else none
  | .pX => c.pX
  | .pZ => c.pZ
  | .pY => c.pY

/-- The memory holds the vectors `V`. -/
def Mem {n m : ℕ} (σ : Store K) (W : Ptrs) (V : (k : Name) → Option (Vec K (k.dim n m))) : Prop :=
  ∀ k f, V k = some f → Has σ (W k) (k.dim n m) f

/-- The memory holds the workspace of the solver state `s`. -/
def Holding (σ : Store K) (W : Ptrs) (xz : Ref) (s : Solver d K) : Prop :=
  xz.len ≤ (σ xz.blk).size ∧ ∃ c, Mem σ W (vals s c)

/-- The function behind the pointer `linsys_solver->solve` does what the solver layer assumes of the linear system `ls`. -/
def Solves (env : Env d K) (ls : LinSys d K) (slv : Buf K → Option (Buf K)) : Prop :=
  ∀ (bx : Vec K d.n) (bz : Vec K d.m) (b : Buf K), Holds b (d.n + d.m) (cat d.n (ext bx) (ext bz)) →
    ∃ b', slv b = some b' ∧
      Holds b' (d.n + d.m) (cat d.n (ext (linsysSolve env ls (bx, bz)).1) (ext (linsysSolve env ls (bx, bz)).2))

/-- The linear-system solver in memory is the one of state `s`: its ordering is a permutation, its arrays are large enough, it holds
the inverse step sizes of `s`, and `QDLDL_solve` solves the permuted system as `env` says. -/
structure SolverIs (env : Env d K) (ls : LinSys d K) (lin : LinMem K) : Prop where
  n : lin.n = d.n
  m : lin.m = d.m
  steps : Param2Is lin.rho_inv_vec lin.rho_inv d.m (ext ls.param2)
  solve : ∃ p, SolveArgs lin.perm lin.bp lin.sol (d.n + d.m) p ∧
    ∀ (bx : Vec K d.n) (bz : Vec K d.m) (c : Buf K), Holds c (d.n + d.m) (fun j => cat d.n (ext bx) (ext bz) (p j)) →
      ∃ c', lin.qsolve c = some c' ∧
        Holds c' (d.n + d.m) fun j => cat d.n (ext (env.kktSolve ls bx bz).1) (ext (env.kktSolve ls bx bz).2) (p j)

/-- Memory that differs only in the vectors of the iteration. -/
def OnlyVectors (W : Ptrs) (xz : Ref) (σ σ' : Store K) : Prop :=
  ∀ b, b ≠ xz.blk → (∀ k ∈ [Name.x, .xPrev, .z, .zPrev, .y, .dx, .dy], b ≠ (W k).blk) → σ' b = σ b

end Osqp.Vm
