import Verif.Vm.Api
import Verif.Vm.QdldlSpec
import Verif.Model.Api

/-!
# Specification: a solver object in memory, its calls and histories of calls
-/

namespace Osqp.Vm
open Csc
variable {L K : Type*} [Field K] [LinearOrder K] {d : Dims}

/-- The arrays of `solver->solution`, which the caller may read and pass to other calls. -/
def Name.sol : Name → Bool
  | .solX | .solY | .solPc | .solDc => true
  | _ => false

/-- The array `b` belongs to the solver. -/
def Owned (M : Mach L K) (b : ℕ) : Prop := ∃ k : Name, (M.W k).blk = b

/-- A vector of step sizes and its array are absent together. -/
def VecArr {n : ℕ} : Option (Vec K n) → Option (Buf K) → Prop
  | none, none => True
  | some v, some c => Arr c v
  | _, _ => False

/-- The code outside the model does what the solver layer assumes; `R ls lin` says that the object `lin` is the solver for the linear system
`ls`. Creating a linear-system solver from stored matrices fails exactly if there are too few positive pivots; giving it new matrices makes it
the solver for the changed system. -/
structure LibIs (cfg : Cfg) (env : Env d K) (E : Lib L K) (R : LinSys d K → L → Prop) : Prop where
  cfg : E.cfg = cfg
  sqrt : E.sqrt = env.sqrt
  clk : E.clk = env.clk
  intr : E.intr = env.intr
  calls : ∀ o, Impl env (E.fix o) R
  init : ∀ {P A : Csc K} {vP : Vec K d.P.nnz} {vA : Vec K d.A.nnz} (sigma rho : K) {v : Option (Vec K d.m)} {b : Option (Buf K)},
    Stores P d.P vP → Stores A d.A vA → (∀ k, d.P.row k ≤ d.P.col k) → VecArr v b →
    let ls : LinSys d K := ⟨vP, vA, sigma, v.map fun v i => 1 / v i, 1 / rho⟩
    (env.factor ls < d.n → E.init P A b sigma rho = some (none, Err.nonCvx)) ∧
    (¬ env.factor ls < d.n → ∃ lin, E.init P A b sigma rho = some (some lin, 0) ∧ R ls lin)
  updMat : ∀ {ls ls' : LinSys d K} {lin : L} {D : Data d K} {pi ai : Option (List ℤ)} {pn an : ℕ} {ef : ℤ} {P A : Csc K} {pb ab : Option (Buf ℤ)},
    R ls lin → linsysUpdateMat env ls D pi pn ai an = some (ls', ef) → Stores P d.P D.P → Stores A d.A D.A → IdxArr pi pb → IdxArr ai ab →
    ∃ lin', E.updMat lin P pb pn A ab an = some (lin', ef) ∧ R ls' lin'

/-- The object `o` shows the solver state `s`. -/
structure Stands (E : Lib L K) (R : LinSys d K → L → Prop) (s : Solver d K) (o : Obj L K) : Prop where
  n : o.n = d.n
  m : o.m = d.m
  shows : Shows (E.fix o) R s o.M

/-- The pointer argument `a` is `NULL`, or an array that holds the vector `v` and is none of the solver's own, except that it may be one of
`solver->solution`. -/
def ArgIs (o : Obj L K) {n : ℕ} : Option Ref → Option (Vec K n) → Prop
  | none, none => True
  | some a, some v => Has o.M.σ a n v ∧ ∀ k : Name, k.sol = false → (o.M.W k).blk ≠ a.blk
  | _, _ => False

/-- The array of new values holds the list; both are absent together. -/
def ValArr : Option (List K) → Option (Buf K) → Prop
  | none, none => True
  | some l, some b => Holds b l.length fun j => l.getD j 0
  | _, _ => False

/-- The arguments for one matrix. -/
structure MatIs (a : MatArg K) (b : MatUpd K) : Prop where
  x : ValArr b.x a.x
  idx : IdxArr b.idx a.idx
  cnt : a.cnt = b.cnt

/-- The arrays of an `OSQPSolution` of the caller: large enough, not overlapping, and none of the solver's. Their contents may be
uninitialised. -/
structure DstIs (d : Dims) (o : Obj L K) (S : Dst) : Prop where
  x : Room o.M.σ S.x d.n
  y : Room o.M.σ S.y d.m
  pc : Room o.M.σ S.pc d.m
  dc : Room o.M.σ S.dc d.n
  xy : Apart S.x S.y
  xpc : Apart S.x S.pc
  xdc : Apart S.x S.dc
  ypc : Apart S.y S.pc
  ydc : Apart S.y S.dc
  pcdc : Apart S.pc S.dc
  own : ∀ k : Name, (o.M.W k).blk ≠ S.x.blk ∧ (o.M.W k).blk ≠ S.y.blk ∧ (o.M.W k).blk ≠ S.pc.blk ∧ (o.M.W k).blk ≠ S.dc.blk

/-- `osqp_get_solution` writes the certificates: there is a solution, or the status is one of the infeasible ones. -/
def CertsOut (i : Info K) : Prop :=
  hasSolution i = true ∨ (i.status_val = St.primInf ∨ i.status_val = St.primInfInacc) ∨ i.status_val = St.dualInf ∨ i.status_val = St.dualInfInacc

/-- The call `c` in memory has the arguments of the call `op` of the solver layer. -/
def Reads (o : Obj L K) : MOp K → Op d K → Prop
  | .solve, .solve => True
  | .updateDataVec q l u, .updateDataVec q' l' u' => ArgIs o q q' ∧ ArgIs o l l' ∧ ArgIs o u u'
  | .updateDataMat p a, .updateDataMat p' a' => MatIs p p' ∧ MatIs a a'
  | .updateRho r, .updateRho r' => r = r'
  | .updateSettings st, .updateSettings st' => st = st'
  | .warmStart x y, .warmStart x' y' => ArgIs o x x' ∧ ArgIs o y y'
  | .coldStart, .coldStart => True
  | .getSolution S, .getSolution _ => DstIs d o S
  | _, _ => False

/-- The arrays a call writes to on behalf of the caller. -/
def MOp.target : MOp K → ℕ → Prop
  | .getSolution S, b => b = S.x.blk ∨ b = S.y.blk ∨ b = S.pc.blk ∨ b = S.dc.blk
  | _, _ => False

/-- The call leaves the caller's arrays alone, apart from `T`: the solver has the same arrays as before, `solver->solution` has not moved, and all
others are unchanged. -/
structure Alone (T : ℕ → Prop) (o o' : Obj L K) : Prop where
  own : ∀ b, Owned o'.M b ↔ Owned o.M b
  sol : ∀ k : Name, k.sol = true → o'.M.W k = o.M.W k
  kept : ∀ b, ¬ Owned o.M b → ¬ T b → o'.M.σ b = o.M.σ b

/-- The arguments of `osqp_setup` are arrays that hold the problem `D` and the settings `st`. -/
structure ArgsAre (a : SetupArgs K) (D : Data d K) (st : Settings K) : Prop where
  P : ∃ P, a.P = some P ∧ Stores P d.P D.P
  q : ∃ q, a.q = some q ∧ Arr q D.q
  A : ∃ A, a.A = some A ∧ Stores A d.A D.A
  l : ∃ l, a.l = some l ∧ Arr l D.l
  u : ∃ u, a.u = some u ∧ Arr u D.u
  m : a.m = d.m
  n : a.n = d.n
  st : a.st = some st

/-- The allocator's choices: vectors of the right lengths in arrays of their own. -/
structure Allocated (d : Dims) (W : Ptrs) (xz : Ref) : Prop where
  lay : Layout d.n d.m W xz
  len : ∀ k, (W k).len = k.dim d.n d.m

/-- Set-up in memory and in the solver layer have the same outcome; memory outside the new solver is as before. -/
def SameOut (E : Lib L K) (R : LinSys d K → L → Prop) (W : Ptrs) (σ0 : Store K) : SetupOut d K → Made L K → Prop
  | .rejected a, .rejected b => a = b
  | .failed a, .failed b => a = b
  | .ok s, .ok o => Stands E R s o ∧ o.M.W = W ∧ ∀ b, ¬ Owned o.M b → o.M.σ b = σ0 b
  | _, _ => False

/-- The life of a solver object in memory and in the solver layer: set-up, writes by the caller to memory that is not the solver's, and calls with
the same arguments on both sides, in any order. (`PolishIs` says that `polish` does what the solver layer says.) -/
inductive Lives (cfg : Cfg) (env : Env d K) (E : Lib L K) (R : LinSys d K → L → Prop) : Solver d K → Obj L K → Prop
  | setup {W : Ptrs} {xz : Ref} {a : SetupArgs K} {D : Data d K} {st : Settings K} {σ : Store K} {s : Solver d K} {o : Obj L K} :
      Allocated d W xz → ArgsAre a D st → osqpSetup cfg env D st = .ok s → setup E W xz a σ = some (.ok o) → Lives cfg env E R s o
  | user {s : Solver d K} {o : Obj L K} {σ : Store K} : Lives cfg env E R s o → (∀ b, Owned o.M b → σ b = o.M.σ b) →
      Lives cfg env E R s { o with M := { o.M with σ := σ } }
  | call {s s' : Solver d K} {o o' : Obj L K} {c : MOp K} {op : Op d K} {code code' : ℤ} : Lives cfg env E R s o → Reads o c op →
      (op = .solve → s.settings.polishing = 0 ∨ PolishIs cfg env (E.fix o) R) →
      apiStep cfg env s op = some (s', code) → run E o c = some (o', code') → Lives cfg env E R s' o'

end Osqp.Vm
