import Verif.Vm.Qdldl
import Verif.Vm.SolveSpec
import Verif.Spec.Rho

/-!
# Specification: the linear-system object

`heldMatrix ls` is the matrix `[P + sigma*I, A'; A, -diag(1/rho)]` of the linear system `ls` (`Spec/Rho.lean`).
-/

namespace Osqp.Vm
open Csc Spec
variable {K : Type*} [Field K] [LinearOrder K] {d : Dims}

/-- The position of a row of the linear system: the rows of `x` come first. -/
def flat : Fin d.n ⊕ Fin d.m → ℕ := Sum.elim (fun j => (j : ℕ)) fun i => d.n + i

/-- `G` is a stored upper triangle of the matrix of `ls`, its rows and columns in the order `p`. -/
def KktOf (ls : LinSys d K) (p : ℕ → ℕ) (G : Csc K) : Prop :=
  ∃ W, Rep G W ∧ W.Triu ∧ W.m = d.n + d.m ∧ W.n = d.n + d.m ∧
    ∀ i < d.n + d.m, ∀ j < d.n + d.m, ∀ a b, p i = flat a → p j = flat b → W.symEntry i j = heldMatrix ls a b

/-- A routine that solves the system `ls`, with its rows in the order `p`, as `env` says. -/
def SolvesIn (env : Env d K) (ls : LinSys d K) (p : ℕ → ℕ) (slv : Buf K → Option (Buf K)) : Prop :=
  ∀ (bx : Vec K d.n) (bz : Vec K d.m) (c : Buf K), Holds c (d.n + d.m) (fun j => cat d.n (ext bx) (ext bz) (p j)) →
    ∃ c', slv c = some c' ∧
      Holds c' (d.n + d.m) fun j => cat d.n (ext (env.kktSolve ls bx bz).1) (ext (env.kktSolve ls bx bz).2) (p j)

/-- QDLDL does what the solver layer assumes of it: on a stored matrix of `ls`, in the ordering in use, it counts the positive pivots and
solves as `env` says. -/
structure QdldlIs (env : Env d K) (p : ℕ → ℕ) (Q : Qdldl K) : Prop where
  etree : ∀ (ls : LinSys d K) G, KktOf ls p G → 0 ≤ Q.etree G
  count : ∀ ls G, KktOf ls p G → (Q.factor G).1 = env.factor ls
  solve : ∀ ls G, KktOf ls p G → SolvesIn env ls p (Q.factor G).2

/-- One call to the linear-system object, as the solver layer sees it: new step sizes, or values copied from the matrices `D`. -/
inductive LsOp (d : Dims) (K : Type*)
  | rho (v : Vec K d.m) (sc : K)
  | mat (D : Data d K) (pi : Option (List ℤ)) (pn : ℕ) (ai : Option (List ℤ)) (an : ℕ)

/-- What the call does (`none`: an index outside the matrix). -/
def LsOp.spec (env : Env d K) (ls : LinSys d K) : LsOp d K → Option (LinSys d K × ℤ)
  | .rho v sc => some (linsysUpdateRho env ls v sc)
  | .mat D pi pn ai an => linsysUpdateMat env ls D pi pn ai an

/-- A list of calls: the linear system at the end and the exit flags. -/
def specAll (env : Env d K) : LinSys d K → List (LsOp d K) → Option (LinSys d K × List ℤ)
  | ls, [] => some (ls, [])
  | ls, o :: os => (o.spec env ls).bind fun r => (specAll env r.1 os).map fun t => (t.1, r.2 :: t.2)

/-- The same call with its arguments in memory. -/
inductive MemOp (K : Type*)
  | rho (v : Option (Buf K)) (sc : K)
  | mat (P : Csc K) (pi : Option (Buf ℤ)) (pn : ℤ) (A : Csc K) (ai : Option (Buf ℤ)) (an : ℤ)

def MemOp.run (Q : Qdldl K) (q : QMem K) : MemOp K → Option (QMem K × ℤ)
  | .rho v sc => qUpdateRho Q q v sc
  | .mat P pi pn A ai an => qUpdateMat Q q P pi pn A ai an

def runAll (Q : Qdldl K) : QMem K → List (MemOp K) → Option (QMem K × List ℤ)
  | q, [] => some (q, [])
  | q, o :: os => (o.run Q q).bind fun r => (runAll Q r.1 os).map fun t => (t.1, r.2 :: t.2)

/-- The index list is in an array that is long enough; both are absent together. -/
def IdxArr : Option (List ℤ) → Option (Buf ℤ) → Prop
  | none, none => True
  | some l, some b => Holds b l.length fun j => l.getD j 0
  | _, _ => False

/-- The arguments in memory are those of the solver layer. `vec` says whether the solver has a vector of step sizes; then it needs the
array of new ones. -/
def SameOp (vec : Bool) : LsOp d K → MemOp K → Prop
  | .rho v sc, .rho b sc' => sc' = sc ∧ (vec → ∃ c, b = some c ∧ Arr c v)
  | .mat D pi pn ai an, .mat P pi' pn' A ai' an' =>
    Stores P d.P D.P ∧ Stores A d.A D.A ∧ pn' = pn ∧ an' = an ∧ IdxArr pi pi' ∧ IdxArr ai ai'
  | _, _ => False

end Osqp.Vm
