import Verif.Spec.Basic
import Verif.Spec.Ldl
import Verif.Cuda.Pcg

/-!
# Specification: the reduced system of the indirect solver
-/

namespace Osqp.Spec
open Matrix
variable {K : Type*} [Field K] [LinearOrder K] {n m : ℕ}

/-- `P + sigma*I + A'*diag(rho)*A`. -/
def reduced (P : Matrix (Fin n) (Fin n) K) (A : Matrix (Fin m) (Fin n) K) (sigma : K) (rho : Fin m → K) : Matrix (Fin n) (Fin n) K :=
  P + diagonal (fun _ => sigma) + Aᵀ * diagonal rho * A

/-- The quadratic function that the solution of `B x = b` minimises, when `B` is symmetric positive definite. -/
def energy (B : Matrix (Fin n) (Fin n) K) (b x : Fin n → K) : K := 1 / 2 * (x ⬝ᵥ (B *ᵥ x)) - b ⬝ᵥ x

/-- The step sizes in use: one per constraint, or one for all. -/
def cudaSteps (s : Cuda.Solver n m K) : Fin m → K := match s.rho_vec with
  | none => fun _ => s.h_rho
  | some rho => rho

/-- The matrices in device memory fit together: `P` is symmetric and `At` is the transpose of `A`. -/
structure Consistent (s : Cuda.Solver n m K) : Prop where
  symm : (dense s.P.pat s.P.val)ᵀ = dense s.P.pat s.P.val
  transpose : dense s.At.pat s.At.val = (dense s.A.pat s.A.val)ᵀ

/-- The matrix of the system that the solver is to solve. -/
def systemOf (s : Cuda.Solver n m K) : Matrix (Fin n) (Fin n) K :=
  reduced (dense s.P.pat s.P.val) (dense s.A.pat s.A.val) s.h_sigma (cudaSteps s)

/-- Every row has its diagonal entry where `diagInd` says, and no entry is stored twice. -/
structure Wired (s : Cuda.Solver n m K) : Prop where
  diagRow : ∀ j, s.P.pat.row (s.diagInd j) = j
  diagCol : ∀ j, s.P.pat.col (s.diagInd j) = j
  once : ∀ k l, s.P.pat.row k = s.P.pat.row l → s.P.pat.col k = s.P.pat.col l → k = l
  onceAt : ∀ k l, s.At.pat.row k = s.At.pat.row l → s.At.pat.col k = s.At.pat.col l → k = l

/-- The settings the library accepts (auxil.c `validate_settings`). -/
structure CgValid (st : Cuda.CgSettings K) : Prop where
  max_iter : 0 < st.cg_max_iter
  reduction : 0 < st.cg_tol_reduction
  fraction : 0 < st.cg_tol_fraction ∧ st.cg_tol_fraction < 1
  sigma : 0 < st.sigma
  rho : 0 < st.rho
  delta : 0 < st.delta

/-- The states of a solver that is created and then used: solves, warm starts, changes of the settings, of the values of the matrices and of the step
sizes, in any order.  Matrices come in consistent copies and step sizes are positive. -/
inductive CgHist (sqrt : K → K) : Cuda.Solver n m K → Prop
  | init {P : Cuda.Csr n n K} {diagInd : Vec (Fin P.pat.nnz) n} {A : Cuda.Csr m n K} {At : Cuda.Csr n m K} {rho_vec : Option (Vec K m)} {st : Cuda.CgSettings K}
      {polishing : Bool} {junk : Vec K n} (valid : CgValid st) (pos : ∀ rho, rho_vec = some rho → ∀ i, 0 < rho i)
      (consistent : Consistent (Cuda.init P diagInd A At rho_vec st polishing junk)) (wired : Wired (Cuda.init P diagInd A At rho_vec st polishing junk)) :
      CgHist sqrt (Cuda.init P diagInd A At rho_vec st polishing junk)
  | solve {s s' : Cuda.Solver n m K} {b1 : Vec K n} {b2 : Vec K m} {prim dual : K} {iter : ℤ} {x : Vec K n} {z : Vec K m} (before : CgHist sqrt s)
      (call : Cuda.solve sqrt s b1 b2 prim dual iter = some (s', x, z)) : CgHist sqrt s'
  | warmStart {s : Cuda.Solver n m K} (x : Vec K n) (before : CgHist sqrt s) : CgHist sqrt (Cuda.warmStart s x)
  | settings {s : Cuda.Solver n m K} {st : Cuda.CgSettings K} (before : CgHist sqrt s) (valid : CgValid st) : CgHist sqrt (Cuda.updateSettings s st)
  | matrices {s : Cuda.Solver n m K} {Pv : Vec K s.P.pat.nnz} {Av : Vec K s.A.pat.nnz} {Atv : Vec K s.At.pat.nnz} (before : CgHist sqrt s)
      (consistent : Consistent (Cuda.updateMatrices s Pv Av Atv)) : CgHist sqrt (Cuda.updateMatrices s Pv Av Atv)
  | rho {s : Cuda.Solver n m K} {rho : Vec K m} {rho_sc : K} (before : CgHist sqrt s) (pos : 0 < rho_sc) (posv : ∀ i, 0 < rho i) :
      CgHist sqrt (Cuda.updateRho s rho rho_sc)

end Osqp.Spec
