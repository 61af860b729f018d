import Verif.Spec.Basic
import Verif.Mkl.Cg

/-!
# Specification: what the conjugate-gradient interface of the MKL back end is to do

The contract of MKL's routine, the histories of a solver object, and the equations that a solve is to satisfy.
-/

namespace Osqp.Spec
open Matrix
universe u
variable {K : Type u} [Field K] [LinearOrder K] {n m : ℕ} {P : Pat n n} {A : Pat m n}

/-! ## The contract of `dcg` -/

/-- The states that a conjugate-gradient routine can be in when its caller answers every request for the system `B x = b` and for the preconditioner
`M`: a request 1 by the product with `B`, a request 2 by calling again, a request 3 by `M`. -/
inductive Session (d : Mkl.Dcg n K) (limit : ℤ) (pre : Bool) (B : Matrix (Fin n) (Fin n) K) (M : (Fin n → K) → Fin n → K) (b : Fin n → K) :
    d.Mem → Mkl.Shared n K → Prop
  | start (sh : Mkl.Shared n K) : Session d limit pre B M b (d.start limit pre) sh
  | multiply {mem sh mem' sh'} (before : Session d limit pre B M b mem sh) (call : d.call mem sh b = (1, mem', sh')) :
      Session d limit pre B M b mem' { sh' with mvmPost := B *ᵥ sh'.mvmPre }
  | test {mem sh mem' sh'} (before : Session d limit pre B M b mem sh) (call : d.call mem sh b = (2, mem', sh')) :
      Session d limit pre B M b mem' sh'
  | precondition {mem sh mem' sh'} (before : Session d limit pre B M b mem sh) (call : d.call mem sh b = (3, mem', sh')) :
      Session d limit pre B M b mem' { sh' with precPost := M sh'.precPre }

/-- The documented behaviour of MKL's `dcg` that the interface relies on: at a request 2 the third part of `tmp` is the residual of the current
iterate; a request 3 is made only if the preconditioner is switched on. -/
structure Honest (d : Mkl.Dcg n K) : Prop where
  residual : ∀ {limit pre B M b mem sh mem' sh'}, Session d limit pre B M b mem sh → d.call mem sh b = (2, mem', sh') → sh'.precPre = b - B *ᵥ sh'.x
  quiet : ∀ {limit B M b mem sh mem' sh'}, Session d limit false B M b mem sh → d.call mem sh b ≠ (3, mem', sh')

/-! ## Histories -/

/-- What has been handed to a solver object so far: the last values of the matrices, the last step sizes, the last settings (`sigma` is the one of the
creation), whether it was created for polishing and whether it has solved anything. -/
structure Given (P : Pat n n) (A : Pat m n) (K : Type u) where
  Px : Vec K P.nnz
  Ax : Vec K A.nnz
  rho : Vec K m
  st : Mkl.Settings K
  polish : Bool
  solved : Bool

/-- A solver object is created, for the iteration or for polishing, and then used: solves that return, warm starts, changes of the settings, of the
values of the matrices and of the step sizes, in any order. -/
inductive MklHist (sqrt : K → K) (d : Mkl.Dcg n K) : Given P A K → Mkl.Solver P A K → Prop
  | create {Px : Vec K P.nnz} {Ax : Vec K A.nnz} {rho : Vec K m} {st junk s} (call : Mkl.init Px Ax (some rho) st false junk = some s) :
      MklHist sqrt d ⟨Px, Ax, rho, st, false, false⟩ s
  | polish {Px : Vec K P.nnz} {Ax : Vec K A.nnz} {rho : Option (Vec K m)} {st junk s} (call : Mkl.init Px Ax rho st true junk = some s) :
      MklHist sqrt d ⟨Px, Ax, fun _ => 1 / st.sigma, st, true, false⟩ s
  | solve {g s b1 b2 a code r s'} (before : MklHist sqrt d g s) (call : Mkl.Solves sqrt d s b1 b2 a code r s') : MklHist sqrt d { g with solved := true } s'
  | warmStart {g s} (x : Vec K n) (before : MklHist sqrt d g s) : MklHist sqrt d g (Mkl.warmStart s x)
  | settings {g s} (st : Mkl.Settings K) (before : MklHist sqrt d g s) : MklHist sqrt d { g with st := { st with sigma := g.st.sigma } } (Mkl.updateSettings s st)
  | matrices {g s} (Px : Vec K P.nnz) (Ax : Vec K A.nnz) (before : MklHist sqrt d g s) :
      MklHist sqrt d { g with Px := Px, Ax := Ax } (Mkl.updateMatrices s Px Ax)
  | rho {g s s'} {rho : Vec K m} (before : MklHist sqrt d g s) (call : Mkl.updateRho s (some rho) = some s') : MklHist sqrt d { g with rho := rho } s'

/-! ## The equations -/

/-- How far `x` is from solving `(P + sigma*I) x + A' diag(rho) (A x - b2) = b1` for the data given last. -/
def Given.defect (g : Given P A K) (b1 : Fin n → K) (b2 : Fin m → K) (x : Fin n → K) : Fin n → K :=
  denseSym P g.Px *ᵥ x + g.st.sigma • x + (dense A g.Ax)ᵀ *ᵥ (fun i => g.rho i * ((dense A g.Ax *ᵥ x) i - b2 i)) - b1

/-- The size of the right-hand side of the reduced system, `b1 + A' diag(rho) b2`. -/
def Given.rhsNorm (g : Given P A K) (b1 : Fin n → K) (b2 : Fin m → K) : K :=
  normInf ((dense A g.Ax)ᵀ *ᵥ (fun i => g.rho i * b2 i) + b1)

/-- The tolerance that a solve may use: for polishing it is relative to the right-hand side; in the first iteration it is the user's fraction of the
right-hand side (1 if that is tiny); later it is at most a fraction `f` of the geometric mean of the residuals, but not below 1e-7. -/
def Given.Tolerance (g : Given P A K) (sqrt : K → K) (b1 : Fin n → K) (b2 : Fin m → K) (a : Mkl.Args K) (f eps : K) : Prop :=
  if g.polish then eps = max (g.rhsNorm b1 b2 * (1 / 10 ^ 5)) (1 / 10 ^ 7)
  else if a.admm_iter = 1 then eps = if g.rhsNorm b1 b2 < 1 / 10 ^ 7 then 1 else g.rhsNorm b1 b2 * g.st.cg_tol_fraction
  else 1 / 10 ^ 7 ≤ eps ∧ eps ≤ max (1 / 10 ^ 7) (f * sqrt (a.prim * a.dual))

/-- No entry is stored twice. -/
def Once (p : Pat m n) : Prop := ∀ k l, p.row k = p.row l → p.col k = p.col l → k = l

/-- `P + sigma*I + A'*diag(rho)*A` for the data given last. -/
def Given.matrix (g : Given P A K) : Matrix (Fin n) (Fin n) K :=
  denseSym P g.Px + diagonal (fun _ => g.st.sigma) + (dense A g.Ax)ᵀ * diagonal g.rho * dense A g.Ax

end Osqp.Spec
