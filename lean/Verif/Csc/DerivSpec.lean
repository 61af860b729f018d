import Verif.Model.Types
import Verif.Csc.Spec

/-!
# Specification for the derivatives of the solution

Nothing here refers to the model of the code.  A problem is given by functions on natural numbers: `P` (symmetric), `A`, `l`,
`u` (unscaled), and `x`, `y` are the solution at which the derivative is taken.  Rows `r < m`, variables `j < n`.
-/

namespace Osqp.Csc
open Finset
variable {K : Type*} [Field K] [LinearOrder K]

/-- Row `r` is an equality constraint. -/
def EqRow (l u : ℕ → K) (r : ℕ) : Prop := ¬ l r < u r
/-- Row `r` is an inequality constraint with a finite lower bound. -/
def LoRow (l u : ℕ → K) (r : ℕ) : Prop := l r < u r ∧ -Const.infval K < l r
/-- Row `r` is an inequality constraint with a finite upper bound. -/
def UpRow (l u : ℕ → K) (r : ℕ) : Prop := l r < u r ∧ u r < Const.infval K

instance (l u : ℕ → K) : DecidablePred (EqRow l u) := fun _ => by unfold EqRow; infer_instance
instance (l u : ℕ → K) : DecidablePred (LoRow l u) := fun _ => by unfold LoRow; infer_instance
instance (l u : ℕ → K) : DecidablePred (UpRow l u) := fun _ => by unfold UpRow; infer_instance

/-- The problem and its solution. -/
structure Prob (K : Type*) where
  n : ℕ
  m : ℕ
  P : ℕ → ℕ → K
  A : ℕ → ℕ → K
  l : ℕ → K
  u : ℕ → K
  x : ℕ → K
  y : ℕ → K

/-- Entry `r` of `A x`. -/
def Prob.Ax (p : Prob K) (r : ℕ) : K := ∑ j ∈ range p.n, p.A r j * p.x j
/-- The multiplier of the lower bound: the negative part of `y`. -/
def Prob.yl (p : Prob K) (r : ℕ) : K := max (-p.y r) 0
/-- The multiplier of the upper bound: the positive part of `y`. -/
def Prob.yu (p : Prob K) (r : ℕ) : K := max (p.y r) 0

def Prob.Eq (p : Prob K) : ℕ → Prop := EqRow p.l p.u
def Prob.Lo (p : Prob K) : ℕ → Prop := LoRow p.l p.u
def Prob.Up (p : Prob K) : ℕ → Prop := UpRow p.l p.u
instance (p : Prob K) : DecidablePred p.Eq := fun _ => by unfold Prob.Eq; infer_instance
instance (p : Prob K) : DecidablePred p.Lo := fun _ => by unfold Prob.Lo; infer_instance
instance (p : Prob K) : DecidablePred p.Up := fun _ => by unfold Prob.Up; infer_instance

/-! ## Numbering of the unknowns -/

/-- The rows below `m` that satisfy `q`, in increasing order. -/
def sel (q : ℕ → Prop) [DecidablePred q] (m : ℕ) : List ℕ := (List.range m).filter fun r => decide (q r)

/-- Number of rows below `r` that satisfy `q`. -/
def idx (q : ℕ → Prop) [DecidablePred q] (r : ℕ) : ℕ := ((range r).filter q).card

/-- The `k`-th selected row. -/
def nth (q : ℕ → Prop) [DecidablePred q] (m k : ℕ) : ℕ := (sel q m).getD k 0

/-- Number of lower rows, upper rows, equality rows. -/
def Prob.nl (p : Prob K) : ℕ := idx p.Lo p.m
def Prob.nu (p : Prob K) : ℕ := idx p.Up p.m
def Prob.ne (p : Prob K) : ℕ := idx p.Eq p.m
/-- The `k`-th lower, upper, equality row. -/
def Prob.lo (p : Prob K) (k : ℕ) : ℕ := nth p.Lo p.m k
def Prob.up (p : Prob K) (k : ℕ) : ℕ := nth p.Up p.m k
def Prob.eq (p : Prob K) (k : ℕ) : ℕ := nth p.Eq p.m k

/-- Row `k` of `G`, and the multiplier and the slack that go with it. -/
def Prob.gA (p : Prob K) (k c : ℕ) : K := if k < p.nl then -p.A (p.lo k) c else p.A (p.up (k - p.nl)) c
def Prob.gLam (p : Prob K) (k : ℕ) : K := if k < p.nl then p.yl (p.lo k) else p.yu (p.up (k - p.nl))
def Prob.gS (p : Prob K) (k : ℕ) : K := if k < p.nl then p.l (p.lo k) - p.Ax (p.lo k) else p.Ax (p.up (k - p.nl)) - p.u (p.up (k - p.nl))

/-- Number of unknowns of the linearised conditions. -/
def Prob.N (p : Prob K) : ℕ := p.n + p.nl + p.nu + p.ne

/-- The derivative given for the multiplier of an equality row: `dy_u` when the multiplier is nonnegative, else `-dy_l`. -/
def Prob.dNu (p : Prob K) (DL DU : ℕ → K) (r : ℕ) : K := if p.y r ≥ 0 then DU r else -DL r

/-- The right-hand side. -/
def Prob.rhsF (p : Prob K) (DX DL DU : ℕ → K) (k : ℕ) : K :=
  if k < p.n then -DX k else if k < p.n + p.nl then -DL (p.lo (k - p.n)) else if k < p.n + p.nl + p.nu then -DU (p.up (k - (p.n + p.nl)))
  else if k < p.N then -p.dNu DL DU (p.eq (k - (p.n + p.nl + p.nu))) else 0

/-- The matrix of the linearised optimality conditions (its transpose multiplies the derivatives): unknowns are the variables,
then the rows of `G` (lower rows, then upper rows), then the equality rows.
`[[P, G'diag(lambda), A_eq'], [G, diag(G x - h), 0], [A_eq, 0, 0]]`. -/
def Prob.M (p : Prob K) (r c : ℕ) : K :=
  if r < p.n then
    if c < p.n then p.P r c else if c < p.n + p.nl + p.nu then p.gLam (c - p.n) * p.gA (c - p.n) r else p.A (p.eq (c - (p.n + p.nl + p.nu))) r
  else if r < p.n + p.nl + p.nu then
    if c < p.n then p.gA (r - p.n) c else if c = r then p.gS (r - p.n) else 0
  else if c < p.n then p.A (p.eq (r - (p.n + p.nl + p.nu))) c else 0

/-- The symmetric matrix `[[I, M], [M', 0]]` of the system that the code solves. -/
def Prob.adj (p : Prob K) (r c : ℕ) : K :=
  if r < p.N then if c < p.N then (if r = c then 1 else 0) else p.M r (c - p.N)
  else if c < p.N then p.M c (r - p.N) else 0

/-! ## Iterative refinement -/

/-- The `dim` by `dim` matrix `A` is nonsingular. -/
def Nonsing (dim : ℕ) (A : ℕ → ℕ → K) : Prop := ∀ z : ℕ → K, (∀ r < dim, ∑ c ∈ range dim, A r c * z c = 0) → ∀ c < dim, z c = 0

/-- The residual `A z - R` of a linear system with `dim` unknowns. -/
def residual (dim : ℕ) (A : ℕ → ℕ → K) (R z : ℕ → K) (r : ℕ) : K := (∑ c ∈ range dim, A r c * z c) - R r

/-- Iterative refinement for `A z = R` with an approximate solver: start from `solve R`, then subtract `solve (A z - R)` again
and again. -/
def refined (dim : ℕ) (A : ℕ → ℕ → K) (solve : (ℕ → K) → ℕ → K) (R : ℕ → K) : ℕ → ℕ → K
  | 0 => solve R
  | k + 1 => fun t => refined dim A solve R k t - solve (residual dim A R (refined dim A solve R k)) t

/-- Sum of squares of a vector of length `dim`. -/
def sqNorm (dim : ℕ) (v : ℕ → K) : K := ∑ r ∈ range dim, v r * v r

/-- `Z` is the result of `k` rounds of refinement for `A z = R` with the approximate solver `solve`, where the rounds end as soon
as the norm of the residual is below `1e-12`, and after 200 rounds at the latest. -/
structure Refinement (dim : ℕ) (A : ℕ → ℕ → K) (R : ℕ → K) (sqrt : K → K) (solve : (ℕ → K) → ℕ → K) (k : ℕ) (Z : ℕ → K) : Prop where
  eq : Z = refined dim A solve R k
  le : k ≤ 200
  stop : k < 200 → sqrt (sqNorm dim (residual dim A R Z)) < 1 / 10 ^ 12
  first : ∀ j < k, ¬ sqrt (sqNorm dim (residual dim A R (refined dim A solve R j))) < 1 / 10 ^ 12

/-- `solve` solves the perturbed system, `1e-6` added to the first half of the diagonal and subtracted from the second. -/
def SolvesPerturbed (p : Prob K) (solve : (ℕ → K) → ℕ → K) : Prop :=
  ∀ B, ∀ r < 2 * p.N, ∑ c ∈ range (2 * p.N), (p.adj r c + if r = c then (if r < p.N then 1 / 10 ^ 6 else -(1 / 10 ^ 6)) else 0) * solve B c = B r

/-! ## Derivative of the solution -/

/-- A direction in which the problem data change. -/
structure Dir (K : Type*) where
  P : ℕ → ℕ → K
  q : ℕ → K
  A : ℕ → ℕ → K
  l : ℕ → K
  u : ℕ → K

/-- The zero direction. -/
def Dir.zero : Dir K := ⟨fun _ _ => 0, fun _ => 0, fun _ _ => 0, fun _ => 0, fun _ => 0⟩

/-- Derivatives of `x` and of the negative and the positive part of `y`. -/
structure Tan (K : Type*) where
  x : ℕ → K
  yl : ℕ → K
  yu : ℕ → K

/-- The optimality conditions `P x + q + A'(y_u - y_l) = 0`, `y_l (l - A x) = 0`, `y_u (A x - u) = 0` on inequality rows and
`A x = l` on equality rows, differentiated in direction `d`; only the part of `y` that belongs to a finite bound, or, on an
equality row, that has the sign of `y`, can change. -/
structure Linearised (p : Prob K) (d : Dir K) (t : Tan K) : Prop where
  stat : ∀ i < p.n, (∑ j ∈ range p.n, (p.P i j * t.x j + d.P i j * p.x j)) + d.q i +
    ∑ r ∈ range p.m, (p.A r i * (t.yu r - t.yl r) + d.A r i * p.y r) = 0
  lower : ∀ r < p.m, p.Lo r → p.yl r * (d.l r - ∑ j ∈ range p.n, (p.A r j * t.x j + d.A r j * p.x j)) + (p.l r - p.Ax r) * t.yl r = 0
  upper : ∀ r < p.m, p.Up r → p.yu r * ((∑ j ∈ range p.n, (p.A r j * t.x j + d.A r j * p.x j)) - d.u r) + (p.Ax r - p.u r) * t.yu r = 0
  eq : ∀ r < p.m, p.Eq r → ∑ j ∈ range p.n, (p.A r j * t.x j + d.A r j * p.x j) = d.l r
  noLower : ∀ r < p.m, ¬ p.Eq r → ¬ p.Lo r → t.yl r = 0
  noUpper : ∀ r < p.m, ¬ p.Eq r → ¬ p.Up r → t.yu r = 0
  eqPos : ∀ r < p.m, p.Eq r → p.y r ≥ 0 → t.yl r = 0
  eqNeg : ∀ r < p.m, p.Eq r → p.y r < 0 → t.yu r = 0

/-- The differentiated conditions determine the derivative: with unchanged data nothing changes. -/
def Prob.Regular (p : Prob K) : Prop :=
  ∀ t, Linearised p Dir.zero t → (∀ j < p.n, t.x j = 0) ∧ ∀ r < p.m, t.yl r = 0 ∧ t.yu r = 0

/-- The derivative of a function of `(x, y_l, y_u)` with gradient `(dx, dyl, dyu)` along `t`. -/
def Prob.lossDot (p : Prob K) (dx dyl dyu : ℕ → K) (t : Tan K) : K :=
  (∑ j ∈ range p.n, dx j * t.x j) + ∑ r ∈ range p.m, (dyl r * t.yl r + dyu r * t.yu r)

/-- Size of a change of the solution. -/
def Prob.tanSize (p : Prob K) (t : Tan K) : K := (∑ j ∈ range p.n, |t.x j|) + ∑ r ∈ range p.m, (|t.yl r| + |t.yu r|)

/-! ## Changes and derivatives given by stored entries -/

/-- The matrix with the pattern of `V` and the values `v`. -/
def View.withVals (V : View K) (v : ℕ → K) : View K := { V with x := v }

/-- One number for each stored entry of the upper triangle of `P`, of `q`, for each stored entry of `A`, of `l` and of `u`. -/
structure Data (K : Type*) where
  P : ℕ → K
  q : ℕ → K
  A : ℕ → K
  l : ℕ → K
  u : ℕ → K

/-- The direction in which the stored numbers change by `s`. -/
def Data.dir (VP VA : View K) (s : Data K) : Dir K := ⟨(VP.withVals s.P).symEntry, s.q, (VA.withVals s.A).entry, s.l, s.u⟩

/-- The inner product of the returned derivatives `g` with the change `s` of the data.  `P` is symmetric, so that an
off-diagonal entry counts twice. -/
def pairing (n m : ℕ) (VP VA : View K) (g s : Data K) : K :=
  (∑ k ∈ range VP.nnz, (if VP.i k = VP.col k then 1 else 2) * (g.P k * s.P k)) + (∑ i ∈ range n, g.q i * s.q i) + (∑ k ∈ range VA.nnz, g.A k * s.A k) +
    ∑ r ∈ range m, (g.l r * s.l r + g.u r * s.u r)

/-! ## Lists of row numbers -/

/-- The array `b` lists, in increasing order, exactly the rows below `m` that satisfy `q`; `count` is their number. -/
def IndexList (b : Buf ℤ) (count : ℤ) (m : ℕ) (q : ℕ → Prop) : Prop :=
  ∃ (c : ℕ) (f : ℕ → ℕ), count = c ∧ Holds b c (fun t => (f t : ℤ)) ∧ (∀ s t, s < t → t < c → f s < f t) ∧ ∀ r, (∃ t < c, f t = r) ↔ r < m ∧ q r

end Osqp.Csc
