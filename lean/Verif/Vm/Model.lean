import Verif.Csc.Mem
import Verif.Model.Auxil

/-!
# The vector routines on shared memory

`algebra/builtin/vector.c` and the ADMM steps of `src/auxil.c`, on a memory of several arrays. A vector is a
structure pointing into one of them, so that vectors may share memory: a routine may be called with the same
vector as result and operand, and a view (`OSQPVectorf_view`) is a second vector over a part of an array.
Every access is checked as in `Csc/Mem.lean`; `none` is undefined behaviour.
-/

namespace Osqp.Vm
open Csc

/-- `OSQPVectorf` (algebra/builtin/algebra_impl.h:20-23): `values` points to element `off` of array `blk`;
`addr` is the address of the structure itself, which some routines compare. -/
structure Ref where
  addr : ℕ
  blk : ℕ
  off : ℕ
  len : ℕ

/-- The memory: every array that exists. -/
abbrev Store (K : Type*) := ℕ → Buf K

variable {K : Type*}

/-- `v->values[i]` as an rvalue. -/
def rd (σ : Store K) (v : Ref) (i : ℤ) : Option K := (σ v.blk).rd (v.off + i)

/-- `v->values[i] = x`. -/
def wr (σ : Store K) (v : Ref) (i : ℤ) (x : K) : Option (Store K) :=
  ((σ v.blk).wr (v.off + i) x).map fun b => Function.update σ v.blk b

section Float
variable [Field K] [LinearOrder K]

/-- vector.c:271-280 `OSQPVectorf_from_raw` (also `OSQPVectorf_copy`, 261-264): the source is an array of the
caller, here a vector over it. -/
def copy (b a : Ref) (σ : Store K) : Option (Store K) :=
  forI 0 b.len (fun i σ => (rd σ a i).bind fun v => wr σ b i v) σ

/-- vector.c:293-302 `OSQPVectorf_to_raw`. -/
def toRaw (b a : Ref) (σ : Store K) : Option (Store K) :=
  forI 0 a.len (fun i σ => (rd σ a i).bind fun v => wr σ b i v) σ

/-- vector.c:155-165 `OSQPVectorf_subvector_assign`. -/
def subAssign (a b : Ref) (start length : ℤ) (mult : K) (σ : Store K) : Option (Store K) :=
  forI 0 length (fun i σ => (rd σ b i).bind fun v => wr σ a (start + i) (mult * v)) σ

/-- vector.c:167-176 `OSQPVectorf_subvector_assign_scalar`. -/
def subAssignScalar (a : Ref) (sc : K) (start length : ℤ) (σ : Store K) : Option (Store K) :=
  forI 0 length (fun i σ => wr σ a (start + i) sc) σ

/-- vector.c:215-232 `OSQPVectorf_view`, `OSQPVectorf_view_update`: the same array, from `head` on. -/
def view (addr : ℕ) (a : Ref) (head length : ℕ) : Ref := ⟨addr, a.blk, a.off + head, length⟩

/-- vector.c:315-324 `OSQPVectorf_set_scalar`. -/
def setScalar (a : Ref) (sc : K) (σ : Store K) : Option (Store K) :=
  forI 0 a.len (fun i σ => wr σ a i sc) σ

/-- vector.c:327-342 `OSQPVectorf_set_scalar_conditional`; `test` is an integer vector. -/
def setCond (a : Ref) (test : Buf ℤ) (neg zero pos : K) (σ : Store K) : Option (Store K) :=
  forI 0 a.len (fun i σ => (test.rd i).bind fun t =>
    if t = 0 then wr σ a i zero else if t > 0 then wr σ a i pos else wr σ a i neg) σ

/-- vector.c:345-356 `OSQPVectorf_round_to_zero`. -/
def roundToZero (a : Ref) (tol : K) (σ : Store K) : Option (Store K) :=
  forI 0 a.len (fun i σ => (rd σ a i).bind fun v => if cAbs v < tol then wr σ a i 0 else some σ) σ

/-- vector.c:359-368 `OSQPVectorf_mult_scalar`. -/
def multScalar (a : Ref) (sc : K) (σ : Store K) : Option (Store K) :=
  forI 0 a.len (fun i σ => (rd σ a i).bind fun v => wr σ a i (v * sc)) σ

/-- vector.c:370-390 `OSQPVectorf_plus`. -/
def plus (x a b : Ref) (σ : Store K) : Option (Store K) :=
  if x.addr = a.addr then
    forI 0 a.len (fun i σ => (rd σ x i).bind fun v => (rd σ b i).bind fun w => wr σ x i (v + w)) σ
  else
    forI 0 a.len (fun i σ => (rd σ a i).bind fun v => (rd σ b i).bind fun w => wr σ x i (v + w)) σ

/-- vector.c:392-412 `OSQPVectorf_minus`. -/
def minus (x a b : Ref) (σ : Store K) : Option (Store K) :=
  if x.addr = a.addr then
    forI 0 a.len (fun i σ => (rd σ x i).bind fun v => (rd σ b i).bind fun w => wr σ x i (v - w)) σ
  else
    forI 0 a.len (fun i σ => (rd σ a i).bind fun v => (rd σ b i).bind fun w => wr σ x i (v - w)) σ

/-- vector.c:414-437 `OSQPVectorf_add_scaled`. -/
def addScaled (x : Ref) (sca : K) (a : Ref) (scb : K) (b : Ref) (σ : Store K) : Option (Store K) :=
  if x.addr = a.addr ∧ sca = 1 then
    forI 0 x.len (fun i σ => (rd σ x i).bind fun v => (rd σ b i).bind fun w => wr σ x i (v + scb * w)) σ
  else
    forI 0 x.len (fun i σ => (rd σ a i).bind fun v => (rd σ b i).bind fun w => wr σ x i (sca * v + scb * w)) σ

/-- vector.c:439-465 `OSQPVectorf_add_scaled3`. -/
def addScaled3 (x : Ref) (sca : K) (a : Ref) (scb : K) (b : Ref) (scc : K) (c : Ref) (σ : Store K) :
    Option (Store K) :=
  if x.addr = a.addr ∧ sca = 1 then
    forI 0 x.len (fun i σ => (rd σ x i).bind fun v => (rd σ b i).bind fun w => (rd σ c i).bind fun t =>
      wr σ x i (v + (scb * w + scc * t))) σ
  else
    forI 0 x.len (fun i σ => (rd σ a i).bind fun v => (rd σ b i).bind fun w => (rd σ c i).bind fun t =>
      wr σ x i (sca * v + scb * w + scc * t)) σ

/-- vector.c:468-482 `OSQPVectorf_norm_inf`. -/
def normInf (v : Ref) (σ : Store K) : Option K :=
  forI 0 v.len (fun i r => (rd σ v i).bind fun x => let a := cAbs x; some (if a > r then a else r)) 0

/-- vector.c:497-513 `OSQPVectorf_scaled_norm_inf`. -/
def scaledNormInf (s v : Ref) (σ : Store K) : Option K :=
  forI 0 v.len (fun i r => (rd σ s i).bind fun t => (rd σ v i).bind fun x =>
    let a := cAbs (t * x); some (if a > r then a else r)) 0

/-- vector.c:529-544 `OSQPVectorf_norm_inf_diff`. -/
def normInfDiff (a b : Ref) (σ : Store K) : Option K :=
  forI 0 a.len (fun i r => (rd σ a i).bind fun x => (rd σ b i).bind fun y =>
    let t := cAbs (x - y); some (if t > r then t else r)) 0

/-- vector.c:786-801 `OSQPVectorf_norm_1`. -/
def norm1 (a : Ref) (σ : Store K) : Option K :=
  forI 0 a.len (fun i r => (rd σ a i).bind fun x => some (r + cAbs x)) 0

/-- vector.c:575-589 `OSQPVectorf_dot_prod`. -/
def dotProd (a b : Ref) (σ : Store K) : Option K :=
  forI 0 a.len (fun i r => (rd σ a i).bind fun x => (rd σ b i).bind fun y => some (r + x * y)) 0

/-- vector.c:591-617 `OSQPVectorf_dot_prod_signed`. -/
def dotSigned (a b : Ref) (sign : ℤ) (σ : Store K) : Option K :=
  if sign = 1 then
    forI 0 a.len (fun i r => (rd σ a i).bind fun x => (rd σ b i).bind fun y => some (r + x * cMax y 0)) 0
  else if sign = -1 then
    forI 0 a.len (fun i r => (rd σ a i).bind fun x => (rd σ b i).bind fun y => some (r + x * cMin y 0)) 0
  else dotProd a b σ

/-- vector.c:619-641 `OSQPVectorf_ew_prod`. -/
def ewProd (c a b : Ref) (σ : Store K) : Option (Store K) :=
  if c.addr = a.addr then
    forI 0 a.len (fun i σ => (rd σ c i).bind fun v => (rd σ b i).bind fun w => wr σ c i (v * w)) σ
  else
    forI 0 a.len (fun i σ => (rd σ a i).bind fun v => (rd σ b i).bind fun w => wr σ c i (v * w)) σ

/-- vector.c:643-656 `OSQPVectorf_all_leq`; after the early return nothing more is read (`r = false`). -/
def allLeq (l u : Ref) (σ : Store K) : Option Bool :=
  forI 0 l.len (fun i r => if r then (rd σ l i).bind fun x => (rd σ u i).bind fun y =>
    some (if x > y then false else true) else some false) true

/-- vector.c:658-674 `OSQPVectorf_ew_bound_vec`. -/
def boundVec (x z l u : Ref) (σ : Store K) : Option (Store K) :=
  forI 0 x.len (fun i σ => (rd σ z i).bind fun v => (rd σ l i).bind fun a => (rd σ u i).bind fun b =>
    wr σ x i (cMin (cMax v a) b)) σ

/-- vector.c:676-702 `OSQPVectorf_project_polar_reccone`. -/
def projectPolar (y l u : Ref) (infval : K) (σ : Store K) : Option (Store K) :=
  forI 0 y.len (fun i σ => (rd σ u i).bind fun b =>
    if b > infval then (rd σ l i).bind fun a =>
      if a < -infval then wr σ y i 0
      else (rd σ y i).bind fun v => wr σ y i (cMin v 0)
    else (rd σ l i).bind fun a =>
      if a < -infval then (rd σ y i).bind fun v => wr σ y i (cMax v 0)
      else some σ) σ

/-- vector.c:704-727 `OSQPVectorf_in_reccone`; after the early return nothing more is read (`r = false`).
Simplification: all three operands are read even where `&&` and `||` would skip one. -/
def inReccone (y l u : Ref) (infval tol : K) (σ : Store K) : Option Bool :=
  forI 0 y.len (fun i r => if r then
      (rd σ u i).bind fun b => (rd σ y i).bind fun v => (rd σ l i).bind fun a =>
        some (!(decide (b < infval) && decide (v > tol) || decide (a > -infval) && decide (v < -tol)))
    else some false) true

/-- vector.c:803-815 `OSQPVectorf_ew_reciprocal`. Division by zero gives an infinity in C, which is not a
number of the model: `none`. -/
def reciprocal (b a : Ref) (σ : Store K) : Option (Store K) :=
  forI 0 a.len (fun i σ => (rd σ a i).bind fun v => if v = 0 then none else wr σ b i (1 / v)) σ

/-- vector.c:817-827 `OSQPVectorf_ew_sqrt`, with the square root as a parameter. -/
def ewSqrt (sqrt : K → K) (a : Ref) (σ : Store K) : Option (Store K) :=
  forI 0 a.len (fun i σ => (rd σ a i).bind fun v => wr σ a i (sqrt v)) σ

/-- vector.c:855-868 `OSQPVectorf_ew_max_vec`. -/
def maxVec (c a b : Ref) (σ : Store K) : Option (Store K) :=
  forI 0 a.len (fun i σ => (rd σ a i).bind fun v => (rd σ b i).bind fun w => wr σ c i (cMax v w)) σ

/-- vector.c:870-883 `OSQPVectorf_ew_min_vec`. -/
def minVec (c a b : Ref) (σ : Store K) : Option (Store K) :=
  forI 0 a.len (fun i σ => (rd σ a i).bind fun v => (rd σ b i).bind fun w => wr σ c i (cMin v w)) σ

/-- vector.c:885-921 `OSQPVectorf_ew_bounds_type`: new types and `has_changed`. `length` is that of `iseq`. -/
def boundsType (iseq : Buf ℤ) (length : ℤ) (l u : Ref) (tol infval : K) (σ : Store K) : Option (Buf ℤ × Bool) :=
  forI 0 length (fun i r => (r.1.rd i).bind fun old => (rd σ l i).bind fun a => (rd σ u i).bind fun b =>
    let t : ℤ := if a < -infval ∧ b > infval then -1 else if b - a < tol then 1 else 0
    (r.1.wr i t).bind fun q => some (q, r.2 || decide (t ≠ old))) (iseq, false)

/-- vector.c:923-936 `OSQPVectorf_set_scalar_if_lt`. -/
def setIfLt (x z : Ref) (test new : K) (σ : Store K) : Option (Store K) :=
  forI 0 x.len (fun i σ => (rd σ z i).bind fun v => wr σ x i (if v < test then new else v)) σ

/-- vector.c:938-951 `OSQPVectorf_set_scalar_if_gt`. -/
def setIfGt (x z : Ref) (test new : K) (σ : Store K) : Option (Store K) :=
  forI 0 x.len (fun i σ => (rd σ z i).bind fun v => wr σ x i (if v > test then new else v)) σ

end Float

end Osqp.Vm
