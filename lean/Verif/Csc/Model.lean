import Verif.Csc.Spec
import Verif.Model.Num

/-!
# Model of `csc_math.c` on raw memory

Every function returns `none` exactly when the C code would access an array out of bounds or read an uninitialised
cell.  Simplifications: arrays passed to one call do not overlap (they never do in the code base); `x` is not NULL;
the bounds `Ap[j]`, `Ap[j+1]` of an inner loop are read once per column instead of once per round (the loops do not
write to `Ap`).
-/

namespace Osqp.Csc
variable {K : Type*} [Field K] [LinearOrder K]

/-- algebra/_common/csc_math.c:6-9 `vec_set_scalar` (and csc_utils.c:58-61 `float_vec_set_scalar`). -/
def vecSet (v : Buf K) (val : K) (n : ℤ) : Option (Buf K) := forI 0 n (fun i v => v.wr i val) v

/-- csc_math.c:11-14 `vec_mult_scalar`. -/
def vecMul (v : Buf K) (val : K) (n : ℤ) : Option (Buf K) :=
  forI 0 n (fun i v => (v.rd i).bind fun a => v.wr i (a * val)) v

/-- csc_math.c:16-19 `vec_negate`. -/
def vecNeg (v : Buf K) (n : ℤ) : Option (Buf K) := forI 0 n (fun i v => (v.rd i).bind fun a => v.wr i (-a)) v

/-- csc_math.c:27-45 `csc_update_values` (new contents of `M->x`; `idx` NULL = `none`). -/
def updateValues (Mx new : Buf K) (idx : Option (Buf ℤ)) (cnt : ℤ) : Option (Buf K) :=
  match idx with
  | some ix => forI 0 cnt (fun i x => (ix.rd i).bind fun k => (new.rd i).bind fun v => x.wr k v) Mx
  | none => forI 0 cnt (fun i x => (new.rd i).bind fun v => x.wr i v) Mx

/-- csc_math.c:50-56 `csc_scale`. -/
def scale (A : Csc K) (sc : K) : Option (Csc K) :=
  (A.p.rd A.n).bind fun nnz =>
  (forI 0 nnz (fun i x => (x.rd i).bind fun a => x.wr i (a * sc)) A.x).bind fun x => some { A with x := x }

/-- csc_math.c:60-74 `csc_lmult_diag`. -/
def lmultDiag (A : Csc K) (d : Buf K) : Option (Csc K) :=
  (forCols A.p A.n (fun _ i x => (x.rd i).bind fun a => (A.i.rd i).bind fun r => (d.rd r).bind fun v => x.wr i (a * v)) A.x).bind
    fun x => some { A with x := x }

/-- csc_math.c:78-91 `csc_rmult_diag`. -/
def rmultDiag (A : Csc K) (d : Buf K) : Option (Csc K) :=
  (forCols A.p A.n (fun j i x => (x.rd i).bind fun a => (d.rd j).bind fun v => x.wr i (a * v)) A.x).bind
    fun x => some { A with x := x }

/-- csc_math.c:94-111 `csc_AtDA_extract_diag`. -/
def atdaDiag (A : Csc K) (D d : Buf K) : Option (Buf K) :=
  forI 0 A.n (fun j d =>
    (d.wr j 0).bind fun d => (A.p.rd j).bind fun a => (A.p.rd (j + 1)).bind fun b =>
    forI a b (fun i d => (d.rd j).bind fun dj => (A.x.rd i).bind fun v => (A.i.rd i).bind fun r => (D.rd r).bind fun w =>
      d.wr j (dj + v * v * w)) d) d

/-- csc_math.c:128-131, 184-187, 229-232: `y = beta*y` with the special cases 0, 1, -1. -/
def betaPart (y : Buf K) (beta : K) (n : ℤ) : Option (Buf K) :=
  if beta = 0 then vecSet y 0 n else if beta = 1 then some y else if beta = -1 then vecNeg y n else vecMul y beta n

/-- `y[r] op= …` -/
def addTo (y : Buf K) (r : ℤ) (v : K) : Option (Buf K) := (y.rd r).bind fun a => y.wr r (a + v)
def subFrom (y : Buf K) (r : ℤ) (v : K) : Option (Buf K) := (y.rd r).bind fun a => y.wr r (a - v)

/-- csc_math.c:114-166 `csc_Axpy_sym_triu`. -/
def axpySymTriu (A : Csc K) (x y : Buf K) (alpha beta : K) : Option (Buf K) :=
  (betaPart y beta A.m).bind fun y => (A.p.rd A.n).bind fun nnz =>
  if nnz = 0 ∨ alpha = 0 then some y
  else if alpha = -1 then
    forCols A.p A.n (fun j i y => (A.i.rd i).bind fun r => (A.x.rd i).bind fun a => (x.rd j).bind fun v =>
      (subFrom y r (a * v)).bind fun y =>
      if r ≠ j then (x.rd r).bind fun w => subFrom y j (a * w) else some y) y
  else if alpha = 1 then
    forCols A.p A.n (fun j i y => (A.i.rd i).bind fun r => (A.x.rd i).bind fun a => (x.rd j).bind fun v =>
      (addTo y r (a * v)).bind fun y =>
      if r ≠ j then (x.rd r).bind fun w => addTo y j (a * w) else some y) y
  else
    forCols A.p A.n (fun j i y => (A.i.rd i).bind fun r => (A.x.rd i).bind fun a => (x.rd j).bind fun v =>
      (addTo y r (alpha * a * v)).bind fun y =>
      if r ≠ j then (x.rd r).bind fun w => addTo y j (alpha * a * w) else some y) y

/-- csc_math.c:169-212 `csc_Axpy`. -/
def axpy (A : Csc K) (x y : Buf K) (alpha beta : K) : Option (Buf K) :=
  (betaPart y beta A.m).bind fun y => (A.p.rd A.n).bind fun nnz =>
  if nnz = 0 ∨ alpha = 0 then some y
  else if alpha = -1 then
    forCols A.p A.n (fun j i y => (A.i.rd i).bind fun r => (A.x.rd i).bind fun a => (x.rd j).bind fun v => subFrom y r (a * v)) y
  else if alpha = 1 then
    forCols A.p A.n (fun j i y => (A.i.rd i).bind fun r => (A.x.rd i).bind fun a => (x.rd j).bind fun v => addTo y r (a * v)) y
  else
    forCols A.p A.n (fun j i y => (A.i.rd i).bind fun r => (A.x.rd i).bind fun a => (x.rd j).bind fun v => addTo y r (alpha * a * v)) y

/-- csc_math.c:216-255 `csc_Atxpy`. -/
def atxpy (A : Csc K) (x y : Buf K) (alpha beta : K) : Option (Buf K) :=
  (betaPart y beta A.n).bind fun y => (A.p.rd A.n).bind fun nnz =>
  if nnz = 0 ∨ alpha = 0 then some y
  else if alpha = -1 then
    forCols A.p A.n (fun j i y => (A.i.rd i).bind fun r => (A.x.rd i).bind fun a => (x.rd r).bind fun v => subFrom y j (a * v)) y
  else if alpha = 1 then
    forCols A.p A.n (fun j i y => (A.i.rd i).bind fun r => (A.x.rd i).bind fun a => (x.rd r).bind fun v => addTo y j (a * v)) y
  else
    forCols A.p A.n (fun j i y => (A.i.rd i).bind fun r => (A.x.rd i).bind fun a => (x.rd r).bind fun v => addTo y j (alpha * a * v)) y

/-- `E[r] = c_max(v, E[r])` -/
def maxInto (E : Buf K) (r : ℤ) (v : K) : Option (Buf K) := (E.rd r).bind fun e => E.wr r (cMax v e)

/-- csc_math.c:292-308 `csc_col_norm_inf`. -/
def colNormInf (M : Csc K) (E : Buf K) : Option (Buf K) :=
  (vecSet E 0 M.n).bind fun E => forCols M.p M.n (fun j k E => (M.x.rd k).bind fun v => maxInto E j (cAbs v)) E

/-- csc_math.c:312-331 `csc_row_norm_inf`. -/
def rowNormInf (M : Csc K) (E : Buf K) : Option (Buf K) :=
  (vecSet E 0 M.m).bind fun E =>
  forCols M.p M.n (fun _ k E => (M.i.rd k).bind fun i => (M.x.rd k).bind fun v => maxInto E i (cAbs v)) E

/-- csc_math.c:335-363 `csc_row_norm_inf_sym_triu`. -/
def rowNormInfSymTriu (M : Csc K) (E : Buf K) : Option (Buf K) :=
  (vecSet E 0 M.m).bind fun E =>
  forCols M.p M.n (fun j k E => (M.i.rd k).bind fun i => (M.x.rd k).bind fun v =>
    (maxInto E j (cAbs v)).bind fun E => if i ≠ j then maxInto E i (cAbs v) else some E) E

/-- csc_utils.c:290-308 `csc_extract_diag`. -/
def extractDiag (A : Csc K) (d : Buf K) : Option (Buf K) :=
  (vecSet d 0 A.n).bind fun d =>
  forCols A.p A.n (fun i ptr d => (A.i.rd ptr).bind fun r => if r = i then (A.x.rd ptr).bind fun v => d.wr i v else some d) d

end Osqp.Csc
