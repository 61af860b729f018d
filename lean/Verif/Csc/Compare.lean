import Verif.Csc.Model

/-!
# Comparison and dense copies

csc_utils.c:6-32, :411-434 and builtin/vector.c:9-22 on raw memory (`Csc/Mem.lean`: `none` is undefined behaviour).  A `return` inside a loop is a
flag: the remaining rounds do nothing.  Allocations succeed.
-/

namespace Osqp.Csc

variable {K : Type*} [Field K] [LinearOrder K]

/-- csc_utils.c:24-29, the inner loop of `csc_is_eq`: the entries `s … e-1`. -/
def isEqCol (A B : Csc K) (tol : K) (s e : ℤ) : Option Bool :=
  forI s e (fun i (ok : Bool) => if ok then
    (A.i.rd i).bind fun a => (B.i.rd i).bind fun b => if a ≠ b then some false else
    (A.x.rd i).bind fun u => (B.x.rd i).bind fun v => some !decide (tol < |u - v|) else some false) true

/-- csc_utils.c:6-32 `csc_is_eq`. -/
def isEq (A B : Csc K) (tol : K) : Option Bool :=
  if A.n ≠ B.n then some false else
  forI 0 A.n (fun j (ok : Bool) => if ok then
    (A.p.rd (j + 1)).bind fun a => (B.p.rd (j + 1)).bind fun b => if a ≠ b then some false else
    (A.p.rd j).bind fun s => isEqCol A B tol s a else some false) true

/-- csc_utils.c:425-428, the `while` loop of `csc_to_dns`, at most `fuel` rounds (`none` beyond). -/
def nextCol (M : Csc K) (idx : ℤ) : ℕ → ℤ → Option ℤ
  | 0, _ => none
  | fuel + 1, j => (M.p.rd (j + 1)).bind fun e => if e ≤ idx then nextCol M idx fuel (j + 1) else some j

/-- csc_utils.c:411-434 `csc_to_dns`: an array of `m * n` numbers, column after column. -/
def toDns (M : Csc K) : Option (Buf K) :=
  (M.p.rd M.n).bind fun nnz =>
  (forI 0 nnz (fun idx (s : ℤ × Buf K) =>
    (M.i.rd idx).bind fun i => (nextCol M idx (M.n.toNat + 1) s.1).bind fun j =>
    (M.x.rd idx).bind fun v => (s.2.wr (j * M.m + i) v).bind fun A => some (j, A)) (0, Buf.zeroed (M.m * M.n) 0)).map Prod.snd

/-- vector.c:9-22 `OSQPVectorf_is_eq` (no early return). -/
def vecIsEq (a b : Buf K) (la lb : ℤ) (tol : K) : Option Bool :=
  if la ≠ lb then some false else
  forI 0 la (fun i (ok : Bool) => (a.rd i).bind fun u => (b.rd i).bind fun v => some (if tol < |u - v| then false else ok)) true

end Osqp.Csc
