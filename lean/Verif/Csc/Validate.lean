import Verif.Csc.Spec
import Verif.Model.Types

/-!
# Model of the problem-data check (auxil.c:950-1017) and of the beginning of `osqp_setup`

Pointer arguments are `none` when null; arrays are raw buffers, so that reading a null pointer, past the end of an array
or an uninitialised cell is `none` (undefined behaviour).  Comparison is that of an ordered field (no NaN).
-/

namespace Osqp.Csc

variable {K : Type*} [LinearOrder K]

/-- `k` rounds, from counter value `i`, of a loop that returns 1 as soon as `f` holds. -/
def anyGo (f : ℤ → Option Bool) : ℕ → ℤ → Option Bool
  | 0, _ => some false
  | k + 1, i => (f i).bind fun b => if b then some true else anyGo f k (i + 1)

/-- `for (i = lo; i < hi; i++) if (f(i)) return 1;`: was 1 returned. -/
def anyI (lo hi : ℤ) (f : ℤ → Option Bool) : Option Bool := anyGo f (hi - lo).toNat lo

/-- `v[j]` where `v` may be a null pointer. -/
def rdPtr (v : Option (Buf K)) (j : ℤ) : Option K := v.bind fun b => b.rd j

/-- auxil.c:987-994, is there an entry below the diagonal. -/
def belowDiagonal (P : Csc K) (n : ℤ) : Option Bool :=
  anyI 0 n fun j => (P.p.rd j).bind fun a => (P.p.rd (j + 1)).bind fun b => anyI a b fun ptr =>
    (P.i.rd ptr).bind fun r => some (decide (r > j))

/-- auxil.c:1003-1010, is some lower bound greater than the upper bound. -/
def boundsCross (l u : Option (Buf K)) (m : ℤ) : Option Bool :=
  anyI 0 m fun j => (rdPtr l j).bind fun a => (rdPtr u j).bind fun b => some (decide (a > b))

/-- auxil.c:950-1017 `validate_data` (`true` is the return value 1). -/
def validateData (P : Option (Csc K)) (q : Option (Buf K)) (A : Option (Csc K)) (l u : Option (Buf K)) (m n : ℤ) : Option Bool :=
  match P, A, q with
  | none, _, _ => some true
  | some _, none, _ => some true
  | some _, some _, none => some true
  | some P, some A, some _ =>
    if n ≤ 0 ∨ m < 0 then some true
    else if P.m ≠ n then some true
    else if P.m ≠ P.n then some true
    else (belowDiagonal P n).bind fun below =>
      if below then some true
      else if A.m ≠ m ∨ A.n ≠ n then some true
      else boundsCross l u m

/-- The beginning of `osqp_setup`, osqp_api.c:346-349: it returns an error code and has not touched the caller's solver
pointer, or it goes on to set up the solver. -/
inductive Front
  | returns (code : ℤ)
  | proceeds
deriving DecidableEq

/-- osqp_api.c:346-349; `settingsBad` is the result of `validate_settings`. -/
def setupFront (P : Option (Csc K)) (q : Option (Buf K)) (A : Option (Csc K)) (l u : Option (Buf K)) (m n : ℤ) (settingsBad : Bool) :
    Option Front :=
  (validateData P q A l u m n).bind fun bad =>
    if bad then some (.returns Err.dataValidation)
    else if settingsBad then some (.returns Err.settingsValidation)
    else some .proceeds

end Osqp.Csc
