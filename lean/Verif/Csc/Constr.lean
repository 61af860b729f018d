import Verif.Csc.Lemmas
import Verif.Csc.Model

/-!
# Model of the public matrix constructors (osqp_api.c:37-177)

Allocations succeed (the functions check only the first one).  `NULL` arrays of the zero matrix are arrays of size 0.
-/

namespace Osqp.Csc

variable {K : Type*}

/-- osqp_api.c:158-177 `OSQPCscMatrix_set_data`, and :37-50 `OSQPCscMatrix_new` (the struct is overwritten completely). -/
def setData (m n nzmax : ℤ) (x : Buf K) (i p : Buf ℤ) : Csc K := ⟨m, n, p, i, x, nzmax, -1⟩

/-- osqp_api.c:56-101 `OSQPCscMatrix_diag_scalar`. -/
def diagScalar (m n : ℤ) (scalar : K) : Option (Csc K) :=
  let minElem := if m < n then m else n
  let p : Buf ℤ := Buf.zeroed (n + 1) 0
  (if m < n then forI 0 n (fun i p => if i < m then p.wr i i else p.wr i m) p
    else forI 0 n (fun i p => p.wr i i) p).bind fun p =>
  (forI 0 minElem (fun i (s : Buf ℤ × Buf K) => (s.1.wr i i).bind fun a => (s.2.wr i scalar).bind fun b => some (a, b))
    (Buf.fresh minElem, Buf.fresh minElem)).bind fun s =>
  (p.wr n minElem).bind fun p =>
  some ⟨m, n, p, s.1, s.2, minElem, -1⟩

/-- osqp_api.c:52-54 `OSQPCscMatrix_identity`. -/
def identity [One K] (m : ℤ) : Option (Csc K) := diagScalar m m 1

/-- osqp_api.c:103-120 `OSQPCscMatrix_diag_vec`. -/
def diagVec [One K] (m n : ℤ) (vec : Buf K) : Option (Csc K) :=
  let minElem := if m < n then m else n
  (diagScalar m n 1).bind fun M =>
  (forI 0 minElem (fun i x => (vec.rd i).bind fun v => x.wr i v) M.x).bind fun x => some { M with x := x }

/-- osqp_api.c:122-143 `OSQPCscMatrix_zeros`. -/
def zeros (m n : ℤ) : Csc K := ⟨m, n, Buf.zeroed (n + 1) 0, Buf.fresh 0, Buf.fresh 0, 0, -1⟩

end Osqp.Csc
