import Verif.Csc.Model
import Verif.Csc.Bucket

/-!
# Model of `csc_utils.c` and `kkt.c` on raw memory

Simplifications: allocations succeed (allocation failure is the subject of `Verif/Mem`); input matrices have non-NULL
`i` and `x`; distinct arrays do not overlap; the freeing of workspace is not represented.  A `NULL` index map or
permutation is `none`.
-/

namespace Osqp.Csc
variable {K : Type*}

/-- Store into an optional array: `if (b != NULL) b[i] = v`. -/
def wrOpt (b : Option (Buf ℤ)) (i v : ℤ) : Option (Option (Buf ℤ)) :=
  match b with
  | none => some none
  | some b => (b.wr i v).map some

/-- `b[i]++` -/
def incr (b : Buf ℤ) (i : ℤ) : Option (Buf ℤ) := (b.rd i).bind fun a => b.wr i (a + 1)

/-- The loop over the entries of a matrix, where the outer loop first computes `t = pre(j)`:
`for (j..) { t = pre(j); for (i = p[j]; i < p[j+1]; i++) s = body(j, t, i, s); }` -/
def forColsPre {σ τ : Type*} (p : Buf ℤ) (n : ℤ) (pre : ℤ → Option τ) (body : ℤ → τ → ℤ → σ → Option σ) (s : σ) : Option σ :=
  forI 0 n (fun j s => (pre j).bind fun t => (p.rd j).bind fun a => (p.rd (j + 1)).bind fun b => forI a b (body j t) s) s

/-- csc_utils.c:63-66 `int_vec_set_scalar`. -/
def intSet (v : Buf ℤ) (val : ℤ) (n : ℤ) : Option (Buf ℤ) := forI 0 n (fun i v => v.wr i val) v

/-- csc_utils.c:68-81 `csc_cumsum`; the result is (`p`, `c`, return value). -/
def cumsum (p c : Buf ℤ) (n : ℤ) : Option (Buf ℤ × Buf ℤ × ℤ) :=
  (forI 0 n (fun i (s : Buf ℤ × Buf ℤ × ℤ) =>
    (s.1.wr i s.2.2).bind fun p => (s.2.1.rd i).bind fun ci => (p.rd i).bind fun pi => (s.2.1.wr i pi).bind fun c =>
      some (p, c, s.2.2 + ci)) (p, c, 0)).bind fun s =>
  (s.1.wr n s.2.2).bind fun p => some (p, s.2.1, s.2.2)

/-- csc_utils.c:103-123 `csc_spalloc` with `values = 1`, `triplet = 0`. -/
def spalloc (m n nzmax : ℤ) : Csc K := ⟨m, n, Buf.fresh (n + 1), Buf.fresh (max nzmax 0), Buf.fresh (max nzmax 0), max nzmax 0, -1⟩

/-- csc_utils.c:103-123 `csc_spalloc` with `values = 1`, `triplet = 1`. -/
def spallocTrip (m n nzmax : ℤ) : Csc K := ⟨m, n, Buf.fresh (max nzmax 0), Buf.fresh (max nzmax 0), Buf.fresh (max nzmax 0), max nzmax 0, 0⟩

/-- csc_utils.c:134-203 `csc_submatrix_byrows`. -/
def submatrixByRows (A : Csc K) (rows : Buf ℤ) : Option (Csc K) :=
  (forI 0 A.m (fun j (s : Buf ℤ × ℤ) => (rows.rd j).bind fun f =>
    if f ≠ 0 then (s.1.wr j s.2).bind fun b => some (b, s.2 + 1) else some s) (Buf.fresh A.m, 0)).bind fun rr =>
  (A.p.rd A.n).bind fun nnz =>
  (forI 0 nnz (fun j (c : ℤ) => (A.i.rd j).bind fun r => (rows.rd r).bind fun f => some (if f ≠ 0 then c + 1 else c)) 0).bind fun nzR =>
  let R : Csc K := spalloc rr.2 A.n nzR
  if rr.2 = 0 then (intSet R.p 0 (A.n + 1)).bind fun p => some { R with p := p }
  else
    (forI 0 A.n (fun j (s : Slots K × ℤ) =>
      (s.1.p.wr j s.2).bind fun p => (A.p.rd j).bind fun a => (A.p.rd (j + 1)).bind fun b =>
      forI a b (fun t (s : Slots K × ℤ) => (A.i.rd t).bind fun r => (rows.rd r).bind fun f =>
        if f ≠ 0 then (rr.1.rd r).bind fun r' => (s.1.i.wr s.2 r').bind fun i => (A.x.rd t).bind fun v => (s.1.x.wr s.2 v).bind fun x =>
          some (⟨s.1.p, i, x⟩, s.2 + 1)
        else some s) (⟨p, s.1.i, s.1.x⟩, s.2)) (⟨R.p, R.i, R.x⟩, 0)).bind fun s =>
    (s.1.p.wr A.n s.2).bind fun p => some { R with p := p, i := s.1.i, x := s.1.x }

/-- csc_utils.c:205-245 `triplet_to_csc` (`T->p` holds column indices); returns the matrix and the index map. -/
def tripletToCsc (T : Csc K) (map : Option (Buf ℤ)) : Option (Csc K × Option (Buf ℤ)) :=
  let C : Csc K := spalloc T.m T.n T.nz
  (forI 0 T.nz (fun k w => (T.p.rd k).bind fun j => incr w j) (Buf.zeroed T.n 0)).bind fun w =>
  (cumsum C.p w T.n).bind fun r =>
  (forI 0 T.nz (fun k (s : Slots K × Option (Buf ℤ)) => (T.p.rd k).bind fun j => (T.i.rd k).bind fun ti => (T.x.rd k).bind fun tx =>
    (put s.1 j ti tx).bind fun d => (wrOpt s.2 k d.2).bind fun m => some (d.1, m)) (⟨r.2.1, C.i, C.x⟩, map)).bind fun s =>
  some ({ C with p := r.1, i := s.1.i, x := s.1.x }, s.2)

/-- csc_utils.c:247-286 `triplet_to_csr`; the column-pointer array is allocated with `n + 1` cells, as in the code. -/
def tripletToCsr (T : Csc K) (map : Option (Buf ℤ)) : Option (Csc K × Option (Buf ℤ)) :=
  let C : Csc K := spalloc T.m T.n T.nz
  (forI 0 T.nz (fun k w => (T.i.rd k).bind fun j => incr w j) (Buf.zeroed T.m 0)).bind fun w =>
  (cumsum C.p w T.m).bind fun r =>
  (forI 0 T.nz (fun k (s : Slots K × Option (Buf ℤ)) => (T.i.rd k).bind fun j => (T.p.rd k).bind fun ti => (T.x.rd k).bind fun tx =>
    (put s.1 j ti tx).bind fun d => (wrOpt s.2 k d.2).bind fun m => some (d.1, m)) (⟨r.2.1, C.i, C.x⟩, map)).bind fun s =>
  some ({ C with p := r.1, i := s.1.i, x := s.1.x }, s.2)

/-- csc_utils.c:312-324 `csc_pinv`. -/
def pinv (p : Buf ℤ) (n : ℤ) : Option (Buf ℤ) := forI 0 n (fun k b => (p.rd k).bind fun t => b.wr t k) (Buf.fresh n)

/-- `pinv ? pinv[j] : j` -/
def pinvAt (pv : Option (Buf ℤ)) (j : ℤ) : Option ℤ := match pv with | none => some j | some b => b.rd j

/-- csc_utils.c:326-388 `csc_symperm` with `values = 1`. -/
def symperm (A : Csc K) (pv : Option (Buf ℤ)) (map : Option (Buf ℤ)) : Option (Csc K × Option (Buf ℤ)) :=
  (A.p.rd A.n).bind fun nnz =>
  let C : Csc K := spalloc A.n A.n nnz
  (forColsPre A.p A.n (pinvAt pv) (fun j j2 p w => (A.i.rd p).bind fun i =>
    if i > j then some w else (pinvAt pv i).bind fun i2 => incr w (cMax i2 j2)) (Buf.zeroed A.n 0)).bind fun w =>
  (cumsum C.p w A.n).bind fun r =>
  (forColsPre A.p A.n (pinvAt pv) (fun j j2 p (s : Slots K × Option (Buf ℤ)) => (A.i.rd p).bind fun i =>
    if i > j then some s else (pinvAt pv i).bind fun i2 => (A.x.rd p).bind fun v =>
      (put s.1 (cMax i2 j2) (cMin i2 j2) v).bind fun d => (wrOpt s.2 p d.2).bind fun m => some (d.1, m)) (⟨r.2.1, C.i, C.x⟩, map)).bind fun s =>
  some ({ C with p := r.1, i := s.1.i, x := s.1.x }, s.2)

/-- csc_utils.c:390-400 `csc_copy`. -/
def copy (A : Csc K) : Option (Csc K) :=
  (A.p.rd A.n).bind fun nnz =>
  let B : Csc K := spalloc A.m A.n nnz
  (forI 0 (A.n + 1) (fun i b => (A.p.rd i).bind fun v => b.wr i v) B.p).bind fun p =>
  (forI 0 nnz (fun k b => (A.i.rd k).bind fun v => b.wr k v) B.i).bind fun i =>
  (forI 0 nnz (fun k b => (A.x.rd k).bind fun v => b.wr k v) B.x).bind fun x => some { B with p := p, i := i, x := x }

/-- Arrays of a triplet matrix being filled, and the number of entries so far. -/
structure Trip (K : Type*) where
  i : Buf ℤ
  p : Buf ℤ
  x : Buf K
  z : ℤ

/-- `T->i[z] = r; T->p[z] = c; T->x[z] = v; z++` (csc_utils.c:552-556 and others). -/
def Trip.add (t : Trip K) (r c : ℤ) (v : K) : Option (Trip K) :=
  (t.i.wr t.z r).bind fun i => (t.p.wr t.z c).bind fun p => (t.x.wr t.z v).bind fun x => some ⟨i, p, x, t.z + 1⟩

/-- csc_utils.c:532-578 `triu_to_csc`; the inner `none` is the returned NULL for a matrix that is not square. -/
def triuToCsc (M : Csc K) : Option (Option (Csc K)) :=
  if M.m ≠ M.n then some none else
  (M.p.rd M.n).bind fun nnz =>
  let T : Csc K := spallocTrip M.n M.n (2 * nnz)
  (forCols M.p M.n (fun j ptr (t : Trip K) => (M.i.rd ptr).bind fun i => (M.x.rd ptr).bind fun v =>
    (t.add i j v).bind fun t => if i < j then t.add j i v else some t) ⟨T.i, T.p, T.x, 0⟩).bind fun t =>
  (tripletToCsc { T with i := t.i, p := t.p, x := t.x, nz := t.z } none).bind fun r => some (some { r.1 with nzmax := t.z })

/-- csc_utils.c:580-629 `vstack`. -/
def vstack (A B : Csc K) : Option (Option (Csc K)) :=
  if A.n ≠ B.n then some none else
  let T : Csc K := spallocTrip (A.m + B.m) A.n (A.nzmax + B.nzmax)
  (forCols A.p A.n (fun j ptr (t : Trip K) => (A.i.rd ptr).bind fun i => (A.x.rd ptr).bind fun v => t.add i j v) ⟨T.i, T.p, T.x, 0⟩).bind fun t =>
  (forCols B.p A.n (fun j ptr (t : Trip K) => (B.i.rd ptr).bind fun i => (B.x.rd ptr).bind fun v => t.add (i + A.m) j v) t).bind fun t =>
  (tripletToCsc { T with i := t.i, p := t.p, x := t.x, nz := t.z } none).bind fun r => some (some { r.1 with nzmax := t.z })

end Osqp.Csc
