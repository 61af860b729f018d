import Verif.Csc.Utils

/-!
# Model of `kkt.c` and of `permute_KKT` on raw memory

The arrays of the matrix under construction are a `Slots` (`K->p`, `K->i`, `K->x`).  Simplifications as in
`Csc/Utils.lean`; in addition the ordering computed by AMD is a parameter (any array), and the parts of
`qdldl_interface.c` that factorise are not modelled here.
-/

namespace Osqp.Csc
variable {K : Type*}

/-- kkt.c:68, 161-162 the condition `(M->p[j] == M->p[j+1]) || (M->i[M->p[j+1]-1] != j)`. -/
def diagMissing (M : Csc K) (j : ℤ) : Option Bool :=
  (M.p.rd j).bind fun a => (M.p.rd (j + 1)).bind fun b =>
    if a = b then some true else (M.i.rd (b - 1)).bind fun r => some (decide (r ≠ j))

/-- kkt.c:47-56 `_kkt_colcount_diag`. -/
def colcountDiag (p : Buf ℤ) (initcol blockcols : ℤ) : Option (Buf ℤ) := forI initcol (initcol + blockcols) (fun j p => incr p j) p

/-- kkt.c:61-73 `_kkt_colcount_missing_diag`. -/
def colcountMissing (p : Buf ℤ) (M : Csc K) (initcol : ℤ) : Option (Buf ℤ) :=
  forI 0 M.n (fun j p => (diagMissing M j).bind fun b => if b then incr p (j + initcol) else some p) p

/-- kkt.c:76-96 `_kkt_colcount_block`. -/
def colcountBlock (p : Buf ℤ) (M : Csc K) (initcol : ℤ) (tr : Bool) : Option (Buf ℤ) :=
  if tr then (M.p.rd M.n).bind fun nnz => forI 0 nnz (fun j p => (M.i.rd j).bind fun r => incr p (r + initcol)) p
  else forI 0 M.n (fun j p => (M.p.rd (j + 1)).bind fun b => (M.p.rd j).bind fun a =>
    (p.rd (j + initcol)).bind fun c => p.wr (j + initcol) (c + (b - a))) p

/-- kkt.c:101-127 `_kkt_fill_block`; the second component is the optional index map `MtoKKT`. -/
def fillBlock (s : Slots K × Option (Buf ℤ)) (M : Csc K) (initrow initcol : ℤ) (tr : Bool) : Option (Slots K × Option (Buf ℤ)) :=
  forCols M.p M.n (fun ii jj (s : Slots K × Option (Buf ℤ)) => (M.i.rd jj).bind fun r => (M.x.rd jj).bind fun v =>
    let col := if tr then r + initcol else ii + initcol
    let row := if tr then ii + initrow else r + initrow
    (put s.1 col row v).bind fun d => (wrOpt s.2 jj d.2).bind fun m => some (d.1, m)) s

/-- kkt.c:133-148 `_kkt_fill_diag_zeros`. -/
def fillDiagZeros [Zero K] (s : Slots K × Option (Buf ℤ)) (offset blockdim : ℤ) : Option (Slots K × Option (Buf ℤ)) :=
  forI 0 blockdim (fun j (s : Slots K × Option (Buf ℤ)) =>
    (put s.1 (j + offset) (j + offset) 0).bind fun d => (wrOpt s.2 j d.2).bind fun m => some (d.1, m)) s

/-- kkt.c:153-171 `_kkt_fill_missing_diag_zeros`: the slot is taken from column `j + offset`, but the pointer of column `j`
is advanced, as in the code. -/
def fillMissing [Zero K] (s : Slots K) (M : Csc K) (offset : ℤ) : Option (Slots K) :=
  forI 0 M.n (fun j (s : Slots K) => (diagMissing M j).bind fun b =>
    if b then (s.p.rd (j + offset)).bind fun d => (s.i.wr d (j + offset)).bind fun i => (s.x.wr d 0).bind fun x =>
      (incr s.p j).bind fun p => some ⟨p, i, x⟩
    else some s) s

/-- kkt.c:173-184 `_kkt_colcount_to_colptr`. -/
def colcountToColptr (p : Buf ℤ) (n : ℤ) : Option (Buf ℤ) :=
  (forI 0 (n + 1) (fun j (s : Buf ℤ × ℤ) => (s.1.rd j).bind fun c => (s.1.wr j s.2).bind fun p => some (p, s.2 + c)) (p, 0)).bind fun s => some s.1

/-- kkt.c:186-195 `_kkt_backshift_colptrs`; the round `t` of the loop is `j = n - t`. -/
def backshift (p : Buf ℤ) (n : ℤ) : Option (Buf ℤ) :=
  (forI 0 n (fun t p => (p.rd (n - t - 1)).bind fun v => p.wr (n - t) v) p).bind fun p => p.wr 0 0

/-- kkt.c:197-211 `_count_diagonal_entries`. -/
def countDiagonal (P : Csc K) : Option ℤ :=
  forI 0 P.n (fun j (c : ℤ) => (P.p.rd (j + 1)).bind fun b => (P.p.rd j).bind fun a =>
    if b ≠ a then (P.i.rd (b - 1)).bind fun r => some (if r = j then c + 1 else c) else some c) 0

/-- The arrays of the assembled matrix and the three index maps. -/
structure Assembled (K : Type*) where
  s : Slots K
  PtoKKT : Option (Buf ℤ)
  AtoKKT : Option (Buf ℤ)
  rhotoKKT : Option (Buf ℤ)

/-- kkt.c:214-252 `_kkt_assemble_csr`. -/
def assembleCsr [Zero K] (k : Assembled K) (P A : Csc K) : Option (Assembled K) :=
  let m := A.m
  let n := P.n
  (intSet k.s.p 0 (m + n + 1)).bind fun p =>
  (colcountMissing p P 0).bind fun p =>
  (colcountBlock p P 0 true).bind fun p =>
  (colcountBlock p A 0 false).bind fun p =>
  (colcountDiag p n m).bind fun p =>
  (colcountToColptr p (m + n)).bind fun p =>
  (fillMissing ⟨p, k.s.i, k.s.x⟩ P 0).bind fun s =>
  (fillBlock (s, k.PtoKKT) P 0 0 true).bind fun sP =>
  (fillBlock (sP.1, k.AtoKKT) A n 0 false).bind fun sA =>
  (fillDiagZeros (sA.1, k.rhotoKKT) n m).bind fun sR =>
  (backshift sR.1.p (m + n)).bind fun p => some ⟨⟨p, sR.1.i, sR.1.x⟩, sP.2, sA.2, sR.2⟩

/-- kkt.c:254-290 `_kkt_assemble_csc`. -/
def assembleCsc [Zero K] (k : Assembled K) (P A : Csc K) : Option (Assembled K) :=
  let m := A.m
  let n := P.n
  (intSet k.s.p 0 (m + n + 1)).bind fun p =>
  (colcountBlock p P 0 false).bind fun p =>
  (colcountMissing p P 0).bind fun p =>
  (colcountBlock p A n true).bind fun p =>
  (colcountDiag p n m).bind fun p =>
  (colcountToColptr p (m + n)).bind fun p =>
  (fillBlock (⟨p, k.s.i, k.s.x⟩, k.PtoKKT) P 0 0 false).bind fun sP =>
  (fillMissing sP.1 P 0).bind fun s =>
  (fillBlock (s, k.AtoKKT) A 0 n true).bind fun sA =>
  (fillDiagZeros (sA.1, k.rhotoKKT) n m).bind fun sR =>
  (backshift sR.1.p (m + n)).bind fun p => some ⟨⟨p, sR.1.i, sR.1.x⟩, sP.2, sA.2, sR.2⟩

/-- kkt.c:8-16 `_kkt_shifts_param1`. -/
def shiftsParam1 [Add K] (s : Slots K) (param1 : K) (n : ℤ) (format : ℤ) : Option (Buf K) :=
  let offset : ℤ := if format = 0 then 1 else 0
  forI 0 n (fun i x => (s.p.rd (i + offset)).bind fun d => (x.rd (d - offset)).bind fun v => x.wr (d - offset) (v + param1)) s.x

/-- kkt.c:22-37 `_kkt_shifts_param2`. -/
def shiftsParam2 [Sub K] (s : Slots K) (param2 : Option (Buf K)) (param2_sc : K) (startcol blockwidth format : ℤ) : Option (Buf K) :=
  let offset : ℤ := if format = 0 then 1 else 0
  match param2 with
  | some q => forI 0 blockwidth (fun i x => (s.p.rd (i + startcol + offset)).bind fun d => (x.rd (d - offset)).bind fun v =>
      (q.rd i).bind fun w => x.wr (d - offset) (v - w)) s.x
  | none => forI 0 blockwidth (fun i x => (s.p.rd (i + startcol + offset)).bind fun d => (x.rd (d - offset)).bind fun v =>
      x.wr (d - offset) (v - param2_sc)) s.x

/-- The result of `form_KKT`: the matrix and the three index maps. -/
structure Formed (K : Type*) where
  KKT : Csc K
  PtoKKT : Option (Buf ℤ)
  AtoKKT : Option (Buf ℤ)
  rhotoKKT : Option (Buf ℤ)

/-- kkt.c:293-342 `form_KKT` (the allocation succeeds). -/
def formKKT [Zero K] [Add K] [Sub K] (P A : Csc K) (format : ℤ) (param1 : K) (param2 : Option (Buf K)) (param2_sc : K)
    (PtoKKT AtoKKT rhotoKKT : Option (Buf ℤ)) : Option (Formed K) :=
  let m := A.m
  let n := P.n
  (countDiagonal P).bind fun ndiagP =>
  (P.p.rd n).bind fun nnzP => (A.p.rd n).bind fun nnzA =>
  let C : Csc K := spalloc (m + n) (m + n) (nnzP + n - ndiagP + nnzA + m)
  let k0 : Assembled K := ⟨⟨C.p, C.i, C.x⟩, PtoKKT, AtoKKT, rhotoKKT⟩
  (if format = 0 then assembleCsc k0 P A else assembleCsr k0 P A).bind fun k =>
  (shiftsParam1 k.s param1 n format).bind fun x =>
  (shiftsParam2 ⟨k.s.p, k.s.i, x⟩ param2 param2_sc n m format).bind fun x =>
  some ⟨{ C with p := k.s.p, i := k.s.i, x := x }, k.PtoKKT, k.AtoKKT, k.rhotoKKT⟩

/-- kkt.c:366, :396 `doall ? j : Px_new_idx[j]`. -/
def idxRd (idx : Option (Buf ℤ)) (j : ℤ) : Option ℤ := match idx with | none => some j | some b => b.rd j

/-- kkt.c:349-378 `update_KKT_P`; returns the new `KKT->x`. -/
def updateKktP [Add K] (KKT P : Csc K) (idx : Option (Buf ℤ)) (cnt : ℤ) (PtoKKT : Buf ℤ) (param1 : K) (format : ℤ) : Option (Csc K) :=
  if cnt ≤ 0 then some KKT else
  let offset : ℤ := if format = 0 then 1 else 0
  (forI 0 cnt (fun j x =>
    (idxRd idx j).bind fun Pidx =>
    (PtoKKT.rd Pidx).bind fun Kidx => (P.x.rd Pidx).bind fun v => (x.wr Kidx v).bind fun x =>
    (P.i.rd Pidx).bind fun row => (P.p.rd row).bind fun a => (P.p.rd (row + 1)).bind fun b =>
    if a < b then (P.p.rd (row + offset)).bind fun d =>
      if d - offset = Pidx then (x.rd Kidx).bind fun v => x.wr Kidx (v + param1) else some x
    else some x) KKT.x).bind fun x => some { KKT with x := x }

/-- kkt.c:380-401 `update_KKT_A`. -/
def updateKktA (KKT A : Csc K) (idx : Option (Buf ℤ)) (cnt : ℤ) (AtoKKT : Buf ℤ) : Option (Csc K) :=
  if cnt ≤ 0 then some KKT else
  (forI 0 cnt (fun j x =>
    (idxRd idx j).bind fun Aidx =>
    (AtoKKT.rd Aidx).bind fun Kidx => (A.x.rd Aidx).bind fun v => x.wr Kidx v) KKT.x).bind fun x => some { KKT with x := x }

/-- kkt.c:404-422 `update_KKT_param2`. -/
def updateKktParam2 [Neg K] (KKT : Csc K) (param2 : Option (Buf K)) (param2_sc : K) (param2toKKT : Buf ℤ) (m : ℤ) : Option (Csc K) :=
  match param2 with
  | some q => (forI 0 m (fun i x => (param2toKKT.rd i).bind fun d => (q.rd i).bind fun v => x.wr d (-v)) KKT.x).bind fun x => some { KKT with x := x }
  | none => (forI 0 m (fun i x => (param2toKKT.rd i).bind fun d => x.wr d (-param2_sc)) KKT.x).bind fun x => some { KKT with x := x }

/-- qdldl_interface.c:180-184 and the two loops after it: `map[i] = KtoPKPt[map[i]]`. -/
def remap (map : Option (Buf ℤ)) (cnt : ℤ) (KtoPKPt : Buf ℤ) : Option (Option (Buf ℤ)) :=
  match map with
  | none => some none
  | some b => (forI 0 cnt (fun i b => (b.rd i).bind fun k => (KtoPKPt.rd k).bind fun d => b.wr i d) b).map some

/-- qdldl_interface.c:138-213 `permute_KKT` when AMD succeeds and leaves the ordering `perm` in `p->P`. -/
def permuteKKT (F : Formed K) (perm : Buf ℤ) (Pnz Anz m : ℤ) : Option (Formed K) :=
  (pinv perm F.KKT.n).bind fun pv =>
  match F.PtoKKT, F.AtoKKT, F.rhotoKKT with
  | none, none, none => (symperm F.KKT (some pv) none).bind fun r => some ⟨r.1, none, none, none⟩
  | PtoKKT, AtoKKT, rhotoKKT =>
    (F.KKT.p.rd F.KKT.n).bind fun nnz =>
    (symperm F.KKT (some pv) (some (Buf.fresh nnz))).bind fun r =>
    r.2.bind fun KtoPKPt =>
    (remap PtoKKT Pnz KtoPKPt).bind fun p => (remap AtoKKT Anz KtoPKPt).bind fun a => (remap rhotoKKT m KtoPKPt).bind fun q =>
      some ⟨r.1, p, a, q⟩

/-- qdldl_interface.c:327-352 (branch for ADMM of `init_linsys_solver_qdldl`): allocate the three index maps, form the
matrix and permute it.  `param2`, `param2_sc` are `s->rho_inv_vec`, `s->rho_inv`; `perm` is AMD's ordering.  Allocations
succeed. -/
def buildKKT [Zero K] [Add K] [Sub K] (P A : Csc K) (sigma : K) (param2 : Option (Buf K)) (param2_sc : K) (perm : Buf ℤ) : Option (Formed K) :=
  (P.p.rd P.n).bind fun Pnz => (A.p.rd P.n).bind fun Anz =>
  (formKKT P A 0 sigma param2 param2_sc (some (Buf.fresh Pnz)) (some (Buf.fresh Anz)) (some (Buf.fresh A.m))).bind fun F =>
  permuteKKT F perm Pnz Anz A.m

/-- One in-place update of the stored matrix: qdldl_interface.c:479 (`P`), :482 (`A`), :517 (`rho`). -/
inductive Upd (K : Type*)
  | P (M : Csc K) (idx : Option (Buf ℤ)) (cnt : ℤ)
  | A (M : Csc K) (idx : Option (Buf ℤ)) (cnt : ℤ)
  | rho (param2 : Option (Buf K)) (param2_sc : K) (m : ℤ)

/-- Run an update; using a `NULL` index map is undefined. -/
def Upd.run [Add K] [Neg K] (sigma : K) (G : Formed K) : Upd K → Option (Formed K)
  | .P Q idx cnt => G.PtoKKT.bind fun map => (updateKktP G.KKT Q idx cnt map sigma 0).map fun M => { G with KKT := M }
  | .A B idx cnt => G.AtoKKT.bind fun map => (updateKktA G.KKT B idx cnt map).map fun M => { G with KKT := M }
  | .rho q sc m => G.rhotoKKT.bind fun map => (updateKktParam2 G.KKT q sc map m).map fun M => { G with KKT := M }

/-- Run a list of updates in order. -/
def runAll [Add K] [Neg K] (sigma : K) : Formed K → List (Upd K) → Option (Formed K)
  | G, [] => some G
  | G, u :: us => (u.run sigma G).bind fun G => runAll sigma G us

end Osqp.Csc
