import Verif.Vm.Api
import Verif.Vm.Qdldl
import Verif.Model.Polish

/-!
# `polish` on shared memory

`src/polish.c`, on the memory of `Vm/Solve.lean`. The arrays allocated for the call (the active flags, raw copies, right-hand side, solution) are
buffers of their own, which are gone when it returns; allocation succeeds. A view of a part of such an array is `part`. The copies of
`work->pol->active_flags`, `rhs` and `work->y` into raw arrays whose every element is overwritten before it is read are left out, as is the
vector `work->pol->active_flags` itself: it is written by every call before it is read.

Parameters (`PolLib`): creating the linear-system solver of the reduced system and solving with it.
-/

namespace Osqp.Vm
open Csc
variable {L L' K : Type*} [Field K] [LinearOrder K]

/-- `osqp_algebra_init_linsys_solver(&plsh, P, Ared, NULL, settings, NULL, NULL, 1)` as a function of `P`, `Ared` and `settings->sigma` (no object if it
fails), and `plsh->solve(plsh, b, 1)`. (The hook `warm_start` does nothing for a direct solver: qdldl_interface.c:31-36.) -/
structure PolLib (L' K : Type*) where
  init : Csc K → Csc K → K → Option (Option L' × ℤ)
  solve : L' → Buf K → Option (Buf K)

/-- `OSQPVectorf_view(b, lo, len)` (vector.c:215-225): the elements from `lo` on. -/
def part (b : Buf K) (lo len : ℤ) : Buf K := ⟨min len.toNat (b.size - lo.toNat), fun k => b.cell (lo.toNat + k)⟩

/-- What the array `b` holds after the view of `len` elements from `lo` on has become `p`. -/
def putPart (b : Buf K) (lo len : ℤ) (p : Buf K) : Buf K :=
  { b with cell := fun k => if lo.toNat ≤ k ∧ k < lo.toNat + len.toNat then p.cell (k - lo.toNat) else b.cell k }

/-- A routine that changes the vector `y`, called with a view. -/
def onPart (f : Buf K → Option (Buf K)) (b : Buf K) (lo len : ℤ) : Option (Buf K) := (f (part b lo len)).map (putPart b lo len)

/-- `c_malloc(len * sizeof(OSQPFloat))` and `OSQPVectorf_to_raw` (vector.c:293-302). -/
def rawOf (v : Ref) (len : ℤ) (σ : Store K) : Option (Buf K) :=
  forI 0 v.len (fun i b => (rd σ v i).bind fun x => b.wr i x) (Buf.fresh len)

/-- polish.c:54, 66-79: the loop that guesses the active constraints; flags and `n_active`. Simplification: all four values are read even where `||`
would skip one. -/
def guess (m : ℤ) (z y l u : Buf K) : Option (Buf ℤ × ℤ) :=
  forI 0 m (fun j (s : Buf ℤ × ℤ) =>
    (z.rd j).bind fun zj => (l.rd j).bind fun lj => (y.rd j).bind fun yj => (u.rd j).bind fun uj =>
    if zj - lj < -yj ∨ lj = uj then (s.1.wr j (-1)).bind fun b => some (b, s.2 + 1)
    else if uj - zj < yj then (s.1.wr j 1).bind fun b => some (b, s.2 + 1)
    else (s.1.wr j 0).bind fun b => some (b, s.2)) (Buf.fresh m, 0)

/-- polish.c:20-100 `form_Ared`: the flags, `n_active` and `Ared`. -/
def formAred (F : Fix L K) (M : Mach L K) : Option (Buf ℤ × ℤ × Csc K) :=
  (rawOf (M.W .z) F.m M.σ).bind fun z => (rawOf (M.W .y) F.m M.σ).bind fun y =>
  (rawOf (M.W .l) F.m M.σ).bind fun l => (rawOf (M.W .u) F.m M.σ).bind fun u =>
  (guess F.m z y l u).bind fun r =>
  (submatrixByRows F.A r.1).map fun R => (r.1, r.2, R)

/-- polish.c:109-174 `form_rhs_red`. -/
def formRhs (n len : ℤ) (F : Fix L K) (flags : Buf ℤ) (M : Mach L K) : Option (Buf K) :=
  (rawOf (M.W .q) n M.σ).bind fun q =>
  (rawOf (M.W .l) F.m M.σ).bind fun l => (rawOf (M.W .u) F.m M.σ).bind fun u =>
  (forI 0 n (fun j r => (q.rd j).bind fun v => r.wr j (-v)) (Buf.fresh len)).bind fun rhs =>
  (forI 0 F.m (fun j (s : Buf K × ℤ) => (flags.rd j).bind fun f =>
    if f = -1 then (l.rd j).bind fun v => (s.1.wr (n + s.2) v).bind fun r => some (r, s.2 + 1)
    else if f = 1 then (u.rd j).bind fun v => (s.1.wr (n + s.2) v).bind fun r => some (r, s.2 + 1)
    else some s) (rhs, 0)).map fun s => s.1

/-- polish.c:187-244 `iterative_refinement`: the new `z`. The vectors `rhs`, `z` are arrays, `rhs1`, `rhs2`, `z1`, `z2` views of them. -/
def refine (slv : Buf K → Option (Buf K)) (iters n : ℤ) (P Ared : Csc K) (z b : Buf K) : Option (Buf K) :=
  if iters > 0 then
    let mred := Ared.m
    (forI 0 iters (fun _ (s : Buf K × Buf K) =>
      let z := s.2
      (copyVec s.1 b (n + mred)).bind fun rhs =>
      (onPart (fun r => axpySymTriu P (part z 0 n) r (-1) 1) rhs 0 n).bind fun rhs =>
      (onPart (fun r => atxpy Ared (part z n mred) r (-1) 1) rhs 0 n).bind fun rhs =>
      (onPart (fun r => axpy Ared (part z 0 n) r (-1) 1) rhs n mred).bind fun rhs =>
      (slv rhs).bind fun rhs =>
      (plusIn z rhs (n + mred)).bind fun z => some (rhs, z)) (Buf.fresh (n + mred), z)).map fun s => s.2
  else some z

/-- polish.c:252-315 `get_ypol_from_yred`. -/
def ypolFrom (F : Fix L K) (flags : Buf ℤ) (nact : ℤ) (yred : Buf K) (M : Mach L K) : Option (Mach L K) :=
  if nact = 0 then M.vec fun W => setScalar (W .pY) 0
  else
    (forI 0 F.m (fun j (s : Buf K × ℤ) => (flags.rd j).bind fun f =>
      if f = 0 then (s.1.wr j 0).bind fun y => some (y, s.2)
      else (yred.rd s.2).bind fun v => (s.1.wr j v).bind fun y => some (y, s.2 + 1)) (Buf.fresh F.m, 0)).bind fun s =>
    M.vec fun W => fromRaw (W .pY) (some s.1)

/-- The vectors `x`, `z`, `y` of `OSQPPolish` in the place of those of the workspace. -/
def asPol : Name → Name
  | .x => .pX | .pX => .x | .z => .pZ | .pZ => .z | .y => .pY | .pY => .y | k => k

/-- A call of a function that gets the vectors `x`, `z`, `y` as arguments, with those of `OSQPPolish` (auxil.c:699-701). -/
def withPol {α : Type*} (f : Mach L K → Option (Mach L K × α)) (M : Mach L K) : Option (Mach L K × α) :=
  (f { M with W := fun k => M.W (asPol k) }).map fun r => ({ r.1 with W := M.W }, r.2)

/-- The computations of auxil.c:733-744 on the vectors `x`, `z`, `y`. -/
def report (F : Fix L K) (M : Mach L K) : Option (Mach L K × Report K) :=
  (if F.m = 0 then some (M, 0) else computePrimRes F M).bind fun r =>
  (computeDualRes F r.1).bind fun t =>
  (computeObj t.1).map fun w => (w.1, ⟨w.2.1, w.2.2.1, w.2.2.2, r.2, t.2⟩)

/-- `info->status_polish = v`. -/
def Mach.polished (M : Mach L K) (v : ℤ) : Mach L K := M.upd fun g => { g with info := { g.info with status_polish := v } }

/-- polish.c:447-456: the polished point is stored. -/
def storePol (F : Fix L K) (n : ℤ) (flags : Buf ℤ) (nact : ℤ) (sol : Buf K) (M : Mach L K) : Option (Mach L K) :=
  (M.vec fun W => fromRaw (W .pX) (some (part sol 0 n))).bind fun M =>
  (mulA F .pX .pZ M).bind fun M =>
  (ypolFrom F flags nact (part sol n nact) M).bind fun M =>
  (M.vec fun W => plus (W .pY) (W .pY) (W .pZ)).bind fun M =>
  (M.vec fun W => boundVec (W .pZ) (W .pY) (W .l) (W .u)).bind fun M =>
  M.vec fun W => minus (W .pY) (W .pY) (W .pZ)

/-- polish.c:459-500: `update_info(solver, 0, 1)` (auxil.c:676-762) and the acceptance test. -/
def judgePol (F : Fix L K) (M : Mach L K) : Option (Mach L K × ℤ) :=
  (withPol (report F) M).bind fun r =>
  let M := if F.cfg.profiling then
      let t := r.1.toc F
      (t.2.upd fun g => { g with info := { g.info with polish_time := t.1 } })
    else r.1
  let M := M.upd fun g => { g with info := { g.info with rel_kkt_error := relKkt r.2 } }
  if polishAccept r.2.pres r.2.dres M.g.info.prim_res M.g.info.dual_res then
    let M := M.upd fun g => { g with info := { g.info with
      obj_val := r.2.obj, dual_obj_val := r.2.dobj, duality_gap := r.2.gap, prim_res := r.2.pres, dual_res := r.2.dres, status_polish := Pol.success } }
    (M.vec fun W => copy (W .x) (W .pX)).bind fun M =>
    (M.vec fun W => copy (W .z) (W .pZ)).bind fun M =>
    (M.vec fun W => copy (W .y) (W .pY)).bind fun M => some (M, 0)
  else some (M.polished Pol.failed, 0)

/-- polish.c:317-515 `polish`; `n` is `work->data->n`. -/
def polishMem (G : PolLib L' K) (n : ℤ) (F : Fix L K) (M : Mach L K) : Option (Mach L K × ℤ) :=
  (formAred F M).bind fun a =>
  let flags := a.1
  let nact := a.2.1
  let Ared := a.2.2
  if nact = 0 then some (M.polished Pol.noActiveSet, 0)
  else
    (G.init F.P Ared M.g.st.sigma).bind fun r =>
    if r.2 ≠ 0 then some (M.polished Pol.linsysError, r.2)
    else
      r.1.bind fun p =>
      (formRhs n (n + nact) F flags M).bind fun rhs =>
      (copyVec (Buf.fresh (n + nact)) rhs (n + nact)).bind fun sol =>
      (G.solve p sol).bind fun sol =>
      (refine (G.solve p) M.g.st.polish_refine_iter n F.P Ared sol rhs).bind fun sol =>
      (storePol F n flags nact sol M).bind fun M => judgePol F M

/-- The library with this `polish`. -/
def Lib.withPolish (E : Lib L K) (G : PolLib L' K) : Lib L K := { E with polish := fun o => polishMem G o.n (E.fix o) o.M }

/-- The fields of `qdldl_solver` read by a solve when polishing. -/
structure QPol (K : Type*) where
  qsolve : Buf K → Option (Buf K)
  n : ℤ
  m : ℤ
  perm : Buf ℤ

/-- qdldl_interface.c:217-378 `init_linsys_solver_qdldl` with `polishing = 1` and no vector of step sizes: no index maps, `sigma` in both corners.
`amd` is `amd_order` as a function of the stored matrix. -/
def qPolInit (Q : Qdldl K) (amd : Csc K → Buf ℤ) (P A : Csc K) (sigma : K) : Option (Option (QPol K) × ℤ) :=
  let n := P.n
  let m := A.m
  (formKKT P A 0 sigma none sigma none none none).bind fun H =>
  let perm := amd H.KKT
  (permuteKKT H perm 0 0 0).bind fun G =>
  let f := ldlFactor Q G.KKT n
  if f.1 < 0 then some (none, Err.nonCvx)
  else some (some ⟨f.2, n, m, perm⟩, 0)

/-- qdldl_interface.c:418-465 `solve_linsys_qdldl` with `polishing = 1`. -/
def qPolSolve (q : QPol K) (b : Buf K) : Option (Buf K) :=
  solveLinsys q.qsolve q.n q.m true b q.perm (Buf.fresh (q.n + q.m)) (Buf.fresh (q.n + q.m)) none 0

def qdldlPol (Q : Qdldl K) (amd : Csc K → Buf ℤ) : PolLib (QPol K) K := ⟨qPolInit Q amd, qPolSolve⟩

end Osqp.Vm
