import Verif.Model.Auxil

/-!
# `src/polish.c`: solution polishing

Memory allocation inside polishing is assumed to succeed (simplification).  Reduced vectors (indexed by
active constraints) are functions `ℕ → K` of which only the first `n_active` entries are used.
-/

namespace Osqp
variable {K : Type*} [Field K] [LinearOrder K] {d : Dims}

/-- polish.c:66-79 (in `form_Ared`): guess of the active set: -1 lower or equality, 1 upper, 0 inactive. -/
def activeFlags (l u z y : Vec K d.m) : Fin d.m → ℤ := fun j =>
  if z j - l j < -(y j) ∨ l j = u j then -1
  else if u j - z j < y j then 1
  else 0

/-- polish.c:66-79: the counter `n_active`. -/
def nActive (flags : Fin d.m → ℤ) : ℕ :=
  (List.finRange d.m).foldl (fun c j => if flags j ≠ 0 then c + 1 else c) 0

/-- Row number of constraint `j` in `Ared`: csc_utils.c:134-203 `csc_submatrix_byrows` (`rridx`), the number
of selected rows before `j`. -/
def redIdx (flags : Fin d.m → ℤ) (j : Fin d.m) : ℕ :=
  (List.finRange d.m).foldl (fun c i => if i < j ∧ flags i ≠ 0 then c + 1 else c) 0

/-- `Ared * x` with `Ared = OSQPMatrix_submatrix_byrows(A, active_flags)` (polish.c:88). -/
def aredMul (flags : Fin d.m → ℤ) (v : Vec K d.A.nnz) (x : Vec K d.n) : ℕ → K := fun r =>
  ∑ k, if flags (d.A.row k) ≠ 0 ∧ redIdx flags (d.A.row k) = r then v k * x (d.A.col k) else 0

/-- `Aredᵀ * yred`. -/
def aredMulT (flags : Fin d.m → ℤ) (v : Vec K d.A.nnz) (y : ℕ → K) : Vec K d.n := fun j =>
  ∑ k, if flags (d.A.row k) ≠ 0 ∧ d.A.col k = j then v k * y (redIdx flags (d.A.row k)) else 0

/-- polish.c:109-174 `form_rhs_red`: `[-q; l_low/u_upp]` with a running counter. -/
def formRhsRed (D : Data d K) (flags : Fin d.m → ℤ) : Vec K d.n × (ℕ → K) :=
  (fun j => -(D.q j),
   ((List.finRange d.m).foldl (fun (st : ℕ × (ℕ → K)) j =>
      if flags j = -1 then (st.1 + 1, Function.update st.2 st.1 (D.l j))
      else if flags j = 1 then (st.1 + 1, Function.update st.2 st.1 (D.u j))
      else st) (0, fun _ => 0)).2)

/-- Residual `b - K*z` of the reduced KKT system without regularisation (polish.c:216-228). -/
def refineRhs (D : Data d K) (flags : Fin d.m → ℤ) (b z : Vec K d.n × (ℕ → K)) : Vec K d.n × (ℕ → K) :=
  (fun j => b.1 j - symMul d.P D.P z.1 j - aredMulT flags D.A z.2 j,
   fun r => b.2 r - aredMul flags D.A z.1 r)

/-- polish.c:187-244 `iterative_refinement`, the loop over `polish_refine_iter`. -/
def refineLoop (env : Env d K) (D : Data d K) (flags : Fin d.m → ℤ) (sigma : K)
    (b : Vec K d.n × (ℕ → K)) : ℕ → Vec K d.n × (ℕ → K) → Vec K d.n × (ℕ → K)
  | 0, z => z
  | k + 1, z =>
    let r := refineRhs D flags b z
    let dz := env.polSolve D flags sigma r.1 r.2
    refineLoop env D flags sigma b k (fun j => z.1 j + dz.1 j, fun i => z.2 i + dz.2 i)

/-- polish.c:252-315 `get_ypol_from_yred` (running counter). -/
def ypolOfYred (flags : Fin d.m → ℤ) (yred : ℕ → K) : Vec K d.m :=
  if nActive flags = 0 then vSet 0
  else ((List.finRange d.m).foldl (fun (st : ℕ × Vec K d.m) j =>
    if flags j = 0 then (st.1, Function.update st.2 j 0)
    else (st.1 + 1, Function.update st.2 j (yred st.1))) (0, vSet 0)).2

/-- polish.c:447-456: the polished point `(x, z, y)` before acceptance. -/
def polishPoint (D : Data d K) (flags : Fin d.m → ℤ) (sol : Vec K d.n × (ℕ → K)) :
    Vec K d.n × Vec K d.m × Vec K d.m :=
  let x := sol.1
  let z0 := spMul d.A D.A x
  let y0 := ypolOfYred flags sol.2
  let yz := vPlus y0 z0
  let z := vBound yz D.l D.u
  (x, z, vMinus yz z)

/-- polish.c:461-475: acceptance test. -/
def polishAccept (pp pd ip id : K) : Bool :=
  (decide (pp < ip) && decide (pd < id)) ||
  (decide (pp < ip) && decide (id < Const.polishTiny K)) ||
  (decide (pd < id) && decide (ip < Const.polishTiny K))

/-- polish.c:317-515 `polish`; returns the exit flag. -/
def polish (cfg : Cfg) (env : Env d K) (s : Solver d K) : Solver d K × ℤ :=
  let D := s.work.data
  let flags := activeFlags D.l D.u s.work.z s.work.y
  if nActive flags = 0 then
    ({ s with info := { s.info with status_polish := Pol.noActiveSet } }, 0)
  else if env.polFactor D flags s.settings.sigma < d.n then
    ({ s with info := { s.info with status_polish := Pol.linsysError } }, Err.nonCvx)
  else
    let b := formRhsRed D flags
    let sol0 := env.polSolve D flags s.settings.sigma b.1 b.2
    let sol := refineLoop env D flags s.settings.sigma b s.settings.polish_refine_iter.toNat sol0
    let pt := polishPoint D flags sol
    -- update_info(solver, 0, 1), auxil.c:676-762
    let rr := computeReport s pt.1 pt.2.1 pt.2.2
    let s := rr.1
    let r := rr.2
    let s := if cfg.profiling then
        let r := toc env s
        let t := r.1
        let s := r.2
        { s with info := { s.info with polish_time := t } }
      else s
    let s := { s with info := { s.info with rel_kkt_error := relKkt r } }
    if polishAccept r.pres r.dres s.info.prim_res s.info.dual_res then
      ({ s with
          info := { s.info with obj_val := r.obj, dual_obj_val := r.dobj, duality_gap := r.gap,
                                prim_res := r.pres, dual_res := r.dres, status_polish := Pol.success }
          work := { s.work with x := pt.1, z := pt.2.1, y := pt.2.2 } }, 0)
    else ({ s with info := { s.info with status_polish := Pol.failed } }, 0)

end Osqp
