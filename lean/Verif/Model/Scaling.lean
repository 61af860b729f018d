import Verif.Model.Auxil

/-!
# `src/scaling.c`: Ruiz equilibration
-/

namespace Osqp
variable {K : Type*} [Field K] [LinearOrder K] {d : Dims}

/-- scaling.c:8-12 `limit_scaling_scalar`. -/
def limitScalingScalar (v : K) : K :=
  let v := if v < Const.minScaling K then 1 else v
  if v > Const.maxScaling K then Const.maxScaling K else v

/-- scaling.c:14-17 `limit_scaling_vector`. -/
def limitScalingVec {n : ℕ} (v : Vec K n) : Vec K n :=
  vSetIfGt (vSetIfLt v (Const.minScaling K) 1) (Const.maxScaling K) (Const.maxScaling K)

/-- scaling.c:30-46 `compute_inf_norm_cols_KKT`.  (`OSQPMatrix_col_norm_inf(P, D)` looks at the stored
upper triangle only.) -/
def infNormColsKKT (D : Data d K) : Vec K d.n × Vec K d.m :=
  (vMaxVec (spColNorm d.A D.A) (spColNorm d.P D.P), spRowNorm d.A D.A)

/-- The accumulators of scaling.c:48-164 `scale_data`. -/
structure ScaleSt (d : Dims) (K : Type*) where
  data : Data d K
  D : Vec K d.n
  E : Vec K d.m
  c : K

/-- `D_temp`/`E_temp` of one pass (scaling.c:84-101): inverse square roots of the limited norms. -/
def ruizFactors (env : Env d K) (D : Data d K) : Vec K d.n × Vec K d.m :=
  let nrm := infNormColsKKT D
  (vRecip (fun j => env.sqrt (limitScalingVec nrm.1 j)), vRecip (fun i => env.sqrt (limitScalingVec nrm.2 i)))

/-- `c_temp` of one pass (scaling.c:122-143). -/
def costFactor (P : Vec K d.P.nnz) (q : Vec K d.n) : K :=
  let ct := vNorm1 (spColNorm d.P P) / (d.n : K)
  let iq := limitScalingScalar (vNormInf q)
  1 / limitScalingScalar (cMax ct iq)

/-- One pass of the loop scaling.c:77-152. -/
def scalePass (env : Env d K) (t : ScaleSt d K) : ScaleSt d K :=
  let f := ruizFactors env t.data
  let P := spRmult d.P (spLmult d.P t.data.P f.1) f.1
  let A := spRmult d.A (spLmult d.A t.data.A f.2) f.1
  let q := vEwProd t.data.q f.1
  let ct := costFactor P q
  { data := { t.data with P := spScale P ct, A := A, q := vScale q ct }
    D := vEwProd t.D f.1
    E := vEwProd t.E f.2
    c := t.c * ct }

/-- The loop `for (i = 0; i < settings->scaling; i++)` of scaling.c:77-152. -/
def scaleLoop (env : Env d K) : ℕ → ScaleSt d K → ScaleSt d K
  | 0, t => t
  | k + 1, t => scaleLoop env k (scalePass env t)

/-- scaling.c:48-164 `scale_data`: new data and scaling record. -/
def scaleData (env : Env d K) (passes : ℤ) (D : Data d K) : Data d K × Scaling d K :=
  let t := scaleLoop env passes.toNat ⟨D, vSet 1, vSet 1, 1⟩
  let sc : Scaling d K :=
    { c := t.c, cinv := 1 / t.c, D := t.D, Dinv := vRecip t.D, E := t.E, Einv := vRecip t.E }
  ({ t.data with l := vEwProd t.data.l t.E, u := vEwProd t.data.u t.E }, sc)

/-- scaling.c:169-192 `unscale_data`. -/
def unscaleData (sc : Scaling d K) (D : Data d K) : Data d K :=
  { P := spRmult d.P (spLmult d.P (spScale D.P sc.cinv) sc.Dinv) sc.Dinv
    A := spRmult d.A (spLmult d.A D.A sc.Einv) sc.Dinv
    q := vEwProd (vScale D.q sc.cinv) sc.Dinv
    l := vEwProd D.l sc.Einv
    u := vEwProd D.u sc.Einv }

end Osqp
