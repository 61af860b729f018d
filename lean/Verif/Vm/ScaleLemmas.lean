import Verif.Vm.Api
import Verif.Vm.SolveLemmas
import Verif.Lemmas.Scaling

/-!
# Scaling on memory computes the scaling of the solver layer
-/

set_option linter.unusedSectionVars false
namespace Osqp.Vm
open Csc Spec
variable {L K : Type*} [Field K] [LinearOrder K] {d : Dims}

/-- The vectors the scaling reads and writes. -/
structure Sv (d : Dims) (K : Type*) where
  q : Vec K d.n
  l : Vec K d.m
  u : Vec K d.m
  D : Vec K d.n
  Dinv : Vec K d.n
  E : Vec K d.m
  Einv : Vec K d.m
  Dt : Vec K d.n
  DtA : Vec K d.n
  Et : Vec K d.m

/-- Their names. -/
def Name.scl : Name → Bool
  | .q | .l | .u | .D | .Dinv | .E | .Einv | .Dt | .DtA | .Et => true
  | _ => false

/-- The contents `V` with those vectors replaced. -/
def setV (V : (k : Name) → Option (Vec K (k.dim d.n d.m))) (t : Sv d K) : (k : Name) → Option (Vec K (k.dim d.n d.m))
  | .q => some t.q
  | .l => some t.l
  | .u => some t.u
  | .D => some t.D
  | .Dinv => some t.Dinv
  | .E => some t.E
  | .Einv => some t.Einv
  | .Dt => some t.Dt
  | .DtA => some t.DtA
  | .Et => some t.Et
  | .x => V .x | .y => V .y | .z => V .z | .xPrev => V .xPrev | .zPrev => V .zPrev | .dx => V .dx | .dy => V .dy
  | .xt => V .xt | .zt => V .zt | .rho => V .rho | .rhoInv => V .rhoInv | .Ax => V .Ax | .Px => V .Px | .Aty => V .Aty
  | .Atdy => V .Atdy | .Pdx => V .Pdx | .Adx => V .Adx | .solX => V .solX | .solY => V .solY | .solPc => V .solPc | .solDc => V .solDc
  | .pX => V .pX | .pZ => V .pZ | .pY => V .pY

/-- Invariant of the scaling. -/
structure Sc (W : Ptrs) (σ0 : Store K) (V : (k : Name) → Option (Vec K (k.dim d.n d.m))) (vP : Vec K d.P.nnz) (vA : Vec K d.A.nnz)
    (scl : Option (K × K)) (t : Sv d K) (p : Prob K) : Prop where
  mem : Mem p.σ W (setV V t)
  P : Stores p.P d.P vP
  A : Stores p.A d.A vA
  scl : p.scl = scl
  kept : ∀ b, (∀ k : Name, k.scl = true → b ≠ (W k).blk) → p.σ b = σ0 b

variable {W : Ptrs} {xz : Ref} {σ0 : Store K} {V : (k : Name) → Option (Vec K (k.dim d.n d.m))} {vP vP' : Vec K d.P.nnz} {vA vA' : Vec K d.A.nnz}
  {scl scl' : Option (K × K)} {t t' : Sv d K} {p : Prob K}

theorem Sc.put (lay : Layout d.n d.m W xz) (h : Sc W σ0 V vP vA scl t p) {k : Name} (hk : k.scl = true) {f : Vec K (k.dim d.n d.m)}
    {op : Store K → Option (Store K)}
    (ho : ∃ σ', op p.σ = some σ' ∧ Has σ' (W k) (k.dim d.n d.m) f ∧ OnlyAt (W k) p.σ σ')
    (hV : Function.update (setV V t) k (some f) = setV V t') : Ok (p.vec op) (Sc W σ0 V vP vA scl t') := by
  obtain ⟨σ', e, h1, h2⟩ := ho
  refine ⟨{ p with σ := σ' }, by unfold Prob.vec; rw [e]; rfl, ?_⟩
  exact ⟨by rw [← hV]; exact h.mem.put lay h1 h2, h.P, h.A, h.scl, fun b hb => (h2.same (hb k hk)).trans (h.kept b hb)⟩

theorem Sc.into (lay : Layout d.n d.m W xz) (h : Sc W σ0 V vP vA scl t p) {k : Name} (hk : k.scl = true) {f : Vec K (k.dim d.n d.m)}
    {op : Buf K → Option (Buf K)} {fk : Vec K (k.dim d.n d.m)} (hfk : setV V t k = some fk)
    (ho : ∀ y : Buf K, k.dim d.n d.m ≤ y.size → ∃ y', op y = some y' ∧ Arr y' f)
    (hV : Function.update (setV V t) k (some f) = setV V t') : Ok (p.vec (Vm.into op (W k))) (Sc W σ0 V vP vA scl t') := by
  have h2 := h.mem k fk hfk
  have hz : k ≠ .zt := by rintro rfl; cases hk
  have hx : k ≠ .xt := by rintro rfl; cases hk
  have ok := lay.start k hz
  obtain ⟨y', e, hy⟩ := ho _ (by have := h2.room; omega : _ ≤ (p.σ (W k).blk).size)
  refine ⟨{ p with σ := Function.update p.σ (W k).blk y' }, by unfold Prob.vec Vm.into data; rw [if_pos ok, Option.bind_some, e]; rfl, ?_⟩
  refine ⟨fun j g hj => ?_, h.P, h.A, h.scl, fun b hb => (Function.update_of_ne (hb k hk) _ _).trans (h.kept b hb)⟩
  rw [← hV] at hj
  by_cases ej : j = k
  · subst ej
    rw [Function.update_self] at hj
    rw [← Option.some.inj hj]
    refine ⟨h2.len, ?_, fun i => ?_⟩
    · show _ ≤ (Function.update p.σ (W j).blk y' (W j).blk).size
      rw [ok, Function.update_self]; have := hy.1; omega
    · show (Function.update p.σ (W j).blk y' (W j).blk).cell _ = _
      rw [ok, Function.update_self, Nat.zero_add]; exact hy.2 i
  · rw [Function.update_of_ne ej] at hj
    have hj' := h.mem j g hj
    have hne : (W j).blk ≠ (W k).blk := lay.own j k ej (fun e => hz e.2) (fun e => hx e.2)
    have e : (Function.update p.σ (W k).blk y') (W j).blk = p.σ (W j).blk := Function.update_of_ne hne _ _
    exact ⟨hj'.len, by show _ ≤ (Function.update p.σ (W k).blk y' (W j).blk).size; rw [e]; exact hj'.room,
      fun i => by show (Function.update p.σ (W k).blk y' (W j).blk).cell _ = _; rw [e]; exact hj'.val i⟩

theorem Sc.onP (h : Sc W σ0 V vP vA scl t p) {f : Csc K → Option (Csc K)} (hf : ∃ X, f p.P = some X ∧ Stores X d.P vP') :
    Ok (p.onP f) (Sc W σ0 V vP' vA scl t) := by
  obtain ⟨X, e, hX⟩ := hf
  exact ⟨{ p with P := X }, by unfold Prob.onP; rw [e]; rfl, h.mem, hX, h.A, h.scl, h.kept⟩

theorem Sc.onA (h : Sc W σ0 V vP vA scl t p) {f : Csc K → Option (Csc K)} (hf : ∃ X, f p.A = some X ∧ Stores X d.A vA') :
    Ok (p.onA f) (Sc W σ0 V vP vA' scl t) := by
  obtain ⟨X, e, hX⟩ := hf
  exact ⟨{ p with A := X }, by unfold Prob.onA; rw [e]; rfl, h.mem, h.P, hX, h.scl, h.kept⟩

theorem Sc.scal (h : Sc W σ0 V vP vA scl t p) (f : K × K → K × K) {s : K × K} (hs : scl = some s) :
    Ok (p.scl.bind fun s => some { p with scl := some (f s) }) (Sc W σ0 V vP vA (some (f s)) t) := by
  rw [h.scl, hs]
  exact .pure ⟨h.mem, h.P, h.A, rfl, h.kept⟩

/-- The array of a vector. -/
theorem Sc.arr (lay : Layout d.n d.m W xz) (h : Sc W σ0 V vP vA scl t p) {k : Name} (hk : k ≠ .zt) {f : Vec K (k.dim d.n d.m)} (hf : setV V t k = some f) :
    data (W k) p.σ = some (p.σ (W k).blk) ∧ Arr (p.σ (W k).blk) f := by
  have h0 := lay.start k hk
  exact ⟨if_pos h0, (h.mem k f hf).arr h0⟩

variable [IsStrictOrderedRing K]

theorem Sc.lmult (lay : Layout d.n d.m W xz) (h : Sc W σ0 V vP vA scl t p) {k : Name} (hk : k ≠ .zt) {a b : ℕ} {pt : Pat a b} {X : Csc K} {v : Vec K pt.nnz}
    (hX : Stores X pt v) {f : Vec K (k.dim d.n d.m)} {g : Vec K a} (hf : setV V t k = some f) (hd : k.dim d.n d.m = a) (hg : ∀ i, f i = g (Fin.cast hd i)) :
    ∃ X', diag lmultDiag (W k) p.σ X = some X' ∧ Stores X' pt (spLmult pt v g) := by
  obtain ⟨e, h1⟩ := h.arr lay hk hf
  unfold diag
  rw [e, Option.bind_some]
  subst hd
  exact refine_lmult hX (D := g) ⟨h1.1, fun i => by rw [h1.2 i, hg i]; rfl⟩

theorem Sc.rmult (lay : Layout d.n d.m W xz) (h : Sc W σ0 V vP vA scl t p) {k : Name} (hk : k ≠ .zt) {a b : ℕ} {pt : Pat a b} {X : Csc K} {v : Vec K pt.nnz}
    (hX : Stores X pt v) {f : Vec K (k.dim d.n d.m)} {g : Vec K b} (hf : setV V t k = some f) (hd : k.dim d.n d.m = b) (hg : ∀ i, f i = g (Fin.cast hd i)) :
    ∃ X', diag rmultDiag (W k) p.σ X = some X' ∧ Stores X' pt (spRmult pt v g) := by
  obtain ⟨e, h1⟩ := h.arr lay hk hf
  unfold diag
  rw [e, Option.bind_some]
  subst hd
  exact refine_rmult hX (D := g) ⟨h1.1, fun i => by rw [h1.2 i, hg i]; rfl⟩

theorem limitScaling_ok (lay : Layout d.n d.m W xz) (h : Sc W σ0 V vP vA scl t p) {k : Name} {f : Vec K (k.dim d.n d.m)} (hf : setV V t k = some f) :
    ∃ σ', limitScaling (W k) p.σ = some σ' ∧ Has σ' (W k) (k.dim d.n d.m) (limitScalingVec f) ∧ OnlyAt (W k) p.σ σ' := by
  have h1 := h.mem k f hf
  obtain ⟨σ1, e1, g1, o1⟩ := setIfLt_holds h1.toRoom h1 (.inr ⟨rfl, rfl⟩) (Const.minScaling K) 1
  obtain ⟨σ2, e2, g2, o2⟩ := setIfGt_holds g1.toRoom g1 (.inr ⟨rfl, rfl⟩) (Const.maxScaling K) (Const.maxScaling K)
  exact ⟨σ2, by unfold limitScaling; rw [e1, Option.bind_some, e2], g2, o1.trans o2⟩

theorem ruizStep_ok (lay : Layout d.n d.m W xz) {env : Env d K} (hs : SqrtPos env) (h : Sc W σ0 V vP vA scl t p) :
    let f := ruizFactors env (⟨vP, vA, t.q, t.l, t.u⟩ : Data d K)
    Ok (ruizStep env.sqrt W p) (Sc W σ0 V (spRmult d.P (spLmult d.P vP f.1) f.1) (spRmult d.A (spLmult d.A vA f.2) f.1) scl
      { t with q := vEwProd t.q f.1, D := vEwProd t.D f.1, E := vEwProd t.E f.2, Dt := f.1, DtA := spColNorm d.A vA, Et := f.2 }) := by
  intro f
  set a := vMaxVec (spColNorm d.A vA) (spColNorm d.P vP) with ha
  set b := spRowNorm d.A vA with hb
  have pos1 : ∀ j, env.sqrt (limitScalingVec a j) ≠ 0 := fun j => (hs _ (limitScalingVec_pos _ _)).ne'
  have pos2 : ∀ j, env.sqrt (limitScalingVec b j) ≠ 0 := fun j => (hs _ (limitScalingVec_pos _ _)).ne'
  unfold ruizStep infNormCols
  refine .bind (P := Sc W σ0 V vP vA scl { t with Dt := a, DtA := spColNorm d.A vA, Et := b }) ?_ fun p h => ?_
  · refine .bind (h.into lay (k := .Dt) (t' := { t with Dt := spColNorm d.P vP }) rfl rfl (fun y hy => refine_col_norm h.P hy) vv) fun p h => ?_
    refine .bind (h.into lay (k := .DtA) (t' := { t with Dt := spColNorm d.P vP, DtA := spColNorm d.A vA }) rfl rfl (fun y hy => refine_col_norm h.A hy) vv) fun p h => ?_
    refine .bind (h.put lay (k := .Dt) (t' := { t with Dt := a, DtA := spColNorm d.A vA }) rfl
      (maxVec_holds (h.mem .Dt _ rfl).toRoom (h.mem .DtA _ rfl) (lay.use _ _) (h.mem .Dt _ rfl) (lay.use _ _)) vv) fun p h => ?_
    exact h.into lay (k := .Et) rfl rfl (fun y hy => refine_row_norm h.A hy) vv
  refine .bind (h.put lay (k := .Dt) (t' := { t with Dt := limitScalingVec a, DtA := spColNorm d.A vA, Et := b }) rfl (limitScaling_ok lay h rfl) vv) fun p h => ?_
  refine .bind (h.put lay (k := .Et) (t' := { t with Dt := limitScalingVec a, DtA := spColNorm d.A vA, Et := limitScalingVec b }) rfl (limitScaling_ok lay h rfl) vv) fun p h => ?_
  refine .bind (h.put lay (k := .Dt) (t' := { t with Dt := fun j => env.sqrt (limitScalingVec a j), DtA := spColNorm d.A vA, Et := limitScalingVec b }) rfl
    (ewSqrt_holds env.sqrt (h.mem .Dt _ rfl)) vv) fun p h => ?_
  refine .bind (h.put lay (k := .Et) (t' := { t with Dt := fun j => env.sqrt (limitScalingVec a j), DtA := spColNorm d.A vA, Et := fun j => env.sqrt (limitScalingVec b j) }) rfl
    (ewSqrt_holds env.sqrt (h.mem .Et _ rfl)) vv) fun p h => ?_
  refine .bind (h.put lay (k := .Dt) (t' := { t with Dt := f.1, DtA := spColNorm d.A vA, Et := fun j => env.sqrt (limitScalingVec b j) }) rfl
    (reciprocal_holds (h.mem .Dt _ rfl).toRoom (h.mem .Dt _ rfl) (lay.use _ _) pos1) vv) fun p h => ?_
  refine .bind (h.put lay (k := .Et) (t' := { t with Dt := f.1, DtA := spColNorm d.A vA, Et := f.2 }) rfl
    (reciprocal_holds (h.mem .Et _ rfl).toRoom (h.mem .Et _ rfl) (lay.use _ _) pos2) vv) fun p h => ?_
  refine .bind (h.onP (h.lmult lay (k := .Dt) (by decide) h.P rfl rfl fun _ => rfl)) fun p h => ?_
  refine .bind (h.onP (h.rmult lay (k := .Dt) (by decide) h.P rfl rfl fun _ => rfl)) fun p h => ?_
  refine .bind (h.onA (h.lmult lay (k := .Et) (by decide) h.A rfl rfl fun _ => rfl)) fun p h => ?_
  refine .bind (h.onA (h.rmult lay (k := .Dt) (by decide) h.A rfl rfl fun _ => rfl)) fun p h => ?_
  refine .bind (h.put lay (k := .q) (t' := { t with q := vEwProd t.q f.1, Dt := f.1, DtA := spColNorm d.A vA, Et := f.2 }) rfl
    (ewProd_holds (h.mem .q _ rfl).toRoom (h.mem .q _ rfl) (lay.fits _ _) (h.mem .Dt _ rfl) (lay.use _ _)) vv) fun p h => ?_
  refine .bind (h.put lay (k := .D) (t' := { t with q := vEwProd t.q f.1, D := vEwProd t.D f.1, Dt := f.1, DtA := spColNorm d.A vA, Et := f.2 }) rfl
    (ewProd_holds (h.mem .D _ rfl).toRoom (h.mem .D _ rfl) (lay.fits _ _) (h.mem .Dt _ rfl) (lay.use _ _)) vv) fun p h => ?_
  exact h.put lay (k := .E) rfl
    (ewProd_holds (h.mem .E _ rfl).toRoom (h.mem .E _ rfl) (lay.fits _ _) (h.mem .Et _ rfl) (lay.use _ _)) vv

theorem costStep_ok (lay : Layout d.n d.m W xz) {c ci : K} (h : Sc W σ0 V vP vA (some (c, ci)) t p) :
    Ok (costStep (d.n : ℤ) W p) (Sc W σ0 V (spScale vP (costFactor vP t.q)) vA (some (c * costFactor vP t.q, ci))
      { t with q := vScale t.q (costFactor vP t.q), Dt := spColNorm d.P vP }) := by
  unfold costStep
  refine .bind (h.into lay (k := .Dt) (t' := { t with Dt := spColNorm d.P vP }) rfl rfl (fun y hy => refine_col_norm h.P hy) vv) fun p h => ?_
  refine .val (norm1_holds (h.mem .Dt _ rfl)) (.val (normInf_holds (h.mem .q _ rfl)) ?_)
  extract_lets k
  have hk : k = costFactor vP t.q := by
    show (1 : K) / limitScalingScalar (cMax (vNorm1 (spColNorm d.P vP) / (((d.n : ℕ) : ℤ) : K)) (limitScalingScalar (vNormInf t.q))) = costFactor vP t.q
    unfold costFactor; simp
  clear_value k
  subst hk
  refine .bind (h.onP (refine_scale h.P _)) fun p h => ?_
  refine .bind (h.put lay (k := .q) (t' := { t with q := vScale t.q (costFactor vP t.q), Dt := spColNorm d.P vP }) rfl
    (multScalar_holds (h.mem .q _ rfl) _) vv) fun p h => ?_
  exact h.scal (fun s => (s.1 * costFactor vP t.q, s.2)) rfl

/-- The vectors after some passes. -/
def Sv.of (S : ScaleSt d K) (t : Sv d K) : Prop := t.q = S.data.q ∧ t.l = S.data.l ∧ t.u = S.data.u ∧ t.D = S.D ∧ t.E = S.E

theorem scaleLoop_succ (env : Env d K) (k : ℕ) (S : ScaleSt d K) : scaleLoop env (k + 1) S = scalePass env (scaleLoop env k S) := by
  induction k generalizing S with
  | zero => rfl
  | succ k ih => rw [scaleLoop, ih]; rfl

theorem scaleLoop_ok (lay : Layout d.n d.m W xz) {env : Env d K} (hs : SqrtPos env) (passes : ℤ) (S : ScaleSt d K) {ci : K}
    (h : ∃ t, Sc W σ0 V S.data.P S.data.A (some (S.c, ci)) t p ∧ t.of S) :
    Ok (forI 0 passes (fun _ p => (ruizStep env.sqrt W p).bind fun p => costStep (d.n : ℤ) W p) p) fun p =>
      ∃ t, Sc W σ0 V (scaleLoop env passes.toNat S).data.P (scaleLoop env passes.toNat S).data.A (some ((scaleLoop env passes.toNat S).c, ci)) t p ∧
        t.of (scaleLoop env passes.toNat S) := by
  have e : forI 0 passes (fun _ p => (ruizStep env.sqrt W p).bind fun p => costStep (d.n : ℤ) W p) p =
      forI 0 (passes.toNat : ℤ) (fun _ p => (ruizStep env.sqrt W p).bind fun p => costStep (d.n : ℤ) W p) p := by
    unfold forI; congr 1; omega
  rw [e]
  refine forI_zero (hi := passes.toNat) (fun k p => ∃ t, Sc W σ0 V (scaleLoop env k S).data.P (scaleLoop env k S).data.A (some ((scaleLoop env k S).c, ci)) t p ∧
        t.of (scaleLoop env k S)) h fun k p _ h => ?_
  obtain ⟨t, h, o1, o2, o3, o4, o5⟩ := h
  rw [scaleLoop_succ]
  set T := scaleLoop env k S
  obtain ⟨tq, tl, tu, tD, tDi, tE, tEi, tDt, tDtA, tEt⟩ := t
  dsimp only at o1 o2 o3 o4 o5
  subst o1 o2 o3 o4 o5
  refine Ok.bind (ruizStep_ok lay hs h) fun p h => ?_
  exact (costStep_ok lay h).mono fun p h => ⟨_, h, rfl, rfl, rfl, rfl, rfl⟩

theorem scaleData_ok (lay : Layout d.n d.m W xz) {env : Env d K} (hs : SqrtPos env) (passes : ℤ) {D : Data d K} {c : K × K}
    (h : Sc W σ0 V D.P D.A (some c) { t with q := D.q, l := D.l, u := D.u } p) :
    Ok (scaleData env.sqrt d.n passes W p) fun p => ∃ t, Sc W σ0 V (Osqp.scaleData env passes D).1.P (Osqp.scaleData env passes D).1.A
      (some ((Osqp.scaleData env passes D).2.c, (Osqp.scaleData env passes D).2.cinv)) t p ∧
      t.q = (Osqp.scaleData env passes D).1.q ∧ t.l = (Osqp.scaleData env passes D).1.l ∧ t.u = (Osqp.scaleData env passes D).1.u ∧
      t.D = (Osqp.scaleData env passes D).2.D ∧ t.Dinv = (Osqp.scaleData env passes D).2.Dinv ∧
      t.E = (Osqp.scaleData env passes D).2.E ∧ t.Einv = (Osqp.scaleData env passes D).2.Einv := by
  unfold scaleData
  refine .bind (h.scal (fun s => (1, s.2)) rfl) fun p h => ?_
  refine .bind (h.put lay (k := .D) (t' := { t with q := D.q, l := D.l, u := D.u, D := vSet 1 }) rfl (setScalar_holds (h.mem .D _ rfl).toRoom _) vv) fun p h => ?_
  refine .bind (h.put lay (k := .Dinv) (t' := { t with q := D.q, l := D.l, u := D.u, D := vSet 1, Dinv := vSet 1 }) rfl
    (setScalar_holds (h.mem .Dinv _ rfl).toRoom _) vv) fun p h => ?_
  refine .bind (h.put lay (k := .E) (t' := { t with q := D.q, l := D.l, u := D.u, D := vSet 1, Dinv := vSet 1, E := vSet 1 }) rfl
    (setScalar_holds (h.mem .E _ rfl).toRoom _) vv) fun p h => ?_
  refine .bind (h.put lay (k := .Einv) (t' := { t with q := D.q, l := D.l, u := D.u, D := vSet 1, Dinv := vSet 1, E := vSet 1, Einv := vSet 1 }) rfl
    (setScalar_holds (h.mem .Einv _ rfl).toRoom _) vv) fun p h => ?_
  refine .bind (scaleLoop_ok lay hs passes ⟨D, vSet 1, vSet 1, 1⟩ ⟨_, h, rfl, rfl, rfl, rfl, rfl⟩) fun p ⟨t, h, o1, o2, o3, o4, o5⟩ => ?_
  have h0 : ScaleInv D (⟨D, vSet 1, vSet 1, 1⟩ : ScaleSt d K) := by
    constructor <;> simp [vSet]
  have hi := scaleLoop_inv hs passes.toNat _ h0
  unfold Osqp.scaleData
  dsimp only
  set T := scaleLoop env passes.toNat ⟨D, vSet 1, vSet 1, 1⟩
  obtain ⟨tq, tl, tu, tD, tDi, tE, tEi, tDt, tDtA, tEt⟩ := t
  dsimp only at o1 o2 o3 o4 o5
  subst o1 o2 o3 o4 o5
  refine .bind (h.scal (fun s => (s.1, 1 / s.1)) rfl) fun p h => ?_
  refine .bind (h.put lay (k := .Dinv) (t' := ⟨_, _, _, _, vRecip T.D, _, _, _, _, _⟩) rfl
    (reciprocal_holds (h.mem .Dinv _ rfl).toRoom (h.mem .D _ rfl) (lay.use _ _) fun i => (hi.D_pos i).ne') vv) fun p h => ?_
  refine .bind (h.put lay (k := .Einv) (t' := ⟨_, _, _, _, _, _, vRecip T.E, _, _, _⟩) rfl
    (reciprocal_holds (h.mem .Einv _ rfl).toRoom (h.mem .E _ rfl) (lay.use _ _) fun i => (hi.E_pos i).ne') vv) fun p h => ?_
  refine .bind (h.put lay (k := .l) (t' := ⟨_, vEwProd T.data.l T.E, _, _, _, _, _, _, _, _⟩) rfl
    (ewProd_holds (h.mem .l _ rfl).toRoom (h.mem .l _ rfl) (lay.fits _ _) (h.mem .E _ rfl) (lay.use _ _)) vv) fun p h => ?_
  refine (h.put lay (k := .u) (t' := ⟨_, _, vEwProd T.data.u T.E, _, _, _, _, _, _, _⟩) rfl
    (ewProd_holds (h.mem .u _ rfl).toRoom (h.mem .u _ rfl) (lay.fits _ _) (h.mem .E _ rfl) (lay.use _ _)) vv).mono fun p h => ?_
  exact ⟨_, h, rfl, rfl, rfl, rfl, rfl, rfl, rfl⟩

theorem unscaleData_ok (lay : Layout d.n d.m W xz) {sc : Scaling d K} {D : Data d K}
    (h : Sc W σ0 V D.P D.A (some (sc.c, sc.cinv)) { t with q := D.q, l := D.l, u := D.u, Dinv := sc.Dinv, Einv := sc.Einv } p) :
    Ok (unscaleData W p) (Sc W σ0 V (Osqp.unscaleData sc D).P (Osqp.unscaleData sc D).A (some (sc.c, sc.cinv))
      { t with q := (Osqp.unscaleData sc D).q, l := (Osqp.unscaleData sc D).l, u := (Osqp.unscaleData sc D).u, Dinv := sc.Dinv, Einv := sc.Einv }) := by
  unfold unscaleData
  refine .val h.scl ?_
  refine .bind (h.onP (refine_scale h.P _)) fun p h => ?_
  refine .bind (h.onP (h.lmult lay (k := .Dinv) (by decide) h.P rfl rfl fun _ => rfl)) fun p h => ?_
  refine .bind (h.onP (h.rmult lay (k := .Dinv) (by decide) h.P rfl rfl fun _ => rfl)) fun p h => ?_
  refine .bind (h.put lay (k := .q) (t' := { t with q := vScale D.q sc.cinv, l := D.l, u := D.u, Dinv := sc.Dinv, Einv := sc.Einv }) rfl
    (multScalar_holds (h.mem .q _ rfl) _) vv) fun p h => ?_
  refine .bind (h.put lay (k := .q) (t' := { t with q := vEwProd (vScale D.q sc.cinv) sc.Dinv, l := D.l, u := D.u, Dinv := sc.Dinv, Einv := sc.Einv }) rfl
    (ewProd_holds (h.mem .q _ rfl).toRoom (h.mem .q _ rfl) (lay.fits _ _) (h.mem .Dinv _ rfl) (lay.use _ _)) vv) fun p h => ?_
  refine .bind (h.onA (h.lmult lay (k := .Einv) (by decide) h.A rfl rfl fun _ => rfl)) fun p h => ?_
  refine .bind (h.onA (h.rmult lay (k := .Dinv) (by decide) h.A rfl rfl fun _ => rfl)) fun p h => ?_
  refine .bind (h.put lay (k := .l) (t' := { t with q := vEwProd (vScale D.q sc.cinv) sc.Dinv, l := vEwProd D.l sc.Einv, u := D.u, Dinv := sc.Dinv, Einv := sc.Einv }) rfl
    (ewProd_holds (h.mem .l _ rfl).toRoom (h.mem .l _ rfl) (lay.fits _ _) (h.mem .Einv _ rfl) (lay.use _ _)) vv) fun p h => ?_
  exact h.put lay (k := .u) rfl
    (ewProd_holds (h.mem .u _ rfl).toRoom (h.mem .u _ rfl) (lay.fits _ _) (h.mem .Einv _ rfl) (lay.use _ _)) vv

end Osqp.Vm
