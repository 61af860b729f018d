import Verif.Lemmas.HistSolve

/-!
# The other API calls keep the invariant
-/

set_option linter.unusedSectionVars false
namespace Osqp
open Spec
variable {K : Type*} [Field K] [LinearOrder K] [IsStrictOrderedRing K] {d : Dims}

variable {cfg : Cfg} {env : Env d K} {st₀ : Settings K} {U : Data d K} {s : Solver d K}

theorem ValidMutable.of_rho {st : Settings K} (h : ValidMutable st) (r : K) (i : ℤ) :
    ValidMutable { st with rho := r, adaptive_rho_interval := i } :=
  ⟨h.1, h.2, h.3, h.4, h.5, h.6, h.7, h.8, h.9, h.10, h.11, h.12, h.13, h.14, h.15, h.16, h.17, h.18, h.19, h.20⟩

theorem SameFixed.of_rho {a b : Settings K} (h : SameFixed a b) (r : K) (i : ℤ) :
    SameFixed a { b with rho := r, adaptive_rho_interval := i } := ⟨h.1, h.2, h.3, h.4, h.5, h.6, h.7, h.8, h.9⟩

theorem inv_clear (h : Inv cfg st₀ U s) (b : Bool) : Inv cfg st₀ U (if b then clearUpdateTime s else s) := by
  cases b
  · exact h
  · exact h.of_frame (by simp [core]) (by simp) (by simp) (h.status.congr (by simp) (by simp)) (by simp)
      (by simp [h.hand]) (by simp)

theorem inv_addTime (h : Inv cfg st₀ U s) (b : Bool) : Inv cfg st₀ U (if b then addUpdateTime env s else s) := by
  cases b
  · exact h
  · exact h.of_frame (by simp [core]) (by simp) (by simp) (h.status.congr (by simp) (by simp)) (by simp)
      (by simp [h.hand]) (by simp)

theorem inv_reset (h : Inv cfg st₀ U s) : Inv cfg st₀ U ({ s with info := resetInfo cfg s.info } : Solver d K) := by
  refine h.of_frame rfl rfl rfl ?_ (fun _ => rfl) h.hand rfl
  refine ⟨rfl, ?_⟩
  show (11 : ℤ) ≠ 0
  decide

theorem inv_coldStart (h : Inv cfg st₀ U s) : Inv cfg st₀ U (coldStart s) :=
  h.of_frame rfl rfl rfl h.status (fun _ => rfl) h.hand rfl

theorem inv_getSolution (h : Inv cfg st₀ U s) (dst : Solution d K) : Inv cfg st₀ U (osqpGetSolution s dst).1 := by
  unfold osqpGetSolution
  exact h.of_frame (by simp [core]) (by simp) (by simp) (h.status.congr (by simp) (by simp)) (fun _ => by simp)
      (by simp [h.hand]) (by simp)

theorem inv_updateSettings (h : Inv cfg st₀ U s) (n : Option (Settings K)) :
    Inv cfg st₀ U (osqpUpdateSettings cfg s n).1 := by
  unfold osqpUpdateSettings
  cases n with
  | none => exact h
  | some n =>
    dsimp only
    split_ifs with hv
    · exact h
    · have hv' := ((validateSettings_update cfg n).1 (by simpa using hv)).1
      refine ⟨h.rep, h.bounds, ?_, ?_, ?_, h.valid0, ?_, h.status, h.aty, h.hand, h.sol⟩
      · exact h.sync.congr rfl
      · exact fun hr => (h.rinv hr).congr rfl
      · exact ⟨hv'.1, hv'.2, hv'.3, hv'.4, hv'.5, hv'.6, hv'.7, hv'.8, hv'.9, hv'.10, hv'.11, hv'.12, hv'.13, hv'.14, hv'.15, hv'.16, hv'.17, hv'.18, hv'.19, hv'.20⟩
      · exact ⟨h.fixed.1, h.fixed.2, h.fixed.3, h.fixed.4, h.fixed.5, h.fixed.6, h.fixed.7, h.fixed.8, h.fixed.9⟩

theorem inv_warmStart (h : Inv cfg st₀ U s) (x : Option (Vec K d.n)) (y : Option (Vec K d.m)) :
    Inv cfg st₀ U (osqpWarmStart s x y).1 := by
  have h1 : Inv cfg st₀ U (if s.settings.warm_starting = 0 then
      { s with settings := { s.settings with warm_starting := 1 } } else s : Solver d K) := by
    split_ifs with hw
    · refine ⟨h.rep, h.bounds, h.sync.congr rfl, fun hr => (h.rinv hr).congr rfl, ?_, h.valid0, ?_, h.status, h.aty, h.hand, h.sol⟩
      · have hv' := h.live
        exact ⟨hv'.1, hv'.2, Or.inr rfl, hv'.4, hv'.5, hv'.6, hv'.7, hv'.8, hv'.9, hv'.10, hv'.11, hv'.12, hv'.13, hv'.14, hv'.15, hv'.16, hv'.17, hv'.18, hv'.19, hv'.20⟩
      · exact ⟨h.fixed.1, h.fixed.2, h.fixed.3, h.fixed.4, h.fixed.5, h.fixed.6, h.fixed.7, h.fixed.8, h.fixed.9⟩
    · exact h
  unfold osqpWarmStart
  generalize (if s.settings.warm_starting = 0 then
      { s with settings := { s.settings with warm_starting := 1 } } else s : Solver d K) = s1 at h1
  cases x <;> cases y <;>
    exact h1.of_frame rfl rfl rfl h1.status (fun _ => rfl) h1.hand rfl

theorem inv_updateRho (h : Inv cfg st₀ U s) (r : K) : Inv cfg st₀ U (osqpUpdateRho cfg env s r).1 := by
  obtain ⟨e1, e2, r', i', e3⟩ := same_osqpUpdateRho cfg env s r
  refine ⟨?_, h.bounds, sync_osqpUpdateRho cfg env r h.sync, fun hr => rhoInvOK_osqpUpdateRho cfg env r (Or.inr (h.rinv hr)),
    ?_, h.valid0, ?_, h.status.congr (by simp) (by simp), fun hm => by simp [h.aty hm], by simp [h.hand], by simp [h.sol]⟩
  · rw [e1, e2, e3]; exact h.rep
  · rw [e3]; exact ValidMutable.of_rho h.live _ _
  · rw [e3]; exact h.fixed.of_rho _ _

/-! ## Bound and cost updates -/

theorem sync_updateRhoVec (hs : Sync s) (hv : s.settings.rho_is_vec ≠ 0) :
    Sync (updateRhoVec env s).1 ∧ (updateRhoVec env s).1.settings = s.settings := by
  have hc : clampRho s.settings.rho = s.settings.rho := clampRho_of_mem hs.rho_lo hs.rho_hi
  obtain ⟨v1, v2, v3⟩ := hs.vec hv
  unfold updateRhoVec setRhoVec
  dsimp only
  split_ifs with hch
  · refine ⟨⟨?_, ?_, ?_, clampRho_lo _, clampRho_hi _, ?_, fun h => absurd h hv⟩, ?_⟩
    · simp [linsysUpdateRho, v3, hs.P]
    · simp [linsysUpdateRho, v3, hs.A]
    · simp [linsysUpdateRho, v3, hs.sigma]
    · intro _
      refine ⟨rfl, rfl, ?_⟩
      simp only [linsysUpdateRho, v3]; rfl
    · dsimp only; rw [hc]
  · have hct : s.work.constr_type = vBoundsType s.work.data.l s.work.data.u (Const.rhoTol K) (Const.infval K) :=
      ((vTypeChanged_false _ _).1 (by simpa using hch)).symm
    refine ⟨⟨hs.P, hs.A, hs.sigma, clampRho_lo _, clampRho_hi _, ?_, fun h => absurd h hv⟩, ?_⟩
    · intro _
      refine ⟨rfl, rfl, ?_⟩
      dsimp only; rw [v3, v1, hct, hc]
    · dsimp only; rw [hc]

theorem inv_updateRhoVec (h : Inv cfg st₀ U s) (b : Bool) (hv : b = true → s.settings.rho_is_vec ≠ 0) :
    Inv cfg st₀ U (if b then updateRhoVec env s else (s, 0)).1 := by
  cases b with
  | false => exact h
  | true =>
    have hv' := hv rfl
    obtain ⟨h1, h2⟩ := sync_updateRhoVec (env := env) h.sync hv'
    simp only [if_true]
    refine ⟨?_, h.bounds, h1, ?_, ?_, h.valid0, ?_, h.status.congr (by simp) (by simp), fun hm => by simp [h.aty hm], by simp [h.hand], by simp [h.sol]⟩
    · rw [h2]; simpa using h.rep
    · intro _ h0; rw [h2] at h0; exact absurd h0 hv'
    · rw [h2]; exact h.live
    · rw [h2]; exact h.fixed

/-- Bounds as the solver stores them. -/
def scB (s : Solver d K) (v : Vec K d.m) : Vec K d.m := if s.settings.scaling ≠ 0 then vEwProd v s.work.scaling.E else v

theorem inv_setBounds (h : Inv cfg st₀ U s) (l u : Vec K d.m) (hlu : ∀ i, l i ≤ u i) (l' u' : Vec K d.m)
    (hl : l' = scB s l) (hu : u' = scB s u) :
    Inv cfg st₀ { U with l := l, u := u } ({ s with work := { s.work with data := { s.work.data with l := l', u := u' } } } : Solver d K) := by
  refine ⟨?_, hlu, ?_, ?_, h.live, h.valid0, h.fixed, h.status, h.aty, h.hand, h.sol⟩
  · constructor
    · intro h0
      obtain ⟨ok, is⟩ := h.rep.1 h0
      refine ⟨ok, ⟨is.P, is.q, is.A, ?_, ?_⟩⟩
      · intro i; dsimp only; rw [hl, scB, if_pos h0, vEwProd, mul_comm]
      · intro i; dsimp only; rw [hu, scB, if_pos h0, vEwProd, mul_comm]
    · intro h0
      have := h.rep.2 h0
      dsimp only at h0 ⊢
      rw [this, hl, hu, scB, scB, if_neg (not_not.2 h0), if_neg (not_not.2 h0)]
  · exact ⟨h.sync.P, h.sync.A, h.sync.sigma, h.sync.rho_lo, h.sync.rho_hi, h.sync.vec, h.sync.sca⟩
  · intro hr; exact h.rinv hr

theorem inv_setQ (h : Inv cfg st₀ U s) (q : Vec K d.n) :
    Inv cfg st₀ { U with q := q } ({ s with work := { s.work with data := { s.work.data with
      q := if s.settings.scaling ≠ 0 then vScale (vEwProd q s.work.scaling.D) s.work.scaling.c else q } } } : Solver d K) := by
  refine ⟨?_, h.bounds, ?_, ?_, h.live, h.valid0, h.fixed, h.status, h.aty, h.hand, h.sol⟩
  · constructor
    · intro h0
      obtain ⟨ok, is⟩ := h.rep.1 h0
      refine ⟨ok, ⟨is.P, ?_, is.A, is.l, is.u⟩⟩
      intro j; dsimp only at h0 ⊢; rw [if_pos h0]; simp only [vScale, vEwProd]; ring
    · intro h0
      have := h.rep.2 h0
      dsimp only at h0 ⊢
      rw [this, if_neg (not_not.2 h0)]
  · exact ⟨h.sync.P, h.sync.A, h.sync.sigma, h.sync.rho_lo, h.sync.rho_hi, h.sync.vec, h.sync.sca⟩
  · intro hr; exact h.rinv hr

/-- Scratch writes. -/
theorem inv_scratch (h : Inv cfg st₀ U s) (a b : Vec K d.m) :
    Inv cfg st₀ U ({ s with work := { s.work with z_prev := a, delta_y := b } } : Solver d K) :=
  h.of_frame rfl rfl rfl h.status (fun _ => rfl) h.hand rfl

theorem scB_le (h : Inv cfg st₀ U s) (l u : Vec K d.m) : (∀ i, scB s l i ≤ scB s u i) ↔ ∀ i, l i ≤ u i := by
  unfold scB
  by_cases h0 : s.settings.scaling = 0
  · simp [h0]
  · obtain ⟨ok, _⟩ := h.rep.1 h0
    simp only [ne_eq, h0, not_false_iff, if_true, vEwProd]
    exact forall_congr' fun i => mul_le_mul_iff_of_pos_right (ok.E_pos i)

theorem scB_l (h : Inv cfg st₀ U s) : scB s U.l = s.work.data.l := by
  unfold scB
  by_cases h0 : s.settings.scaling = 0
  · simp [h0, h.rep.2 h0]
  · obtain ⟨ok, is⟩ := h.rep.1 h0
    funext i; simp [h0, vEwProd, is.l i, mul_comm]

theorem scB_u (h : Inv cfg st₀ U s) : scB s U.u = s.work.data.u := by
  unfold scB
  by_cases h0 : s.settings.scaling = 0
  · simp [h0, h.rep.2 h0]
  · obtain ⟨ok, is⟩ := h.rep.1 h0
    funext i; simp [h0, vEwProd, is.u i, mul_comm]

/-- The state after an accepted bound check: new bounds in place, step sizes refreshed, new cost in place. -/
def vecBounds (s : Solver d K) (l u : Option (Vec K d.m)) : Solver d K :=
  { s with work := { s.work with
      z_prev := if l.isSome then s.work.data.l else s.work.z_prev
      delta_y := if u.isSome then s.work.data.u else s.work.delta_y
      data := { s.work.data with l := (l.map (scB s)).getD s.work.data.l, u := (u.map (scB s)).getD s.work.data.u } } }

def vecRho (env : Env d K) (s : Solver d K) (l u : Option (Vec K d.m)) : Solver d K × ℤ :=
  if (l.isSome || u.isSome) && decide (s.settings.rho_is_vec ≠ 0) then updateRhoVec env s else (s, 0)

def vecQ (s : Solver d K) (q : Option (Vec K d.n)) : Solver d K :=
  match q with
  | some q => { s with work := { s.work with data := { s.work.data with
      q := if s.settings.scaling ≠ 0 then vScale (vEwProd q s.work.scaling.D) s.work.scaling.c else q } } }
  | none => s

/-- Normal form of `osqp_update_data_vec`. -/
theorem osqpUpdateDataVec_eq (q : Option (Vec K d.n)) (l u : Option (Vec K d.m))
    (hb : ∀ i, s.work.data.l i ≤ s.work.data.u i) :
    osqpUpdateDataVec cfg env s q l u =
      let s1 := if cfg.profiling then clearUpdateTime s else s
      if ∀ i, ((l.map (scB s)).getD s.work.data.l) i ≤ ((u.map (scB s)).getD s.work.data.u) i then
        let r := vecRho env (vecBounds s1 l u) l u
        let s2 := vecQ r.1 q
        let s3 := { s2 with info := resetInfo cfg s2.info }
        (if cfg.profiling then addUpdateTime env s3 else s3, r.2)
      else ({ s1 with work := { s1.work with z_prev := (l.map (scB s)).getD s.work.z_prev, delta_y := (u.map (scB s)).getD s.work.delta_y } }, Err.dataValidation) := by
  have hd : (if cfg.profiling then clearUpdateTime s else s).work.data = s.work.data := by split_ifs <;> simp
  have hsc : (if cfg.profiling then clearUpdateTime s else s).work.scaling = s.work.scaling := by split_ifs <;> simp
  have hst : (if cfg.profiling then clearUpdateTime s else s).settings = s.settings := by split_ifs <;> simp
  have hz : (if cfg.profiling then clearUpdateTime s else s).work.z_prev = s.work.z_prev := by split_ifs <;> simp
  have hdy : (if cfg.profiling then clearUpdateTime s else s).work.delta_y = s.work.delta_y := by split_ifs <;> simp
  unfold osqpUpdateDataVec
  generalize (if cfg.profiling then clearUpdateTime s else s) = s1 at *
  have e1 : ∀ v : Vec K d.m, (if s1.settings.scaling ≠ 0 then vEwProd v s1.work.scaling.E else v) = scB s v := by
    intro v; unfold scB; rw [hsc, hst]
  have e2 : scB s1 = scB s := by funext v; exact e1 v
  cases l <;> cases u
  · have hcond : ∀ i, ((Option.map (scB s) none).getD s.work.data.l) i ≤ ((Option.map (scB s) none).getD s.work.data.u) i := hb
    rw [if_pos hcond]
    cases q <;> rfl
  all_goals
    dsimp only
    simp only [e1]
    try simp only [hd]
    simp only [Option.map_some, Option.map_none, Option.getD_some, Option.getD_none]
  · rename_i u
    by_cases hc : ∀ i, s.work.data.l i ≤ scB s u i
    · have hv : vAllLeq s.work.data.l (scB s u) = true := (vAllLeq_iff _ _).2 hc
      simp only [eq_true hc, hv, Bool.not_true, Bool.false_eq_true, if_true, if_false]
      cases q <;> simp [vecRho, vecBounds, vecQ, e2, hd]
    · have hv : vAllLeq s.work.data.l (scB s u) = false := by rw [← Bool.not_eq_true, vAllLeq_iff]; exact hc
      simp only [eq_false hc, hv, Bool.not_false, if_true, if_false]
      simp [hz, hdy]
  · rename_i l
    by_cases hc : ∀ i, scB s l i ≤ s.work.data.u i
    · have hv : vAllLeq (scB s l) s.work.data.u = true := (vAllLeq_iff _ _).2 hc
      simp only [eq_true hc, hv, Bool.not_true, Bool.false_eq_true, if_true, if_false]
      cases q <;> simp [vecRho, vecBounds, vecQ, e2, hd]
    · have hv : vAllLeq (scB s l) s.work.data.u = false := by rw [← Bool.not_eq_true, vAllLeq_iff]; exact hc
      simp only [eq_false hc, hv, Bool.not_false, if_true, if_false]
      simp [hz, hdy]
  · rename_i l u
    by_cases hc : ∀ i, scB s l i ≤ scB s u i
    · have hv : vAllLeq (scB s l) (scB s u) = true := (vAllLeq_iff _ _).2 hc
      simp only [eq_true hc, hv, Bool.not_true, Bool.false_eq_true, if_true, if_false]
      cases q <;> simp [vecRho, vecBounds, vecQ, e2, hd]
    · have hv : vAllLeq (scB s l) (scB s u) = false := by rw [← Bool.not_eq_true, vAllLeq_iff]; exact hc
      simp only [eq_false hc, hv, Bool.not_false, if_true, if_false]

theorem scB_getD_l (h : Inv cfg st₀ U s) (l : Option (Vec K d.m)) :
    (l.map (scB s)).getD s.work.data.l = scB s (l.getD U.l) := by
  cases l
  · exact (scB_l h).symm
  · rfl

theorem scB_getD_u (h : Inv cfg st₀ U s) (u : Option (Vec K d.m)) :
    (u.map (scB s)).getD s.work.data.u = scB s (u.getD U.u) := by
  cases u
  · exact (scB_u h).symm
  · rfl

/-- The solver accepts a bound update iff the resulting user bounds are ordered. -/
theorem vec_accept_iff (h : Inv cfg st₀ U s) (l u : Option (Vec K d.m)) :
    (∀ i, ((l.map (scB s)).getD s.work.data.l) i ≤ ((u.map (scB s)).getD s.work.data.u) i) ↔
    ∀ i, (l.getD U.l) i ≤ (u.getD U.u) i := by
  rw [scB_getD_l h, scB_getD_u h, scB_le h]

theorem inv_vecBounds (h : Inv cfg st₀ U s) (l u : Option (Vec K d.m)) (hlu : ∀ i, (l.getD U.l) i ≤ (u.getD U.u) i) :
    Inv cfg st₀ { U with l := l.getD U.l, u := u.getD U.u } (vecBounds s l u) := by
  have h1 := inv_setBounds h (l.getD U.l) (u.getD U.u) hlu _ _ (scB_getD_l h l) (scB_getD_u h u)
  exact inv_scratch h1 _ _

theorem inv_vecQ (h : Inv cfg st₀ U s) (q : Option (Vec K d.n)) :
    Inv cfg st₀ { U with q := q.getD U.q } (vecQ s q) := by
  cases q with
  | none => exact h
  | some q => exact inv_setQ h q

theorem inv_updateDataVec (h : Inv cfg st₀ U s) (q : Option (Vec K d.n)) (l u : Option (Vec K d.m)) :
    Inv cfg st₀ (userStep U (.updateDataVec q l u)) (osqpUpdateDataVec cfg env s q l u).1 := by
  rw [osqpUpdateDataVec_eq q l u (rep_bounds h.rep h.bounds)]
  have h1 : Inv cfg st₀ U (if cfg.profiling then clearUpdateTime s else s) := inv_clear h cfg.profiling
  dsimp only
  unfold userStep
  dsimp only
  by_cases hc : ∀ i, (l.getD U.l) i ≤ (u.getD U.u) i
  · rw [if_pos hc, if_pos ((vec_accept_iff h l u).2 hc)]
    refine inv_addTime (inv_reset ?_) cfg.profiling
    refine inv_vecQ (U := { U with l := l.getD U.l, u := u.getD U.u }) ?_ q
    exact inv_updateRhoVec (inv_vecBounds h1 l u hc) _ (by simp)
  · rw [if_neg hc, if_neg (fun hx => hc ((vec_accept_iff h l u).1 hx))]
    exact inv_scratch h1 _ _

/-! ## Matrix updates -/

theorem matUpdBad_iff (nnz : ℕ) (a : MatUpd K) : matUpdBad nnz a = false ↔ MatArgsOK nnz a := by
  unfold matUpdBad MatArgsOK
  simp only [Bool.or_eq_false_iff, decide_eq_false_iff_not, not_lt, Bool.and_eq_false_iff, not_not, ge_iff_le, gt_iff_lt]
  cases a.idx with
  | none => simp; tauto
  | some x => simp; tauto

theorem matUpdApply_spec {q : ℕ} {v v' : Vec K q} {a : MatUpd K} (h : matUpdApply v a = some v') : v' = matNew v a := by
  unfold matUpdApply at h
  unfold matNew
  cases hx : a.x with
  | none => simp [hx] at h; exact h.symm
  | some new => simp only [hx] at h; exact (updateValues_spec h).1

/-- Data without scaling. -/
theorem unscaled_eq (h : Inv cfg st₀ U s) :
    (if s.settings.scaling ≠ 0 then unscaleData s.work.scaling s.work.data else s.work.data) = U := by
  split_ifs with h0
  · obtain ⟨ok, is⟩ := h.rep.1 h0; exact unscaleData_eq ok is
  · exact h.rep.2 (not_not.1 h0)

/-- Copying the touched entries brings the linear system back in sync. -/
theorem copyValues_matNew {q : ℕ} {v v' : Vec K q} {a : MatUpd K} {c : ℕ} (hc : c = matUpdCnt q a)
    (h : copyValues v (matNew v a) a.idx c = some v') : v' = matNew v a := by
  unfold matNew at h ⊢
  cases hx : a.x with
  | none => simp only [hx] at h; exact copyValues_same h
  | some new => simp only [hx] at h; subst hc; exact copyValues_overwrite h

theorem linsysUpdateMat_some {ls ls' : LinSys d K} {D : Data d K} {pi ai : Option (List ℤ)} {pn an : ℕ} {ef : ℤ}
    (h : linsysUpdateMat env ls D pi pn ai an = some (ls', ef)) :
    copyValues ls.P D.P pi pn = some ls'.P ∧ copyValues ls.A D.A ai an = some ls'.A ∧ ls'.sigma = ls.sigma ∧
    ls'.rho_inv_vec = ls.rho_inv_vec ∧ ls'.rho_inv = ls.rho_inv := by
  unfold linsysUpdateMat at h
  cases h1 : copyValues ls.P D.P pi pn <;> cases h2 : copyValues ls.A D.A ai an <;> simp only [h1, h2] at h
  all_goals cases h
  simp

/-- New data and linear system after an accepted matrix update. -/
theorem inv_setMats (hs : SqrtPos env) (h : Inv cfg st₀ U s) (p a : MatUpd K) {r : Data d K × Scaling d K} {ls : LinSys d K} {ef : ℤ}
    (hr : r = if s.settings.scaling ≠ 0 then scaleData env s.settings.scaling { U with P := matNew U.P p, A := matNew U.A a }
      else ({ U with P := matNew U.P p, A := matNew U.A a }, s.work.scaling))
    (hl : (if s.settings.scaling ≠ 0 then
          linsysUpdateMat env s.work.linsys r.1 none d.P.nnz none d.A.nnz
        else linsysUpdateMat env s.work.linsys r.1 p.idx (matUpdCnt d.P.nnz p) a.idx (matUpdCnt d.A.nnz a)) = some (ls, ef)) :
    Inv cfg st₀ { U with P := matNew U.P p, A := matNew U.A a }
      ({ s with work := { s.work with data := r.1, scaling := r.2, linsys := ls } } : Solver d K) := by
  have key : ls.P = r.1.P ∧ ls.A = r.1.A ∧ ls.sigma = s.work.linsys.sigma ∧ ls.rho_inv_vec = s.work.linsys.rho_inv_vec ∧
      ls.rho_inv = s.work.linsys.rho_inv := by
    by_cases h0 : s.settings.scaling ≠ 0
    · rw [if_pos h0] at hl
      obtain ⟨e1, e2, e3, e4, e5⟩ := linsysUpdateMat_some hl
      exact ⟨copyValues_all e1, copyValues_all e2, e3, e4, e5⟩
    · rw [if_neg h0] at hl hr
      obtain ⟨e1, e2, e3, e4, e5⟩ := linsysUpdateMat_some hl
      have hP : s.work.linsys.P = U.P := by rw [h.sync.P, h.rep.2 (not_not.1 h0)]
      have hA : s.work.linsys.A = U.A := by rw [h.sync.A, h.rep.2 (not_not.1 h0)]
      rw [hr] at e1 e2 ⊢
      rw [hP] at e1
      rw [hA] at e2
      exact ⟨copyValues_matNew rfl e1, copyValues_matNew rfl e2, e3, e4, e5⟩
  obtain ⟨k1, k2, k3, k4, k5⟩ := key
  refine ⟨?_, h.bounds, ?_, fun hr => h.rinv hr, h.live, h.valid0, h.fixed, h.status, h.aty, h.hand, h.sol⟩
  · constructor
    · intro h0
      dsimp only at h0 ⊢
      rw [if_pos h0] at hr
      rw [hr]; exact scaleData_spec hs _ _
    · intro h0
      dsimp only at h0 ⊢
      rw [if_neg (not_not.2 h0)] at hr
      rw [hr]
  · refine ⟨k1, k2, k3.trans h.sync.sigma, h.sync.rho_lo, h.sync.rho_hi, ?_, ?_⟩
    · intro hv; dsimp only; rw [k4]; exact h.sync.vec hv
    · intro hv; dsimp only; rw [k4, k5]; exact h.sync.sca hv

/-- Normal form of `osqp_update_data_mat` under the invariant. -/
theorem osqpUpdateDataMat_some (h : Inv cfg st₀ U s) {p a : MatUpd K} {s' : Solver d K} {code : ℤ}
    (e : osqpUpdateDataMat cfg env s p a = some (s', code)) :
    (¬ MatArgsOK d.P.nnz p ∧ code = 1 ∧ s' = (if cfg.profiling then clearUpdateTime s else s)) ∨
    (MatArgsOK d.P.nnz p ∧ ¬ MatArgsOK d.A.nnz a ∧ code = 2 ∧ s' = (if cfg.profiling then clearUpdateTime s else s)) ∨
    (MatArgsOK d.P.nnz p ∧ MatArgsOK d.A.nnz a ∧ ∃ r ls,
      r = (if s.settings.scaling ≠ 0 then scaleData env s.settings.scaling { U with P := matNew U.P p, A := matNew U.A a }
        else ({ U with P := matNew U.P p, A := matNew U.A a }, s.work.scaling)) ∧
      (if s.settings.scaling ≠ 0 then
          linsysUpdateMat env s.work.linsys r.1 none d.P.nnz none d.A.nnz
        else linsysUpdateMat env s.work.linsys r.1 p.idx (matUpdCnt d.P.nnz p) a.idx (matUpdCnt d.A.nnz a)) = some (ls, code) ∧
      s' = (let s1 := if cfg.profiling then clearUpdateTime s else s
        let s2 : Solver d K := { s1 with work := { s1.work with data := r.1, scaling := r.2, linsys := ls } }
        let s3 : Solver d K := { s2 with info := resetInfo cfg s2.info }
        if cfg.profiling then addUpdateTime env s3 else s3)) := by
  have hu := unscaled_eq h
  have hsc : (if cfg.profiling then clearUpdateTime s else s).work.scaling = s.work.scaling := by split_ifs <;> simp
  have hst : (if cfg.profiling then clearUpdateTime s else s).settings = s.settings := by split_ifs <;> simp
  have hls : (if cfg.profiling then clearUpdateTime s else s).work.linsys = s.work.linsys := by split_ifs <;> simp
  have hd : (if cfg.profiling then clearUpdateTime s else s).work.data = s.work.data := by split_ifs <;> simp
  unfold osqpUpdateDataMat at e
  generalize (if cfg.profiling then clearUpdateTime s else s) = s1 at *
  dsimp only at e
  rw [hsc, hst, hd, hu] at e
  by_cases hp : MatArgsOK d.P.nnz p
  · have hp' := (matUpdBad_iff _ _).2 hp
    by_cases ha : MatArgsOK d.A.nnz a
    · have ha' := (matUpdBad_iff _ _).2 ha
      refine Or.inr (Or.inr ⟨hp, ha, ?_⟩)
      simp only [hp', ha', Bool.false_eq_true, if_false] at e
      cases h1 : matUpdApply U.P p with
      | none => simp [h1] at e
      | some P =>
        cases h2 : matUpdApply U.A a with
        | none => simp [h1, h2] at e
        | some A =>
          rw [h1, h2] at e
          dsimp only at e
          rw [matUpdApply_spec h1, matUpdApply_spec h2, hls] at e
          split at e
          · rename_i ls ef hh
            cases e
            exact ⟨_, ls, rfl, hh, by dsimp only; rw [hst]⟩
          · cases e
    · have ha' : matUpdBad d.A.nnz a = true := by
        rw [← Bool.not_eq_false]; exact fun hx => ha ((matUpdBad_iff _ _).1 hx)
      simp only [hp', ha', Bool.false_eq_true, if_false, if_true] at e
      cases e
      exact Or.inr (Or.inl ⟨hp, ha, rfl, rfl⟩)
  · have hp' : matUpdBad d.P.nnz p = true := by
      rw [← Bool.not_eq_false]; exact fun hx => hp ((matUpdBad_iff _ _).1 hx)
    simp only [hp', if_true] at e
    cases e
    exact Or.inl ⟨hp, rfl, rfl⟩

theorem inv_updateDataMat (hs : SqrtPos env) (h : Inv cfg st₀ U s) {p a : MatUpd K} {s' : Solver d K} {code : ℤ}
    (e : osqpUpdateDataMat cfg env s p a = some (s', code)) :
    Inv cfg st₀ (userStep U (.updateDataMat p a)) s' := by
  have h1 : Inv cfg st₀ U (if cfg.profiling then clearUpdateTime s else s) := inv_clear h cfg.profiling
  have hsc : (if cfg.profiling then clearUpdateTime s else s).work.scaling = s.work.scaling := by split_ifs <;> simp
  have hst : (if cfg.profiling then clearUpdateTime s else s).settings = s.settings := by split_ifs <;> simp
  have hls : (if cfg.profiling then clearUpdateTime s else s).work.linsys = s.work.linsys := by split_ifs <;> simp
  unfold userStep
  dsimp only
  rcases osqpUpdateDataMat_some h e with ⟨hp, _, e⟩ | ⟨_, ha, _, e⟩ | ⟨hp, ha, r, ls, hr, hl, e⟩
  · rw [if_neg (fun hx => hp hx.1), e]; exact h1
  · rw [if_neg (fun hx => ha hx.2), e]; exact h1
  · rw [if_pos ⟨hp, ha⟩, e]
    dsimp only
    rw [← hst, ← hsc] at hr
    rw [← hst, ← hls] at hl
    have h2 := inv_setMats (env := env) hs h1 p a hr hl
    exact inv_addTime (env := env) (inv_reset h2) cfg.profiling

/-! ## Histories -/

theorem inv_step (hs : SqrtPos env) (h : Inv cfg st₀ U s) {op : Op d K} {s' : Solver d K} {code : ℤ}
    (e : apiStep cfg env s op = some (s', code)) : Inv cfg st₀ (userStep U op) s' := by
  cases op with
  | solve => simp only [apiStep, Option.some.injEq] at e; have := inv_solve (env := env) h; rw [e] at this; exact this
  | updateDataVec q l u => simp only [apiStep, Option.some.injEq] at e; have := inv_updateDataVec (env := env) h q l u; rw [e] at this; exact this
  | updateDataMat p a => exact inv_updateDataMat hs h e
  | updateRho r => simp only [apiStep, Option.some.injEq] at e; have := inv_updateRho (env := env) h r; rw [e] at this; exact this
  | updateSettings st => simp only [apiStep, Option.some.injEq] at e; have := inv_updateSettings h st; rw [e] at this; exact this
  | warmStart x y => simp only [apiStep, Option.some.injEq] at e; have := inv_warmStart h x y; rw [e] at this; exact this
  | coldStart => simp only [apiStep, Option.some.injEq, Prod.mk.injEq] at e; rw [← e.1]; exact inv_coldStart h
  | getSolution dst => simp only [apiStep, Option.some.injEq, Prod.mk.injEq] at e; rw [← e.1]; exact inv_getSolution h dst

theorem hist_inv (hs : SqrtPos env) {D₀ : Data d K} (h : Hist cfg env D₀ st₀ U s) : Inv cfg st₀ U s := by
  induction h with
  | setup e => exact inv_setup hs e
  | step _ e ih => exact inv_step hs ih e

/-- Every reachable state has a history. -/
theorem reachable_hist (h : Reachable cfg env s) : ∃ D₀ st₀ U, Hist cfg env D₀ st₀ U s := by
  obtain ⟨D, st, s0, h0, hr⟩ := h
  refine ⟨D, st, ?_⟩
  induction hr with
  | refl => exact ⟨D, .setup h0⟩
  | step _ e ih => obtain ⟨U, hU⟩ := ih; exact ⟨_, .step hU e⟩

end Osqp
