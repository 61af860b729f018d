import Verif.Vm.ApiMat

/-!
# The API functions on memory compute those of the solver layer: set-up
-/

set_option linter.unusedSectionVars false
namespace Osqp.Vm
open Csc Spec
variable {L K : Type*} [Field K] [LinearOrder K] [IsStrictOrderedRing K] {d : Dims}
variable {F : Fix L K} {R : LinSys d K → L → Prop} {M0 M : Mach L K} {s s' : Solver d K} {c c' : Scr d K} {G : ℕ → Prop}
variable {W : Ptrs} {xz : Ref} {σ σ' σ0 : Store K} {V V' : (k : Name) → Option (Vec K (k.dim d.n d.m))} {st : Settings K}

/-! ## Allocation -/

/-- The memory of a solver under construction: the vectors hold `V`, there is room for those that exist, and memory that is not the solver's is
as in `σ0`. -/
structure Nw (st : Settings K) (W : Ptrs) (xz : Ref) (σ0 : Store K) (V : (k : Name) → Option (Vec K (k.dim d.n d.m))) (σ : Store K) : Prop where
  mem : Mem σ W V
  room : ∀ k : Name, k.there st = true → Room σ (W k) (k.dim d.n d.m)
  size : xz.len ≤ (σ xz.blk).size
  kept : ∀ b, (∀ k : Name, (W k).blk ≠ b) → σ b = σ0 b

theorem Nw.put (lay : Layout d.n d.m W xz) (h : Nw st W xz σ0 V σ) {k : Name} {f : Vec K (k.dim d.n d.m)} {r : Option (Store K)}
    (ho : ∃ σ', r = some σ' ∧ Has σ' (W k) (k.dim d.n d.m) f ∧ OnlyAt (W k) σ σ') (hV : Function.update V k (some f) = V') :
    Ok r (Nw st W xz σ0 V') := by
  obtain ⟨σ', e, h1, h2⟩ := ho
  subst hV
  exact ⟨σ', e, h.mem.put lay h1 h2, fun j hj => h2.room (h.room j hj), by rw [h2.1]; exact h.size,
    fun b hb => (h2.same (hb k).symm).trans (h.kept b hb)⟩

theorem Nw.eq (h : Nw st W xz σ0 V σ) (e : V = V') : Nw st W xz σ0 V' σ := e ▸ h

/-- What the vectors hold after their allocation. -/
def newVals (d : Dims) (st : Settings K) (k : Name) : Option (Vec K (k.dim d.n d.m)) := if k.there st && !k.raw then some (vSet 0) else none

theorem Name.mem_all (k : Name) : k ∈ Name.all := by cases k <;> decide

theorem allocate_at (lay : Layout d.n d.m W xz) (k : Name) (hx : k ≠ .xt) (hz : k ≠ .zt) :
    allocate st d.n d.m W xz σ0 (W k).blk = newArray st d.n d.m k := by
  have hne : (W k).blk ≠ xz.blk := by
    rw [← lay.len_xt.2.2]
    exact lay.own k .xt hx (fun h => hx h.1) fun h => hz h.1
  unfold allocate
  rw [if_neg hne]
  rcases e : Name.all.find? fun j => decide ((W j).blk = (W k).blk) with _ | j
  · have := List.find?_eq_none.1 e k k.mem_all
    simp at this
  · have h := List.find?_some e
    simp only [decide_eq_true_eq] at h
    have : j = k := by
      by_contra hj
      exact lay.own j k hj (fun h => hz h.2) (fun h => hx h.2) h
    rw [this]

theorem allocate_ok (ha : Allocated d W xz) : Nw st W xz σ0 (newVals d st) (allocate st d.n d.m W xz σ0) := by
  have lay := ha.lay
  obtain ⟨x1, x2, x3⟩ := lay.len_xt
  obtain ⟨z1, z2, z3⟩ := lay.len_zt
  have hxz : allocate st d.n d.m W xz σ0 xz.blk = Buf.zeroed ((d.n + d.m : ℕ) : ℤ) 0 := if_pos rfl
  have hz := zeroed_holds (α := K) (d.n + d.m) 0
  have hxt : Has (allocate st d.n d.m W xz σ0) (W .xt) d.n (vSet 0) := by
    refine ⟨x1, ?_, fun i => ?_⟩
    · rw [x2, x3, hxz, ]; have := hz.1; omega
    · rw [x2, x3, hxz]; exact hz.2 _ (by omega)
  have hzt : Has (allocate st d.n d.m W xz σ0) (W .zt) d.m (vSet 0) := by
    refine ⟨z1, ?_, fun i => ?_⟩
    · rw [z2, z3, hxz, ]; have := hz.1; omega
    · rw [z2, z3, hxz]; exact hz.2 _ (by omega)
  have hroom : ∀ k : Name, k.there st = true → Room (allocate st d.n d.m W xz σ0) (W k) (k.dim d.n d.m) := by
    intro k hk
    by_cases h1 : k = .xt
    · subst h1; exact hxt.toRoom
    by_cases h2 : k = .zt
    · subst h2; exact hzt.toRoom
    refine ⟨ha.len k, ?_⟩
    rw [allocate_at lay k h1 h2, lay.start k h2, newArray, if_pos hk]
    split_ifs
    · simp
    · have := (zeroed_holds (α := K) (k.dim d.n d.m) 0).1; omega
  refine ⟨fun k f hf => ?_, hroom, ?_, fun b hb => ?_⟩
  · unfold newVals at hf
    split_ifs at hf with hk
    obtain rfl := Option.some.inj hf
    simp only [Bool.and_eq_true, Bool.not_eq_true'] at hk
    by_cases h1 : k = .xt
    · subst h1; exact hxt
    by_cases h2 : k = .zt
    · subst h2; exact hzt
    have hr := hroom k hk.1
    refine ⟨hr.len, hr.room, fun i => ?_⟩
    rw [allocate_at lay k h1 h2, lay.start k h2, newArray, if_pos hk.1, hk.2]
    exact (zeroed_holds (α := K) (k.dim d.n d.m) 0).2 _ (by omega)
  · rw [hxz, lay.whole.2]; have := hz.1; omega
  · unfold allocate
    rw [if_neg (by rw [← x3]; exact (hb .xt).symm)]
    rcases e : Name.all.find? fun j => decide ((W j).blk = b) with _ | j
    · rfl
    · have h := List.find?_some e
      simp only [decide_eq_true_eq] at h
      exact absurd h (hb j)

theorem fromRaw_ok {v : Ref} {n : ℕ} {a : Buf K} {f : Vec K n} (hr : Room σ v n) (ha : Arr a f) :
    ∃ σ', fromRaw v (some a) σ = some σ' ∧ Has σ' v n f ∧ OnlyAt v σ σ' := by
  unfold fromRaw; rw [hr.len]
  refine map_loop hr fun k hk τ h => ?_
  have e : rdPtr (some a) (k : ℤ) = some (f ⟨k, hk⟩) := by
    unfold rdPtr Buf.rd
    simp only [Option.bind_some]
    rw [if_pos ⟨by omega, by have := ha.1; omega⟩, Int.toNat_natCast]; exact ha.2 ⟨k, hk⟩
  simp only [e, Option.bind_some]
  exact h.write hr hk rfl

theorem copy_stores {a b : ℕ} {pt : Pat a b} {X : Csc K} {v : Vec K pt.nnz} (h : Stores X pt v) : ∃ Y, Csc.copy X = some Y ∧ Stores Y pt v := by
  obtain ⟨V, hR, hm, hn, hz, he⟩ := h
  obtain ⟨Y, e, hY, -⟩ := copy_aux hR
  exact ⟨Y, e, V, hY, hm, hn, hz, he⟩

/-! ## The solver layer's set-up in pieces -/

/-- The first state of a solver. -/
def born (D : Data d K) (sc : Scaling d K) (st : Settings K) (sol : Option (Solution d K)) : Solver d K :=
  { settings := st
    info :=
      { status := "", status_val := 0, status_polish := 0, obj_val := 0, dual_obj_val := 0, prim_res := 0,
        dual_res := 0, duality_gap := 0, iter := 0, rho_updates := 0, rho_estimate := 0, setup_time := 0,
        solve_time := 0, update_time := 0, polish_time := 0, run_time := 0, primdual_int := 0, rel_kkt_error := 0 }
    work :=
      { data := D, linsys := ⟨D.P, D.A, st.sigma, none, 0⟩,
        rho_vec := vSet 0, rho_inv_vec := vSet 0, rho_inv := 0, constr_type := fun _ => 0,
        x := vSet 0, y := vSet 0, z := vSet 0, x_prev := vSet 0, z_prev := vSet 0,
        Ax := vSet 0, Px := vSet 0, Aty := vSet 0, delta_y := vSet 0, delta_x := vSet 0,
        scaling := sc, scaled_prim_res := 0, scaled_dual_res := 0, scaled_dual_gap := 0,
        xtPx := 0, qtx := 0, SC := 0, rho_updated := false, last_rel_kkt := 0,
        first_run := false, clear_update_time := false, rho_update_from_solve := false }
    solution := sol, ticks := 0, polls := 0, handler := false }

def withRho (s : Solver d K) : Solver d K :=
  if s.settings.rho_is_vec ≠ 0 then (Osqp.setRhoVec s).1
  else { s with settings := { s.settings with rho := clampRho s.settings.rho }, work := { s.work with rho_inv := 1 / s.settings.rho } }

def sysOf (s : Solver d K) : LinSys d K :=
  ⟨s.work.data.P, s.work.data.A, s.settings.sigma, if s.settings.rho_is_vec ≠ 0 then some (fun i => 1 / s.work.rho_vec i) else none, 1 / s.settings.rho⟩

abbrev _root_.Osqp.Solver.lsy (s : Solver d K) (ls : LinSys d K) : Solver d K := { s with work := { s.work with linsys := ls } }
abbrev _root_.Osqp.Solver.inf (s : Solver d K) (i : Info K) : Solver d K := { s with info := i }

def unsolvedInfo (s : Solver d K) : Solver d K := { s with info := updateStatus { s.info with status_polish := Pol.notPerformed } St.unsolved }

def timed (cfg : Cfg) (env : Env d K) (s : Solver d K) : Solver d K :=
  if cfg.profiling then
    { (Osqp.toc env s).2 with
      info := { (Osqp.toc env s).2.info with setup_time := (Osqp.toc env s).1 }
      work := { (Osqp.toc env s).2.work with first_run := true } }
  else s

def lastInfo (s : Solver d K) : Solver d K :=
  { s with
    settings := { s.settings with adaptive_rho_interval := setupInterval s.settings }
    info := { s.info with
      rho_updates := 0, rho_estimate := s.settings.rho, obj_val := Const.infty K,
      prim_res := Const.infty K, dual_res := Const.infty K, rel_kkt_error := Const.infty K }
    work := { s.work with last_rel_kkt := Const.infty K, rho_updated := false } }

def scaled0 (env : Env d K) (D : Data d K) (st : Settings K) : Data d K × Scaling d K :=
  if st.scaling ≠ 0 then Osqp.scaleData env st.scaling D else (D, ⟨0, 0, vSet 0, vSet 0, vSet 0, vSet 0⟩)

def sol0 (d : Dims) (st : Settings K) : Option (Solution d K) := if st.allocate_solution ≠ 0 then some ⟨vSet 0, vSet 0, vSet 0, vSet 0⟩ else none

/-- `osqpSetup` from the step sizes on. -/
def tail (cfg : Cfg) (env : Env d K) (st : Settings K) (s : Solver d K) : SetupOut d K :=
  let s := if st.rho_is_vec ≠ 0 then (Osqp.setRhoVec s).1
    else { s with settings := { s.settings with rho := clampRho st.rho }
                  work := { s.work with rho_inv := 1 / st.rho } }
  let ls : LinSys d K :=
    { P := s.work.data.P, A := s.work.data.A, sigma := s.settings.sigma,
      rho_inv_vec := if st.rho_is_vec ≠ 0 then some (fun i => 1 / s.work.rho_vec i) else none,
      rho_inv := 1 / s.settings.rho }
  if env.factor ls < d.n then .failed Err.nonCvx
  else
    let s := { s with work := { s.work with linsys := ls } }
    let s := Osqp.coldStart s
    let sol : Option (Solution d K) := if st.allocate_solution ≠ 0 then
      some ⟨vSet 0, vSet 0, vSet 0, vSet 0⟩ else none
    let s := { s with solution := sol, info := updateStatus { s.info with status_polish := Pol.notPerformed } St.unsolved }
    let s := if cfg.profiling then
        let r := Osqp.toc env s
        let t := r.1
        let s := r.2
        { s with info := { s.info with setup_time := t }
                 work := { s.work with first_run := true } }
      else s
    let s := { s with info := { s.info with
        rho_updates := 0, rho_estimate := s.settings.rho, obj_val := Const.infty K,
        prim_res := Const.infty K, dual_res := Const.infty K, rel_kkt_error := Const.infty K } }
    .ok { s with
      settings := { s.settings with adaptive_rho_interval := setupInterval s.settings }
      work := { s.work with last_rel_kkt := Const.infty K, rho_updated := false } }

theorem tail_is (cfg : Cfg) (env : Env d K) (D : Data d K) (st : Settings K) : osqpSetup cfg env D st =
    if validateDataBad D then .rejected Err.dataValidation
    else if validateSettings cfg st true then .rejected Err.settingsValidation
    else tail cfg env st (born (scaled0 env D st).1 (scaled0 env D st).2 st none) := rfl

/-- `tail` after the step sizes. -/
def tail2 (cfg : Cfg) (env : Env d K) (st : Settings K) (s : Solver d K) (ls : LinSys d K) : Solver d K :=
  let s := { s with work := { s.work with linsys := ls } }
  let s := Osqp.coldStart s
  let sol : Option (Solution d K) := sol0 d st
  let s := { s with solution := sol, info := updateStatus { s.info with status_polish := Pol.notPerformed } St.unsolved }
  let s := timed cfg env s
  lastInfo s

theorem tail2_is (cfg : Cfg) (env : Env d K) (st : Settings K) (s : Solver d K) : tail cfg env st s =
    let s1 := if st.rho_is_vec ≠ 0 then (Osqp.setRhoVec s).1
      else { s with settings := { s.settings with rho := clampRho st.rho }
                    work := { s.work with rho_inv := 1 / st.rho } }
    let ls : LinSys d K :=
      { P := s1.work.data.P, A := s1.work.data.A, sigma := s1.settings.sigma,
        rho_inv_vec := if st.rho_is_vec ≠ 0 then some (fun i => 1 / s1.work.rho_vec i) else none,
        rho_inv := 1 / s1.settings.rho }
    if env.factor ls < d.n then .failed Err.nonCvx else .ok (tail2 cfg env st s1 ls) := rfl

theorem withRho_is {D : Data d K} {sc : Scaling d K} {st : Settings K} : (if st.rho_is_vec ≠ 0 then (Osqp.setRhoVec (born D sc st none)).1
      else { born D sc st none with settings := { (born D sc st none).settings with rho := clampRho st.rho }
                                    work := { (born D sc st none).work with rho_inv := 1 / st.rho } }) = withRho (born D sc st none) := rfl

theorem withRho_sol {D : Data d K} {sc : Scaling d K} {st : Settings K} (o : Option (Solution d K)) :
    withRho (born D sc st o) = { withRho (born D sc st none) with solution := o } := by
  unfold withRho
  by_cases h : st.rho_is_vec ≠ 0
  · rw [if_pos (show (born D sc st o).settings.rho_is_vec ≠ 0 from h), if_pos (show (born D sc st none).settings.rho_is_vec ≠ 0 from h)]; rfl
  · rw [if_neg (show ¬ (born D sc st o).settings.rho_is_vec ≠ 0 from h), if_neg (show ¬ (born D sc st none).settings.rho_is_vec ≠ 0 from h)]; rfl

theorem withRho_vec (s : Solver d K) : (withRho s).settings.rho_is_vec = s.settings.rho_is_vec := by
  unfold withRho
  split_ifs <;> rfl

theorem tail2_eq (cfg : Cfg) (env : Env d K) (st : Settings K) (s : Solver d K) (ls : LinSys d K) : tail2 cfg env st s ls =
    lastInfo (timed cfg env (unsolvedInfo (Osqp.coldStart (({ s with solution := sol0 d st } : Solver d K).lsy ls)))) := rfl

theorem osqpSetup_eq (cfg : Cfg) (env : Env d K) (D : Data d K) (st : Settings K) : osqpSetup cfg env D st =
    if validateDataBad D then .rejected Err.dataValidation
    else if validateSettings cfg st true then .rejected Err.settingsValidation
    else
      let r := scaled0 env D st
      let s := withRho (born r.1 r.2 st (sol0 d st))
      if env.factor (sysOf s) < d.n then .failed Err.nonCvx
      else .ok (lastInfo (timed cfg env (unsolvedInfo (Osqp.coldStart (s.lsy (sysOf s)))))) := by
  rw [tail_is]
  refine ite_congr rfl (fun _ => rfl) fun _ => ?_
  refine ite_congr rfl (fun _ => rfl) fun _ => ?_
  rw [tail2_is]
  generalize scaled0 env D st = r
  dsimp only
  rw [withRho_is, withRho_sol (sol0 d st)]
  have hv : (withRho (born r.1 r.2 st none)).settings.rho_is_vec = st.rho_is_vec := withRho_vec _
  generalize withRho (born r.1 r.2 st none) = s at hv
  rw [tail2_eq, ← hv]
  rfl

theorem withRho_keep (D : Data d K) (sc : Scaling d K) (st : Settings K) (sol : Option (Solution d K)) :
    (withRho (born D sc st sol)).settings.rho_is_vec = st.rho_is_vec ∧ (withRho (born D sc st sol)).work.data = D ∧ (withRho (born D sc st sol)).solution = sol ∧
    ((withRho (born D sc st sol)).info.solve_time = 0 ∧ (withRho (born D sc st sol)).info.update_time = 0 ∧
    (withRho (born D sc st sol)).info.polish_time = 0 ∧ (withRho (born D sc st sol)).info.run_time = 0 ∧
    (withRho (born D sc st sol)).work.clear_update_time = false ∧ (withRho (born D sc st sol)).work.rho_update_from_solve = false) := by
  unfold withRho
  by_cases h : st.rho_is_vec ≠ 0
  · rw [if_pos (show (born D sc st sol).settings.rho_is_vec ≠ 0 from h)]
    exact ⟨rfl, rfl, rfl, rfl, rfl, rfl, rfl, rfl, rfl⟩
  · rw [if_neg (show ¬ (born D sc st sol).settings.rho_is_vec ≠ 0 from h)]
    exact ⟨rfl, rfl, rfl, rfl, rfl, rfl, rfl, rfl, rfl⟩

/-! ## Set-up in memory -/

/-- The work vectors of a new solver. -/
def scr0 (Dt DtA : Vec K d.n) (Et : Vec K d.m) : Scr d K := ⟨vSet 0, vSet 0, vSet 0, vSet 0, vSet 0, Dt, DtA, Et, none, none, none⟩

/-- Contents `V` without the step sizes. -/
def noRho (V : (k : Name) → Option (Vec K (k.dim d.n d.m))) : (k : Name) → Option (Vec K (k.dim d.n d.m)) :=
  Function.update (Function.update V .rho none) .rhoInv none

/-- The vectors `q`, `l`, `u` are copied. -/
def withData (D : Data d K) (V : (k : Name) → Option (Vec K (k.dim d.n d.m))) : (k : Name) → Option (Vec K (k.dim d.n d.m)) :=
  Function.update (Function.update (Function.update V .q (some D.q)) .l (some D.l)) .u (some D.u)

theorem withData_vals (hs : st.scaling = 0) (D : Data d K) (sc : Scaling d K) :
    withData D (newVals d st) = noRho (vals (born D sc st (sol0 d st)) (scr0 (vSet 0) (vSet 0) (vSet 0))) := by
  funext k
  cases k
  case D => exact (if_neg (by simp [Name.there, hs])).trans (if_neg (not_not.2 hs)).symm
  case Dinv => exact (if_neg (by simp [Name.there, hs])).trans (if_neg (not_not.2 hs)).symm
  case E => exact (if_neg (by simp [Name.there, hs])).trans (if_neg (not_not.2 hs)).symm
  case Einv => exact (if_neg (by simp [Name.there, hs])).trans (if_neg (not_not.2 hs)).symm
  case Dt => exact (if_neg (by simp [Name.there, hs])).trans (if_neg (not_not.2 hs)).symm
  case DtA => exact (if_neg (by simp [Name.there, hs])).trans (if_neg (not_not.2 hs)).symm
  case Et => exact (if_neg (by simp [Name.there, hs])).trans (if_neg (not_not.2 hs)).symm
  case rho => exact if_neg (by simp [Name.raw])
  case rhoInv => exact if_neg (by simp [Name.raw])
  all_goals first | rfl | skip
  all_goals
    show newVals d st _ = Option.map _ (sol0 d st)
    unfold newVals sol0
    by_cases h : st.allocate_solution = 0 <;> simp [Name.there, Name.raw, h] <;> rfl

theorem setV_vals0 (hs : st.scaling ≠ 0) {D D' : Data d K} {sc : Scaling d K} {t : Sv d K}
    (h1 : t.q = D.q) (h2 : t.l = D.l) (h3 : t.u = D.u) (h4 : t.D = sc.D) (h5 : t.Dinv = sc.Dinv) (h6 : t.E = sc.E) (h7 : t.Einv = sc.Einv) :
    setV (withData D' (newVals d st)) t = noRho (vals (born D sc st (sol0 d st)) (scr0 t.Dt t.DtA t.Et)) := by
  funext k
  cases k
  case q => exact congrArg some h1
  case l => exact congrArg some h2
  case u => exact congrArg some h3
  case D => exact (congrArg some h4).trans (if_pos hs).symm
  case Dinv => exact (congrArg some h5).trans (if_pos hs).symm
  case E => exact (congrArg some h6).trans (if_pos hs).symm
  case Einv => exact (congrArg some h7).trans (if_pos hs).symm
  case Dt => exact (if_pos hs).symm
  case DtA => exact (if_pos hs).symm
  case Et => exact (if_pos hs).symm
  case rho => exact if_neg (by simp [Name.raw])
  case rhoInv => exact if_neg (by simp [Name.raw])
  all_goals first | rfl | skip
  all_goals
    show newVals d st _ = Option.map _ (sol0 d st)
    unfold newVals sol0
    by_cases h : st.allocate_solution = 0 <;> simp [Name.there, Name.raw, h] <;> rfl

theorem withData_setV (hs : st.scaling ≠ 0) (D : Data d K) :
    withData D (newVals d st) = setV (withData D (newVals d st)) ⟨D.q, D.l, D.u, vSet 0, vSet 0, vSet 0, vSet 0, vSet 0, vSet 0, vSet 0⟩ := by
  funext k
  cases k
  case D => exact if_pos (by simp [Name.there, Name.raw, hs])
  case Dinv => exact if_pos (by simp [Name.there, Name.raw, hs])
  case E => exact if_pos (by simp [Name.there, Name.raw, hs])
  case Einv => exact if_pos (by simp [Name.there, Name.raw, hs])
  case Dt => exact if_pos (by simp [Name.there, Name.raw, hs])
  case DtA => exact if_pos (by simp [Name.there, Name.raw, hs])
  case Et => exact if_pos (by simp [Name.there, Name.raw, hs])
  all_goals rfl

theorem Name.scl_there {k : Name} (hk : k.scl = true) (hs : st.scaling ≠ 0) : ∀ V t, ∃ f, setV (d := d) (K := K) V t k = some f := by
  intro V t
  cases k <;> first | exact ⟨_, rfl⟩ | cases hk

/-- Copying and scaling the data. -/
theorem setupData_ok {env : Env d K} (hs : SqrtPos env) (lay : Layout d.n d.m W xz) {D : Data d K} {P A : Csc K} (hP : Stores P d.P D.P) (hA : Stores A d.A D.A)
    (h : Nw st W xz σ0 (withData D (newVals d st)) σ) :
    Ok (if st.scaling ≠ 0 then scaleData env.sqrt d.n st.scaling W ⟨P, A, σ, some (0, 0)⟩ else some ⟨P, A, σ, none⟩) fun b =>
      ∃ c, c = scr0 c.Dt c.DtA c.Et ∧ Nw st W xz σ0 (noRho (vals (born (scaled0 env D st).1 (scaled0 env D st).2 st (sol0 d st)) c)) b.σ ∧
        Stores b.P d.P (scaled0 env D st).1.P ∧ Stores b.A d.A (scaled0 env D st).1.A ∧
        b.scl = if st.scaling ≠ 0 then some ((scaled0 env D st).2.c, (scaled0 env D st).2.cinv) else none := by
  refine .ite (fun hsc => ?_) fun hsc => ?_
  · have e : scaled0 env D st = Osqp.scaleData env st.scaling D := if_pos hsc
    have g0 : Sc W σ (withData D (newVals d st)) D.P D.A (some (0, 0)) ⟨D.q, D.l, D.u, vSet 0, vSet 0, vSet 0, vSet 0, vSet 0, vSet 0, vSet 0⟩
        ⟨P, A, σ, some (0, 0)⟩ := ⟨by rw [← withData_setV hsc]; exact h.mem, hP, hA, rfl, fun _ _ => rfl⟩
    refine (scaleData_ok lay hs st.scaling (t := ⟨D.q, D.l, D.u, vSet 0, vSet 0, vSet 0, vSet 0, vSet 0, vSet 0, vSet 0⟩) g0).mono fun b g => ?_
    rw [← e] at g
    obtain ⟨t, g, t1, t2, t3, t4, t5, t6, t7⟩ := g
    have hne : ∀ (j k : Name), k.scl = true → j.scl = false → (W j).blk ≠ (W k).blk := fun j k hk hj =>
      lay.own j k (scl_of_sol hk hj).symm (fun e => by rw [e.2] at hk; cases hk) fun e => by rw [e.2] at hk; cases hk
    refine ⟨scr0 t.Dt t.DtA t.Et, rfl, ⟨?_, fun k hk => ?_, ?_, fun b' hb => ?_⟩, g.P, g.A, ?_⟩
    · rw [← setV_vals0 (D' := D) hsc t1 t2 t3 t4 t5 t6 t7]; exact g.mem
    · rcases hj : k.scl with _ | _
      · refine ⟨(h.room k hk).len, ?_⟩
        rw [g.kept _ fun j hj' => hne k j hj' hj]
        exact (h.room k hk).room
      · obtain ⟨f, hf⟩ := Name.scl_there hj hsc (withData D (newVals d st)) t
        exact (g.mem k f hf).toRoom
    · rw [g.kept _ fun j hj' => by rw [← lay.len_xt.2.2]; exact hne .xt j hj' rfl]
      exact h.size
    · rw [g.kept _ fun j _ => (hb j).symm]
      exact h.kept b' hb
    · rw [g.scl, if_pos hsc]
  · have e : scaled0 env D st = (D, ⟨0, 0, vSet 0, vSet 0, vSet 0, vSet 0⟩) := if_neg hsc
    rw [e]
    refine .pure ⟨scr0 (vSet 0) (vSet 0) (vSet 0), rfl, ?_, hP, hA, (if_neg hsc).symm⟩
    rw [← withData_vals (not_not.1 hsc)]
    exact h

/-- A machine under construction. -/
structure Nm (st : Settings K) (W : Ptrs) (xz : Ref) (σ0 : Store K) (s : Solver d K) (c : Scr d K) (M : Mach Unit K) : Prop where
  ptr : M.W = W
  nw : Nw st W xz σ0 (vals s c) M.σ
  g : M.g = scal s
  types : s.settings.rho_is_vec ≠ 0 → d.m ≤ M.ct.size ∧ ∀ i : Fin d.m, M.ct.cell i = some (s.work.constr_type i)

/-- The step sizes. -/
theorem setupRho_ok (lay : Layout d.n d.m W xz) {D : Data d K} {sc : Scaling d K} {sol : Option (Solution d K)} {F : Fix Unit K} (hF : F.m = d.m)
    (h : Nw st W xz σ0 (noRho (vals (born D sc st sol) c)) σ) {g : Scal K} (hg : g = scal (born D sc st sol)) :
    Ok (if st.rho_is_vec ≠ 0 then (setRhoVec F { W := W, σ := σ, ct := Buf.zeroed d.m 0, lin := (), g := g }).bind fun r => some r.1
        else some (({ W := W, σ := σ, ct := Buf.zeroed d.m 0, lin := (), g := g } : Mach Unit K).upd fun g =>
          { g with st := { g.st with rho := clampRho st.rho }, rho_inv := 1 / st.rho }))
      (Nm st W xz σ0 (withRho (born D sc st sol)) c) := by
  subst hg
  refine .ite (fun hv => ?_) fun hv => ?_
  · have hp : (0 : K) < clampRho st.rho := rhoMin_pos.trans_le (clampRho_lo _)
    have hw : withRho (born D sc st sol) = (Osqp.setRhoVec (born D sc st sol)).1 := if_pos hv
    rw [hw]
    set ct := vBoundsType D.l D.u (Const.rhoTol K) (Const.infval K) with hct
    have hz := zeroed_holds (α := ℤ) d.m 0
    unfold setRhoVec
    dsimp only [Mach.upd]
    rw [hF]
    obtain ⟨q', e, e1, e2, e3⟩ := boundsType_holds (q := Buf.zeroed d.m 0) (old := fun _ => 0) ⟨hz.1, fun i => hz.2 i i.2⟩ (h.mem .l _ rfl) (h.mem .u _ rfl)
      (Const.rhoTol K) (Const.infval K)
    have hg : (scal (born D sc st sol)).st.rho = st.rho := rfl
    refine .bind (P := fun r => Nm st W xz σ0 (Osqp.setRhoVec (born D sc st sol)).1 c r.1) (.val e ?_) fun r h => .pure h
    dsimp only [Mach.vec]
    have ht : d.m ≤ q'.size ∧ ∀ i : Fin d.m, q'.cell i = some (ct i) := ⟨by rw [e1]; exact hz.1, e2⟩
    have hr : Name.there st .rho = true := decide_eq_true hv
    have hr' : Name.there st .rhoInv = true := decide_eq_true hv
    refine .bind (P := fun M => M = { M with W := W, ct := q', lin := (), g := { scal (born D sc st sol) with st := { st with rho := clampRho st.rho } } } ∧
      Nw st W xz σ0 (Function.update (noRho (vals (born D sc st sol) c)) .rho (some (rhoVecOf ct (clampRho st.rho)))) M.σ) ?_ fun M h => ?_
    · obtain ⟨σ', e, h'⟩ := h.put lay (k := .rho) (setCond_holds (h.room .rho hr) ht (Const.rhoMin K) (clampRho st.rho) (Const.rhoEqOverIneq K * clampRho st.rho)) rfl
      exact ⟨_, congrArg (Option.map _) e, rfl, h'⟩
    obtain ⟨eM, h⟩ := h
    rw [eM]
    refine .bind (P := fun M => M = { M with W := W, ct := q', lin := (), g := { scal (born D sc st sol) with st := { st with rho := clampRho st.rho } } } ∧
      Nw st W xz σ0 (vals (Osqp.setRhoVec (born D sc st sol)).1 c) M.σ) ?_ fun M h => ?_
    · obtain ⟨σ', e, h'⟩ := h.put lay (k := .rhoInv) (reciprocal_holds (h.room .rhoInv hr') (h.mem .rho (rhoVecOf ct (clampRho st.rho)) rfl) (lay.use _ _)
        (rhoVec_ne _ hp)) rfl
      refine ⟨_, congrArg (Option.map _) e, rfl, ?_⟩
      refine (show Function.update (Function.update (noRho (vals (born D sc st sol) c)) .rho (some (rhoVecOf ct (clampRho st.rho)))) .rhoInv
        (some (vRecip (rhoVecOf ct (clampRho st.rho)))) = vals (Osqp.setRhoVec (born D sc st sol)).1 c from ?_) ▸ h'
      funext k
      cases k
      case rho => exact (if_pos hv).symm
      case rhoInv => exact (if_pos hv).symm
      all_goals rfl
    obtain ⟨eM, h⟩ := h
    rw [eM]
    exact .pure ⟨rfl, h, rfl, fun _ => ht⟩
  · have hw : withRho (born D sc st sol) = _ := if_neg hv
    rw [hw]
    refine .pure ⟨rfl, ?_, rfl, fun h => absurd h hv⟩
    refine Nw.eq h ?_
    funext k
    cases k
    case rho => exact (if_neg hv).symm
    case rhoInv => exact (if_neg hv).symm
    all_goals rfl

theorem setupInfo_ok {cfg : Cfg} {env : Env d K} (hF : FixIs cfg env F) (h : Lv F R G M0 s c M) (h0 : s.info.solve_time = 0 ∧ s.info.update_time = 0 ∧
    s.info.polish_time = 0 ∧ s.info.run_time = 0 ∧ s.work.clear_update_time = false ∧ s.work.rho_update_from_solve = false) :
    Lv F R G M0 (lastInfo (timed cfg env (unsolvedInfo s))) c (setupInfo F M) := by
  unfold setupInfo
  extract_lets M1 t M2 M3
  have h1 : Lv F R G M0 (unsolvedInfo s) c M1 := h.upd rfl vv rr rfl
  have i1 : (unsolvedInfo s).info.solve_time = 0 ∧ (unsolvedInfo s).info.update_time = 0 ∧
    (unsolvedInfo s).info.polish_time = 0 ∧ (unsolvedInfo s).info.run_time = 0 ∧ (unsolvedInfo s).work.clear_update_time = false ∧
    (unsolvedInfo s).work.rho_update_from_solve = false := h0
  clear_value M1
  have h2 : Lv F R G M0 (timed cfg env (unsolvedInfo s)) c M2 := by
    show Lv F R G M0 _ c (if F.cfg.profiling then _ else M1)
    unfold timed
    rw [hF.cfg]
    split_ifs with hp
    swap
    · exact h1
    obtain ⟨e, ht⟩ := h1.toc hF.clk
    generalize unsolvedInfo s = s at i1 h1 e ht ⊢
    rw [show t.1 = _ from e]
    refine ht.upd ?_ vv rr rfl
    obtain ⟨j1, j2, j3, j4, j5, j6⟩ := i1
    have k : (Osqp.toc env s).2.info = s.info ∧ (Osqp.toc env s).2.work = s.work := ⟨rfl, rfl⟩
    simp only [scal, k.1, k.2, j1, j2, j3, j4, j5, j6]
  clear_value M2
  have h3 := h2.upd (f := fun g => { g with
      info := { g.info with
        rho_updates := 0, rho_estimate := g.st.rho, obj_val := Const.infty K,
        prim_res := Const.infty K, dual_res := Const.infty K, rel_kkt_error := Const.infty K }
      last_rel_kkt := Const.infty K
      rho_updated := false }) (s' := { timed cfg env (unsolvedInfo s) with
        info := { (timed cfg env (unsolvedInfo s)).info with
          rho_updates := 0, rho_estimate := (timed cfg env (unsolvedInfo s)).settings.rho, obj_val := Const.infty K,
          prim_res := Const.infty K, dual_res := Const.infty K, rel_kkt_error := Const.infty K }
        work := { (timed cfg env (unsolvedInfo s)).work with last_rel_kkt := Const.infty K, rho_updated := false } }) (c' := c) rfl vv rr rfl
  exact h3.upd rfl vv rr rfl

theorem setupInfo_W (F : Fix L K) (M : Mach L K) : (setupInfo F M).W = M.W := by
  unfold setupInfo
  dsimp only
  split_ifs <;> rfl

theorem vec_W {M M' : Mach L K} {f : Ptrs → Store K → Option (Store K)} (e : M.vec f = some M') : M'.W = M.W := by
  unfold Mach.vec at e
  rcases h : f M.W M.σ with _ | σ
  · rw [h] at e; cases e
  · rw [h] at e; cases e; rfl

theorem coldStart_W {M M' : Mach L K} (e : coldStart M = some M') : M'.W = M.W := by
  unfold coldStart at e
  obtain ⟨M1, e1, e⟩ := Option.bind_eq_some_iff.1 e
  obtain ⟨M2, e2, e⟩ := Option.bind_eq_some_iff.1 e
  rw [vec_W e, vec_W e2, vec_W e1]

theorem setup_ok {cfg : Cfg} {env : Env d K} {E : Lib L K} (hE : LibIs cfg env E R) (hs : SqrtPos env) (hW : Allocated d W xz) {a : SetupArgs K} {D : Data d K}
    (ha : ArgsAre a D st) (σ0 : Store K) : Ok (setup E W xz a σ0) (SameOut E R W σ0 (osqpSetup cfg env D st)) := by
  obtain ⟨P0, eP, hP⟩ := ha.P
  obtain ⟨q0, eq, hq⟩ := ha.q
  obtain ⟨A0, eA, hA⟩ := ha.A
  obtain ⟨l0, el, hl⟩ := ha.l
  obtain ⟨u0, eu, hu⟩ := ha.u
  have lay := hW.lay
  rw [osqpSetup_eq]
  unfold setup
  rw [eP, eq, eA, el, eu, ha.m, ha.n, ha.st, hE.cfg]
  refine .val (refine_validate hP hA hl hu) ?_
  rcases hbad : validateDataBad D with _ | _
  swap
  · exact .pure rfl
  simp only [Bool.false_eq_true, if_false]
  rcases hst : validateSettings cfg st true with _ | _
  swap
  · exact .pure rfl
  simp only [Bool.false_eq_true, if_false]
  refine .val rfl ?_
  refine .val rfl ?_
  obtain ⟨P, cP, hP⟩ := copy_stores hP
  obtain ⟨A, cA, hA⟩ := copy_stores hA
  rw [Int.toNat_natCast, Int.toNat_natCast]
  have h0 := allocate_ok (st := st) (σ0 := σ0) hW
  refine .val cP ?_
  refine .bind (h0.put lay (k := .q) (fromRaw_ok (h0.room .q rfl) hq) rfl) fun σ h => ?_
  refine .val cA ?_
  refine .bind (h.put lay (k := .l) (fromRaw_ok (h.room .l rfl) hl) rfl) fun σ h => ?_
  refine .bind (h.put lay (k := .u) (fromRaw_ok (h.room .u rfl) hu) rfl) fun σ h => ?_
  rw [hE.sqrt]
  refine .bind (setupData_ok hs lay hP hA h) fun b hb => ?_
  obtain ⟨c, -, h, hP, hA, hscl⟩ := hb
  generalize scaled0 env D st = r at h hP hA hscl ⊢
  refine .bind (setupRho_ok lay rfl h (by rw [hscl]; rfl)) fun M h => ?_
  have hk := withRho_keep (r.1) r.2 st (sol0 d st)
  generalize withRho (born r.1 r.2 st (sol0 d st)) = s at h hk ⊢
  obtain ⟨k1, k2, k3, k4⟩ := hk
  obtain ⟨W', σ, ct, _, g⟩ := M
  obtain ⟨rfl, h, rfl, ht⟩ := h
  dsimp only at h ht ⊢
  have hv : VecArr (if st.rho_is_vec ≠ 0 then some s.work.rho_vec else none) (if st.rho_is_vec ≠ 0 then some (σ (W' .rho).blk) else none) := by
    split_ifs with c
    · have := h.mem .rho _ (if_pos (k1 ▸ c))
      refine ⟨?_, fun i => ?_⟩
      · have h1 := this.room
        rw [lay.start .rho (by decide)] at h1
        change 0 + d.m ≤ _ at h1
        omega
      · have h1 := this.val i
        rw [lay.start .rho (by decide), zero_add] at h1
        exact h1
    · trivial
  have tri : ∀ k, d.P.row k ≤ d.P.col k := by
    intro k
    unfold validateDataBad at hbad
    simp only [Bool.or_eq_false_iff, List.any_eq_false, List.mem_finRange, true_imp_iff, decide_eq_true_eq, not_lt, gt_iff_lt] at hbad
    exact hbad.1.2 k
  obtain ⟨i1, i2⟩ := hE.init s.settings.sigma s.settings.rho hP hA tri hv
  have hls : (⟨r.1.P, r.1.A, s.settings.sigma, (if st.rho_is_vec ≠ 0 then some s.work.rho_vec else none).map fun v i => 1 / v i, 1 / s.settings.rho⟩ : LinSys d K) = sysOf s := by
    unfold sysOf
    rw [k1, k2]
    split_ifs <;> rfl
  rw [hls] at i1 i2
  by_cases hf : env.factor (sysOf s) < d.n
  · rw [if_pos hf]
    refine .val (i1 hf) ?_
    exact .pure rfl
  rw [if_neg hf]
  obtain ⟨lin, e, hlin⟩ := i2 hf
  refine .val e ?_
  dsimp only
  have hown : (sysOf s).rho_inv_vec.isSome → s.settings.rho_is_vec ≠ 0 := by
    unfold sysOf
    split_ifs with c
    · exact fun _ => c
    · intro h; cases h
  have S : Lv (E.fix ⟨b.P, b.A, d.n, d.m, xz, decide (st.allocate_solution ≠ 0), ⟨W', σ, ct, lin, scal s⟩⟩) R (fun b => ∀ k : Name, (W' k).blk ≠ b)
      ⟨W', σ, ct, lin, scal s⟩ (s.lsy (sysOf s)) c ⟨W', σ, ct, lin, scal s⟩ := by
    refine ⟨⟨lay, h.size, ?_, ht, hlin, hown, rfl, ?_, ?_, ?_, fun k hk => h.room k ?_, .inl rfl, rfl, fun _ _ _ => rfl⟩, fun _ => .rfl, fun _ _ => rfl,
      fun b hb k _ => hb k, fun _ _ => rfl⟩
    · rw [show vals (s.lsy (sysOf s)) c = vals s c from vv]; exact h.mem
    · show Stores b.P d.P s.work.data.P
      rw [k2]; exact hP
    · show Stores b.A d.A s.work.data.A
      rw [k2]; exact hA
    · show decide (st.allocate_solution ≠ 0) = s.solution.isSome
      rw [k3]; unfold sol0
      split_ifs with c
      · simp [c]
      · simp [c]
    · cases k <;> first | rfl | cases hk
  obtain ⟨M, eM, hM⟩ := S.coldStart
  refine .val eM ?_
  refine .pure ?_
  have fin := setupInfo_ok (cfg := cfg) (env := env) ⟨hE.cfg, rfl, hE.sqrt, hE.clk, hE.intr⟩ hM k4
  have hW : (setupInfo (E.fix ⟨b.P, b.A, d.n, d.m, xz, decide (st.allocate_solution ≠ 0), M⟩) M).W = W' := by
    rw [setupInfo_W, coldStart_W eM]
  refine ⟨⟨rfl, rfl, ?_⟩, hW, fun b' hb => ?_⟩
  · exact fin.sh.shows.1
  · have hb' : ∀ k : Name, (W' k).blk ≠ b' := fun k hk => hb ⟨k, by dsimp only; rw [hW]; exact hk⟩
    exact (fin.kept b' hb').trans (h.kept b' hb')

end Osqp.Vm
