import Verif.Lemmas.Idle
import Verif.Spec.Calls

/-!
# Warm starts commute with updates of the vectors and the step size
-/

set_option linter.unusedSectionVars false
namespace Osqp

/-- A starting point and the setting that makes the next solve use it. -/
structure Pt (d : Dims) (K : Type*) where
  w : ℤ
  x : Vec K d.n
  y : Vec K d.m
  z : Vec K d.m

variable {K : Type*} [Field K] [LinearOrder K] [IsStrictOrderedRing K] {d : Dims} (cfg : Cfg) (env : Env d K) {v : Pt d K}

/-- The same solver with another starting point. -/
def setPt (v : Pt d K) (s : Solver d K) : Solver d K :=
  { s with settings := { s.settings with warm_starting := v.w }, work := { s.work with x := v.x, y := v.y, z := v.z } }

theorem sp_linsysUpdateRho (s : Solver d K) : linsysUpdateRho env (setPt v s).work.linsys (setPt v s).work.rho_vec (setPt v s).settings.rho =
    linsysUpdateRho env s.work.linsys s.work.rho_vec s.settings.rho := rfl

theorem sp_setRho (s : Solver d K) (r : K) : setRho (setPt v s) r = setPt v (setRho s r) := by
  unfold setRho; dsimp only
  have e : (setPt v s).settings.rho_is_vec = s.settings.rho_is_vec := rfl
  rw [e]; split_ifs <;> rfl

theorem sp_clear (s : Solver d K) : clearUpdateTime (setPt v s) = setPt v (clearUpdateTime s) := by
  unfold clearUpdateTime
  have e : (setPt v s).work.clear_update_time = s.work.clear_update_time := rfl
  rw [e]; split_ifs <;> rfl

theorem sp_add (s : Solver d K) : addUpdateTime env (setPt v s) = setPt v (addUpdateTime env s) := rfl

theorem sp_osqpUpdateRho (s : Solver d K) (r : K) :
    osqpUpdateRho cfg env (setPt v s) r = (setPt v (osqpUpdateRho cfg env s r).1, (osqpUpdateRho cfg env s r).2) := by
  unfold osqpUpdateRho
  by_cases hr : r ≤ 0
  · rw [if_pos hr, if_pos hr]
  rw [if_neg hr, if_neg hr]
  dsimp only
  have e : (setPt v s).work.rho_update_from_solve = s.work.rho_update_from_solve := rfl
  have h1 : (if (cfg.profiling && !(setPt v s).work.rho_update_from_solve) = true then clearUpdateTime (setPt v s) else setPt v s) =
      setPt v (if (cfg.profiling && !s.work.rho_update_from_solve) = true then clearUpdateTime s else s) := by
    rw [e, sp_clear]; split_ifs <;> rfl
  rw [h1, sp_setRho, sp_linsysUpdateRho]
  generalize setRho _ r = t
  have e2 : (setPt v t).work.rho_update_from_solve = t.work.rho_update_from_solve := rfl
  simp only [e2]
  split_ifs <;> rfl

theorem sp_updateRhoVec (s : Solver d K) : updateRhoVec env (setPt v s) = (setPt v (updateRhoVec env s).1, (updateRhoVec env s).2) := by
  have h : setRhoVec (setPt v s) = (setPt v (setRhoVec s).1, (setRhoVec s).2) := rfl
  unfold updateRhoVec
  dsimp only
  rw [h]
  dsimp only
  split_ifs <;> rfl

theorem sp_vecTail (q : Option (Vec K d.n)) (b : Bool) (s : Solver d K) : vecTail cfg env q b (setPt v s) = (setPt v (vecTail cfg env q b s).1, (vecTail cfg env q b s).2) := by
  unfold vecTail
  dsimp only
  have e : (setPt v s).settings.rho_is_vec = s.settings.rho_is_vec := rfl
  have h1 : (if (b && decide ((setPt v s).settings.rho_is_vec ≠ 0)) = true then updateRhoVec env (setPt v s) else (setPt v s, 0)) =
      (setPt v (if (b && decide (s.settings.rho_is_vec ≠ 0)) = true then updateRhoVec env s else (s, 0)).1,
        (if (b && decide (s.settings.rho_is_vec ≠ 0)) = true then updateRhoVec env s else (s, 0)).2) := by
    rw [e, sp_updateRhoVec]; split_ifs <;> rfl
  rw [h1]
  generalize (if (b && decide (s.settings.rho_is_vec ≠ 0)) = true then updateRhoVec env s else (s, 0)) = r
  obtain ⟨t, ef⟩ := r
  dsimp only
  by_cases hp : cfg.profiling = true
  · simp only [hp, if_true]
    cases q with
    | none => rfl
    | some q => dsimp only; by_cases hs : t.settings.scaling ≠ 0 <;> rfl
  · simp only [if_neg hp]
    cases q with
    | none => rfl
    | some q => dsimp only; by_cases hs : t.settings.scaling ≠ 0 <;> rfl

theorem sp_if {P : Prop} [Decidable P] {x y x' y' : Solver d K × ℤ} (h1 : x = (setPt v x'.1, x'.2)) (h2 : y = (setPt v y'.1, y'.2)) :
    (if P then x else y) = (setPt v (if P then x' else y').1, (if P then x' else y').2) := by
  split_ifs <;> assumption

theorem sp_vecCore (q : Option (Vec K d.n)) (l u : Option (Vec K d.m)) (s : Solver d K) :
    vecCore cfg env q l u (setPt v s) = (setPt v (vecCore cfg env q l u s).1, (vecCore cfg env q l u s).2) := by
  cases l with
  | none => cases u with
    | none => exact sp_vecTail cfg env q false s
    | some u => exact sp_if rfl (sp_vecTail cfg env q true { s with work := { s.work with delta_y := s.work.data.u, data := { s.work.data with u := scaled s u } } })
  | some l => cases u with
    | none => exact sp_if rfl (sp_vecTail cfg env q true { s with work := { s.work with z_prev := s.work.data.l, data := { s.work.data with l := scaled s l } } })
    | some u => exact sp_if rfl (sp_vecTail cfg env q true
        { s with work := { s.work with z_prev := s.work.data.l, delta_y := s.work.data.u, data := { s.work.data with l := scaled s l, u := scaled s u } } })

theorem sp_updateVec (q : Option (Vec K d.n)) (l u : Option (Vec K d.m)) (s : Solver d K) :
    osqpUpdateDataVec cfg env (setPt v s) q l u = (setPt v (osqpUpdateDataVec cfg env s q l u).1, (osqpUpdateDataVec cfg env s q l u).2) := by
  have h0 : (if cfg.profiling = true then clearUpdateTime (setPt v s) else setPt v s) = setPt v (if cfg.profiling = true then clearUpdateTime s else s) := by
    rw [sp_clear]; split_ifs <;> rfl
  rw [vec_core, vec_core, h0, sp_vecCore]


/-- What a warm start makes of the starting point. -/
def warmPt (s : Solver d K) (x : Option (Vec K d.n)) (y : Option (Vec K d.m)) : Pt d K :=
  { w := if s.settings.warm_starting = 0 then 1 else s.settings.warm_starting
    x := match x with
      | some x => if s.settings.scaling ≠ 0 then vEwProd x s.work.scaling.Dinv else x
      | none => s.work.x
    y := match y with
      | some y => if s.settings.scaling ≠ 0 then vScale (vEwProd y s.work.scaling.Einv) s.work.scaling.c else y
      | none => s.work.y
    z := match x with
      | some x => spMul d.A s.work.data.A (if s.settings.scaling ≠ 0 then vEwProd x s.work.scaling.Dinv else x)
      | none => s.work.z }

theorem warm_eq (s : Solver d K) (x : Option (Vec K d.n)) (y : Option (Vec K d.m)) : osqpWarmStart s x y = (setPt (warmPt s x y) s, 0) := by
  unfold osqpWarmStart warmPt
  by_cases h : s.settings.warm_starting = 0
  · simp only [if_pos h]
    cases x <;> cases y <;> rfl
  · simp only [if_neg h]
    cases x <;> cases y <;> rfl

/-- What a warm start reads. -/
structure SameView (s t : Solver d K) : Prop where
  warm : t.settings.warm_starting = s.settings.warm_starting
  on : t.settings.scaling = s.settings.scaling
  sc : t.work.scaling = s.work.scaling
  A : t.work.data.A = s.work.data.A
  x : t.work.x = s.work.x
  y : t.work.y = s.work.y
  z : t.work.z = s.work.z

theorem SameView.pt {s t : Solver d K} (h : SameView s t) (x : Option (Vec K d.n)) (y : Option (Vec K d.m)) : warmPt t x y = warmPt s x y := by
  unfold warmPt
  rw [h.warm, h.on, h.sc, h.A, h.x, h.y, h.z]

theorem SameView.trans {s t u : Solver d K} (h : SameView s t) (k : SameView t u) : SameView s u :=
  ⟨k.warm.trans h.warm, k.on.trans h.on, k.sc.trans h.sc, k.A.trans h.A, k.x.trans h.x, k.y.trans h.y, k.z.trans h.z⟩

theorem view_clear (b : Bool) (s : Solver d K) : SameView s (if b then clearUpdateTime s else s) := by
  unfold clearUpdateTime
  split_ifs <;> exact ⟨rfl, rfl, rfl, rfl, rfl, rfl, rfl⟩

theorem view_rhoVec (s : Solver d K) : SameView s (updateRhoVec env s).1 := by
  unfold updateRhoVec setRhoVec
  dsimp only
  split_ifs <;> exact ⟨rfl, rfl, rfl, rfl, rfl, rfl, rfl⟩

theorem view_vecTail (q : Option (Vec K d.n)) (b : Bool) (s : Solver d K) : SameView s (vecTail cfg env q b s).1 := by
  unfold vecTail
  dsimp only
  have h : SameView s (if (b && decide (s.settings.rho_is_vec ≠ 0)) = true then updateRhoVec env s else (s, 0)).1 := by
    split_ifs
    · exact view_rhoVec env s
    · exact ⟨rfl, rfl, rfl, rfl, rfl, rfl, rfl⟩
  refine h.trans ?_
  generalize (if (b && decide (s.settings.rho_is_vec ≠ 0)) = true then updateRhoVec env s else (s, 0)) = r
  cases q <;> dsimp only <;> split_ifs <;> exact ⟨rfl, rfl, rfl, rfl, rfl, rfl, rfl⟩

theorem view_tail (q : Option (Vec K d.n)) (b : Bool) {s t : Solver d K} (h : SameView s t) : SameView s (vecTail cfg env q b t).1 := h.trans (view_vecTail cfg env q b t)

theorem view_if {P : Prop} [Decidable P] {s : Solver d K} {a b : Solver d K × ℤ} (ha : SameView s a.1) (hb : SameView s b.1) : SameView s (if P then a else b).1 := by
  split_ifs <;> assumption

theorem view_vec (s : Solver d K) (q : Option (Vec K d.n)) (l u : Option (Vec K d.m)) : SameView s (osqpUpdateDataVec cfg env s q l u).1 := by
  rw [vec_core]
  refine (view_clear cfg.profiling s).trans ?_
  generalize (if cfg.profiling = true then clearUpdateTime s else s) = b
  cases l with
  | none => cases u with
    | none => exact view_vecTail cfg env q false b
    | some u => refine view_if ⟨rfl, rfl, rfl, rfl, rfl, rfl, rfl⟩ (view_tail cfg env q true ?_); exact ⟨rfl, rfl, rfl, rfl, rfl, rfl, rfl⟩
  | some l => cases u with
    | none => refine view_if ⟨rfl, rfl, rfl, rfl, rfl, rfl, rfl⟩ (view_tail cfg env q true ?_); exact ⟨rfl, rfl, rfl, rfl, rfl, rfl, rfl⟩
    | some u => refine view_if ⟨rfl, rfl, rfl, rfl, rfl, rfl, rfl⟩ (view_tail cfg env q true ?_); exact ⟨rfl, rfl, rfl, rfl, rfl, rfl, rfl⟩

theorem view_rho (s : Solver d K) (r : K) : SameView s (osqpUpdateRho cfg env s r).1 := by
  unfold osqpUpdateRho
  by_cases hr : r ≤ 0
  · rw [if_pos hr]; exact ⟨rfl, rfl, rfl, rfl, rfl, rfl, rfl⟩
  rw [if_neg hr]
  dsimp only
  refine (view_clear (cfg.profiling && !s.work.rho_update_from_solve) s).trans ?_
  generalize (if (cfg.profiling && !s.work.rho_update_from_solve) = true then clearUpdateTime s else s) = b
  have h : SameView b (setRho b r) := by
    unfold setRho; dsimp only; split_ifs <;> exact ⟨rfl, rfl, rfl, rfl, rfl, rfl, rfl⟩
  refine h.trans ?_
  split_ifs <;> exact ⟨rfl, rfl, rfl, rfl, rfl, rfl, rfl⟩

end Osqp
