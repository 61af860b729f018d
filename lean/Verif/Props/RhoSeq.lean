import Verif.Spec.Calls
import Verif.Demo.Runs

/-!
# C88: of several step-size updates the last accepted one counts

`callAll` (`Spec/Calls.lean`): a sequence of calls.
-/

set_option linter.unusedSectionVars false
namespace Osqp
namespace Spec
variable {K : Type*} [Field K] [LinearOrder K] {d : Dims}

/-- The solvers are equal in everything but the measured update time (its value, whether it is to be cleared, and the number of clock readings). -/
def EqualButTime (s t : Solver d K) : Prop :=
  t = { s with ticks := t.ticks, info := { s.info with update_time := t.info.update_time }, work := { s.work with clear_update_time := t.work.clear_update_time } }

/-- The last positive number of a list. -/
def lastPositive : List K → Option K
  | [] => none
  | a :: l => match lastPositive l with
    | some v => some v
    | none => if 0 < a then some a else none

end Spec
open Spec
variable {K : Type*} [Field K] [LinearOrder K] {d : Dims} {cfg : Cfg} {env : Env d K} {s t u : Solver d K}

theorem Spec.EqualButTime.refl (s : Solver d K) : EqualButTime s s := rfl

theorem Spec.EqualButTime.trans (h : EqualButTime s t) (k : EqualButTime t u) : EqualButTime s u := by
  unfold EqualButTime at *
  rw [k, h]

theorem Spec.EqualButTime.symm (h : EqualButTime s t) : EqualButTime t s := by
  unfold EqualButTime at *
  rw [h]

/-- `osqp_update_rho` without the clock. -/
def rhoCore (env : Env d K) (s : Solver d K) (r : K) : Solver d K :=
  { setRho s r with work := { (setRho s r).work with linsys := (linsysUpdateRho env (setRho s r).work.linsys (setRho s r).work.rho_vec (setRho s r).settings.rho).1 } }

def rhoCode (env : Env d K) (s : Solver d K) (r : K) : ℤ :=
  (linsysUpdateRho env (setRho s r).work.linsys (setRho s r).work.rho_vec (setRho s r).settings.rho).2

theorem time_core (h : EqualButTime s t) (r : K) : EqualButTime (rhoCore env s r) (rhoCore env t r) ∧ rhoCode env t r = rhoCode env s r := by
  unfold EqualButTime at h
  rw [h]
  unfold rhoCore rhoCode setRho EqualButTime
  dsimp only
  split_ifs <;> exact ⟨rfl, rfl⟩

theorem set_set (s : Solver d K) (r r' : K) (ls : LinSys d K) : setRho { setRho s r with work := { (setRho s r).work with linsys := ls } } r' =
    { setRho s r' with work := { (setRho s r').work with linsys := ls } } := by
  unfold setRho
  dsimp only
  by_cases h : s.settings.rho_is_vec ≠ 0
  · simp only [if_pos h]
  · simp only [if_neg h]

theorem set_linsys (s : Solver d K) (r : K) : (setRho s r).work.linsys = s.work.linsys := by
  unfold setRho
  dsimp only
  split_ifs <;> rfl

theorem lin_lin (ls : LinSys d K) (v v' : Vec K d.m) (r r' : K) : linsysUpdateRho env (linsysUpdateRho env ls v r).1 v' r' = linsysUpdateRho env ls v' r' := by
  obtain ⟨a1, a2, a3, a4, a5⟩ := ls
  unfold linsysUpdateRho
  rcases a4 with _ | _ <;> rfl

theorem core_core (s : Solver d K) (r r' : K) : rhoCore env (rhoCore env s r) r' = rhoCore env s r' ∧ rhoCode env (rhoCore env s r) r' = rhoCode env s r' := by
  constructor
  · have c : ∀ t : Solver d K, rhoCore env t r' =
        { setRho t r' with work := { (setRho t r').work with linsys := (linsysUpdateRho env (setRho t r').work.linsys (setRho t r').work.rho_vec (setRho t r').settings.rho).1 } } := fun _ => rfl
    rw [c, c s, show setRho (rhoCore env s r) r' = _ from set_set s r r' _]
    dsimp only
    rw [lin_lin, set_linsys, set_linsys]
  · unfold rhoCode
    rw [show setRho (rhoCore env s r) r' = _ from set_set s r r' _]
    dsimp only
    rw [lin_lin, set_linsys, set_linsys]

theorem updateRho_core {r : K} (hr : 0 < r) : EqualButTime (rhoCore env s r) (osqpUpdateRho cfg env s r).1 ∧ (osqpUpdateRho cfg env s r).2 = rhoCode env s r := by
  unfold osqpUpdateRho
  rw [if_neg (not_le.2 hr)]
  have hc : EqualButTime s (if cfg.profiling && !s.work.rho_update_from_solve then clearUpdateTime s else s) := by
    unfold clearUpdateTime; split_ifs <;> rfl
  dsimp only
  generalize (if cfg.profiling && !s.work.rho_update_from_solve then clearUpdateTime s else s) = s1 at *
  obtain ⟨a, b⟩ := time_core (env := env) hc r
  refine ⟨a.trans ?_, b⟩
  split_ifs <;> rfl

theorem time_update (h : EqualButTime s t) (r : K) : EqualButTime (osqpUpdateRho cfg env s r).1 (osqpUpdateRho cfg env t r).1 ∧ (osqpUpdateRho cfg env t r).2 = (osqpUpdateRho cfg env s r).2 := by
  by_cases hr : 0 < r
  · obtain ⟨a, b⟩ := updateRho_core (cfg := cfg) (env := env) (s := s) hr
    obtain ⟨a', b'⟩ := updateRho_core (cfg := cfg) (env := env) (s := t) hr
    obtain ⟨c, e⟩ := time_core (env := env) h r
    exact ⟨(a.symm.trans c).trans a', by rw [b, b', e]⟩
  · unfold osqpUpdateRho
    rw [if_pos (not_lt.1 hr), if_pos (not_lt.1 hr)]
    exact ⟨h, rfl⟩

theorem update_update {r r' : K} (hr' : 0 < r') : EqualButTime (osqpUpdateRho cfg env s r').1 (osqpUpdateRho cfg env (osqpUpdateRho cfg env s r).1 r').1 ∧
    (osqpUpdateRho cfg env (osqpUpdateRho cfg env s r).1 r').2 = (osqpUpdateRho cfg env s r').2 := by
  by_cases hr : 0 < r
  · obtain ⟨a, b⟩ := updateRho_core (cfg := cfg) (env := env) (s := s) hr'
    obtain ⟨c, e⟩ := updateRho_core (cfg := cfg) (env := env) (s := s) hr
    obtain ⟨f, g⟩ := updateRho_core (cfg := cfg) (env := env) (s := (osqpUpdateRho cfg env s r).1) hr'
    obtain ⟨i, j⟩ := time_core (env := env) c r'
    obtain ⟨k, l⟩ := core_core (env := env) s r r'
    rw [k] at i
    exact ⟨(a.symm.trans i).trans f, by rw [g, j, l, b]⟩
  · have : osqpUpdateRho cfg env s r = (s, 1) := by unfold osqpUpdateRho; rw [if_pos (not_lt.1 hr)]
    rw [this]
    exact ⟨.refl _, rfl⟩

/-- **C88**.  After any sequence of step-size updates, accepted, rejected or failed, from any state of the solver: but for the measured time the solver is what a single update with the last positive value
makes of it; if no value is positive, it is unchanged. -/
theorem c88_last_counts (s : Solver d K) (l : List K) : ∃ t codes, callAll cfg env s (l.map .updateRho) = some (t, codes) ∧
    match lastPositive l with
    | some r => EqualButTime (osqpUpdateRho cfg env s r).1 t
    | none => t = s := by
  induction l generalizing s with
  | nil => exact ⟨s, [], rfl, rfl⟩
  | cons r l ih =>
    obtain ⟨t, codes, e, h⟩ := ih (osqpUpdateRho cfg env s r).1
    have step : callAll cfg env s ((r :: l).map .updateRho) = (callAll cfg env (osqpUpdateRho cfg env s r).1 (l.map .updateRho)).map fun q => (q.1, (osqpUpdateRho cfg env s r).2 :: q.2) := rfl
    refine ⟨t, (osqpUpdateRho cfg env s r).2 :: codes, by rw [step, e]; rfl, ?_⟩
    have pos : ∀ (l : List K) v, lastPositive l = some v → 0 < v := by
      intro l
      induction l with
      | nil => intro v h; cases h
      | cons a l ih =>
        intro v h
        unfold lastPositive at h
        cases el : lastPositive l with
        | some w => rw [el] at h; obtain rfl := Option.some.inj h; exact ih _ el
        | none =>
          rw [el] at h
          dsimp only at h
          split_ifs at h with ha
          obtain rfl := Option.some.inj h
          exact ha
    unfold lastPositive
    cases el : lastPositive l with
    | some v =>
      rw [el] at h
      dsimp only at h ⊢
      exact (update_update (pos l v el)).1.trans h
    | none =>
      rw [el] at h
      dsimp only at h ⊢
      by_cases hr : 0 < r
      · rw [if_pos hr]
        dsimp only
        rw [h]
        exact .refl _
      · rw [if_neg hr]
        dsimp only
        rw [h]
        unfold osqpUpdateRho
        rw [if_pos (not_lt.1 hr)]

/-- **C88, return code**. An update returns the same code whatever updates came before it. -/
theorem c88_code (s t : Solver d K) (l : List K) {codes : List ℤ} {r : K} (run : callAll cfg env s (l.map .updateRho) = some (t, codes)) (hr : 0 < r) :
    (osqpUpdateRho cfg env t r).2 = (osqpUpdateRho cfg env s r).2 ∧ EqualButTime (osqpUpdateRho cfg env s r).1 (osqpUpdateRho cfg env t r).1 := by
  obtain ⟨t', codes', e, h⟩ := c88_last_counts (cfg := cfg) (env := env) s l
  rw [e] at run
  obtain ⟨rfl, -⟩ := Prod.mk.inj (Option.some.inj run)
  cases el : lastPositive l with
  | some v =>
    rw [el] at h
    obtain ⟨a, b⟩ := time_update (cfg := cfg) (env := env) h r
    obtain ⟨a', b'⟩ := update_update (cfg := cfg) (env := env) (s := s) (r := v) hr
    exact ⟨b.trans b', a'.trans a⟩
  | none => rw [el] at h; rw [h]; exact ⟨rfl, .refl _⟩

/-- Three updates of a solved problem, one rejected and one beyond the limits. -/
example : (callAll Demo.cfg Demo.sSolved.env (Demo.sSolved.done Demo.okSolved) ([7, -1, 10 ^ 9, 3, 0].map .updateRho)).map (fun r => (r.1.settings.rho, r.1.work.rho_vec Demo.i0, r.2)) = some (3, 3, [0, 1, 0, 0, 1]) ∧
    lastPositive ([7, -1, 10 ^ 9, 3, 0] : List ℚ) = some 3 ∧ (Demo.sSolved.done Demo.okSolved).settings.rho ≠ 3 := by decide +kernel

end Osqp
