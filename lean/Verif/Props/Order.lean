import Verif.Lemmas.Order
import Verif.Spec.Calls
import Verif.Cex.Indep

/-!
# C89: when settings are updated among other updates

`callAll` (`Spec/Calls.lean`): a sequence of calls.
-/

set_option linter.unusedSectionVars false
namespace Osqp
namespace Spec
variable {K : Type*} [Field K] [LinearOrder K] {d : Dims}

/-- The call updates the problem or the step size, or resets the iterate. -/
def IsUpdate : Op d K → Prop
  | .updateDataVec _ _ _ => True
  | .updateDataMat _ _ => True
  | .updateRho _ => True
  | .coldStart => True
  | _ => False

/-- The last settings of a list that `osqp_update_settings` accepts: given, and valid. -/
def lastValid (cfg : Cfg) : List (Option (Settings K)) → Option (Settings K)
  | [] => none
  | a :: l => match lastValid cfg l with
    | some n => some n
    | none => match a with
      | some n => if validateSettings cfg n false then none else some n
      | none => none

end Spec
open Spec
variable {K : Type*} [Field K] [LinearOrder K] [IsStrictOrderedRing K] {d : Dims} {cfg : Cfg} {env : Env d K}

theorem new_step (v : Settings K) (op : Op d K) (h : IsUpdate op) (s : Solver d K) : apiStep cfg env (setNew v s) op = (apiStep cfg env s op).map fun r => (setNew v r.1, r.2) := by
  cases op with
  | updateDataVec q l u => exact congrArg some (sn_updateVec cfg env q l u s)
  | updateDataMat p a => exact sn_updateMat cfg env p a s
  | updateRho r => exact congrArg some (sn_osqpUpdateRho cfg env s r)
  | coldStart => rfl
  | _ => exact h.elim

/-- **C89, one update**. Updating the settings before or after an update of the problem or the step size, or a reset of the iterate, makes no difference: in both orders the calls are both defined or both undefined,
leave the same solver (in every field) and return the same codes. -/
theorem c89_swap (s : Solver d K) (st : Option (Settings K)) (op : Op d K) (h : IsUpdate op) :
    callAll cfg env s [.updateSettings st, op] = (callAll cfg env s [op, .updateSettings st]).map fun r => (r.1, r.2.reverse) := by
  have e1 : ∀ t : Solver d K, apiStep cfg env t (.updateSettings st) = some (osqpUpdateSettings cfg t st) := fun _ => rfl
  unfold callAll
  rw [e1]
  cases st with
  | none =>
    have e : ∀ t : Solver d K, osqpUpdateSettings cfg t none = (t, Err.settingsValidation) := fun _ => rfl
    simp only [e, callAll, e1]
    cases apiStep cfg env s op <;> simp
  | some n =>
    by_cases hv : validateSettings cfg n false = true
    · have e : ∀ t : Solver d K, osqpUpdateSettings cfg t (some n) = (t, Err.settingsValidation) := fun t => by rw [updateSettings_eq, if_pos hv]
      simp only [e, callAll, e1]
      cases apiStep cfg env s op <;> simp
    · have e : ∀ t : Solver d K, osqpUpdateSettings cfg t (some n) = (setNew n t, 0) := fun t => by rw [updateSettings_eq, if_neg hv]
      simp only [e, callAll, e1, new_step n op h]
      cases apiStep cfg env s op <;> simp

/-- **C89, many updates**. A settings update can be moved past any number of such updates. -/
theorem c89_move (s : Solver d K) (st : Option (Settings K)) (ops : List (Op d K)) (h : ∀ op ∈ ops, IsUpdate op) :
    (callAll cfg env s (.updateSettings st :: ops)).map (·.1) = (callAll cfg env s (ops ++ [.updateSettings st])).map (·.1) ∧
    (callAll cfg env s (.updateSettings st :: ops)).map (·.2.tail) = (callAll cfg env s (ops ++ [.updateSettings st])).map (·.2.dropLast) := by
  have key : callAll cfg env s (ops ++ [.updateSettings st]) = (callAll cfg env s (.updateSettings st :: ops)).map fun r => (r.1, r.2.tail ++ [(osqpUpdateSettings cfg s st).2]) := by
    have e1 : ∀ (t : Solver d K) (l : List (Op d K)), callAll cfg env t (.updateSettings st :: l) =
      (callAll cfg env (osqpUpdateSettings cfg t st).1 l).map fun r => (r.1, (osqpUpdateSettings cfg t st).2 :: r.2) := fun _ _ => rfl
    have code : ∀ t t' : Solver d K, (osqpUpdateSettings cfg t st).2 = (osqpUpdateSettings cfg t' st).2 := by
      intro t t'
      cases st with
      | none => rfl
      | some n => rw [updateSettings_eq, updateSettings_eq]; split_ifs <;> rfl
    have one : ∀ (t : Solver d K) (op : Op d K), IsUpdate op → apiStep cfg env (osqpUpdateSettings cfg t st).1 op = (apiStep cfg env t op).map fun r => ((osqpUpdateSettings cfg r.1 st).1, r.2) := by
      intro t op ho
      cases st with
      | none => change apiStep cfg env t op = _; cases apiStep cfg env t op <;> rfl
      | some n =>
        by_cases hv : validateSettings cfg n false = true
        · have e : ∀ t : Solver d K, osqpUpdateSettings cfg t (some n) = (t, Err.settingsValidation) := fun t => by rw [updateSettings_eq, if_pos hv]
          simp only [e]; cases apiStep cfg env t op <;> rfl
        · have e : ∀ t : Solver d K, osqpUpdateSettings cfg t (some n) = (setNew n t, 0) := fun t => by rw [updateSettings_eq, if_neg hv]
          simp only [e]; exact new_step n op ho t
    induction ops generalizing s with
    | nil => rfl
    | cons op ops ih =>
      rw [e1]
      have i := ih
      change (match apiStep cfg env s op with
        | none => none
        | some (t, c) => (callAll cfg env t (ops ++ [.updateSettings st])).map fun r => (r.1, c :: r.2)) = (Option.map _ (match apiStep cfg env (osqpUpdateSettings cfg s st).1 op with
        | none => none
        | some (t, c) => (callAll cfg env t ops).map fun r => (r.1, c :: r.2))).map _
      rw [one s op (h op (by simp))]
      cases apiStep cfg env s op with
      | none => rfl
      | some r =>
        obtain ⟨t, c⟩ := r
        dsimp only [Option.map_some]
        rw [ih t (fun o ho => h o (by simp [ho])), e1]
        rw [code s t]
        cases callAll cfg env (osqpUpdateSettings cfg t st).1 ops <;> rfl
  rw [key]
  constructor <;> cases callAll cfg env s (.updateSettings st :: ops) <;> simp

theorem lastValid_ok (l : List (Option (Settings K))) {n : Settings K} (h : lastValid cfg l = some n) : ¬ validateSettings cfg n false = true := by
  induction l with
  | nil => cases h
  | cons a l ih =>
    unfold lastValid at h
    cases el : lastValid cfg l with
    | some m => rw [el] at h; obtain rfl := Option.some.inj h; exact ih el
    | none =>
      rw [el] at h
      cases a with
      | none => cases h
      | some m =>
        dsimp only at h
        split_ifs at h with hv
        obtain rfl := Option.some.inj h
        exact hv

/-- **C89, several settings**. Of several settings updates the last accepted one counts: the solver is (in every field) as after that one alone, and unchanged if none is accepted. -/
theorem c89_last_counts (s : Solver d K) (l : List (Option (Settings K))) : (callAll cfg env s (l.map .updateSettings)).map (·.1) =
    some (match lastValid cfg l with
      | some n => (osqpUpdateSettings cfg s (some n)).1
      | none => s) := by
  have e1 : ∀ (t : Solver d K) (st : Option (Settings K)) (l : List (Op d K)), callAll cfg env t (.updateSettings st :: l) =
      (callAll cfg env (osqpUpdateSettings cfg t st).1 l).map fun r => (r.1, (osqpUpdateSettings cfg t st).2 :: r.2) := fun _ _ _ => rfl
  induction l generalizing s with
  | nil => rfl
  | cons a l ih =>
    rw [List.map_cons, e1, Option.map_map]
    have lv : lastValid cfg (a :: l) = match lastValid cfg l with
      | some n => some n
      | none => match a with
        | some n => if validateSettings cfg n false then none else some n
        | none => none := rfl
    have i := ih (osqpUpdateSettings cfg s a).1
    rw [show ((fun r : Solver d K × List ℤ => r.1) ∘ fun r : Solver d K × List ℤ => (r.1, (osqpUpdateSettings cfg s a).2 :: r.2)) = fun r => r.1 from rfl, i]
    congr 1
    rw [lv]
    cases el : lastValid cfg l with
    | none =>
      cases a with
      | none => rfl
      | some n =>
        by_cases hv : validateSettings cfg n false = true
        · simp only [updateSettings_eq, if_pos hv]
        · simp only [updateSettings_eq, if_neg hv]
    | some n =>
      have hn := lastValid_ok l el
      cases a with
      | none => rfl
      | some m =>
        simp only [updateSettings_eq, if_neg hn]
        split_ifs <;> rfl

/-- **C89, warm starts are the exception**. A warm start switches warm starting on, so for the settings `n` with warm starting off the order decides whether the next solve starts from the given point. -/
theorem c89_warm_exception (s : Solver d K) (n : Settings K) (ok : validateSettings cfg n false = false) (off : n.warm_starting = 0) (x : Option (Vec K d.n)) (y : Option (Vec K d.m)) :
    (callAll cfg env s [.updateSettings (some n), .warmStart x y]).map (fun r => (r.1.settings.warm_starting, r.2)) = some (1, [0, 0]) ∧
    (callAll cfg env s [.warmStart x y, .updateSettings (some n)]).map (fun r => (r.1.settings.warm_starting, r.2)) = some (0, [0, 0]) := by
  have e : ∀ t : Solver d K, osqpUpdateSettings cfg t (some n) = (setNew n t, 0) := fun t => by rw [updateSettings_eq, ok]; rfl
  constructor
  · simp only [callAll, apiStep, e]
    have w : (osqpWarmStart (setNew n s) x y).1.settings.warm_starting = 1 := by
      have z : (setNew n s).settings.warm_starting = 0 := off
      unfold osqpWarmStart
      rw [if_pos z]
      cases x <;> cases y <;> rfl
    exact congrArg some (Prod.ext w rfl)
  · simp only [callAll, apiStep, e]
    exact congrArg some (Prod.ext off rfl)

/-- Updates around a settings update of a solved problem: defined, with these codes, and the settings do change. -/
example : (∀ op ∈ ([.updateRho 3, .updateDataVec (some fun _ => -2) (some fun _ => 1 / 4) none, .coldStart] : List (Op Demo.dims ℚ)), IsUpdate op) ∧
    (callAll Demo.cfg Demo.sOnce.env (Demo.sOnce.done Demo.okOnce) [.updateSettings (some Demo.coldSt), .updateRho 3, .updateDataVec (some fun _ => -2) (some fun _ => 1 / 4) none, .coldStart]).map
      (fun r => (r.1.settings.warm_starting, r.1.settings.rho, r.2)) = some (0, 3, [0, 0, 0, 0]) ∧
    (Demo.sOnce.done Demo.okOnce).settings.warm_starting ≠ 0 ∧ validateSettings Demo.cfg Demo.coldSt false = false ∧
    lastValid Demo.cfg [some Demo.coldSt, none, some { Demo.coldSt with max_iter := 0 }] = some Demo.coldSt := by
  refine ⟨by simp [IsUpdate], by decide +kernel, by decide +kernel, by decide +kernel, by decide +kernel⟩

end Osqp
