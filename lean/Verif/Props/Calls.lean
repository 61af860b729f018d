import Verif.Mem.Calls
import Verif.Props.Memory

/-!
# C45: uninitialised solver pointers are reported, not dereferenced

`f.call c st` is what happens when the API function `f` is called with the pointers in `st`: undefined behaviour, or a state and a return value.

The English property has four exceptions, all shown below: `osqp_cold_start` has no check, `osqp_update_settings` reads a field of the solver before it
checks the pointer, a solver whose setup failed half-way passes the checks of most functions, and the derivative functions read
`solver->solution` although it may not have been allocated.
-/

set_option linter.unusedSectionVars false
namespace Osqp.Mem

open Slot

/-- The pointer passed to the function is null, or it points to a solver without a workspace. -/
def NotSetUp (st : St Slot) : Prop := st.ptr solver = .null ∨ ((st.ptr solver).isObj = true ∧ st.ptr work = .null)

/-- What a function returns for such a solver: −1 dimensions, "not implemented" if the function is not compiled in, the error code 6 otherwise. -/
def refusal (c : SetupCfg) (f : Fn) : ℤ :=
  if f = .getDimensions then -1
  else if c.derivatives = false ∧ (f = .adjointCompute ∨ f = .adjointGetMat ∨ f = .adjointGetVec) then 11
  else 6

theorem check_notSetUp {st : St Slot} (h : NotSetUp st) (l : List Slot) (code : ℤ) :
    checkAll st code (solver :: work :: l) = .stop (.ret st code) := by
  have ho : st.open solver = true := rfl
  unfold checkAll
  rw [if_pos ho]
  rcases h with h | ⟨h1, h2⟩
  · rw [h]
  · cases hp : st.ptr solver with
    | obj o =>
      simp only
      unfold checkAll
      have : st.open work = true := h1
      rw [if_pos this, h2]
    | uninit => rw [hp] at h1; simp [Ptr.isObj] at h1
    | null => rfl

/-- **C45.**  Every API function except `osqp_cold_start` — and except `osqp_update_settings` when the pointer itself is null — given a null solver or a solver
without workspace returns the error and leaves everything as it was. -/
theorem c45_not_set_up_partial (c : SetupCfg) (f : Fn) {st : St Slot} (h : NotSetUp st) (h1 : f ≠ .coldStart) (h2 : f = .updateSettings → st.ptr solver ≠ .null) :
    f.call c st = .ret st (refusal c f) := by
  have key : ∀ (l : List Slot) (code : ℤ) (is : List (Instr Slot)), run (fun _ => false) st (.check (solver :: work :: l) code :: is) = .ret st code := by
    intro l code is
    simp only [run, step, check_notSetUp h]
  cases f with
  | getDimensions => simp only [Fn.call, Fn.prog, key, refusal]; simp [refusal, Err.workspaceNotInit]
  | solve => simp only [Fn.call, Fn.prog, key]; simp [refusal, Err.workspaceNotInit]
  | getSolution out => cases out <;> simp only [Fn.call, Fn.prog, if_true, Bool.false_eq_true, if_false, key] <;> simp [refusal, Err.workspaceNotInit, Err.funcNotImplemented]
  | updateDataVec b q =>
    simp only [Fn.call, Fn.prog, List.cons_append, key]; simp [refusal, Err.workspaceNotInit]
  | warmStart gx gy => simp only [Fn.call, Fn.prog, List.cons_append, key]; simp [refusal, Err.workspaceNotInit]
  | coldStart => exact absurd rfl h1
  | updateDataMat => simp only [Fn.call, Fn.prog, key]; simp [refusal, Err.workspaceNotInit]
  | updateRho p => cases p <;> simp only [Fn.call, Fn.prog, if_true, Bool.false_eq_true, if_false, key] <;> simp [refusal, Err.workspaceNotInit, Err.funcNotImplemented]
  | updateSettings =>
    have ho : (st.ptr solver).isObj = true := by
      rcases h with h | h
      · exact absurd h (h2 rfl)
      · exact h.1
    have hu : step (fun _ => false) st (.use [solver]) = .go st := by
      have : st.open solver = true := rfl
      simp [step, this, ho]
    have : run (fun _ => false) st (Fn.prog c .updateSettings).1 = .ret st 6 := by
      simp only [Fn.prog]
      rw [run, hu]
      exact key [] notInit _
    simp only [Fn.call, this]; simp [refusal, Err.workspaceNotInit]
  | adjointCompute =>
    cases hd : c.derivatives <;> simp only [Fn.call, Fn.prog, hd, if_true, Bool.false_eq_true, if_false, key, run] <;> simp [refusal, Err.workspaceNotInit, Err.funcNotImplemented, hd]
  | adjointGetMat =>
    cases hd : c.derivatives <;> simp only [Fn.call, Fn.prog, hd, if_true, Bool.false_eq_true, if_false, key, run] <;> simp [refusal, Err.workspaceNotInit, Err.funcNotImplemented, hd]
  | adjointGetVec =>
    cases hd : c.derivatives <;> simp only [Fn.call, Fn.prog, hd, if_true, Bool.false_eq_true, if_false, key, run] <;> simp [refusal, Err.workspaceNotInit, Err.funcNotImplemented, hd]
  | codegen nc d => cases nc <;> cases d <;> simp only [Fn.call, Fn.prog, if_true, Bool.false_eq_true, if_false, key] <;> simp [refusal, Err.workspaceNotInit, Err.funcNotImplemented]

/-- `osqp_cleanup` accepts a null pointer. -/
theorem c45_cleanup_null (p d : Bool) {st : St Slot} (h : st.ptr solver = .null) : cleanupMem p d st = some st := by
  unfold cleanupMem; rw [h]

/-- No solver at all. -/
def nullState : St Slot := ⟨⟨0, []⟩, fun _ => .null, []⟩

/-- **Counterexample.**  `osqp_update_settings(NULL, …)` dereferences the null pointer, although a check is there. -/
theorem c45_update_settings_counterexample : (Fn.call demoCfg .updateSettings nullState).code = none := by decide +kernel

/-- **Counterexample.**  `osqp_cold_start(NULL)` dereferences the null pointer. -/
theorem c45_cold_start_counterexample : (Fn.call demoCfg .coldStart nullState).code = none := by decide +kernel

/-! ## After setup -/

/-- The pointers a function dereferences. -/
def Fn.uses (c : SetupCfg) (f : Fn) : List Slot :=
  ((f.prog c).1.map fun i => match i with | .use l => l | .check l _ => l | _ => []).flatten

theorem run_uses {st : St Slot} (prog : List (Instr Slot)) (hk : ∀ i ∈ prog, (∃ l, i = .use l) ∨ ∃ l code, i = .check l code)
    (h : ∀ s ∈ (prog.map fun i => match i with | .use l => l | .check l _ => l | _ => []).flatten, st.open s = true ∧ (st.ptr s).isObj = true) :
    run (fun _ => false) st prog = .ret st 0 := by
  induction prog with
  | nil => rfl
  | cons i is ih =>
    have ih' := ih (fun j hj => hk j (List.mem_cons_of_mem _ hj)) (fun s hs => h s (by
      rw [List.map_cons, List.flatten_cons]; exact List.mem_append_right _ hs))
    rcases hk i (by simp) with ⟨l, rfl⟩ | ⟨l, code, rfl⟩
    · have : step (fun _ => false) st (.use l) = .go st := by
        simp only [step]
        rw [if_pos]
        rw [List.all_eq_true]
        intro s hs
        have := h s (by rw [List.map_cons, List.flatten_cons]; exact List.mem_append_left _ hs)
        rw [this.1, this.2]; rfl
      rw [run, this]; exact ih'
    · have hl : ∀ s ∈ l, st.open s = true ∧ (st.ptr s).isObj = true := fun s hs => h s (by
        rw [List.map_cons, List.flatten_cons]; exact List.mem_append_left _ hs)
      have : step (fun _ => false) st (.check l code) = .go st := by
        simp only [step]
        clear h ih ih' hk
        induction l with
        | nil => rfl
        | cons s l ihl =>
          have hs := hl s (by simp)
          unfold checkAll
          rw [if_pos hs.1]
          cases hp : st.ptr s with
          | obj o => exact ihl (fun t ht => hl t (List.mem_cons_of_mem _ ht))
          | uninit => rw [hp] at hs; simp [Ptr.isObj] at hs
          | null => rw [hp] at hs; simp [Ptr.isObj] at hs
      rw [run, this]; exact ih'

/-- Checks and uses. -/
def kind : Instr Slot → Bool
  | .use _ | .check _ _ => true
  | _ => false

theorem prog_kind (c : SetupCfg) (f : Fn) : (f.prog c).1.all kind = true := by
  rcases c with ⟨p, d, r, s, a, n, m, l⟩
  cases f with
  | getSolution a => cases a <;> rfl
  | updateDataVec a b => cases a <;> cases b <;> rfl
  | warmStart a b => cases a <;> cases b <;> rfl
  | updateRho a => cases a <;> rfl
  | codegen a b => cases a <;> cases b <;> rfl
  | _ => cases d <;> rfl

theorem prog_kinds (c : SetupCfg) (f : Fn) : ∀ i ∈ (f.prog c).1, (∃ l, i = .use l) ∨ ∃ l code, i = .check l code := by
  intro i hi
  have := List.all_eq_true.1 (prog_kind c f) i hi
  cases i <;> simp_all [kind]

/-- The derivative functions. -/
def Fn.derivative : Fn → Bool
  | .adjointCompute | .adjointGetMat | .adjointGetVec => true
  | _ => false

/-- All combinations of the arguments. -/
def Fn.all : List Fn :=
  [.getDimensions, .solve, .getSolution false, .getSolution true, .updateDataVec false false, .updateDataVec false true, .updateDataVec true false, .updateDataVec true true,
   .warmStart false false, .warmStart false true, .warmStart true false, .warmStart true true, .coldStart, .updateDataMat, .updateRho false, .updateRho true, .updateSettings,
   .adjointCompute, .adjointGetMat, .adjointGetVec, .codegen false false, .codegen false true, .codegen true false, .codegen true true]

theorem Fn.mem_all (f : Fn) : f ∈ Fn.all := by
  cases f with
  | getSolution a => cases a <;> decide
  | updateDataVec a b => cases a <;> cases b <;> decide
  | warmStart a b => cases a <;> cases b <;> decide
  | updateRho a => cases a <;> decide
  | codegen a b => cases a <;> cases b <;> decide
  | _ => decide

theorem uses_small : ∀ p d r s a b : Bool, ∀ f ∈ Fn.all, (f.derivative = false ∨ a = true) →
    ∀ t ∈ f.uses ⟨p, d, r, s, a, 1, if b then 1 else 0, .ok 0⟩, t = dRhs ∧ f.derivative = true ∧ d = true ∨
      t ∈ filled ⟨p, d, r, s, a, 1, if b then 1 else 0, .ok 0⟩ := by decide +kernel

theorem uses_eq (c c' : SetupCfg) (h1 : c'.profiling = c.profiling) (h2 : c'.derivatives = c.derivatives) (h3 : c'.rhoIsVec = c.rhoIsVec)
    (h4 : c'.scaling = c.scaling) (f : Fn) : f.uses c' = f.uses c := by
  unfold Fn.uses
  cases f <;> simp only [Fn.prog, timerSlot, rhoSlots, scalingSlots, scaleTemps, storeSlots, h1, h2, h3, h4]

/-- **C45 (after a successful setup).**  Every API function finds every pointer it needs, provided that, for the derivative functions, the setting
`allocate_solution` was on and the unchecked allocation (C43) succeeded: its return value is that of its body. -/
theorem c45_set_up_partial (c : SetupCfg) (hc : c.Ok) (fails : ℕ → Bool) {st : St Slot} (h : setupMem c fails = .ret st 0) (f : Fn)
    (hd : f.derivative = true → c.allocSolution = true ∧ dRhs ∉ st.failed) : f.call c st = .ret st (f.prog c).2 := by
  have hfill := c43_complete c hc fails h
  have rdy := (setup_clean c hc.1 hc.2 fails h).ready
  have hu : ∀ s ∈ f.uses c, (st.ptr s).isObj = true := by
    intro s hs
    rcases c with ⟨p, d, r, sc, a, n, m, l⟩
    have e := uses_eq ⟨p, d, r, sc, a, n, m, l⟩ ⟨p, d, r, sc, a, 1, if decide (m ≠ 0) then 1 else 0, .ok 0⟩ rfl rfl rfl rfl f
    have e2 := filled_eq ⟨p, d, r, sc, a, n, m, l⟩ ⟨p, d, r, sc, a, 1, if decide (m ≠ 0) then 1 else 0, .ok 0⟩ rfl rfl rfl rfl rfl (by simp)
    have hcase : f.derivative = false ∨ a = true := by
      cases hf : f.derivative with
      | false => exact .inl rfl
      | true => exact .inr (hd hf).1
    rcases uses_small p d r sc a (decide (m ≠ 0)) f f.mem_all hcase s (by rw [e]; exact hs) with ⟨h1, h2, h3⟩ | h1
    · subst h1
      -- the slot has been assigned: it is not null because it is not among the failed ones
      have := (hd h2).2
      subst h3
      exact (rhs_or_failed _ hc rfl fails h).resolve_right this
    · rw [e2] at h1; exact hfill s h1
  have : run (fun _ => false) st (f.prog c).1 = .ret st 0 :=
    run_uses _ (prog_kinds c f) fun s hs => ⟨rdy.nested s (hu s hs), hu s hs⟩
  unfold Fn.call; rw [this]; rfl

/-- **Counterexample.**  Setup of a non-convex problem fails (code 4) but leaves a workspace without linear-system solver: solving, updating matrices or rho, warm starting
and updating settings afterwards dereference the null pointer instead of reporting an error. -/
theorem c45_failed_setup_counterexample :
    (setupMem { demoCfg with linsys := .err 4 } fun _ => false).code = some 4 ∧
    ∀ f ∈ [Fn.solve, .updateDataMat, .updateRho true, .warmStart true true, .updateSettings],
      (f.call demoCfg (setupMem { demoCfg with linsys := .err 4 } fun _ => false).state).code = none := by decide +kernel

/-- **Counterexample.**  With `allocate_solution` off setup succeeds, but the derivative functions dereference the null pointer `solver->solution`. -/
theorem c45_derivative_counterexample :
    (setupMem { demoCfg with allocSolution := false } fun _ => false).code = some 0 ∧
    (Fn.call { demoCfg with allocSolution := false } .adjointCompute (setupMem { demoCfg with allocSolution := false } fun _ => false).state).code = none := by decide +kernel

/-! The hypotheses are met: no solver; a solver whose second allocation failed; a solver that is set up. -/

example : NotSetUp nullState := .inl rfl
example : NotSetUp (setupMem demoCfg fun k => decide (k = 1)).state := .inr (by decide +kernel)
example : (Fn.call demoCfg .solve (setupMem demoCfg fun k => decide (k = 1)).state).code = some 6 := by decide +kernel
example : (Fn.call demoCfg .getDimensions nullState).code = some (-1) := by decide +kernel
example : (Fn.call demoCfg .solve (setupMem demoCfg fun _ => false).state).code = some 0 ∧
    (Fn.call demoCfg (.getSolution false) (setupMem demoCfg fun _ => false).state).code = some 6 := by decide +kernel

end Osqp.Mem
