import Verif.Model.Entry
import Mathlib.Tactic.IntervalCases

/-!
# C46 error messages, C51 code-generation options
-/

namespace Osqp

/-! ## C46 -/

/-- **C46, for positive codes.**  Every error code an API function can return has its text, and every larger number gives the
text for an unknown code. -/
theorem c46_positive_partial (flag : ℤ) (pos : 1 ≤ flag) :
    ∃ t, osqpErrorMessage flag = some t ∧ t ≠ "" ∧ (12 ≤ flag → t = "Unknown error code.") ∧
      (flag ≤ 11 → t ≠ "Unknown error code." ∧ errorTexts.idxOf t = (flag - 1).toNat) := by
  by_cases h : 12 ≤ flag
  · refine ⟨"Unknown error code.", ?_, by decide, fun _ => rfl, fun h' => by omega⟩
    unfold osqpErrorMessage Err.lastPlace
    rw [if_pos h]
    decide +kernel
  · have h' : flag ≤ 11 := by omega
    interval_cases flag <;> exact ⟨_, rfl, by decide, fun h => absurd h (by decide), fun _ => by decide +kernel⟩

/-- The texts of the documented codes. -/
theorem c46_texts :
    osqpErrorMessage Err.dataValidation = some "Problem data validation." ∧
    osqpErrorMessage Err.settingsValidation = some "Solver settings validation." ∧
    osqpErrorMessage Err.linsysInit = some "Linear system solver initialization." ∧
    osqpErrorMessage Err.nonCvx = some "KKT matrix factorization.\nThe problem seems to be non-convex." ∧
    osqpErrorMessage Err.memAlloc = some "Memory allocation." ∧
    osqpErrorMessage Err.workspaceNotInit = some "Solver workspace not initialized." ∧
    osqpErrorMessage Err.algebraLoad = some "Algebra libraries not loaded." ∧
    osqpErrorMessage Err.fopen = some "Unable to open file for writing." ∧
    osqpErrorMessage Err.codegenDefines = some "Invalid defines for codegen" ∧
    osqpErrorMessage Err.dataNotInitialized = some "Vector/matrix not initialized." ∧
    osqpErrorMessage Err.funcNotImplemented = some "Function not implemented." := by
  decide +kernel

/-- Different documented codes have different texts. -/
theorem c46_distinct (a b : ℤ) (ha : 1 ≤ a ∧ a ≤ 12) (hb : 1 ≤ b ∧ b ≤ 12) (same : osqpErrorMessage a = osqpErrorMessage b) : a = b := by
  obtain ⟨a1, a2⟩ := ha
  obtain ⟨b1, b2⟩ := hb
  revert same
  interval_cases a <;> interval_cases b <;> decide +kernel

/-- **C46 is false as stated**: `osqp_error_message` reads before the table for zero (`OSQP_NO_ERROR`) and every negative
number. -/
theorem c46_counterexample (flag : ℤ) (h : flag ≤ 0) : osqpErrorMessage flag = none := by
  unfold osqpErrorMessage errorText Err.lastPlace
  rw [if_neg (by omega), if_pos (by omega)]

/-- The internal reporting function returns the code it was given, for every code of the enumeration. -/
theorem c46_report (code : ℤ) (h : 0 ≤ code ∧ code ≤ 12) :
    ∃ t, osqpError code = some (code, t) ∧ (code ≠ 0 → t = osqpErrorMessage code) := by
  obtain ⟨h1, h2⟩ := h
  interval_cases code <;> exact ⟨_, rfl, by decide +kernel⟩

example : osqpErrorMessage 5 = some "Memory allocation." ∧ osqpErrorMessage 1000 = some "Unknown error code." ∧
    osqpErrorMessage 0 = none := by decide +kernel

/-! ## C51 -/

/-- The documented ranges (include/public/osqp_api_types.h:194-201): the mode is 1 or 2, every other option is a boolean. -/
def CodegenDefines.Valid (f : CodegenDefines) : Prop :=
  f.embedded_mode ∈ ({1, 2} : Set ℤ) ∧
  ∀ v ∈ [f.float_type, f.printing_enable, f.profiling_enable, f.interrupt_enable, f.derivatives_enable], v = 0 ∨ v = 1

/-- A solver that `osqp_setup` set up successfully. -/
def SolverPtrs.SetUp (s : SolverPtrs) : Prop :=
  s.work = true ∧ s.settings = true ∧ s.info = true ∧ s.data = true ∧ s.linsys = true ∧ s.status_val ≠ 9

theorem valid_iff (f : CodegenDefines) : f.Valid ↔
    ¬((f.embedded_mode ≠ 1 ∧ f.embedded_mode ≠ 2) ∨ (f.float_type ≠ 0 ∧ f.float_type ≠ 1) ∨
      (f.printing_enable ≠ 0 ∧ f.printing_enable ≠ 1) ∨ (f.profiling_enable ≠ 0 ∧ f.profiling_enable ≠ 1) ∨
      (f.interrupt_enable ≠ 0 ∧ f.interrupt_enable ≠ 1) ∨ (f.derivatives_enable ≠ 0 ∧ f.derivatives_enable ≠ 1)) := by
  unfold CodegenDefines.Valid
  simp only [Set.mem_insert_iff, Set.mem_singleton_iff, List.forall_mem_cons, List.not_mem_nil, false_imp_iff, implies_true,
    and_true]
  tauto

/-- **C51.**  On a solver that was set up, `osqp_codegen` rejects the options with `OSQP_CODEGEN_DEFINES_ERROR`, writing
nothing, exactly when the record is missing or some option is outside its range; otherwise the writers run. -/
theorem c51_options (s : SolverPtrs) (up : s.SetUp) (defs : Option CodegenDefines) (writer : String → ℤ)
    (free : ∀ n, writer n ≠ Err.codegenDefines) :
    let out := osqpCodegen true (some s) defs writer
    (out.code = Err.codegenDefines ↔ ¬∃ f, defs = some f ∧ f.Valid) ∧
    (out.wrote = [] ↔ ¬∃ f, defs = some f ∧ f.Valid) := by
  obtain ⟨h1, h2, h3, h4, h5, h6⟩ := up
  intro out
  cases defs with
  | none => simp [out, osqpCodegen, h1, h2, h3, h4, h5, St.nonCvx, h6]
  | some f =>
    by_cases hv : f.Valid
    · have hv' := (valid_iff f).1 hv
      simp only [Option.some.injEq, exists_eq_left', hv, not_true_eq_false, iff_false]
      simp only [out, osqpCodegen, h1, h2, h3, h4, h5, St.nonCvx, h6, Bool.not_true, Bool.or_false, Bool.false_eq_true, if_false, if_true, if_neg hv']
      by_cases e1 : writer "inc" = 0
      · by_cases e2 : writer "src" = 0
        · by_cases e3 : writer "example" = 0
          · simp [e1, e2, e3, free]
          · simp [e1, e2, e3, free]
        · simp [e1, e2, free]
      · simp [e1, free]
    · have hb := hv
      rw [valid_iff, not_not] at hb
      simp only [Option.some.injEq, exists_eq_left', hv, not_false_iff, iff_true]
      simp only [out, osqpCodegen, h1, h2, h3, h4, h5, St.nonCvx, h6, Bool.not_true, Bool.or_false, Bool.false_eq_true, if_false, if_true, if_pos hb,
        and_self]

/-- **C51, what is written.**  With valid options all four writers run, in order, until one of them fails, and the code
returned is that of the last one run; zero means all files were written. -/
theorem c51_writes (s : SolverPtrs) (up : s.SetUp) (f : CodegenDefines) (valid : f.Valid) (writer : String → ℤ) :
    let out := osqpCodegen true (some s) (some f) writer
    (∃ k, out.wrote = ["inc", "src", "example", "defines"].take (k + 1)) ∧
    (∀ n ∈ out.wrote.dropLast, writer n = 0) ∧ (∃ n, out.wrote.getLast? = some n ∧ out.code = writer n) ∧
    (out.code = 0 ↔ ∀ n ∈ ["inc", "src", "example", "defines"], writer n = 0) := by
  obtain ⟨h1, h2, h3, h4, h5, h6⟩ := up
  intro out
  have hv' := (valid_iff f).1 valid
  simp only [out, osqpCodegen, h1, h2, h3, h4, h5, St.nonCvx, h6, Bool.not_true, Bool.or_false, Bool.false_eq_true, if_false, if_true, if_neg hv']
  by_cases e1 : writer "inc" = 0
  · by_cases e2 : writer "src" = 0
    · by_cases e3 : writer "example" = 0
      · simp only [e1, e2, e3, if_true]; exact ⟨⟨3, rfl⟩, by simp [e1, e2, e3], by simp, by simp [e1, e2, e3]⟩
      · simp only [e1, e2, e3, if_true, if_false]; exact ⟨⟨2, rfl⟩, by simp [e1, e2], by simp, by simp [e1, e2, e3]⟩
    · simp only [e1, e2, if_true, if_false]; exact ⟨⟨1, rfl⟩, by simp [e1], by simp, by simp [e1, e2]⟩
  · simp only [e1, if_false]; exact ⟨⟨0, rfl⟩, by simp, by simp, by simp [e1]⟩

/-- Before looking at the options, `osqp_codegen` reports a solver that is missing, not set up, or known to be non-convex;
nothing is written.  A library built without code generation reports so. -/
theorem c51_not_ready (solver : Option SolverPtrs) (defs : Option CodegenDefines) (writer : String → ℤ)
    (bad : ∀ s, solver = some s → ¬s.SetUp) :
    let out := osqpCodegen true solver defs writer
    out.wrote = [] ∧ (out.code = Err.workspaceNotInit ∨ out.code = Err.nonCvx) ∧
    osqpCodegen false solver defs writer = ⟨Err.funcNotImplemented, []⟩ := by
  intro out
  cases solver with
  | none => simp [out, osqpCodegen]
  | some s =>
    have h := bad s rfl
    unfold SolverPtrs.SetUp at h
    simp only [out, osqpCodegen, St.nonCvx, if_true]
    by_cases a : (!s.work || !s.settings || !s.info) = true
    · simp [a]
    · by_cases b : s.status_val = 9
      · simp [a, b]
      · by_cases c : (!s.data || !s.linsys) = true
        · simp [a, b, c]
        · exfalso; apply h; simp at a c; tauto

example : defaultCodegenDefines.Valid ∧ (⟨true, true, true, 1, true, true⟩ : SolverPtrs).SetUp ∧
    (osqpCodegen true (some ⟨true, true, true, 1, true, true⟩) (some defaultCodegenDefines) (fun _ => 0)).code = 0 ∧
    (osqpCodegen true (some ⟨true, true, true, 1, true, true⟩) (some { defaultCodegenDefines with embedded_mode := 3 }) (fun _ => 0)).code = 9 := by
  refine ⟨?_, ?_, ?_, ?_⟩
  · rw [valid_iff]; decide
  · unfold SolverPtrs.SetUp; decide
  · decide
  · decide

end Osqp
