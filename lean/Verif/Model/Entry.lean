import Verif.Model.Types

/-!
# Model of the error texts and of the entry checks of code generation

src/error.c, src/osqp_api.c:242-249 and 1537-1578.  The functions that write the generated files are parameters.
-/

namespace Osqp

/-- src/error.c:6-22 `OSQP_ERROR_MESSAGE`. -/
def errorTexts : List String :=
  ["Problem data validation.",
   "Solver settings validation.",
   "Linear system solver initialization.",
   "KKT matrix factorization.\nThe problem seems to be non-convex.",
   "Memory allocation.",
   "Solver workspace not initialized.",
   "Algebra libraries not loaded.",
   "Unable to open file for writing.",
   "Invalid defines for codegen",
   "Vector/matrix not initialized.",
   "Function not implemented.",
   "Unknown error code."]

namespace Err
/-! include/public/osqp_api_constants.h:74-88 `enum osqp_error_type`, the codes not in `Model/Types.lean`. -/
def algebraLoad : ℤ := 7
def fopen : ℤ := 8
def codegenDefines : ℤ := 9
def dataNotInitialized : ℤ := 10
def funcNotImplemented : ℤ := 11
/-- `OSQP_LAST_ERROR_PLACE`, the end marker of the enumeration. -/
def lastPlace : ℤ := 12
end Err

/-- `OSQP_ERROR_MESSAGE[i]`: an index outside the array is undefined behaviour (`none`). -/
def errorText (i : ℤ) : Option String := if i < 0 then none else errorTexts[i.toNat]?

/-- osqp_api.c:242-249 `osqp_error_message`. -/
def osqpErrorMessage (error_flag : ℤ) : Option String :=
  if error_flag ≥ Err.lastPlace then errorText (Err.lastPlace - 1) else errorText (error_flag - 1)

/-- error.c:25-33 `_osqp_error`: the returned code and the text that is printed, if any. -/
def osqpError (error_code : ℤ) : Option (ℤ × Option String) :=
  if error_code ≠ Err.none then (errorText (error_code - 1)).bind fun t => some (error_code, some t)
  else some (error_code, none)

/-- include/public/osqp_api_types.h:194-201 `OSQPCodegenDefines`. -/
structure CodegenDefines where
  embedded_mode : ℤ
  float_type : ℤ
  printing_enable : ℤ
  profiling_enable : ℤ
  interrupt_enable : ℤ
  derivatives_enable : ℤ

/-- osqp_api.c:268-281 `osqp_set_default_codegen_defines`. -/
def defaultCodegenDefines : CodegenDefines := ⟨1, 0, 0, 0, 0, 0⟩

/-- What `osqp_codegen` reads of the solver: which pointers are set, and the status. -/
structure SolverPtrs where
  work : Bool
  settings : Bool
  info : Bool
  status_val : ℤ
  data : Bool
  linsys : Bool

/-- What happened when `osqp_codegen` was called: it returned a code and ran the writers `wrote` in this order. -/
structure CodegenOut where
  code : ℤ
  wrote : List String

/-- osqp_api.c:1537-1578 `osqp_codegen`.  `built` is `OSQP_CODEGEN`; the pointers are `none` when null; `writer` gives
the exit flags of `codegen_inc`, `codegen_src`, `codegen_example`, `codegen_defines`. -/
def osqpCodegen (built : Bool) (solver : Option SolverPtrs) (defines : Option CodegenDefines) (writer : String → ℤ) : CodegenOut :=
  if built then
    match solver with
    | none => ⟨Err.workspaceNotInit, []⟩
    | some s =>
      if !s.work || !s.settings || !s.info then ⟨Err.workspaceNotInit, []⟩
      else if s.status_val = St.nonCvx then ⟨Err.nonCvx, []⟩
      else if !s.data || !s.linsys then ⟨Err.workspaceNotInit, []⟩
      else match defines with
        | none => ⟨Err.codegenDefines, []⟩
        | some f =>
          if (f.embedded_mode ≠ 1 ∧ f.embedded_mode ≠ 2) ∨ (f.float_type ≠ 0 ∧ f.float_type ≠ 1) ∨
              (f.printing_enable ≠ 0 ∧ f.printing_enable ≠ 1) ∨ (f.profiling_enable ≠ 0 ∧ f.profiling_enable ≠ 1) ∨
              (f.interrupt_enable ≠ 0 ∧ f.interrupt_enable ≠ 1) ∨ (f.derivatives_enable ≠ 0 ∧ f.derivatives_enable ≠ 1) then
            ⟨Err.codegenDefines, []⟩
          else
            let e := writer "inc"
            let w := ["inc"]
            let r : ℤ × List String := if e = 0 then (writer "src", w ++ ["src"]) else (e, w)
            let r := if r.1 = 0 then (writer "example", r.2 ++ ["example"]) else r
            let r := if r.1 = 0 then (writer "defines", r.2 ++ ["defines"]) else r
            ⟨r.1, r.2⟩
  else ⟨Err.funcNotImplemented, []⟩

end Osqp
