import Verif.Spec.History
import Mathlib.Tactic.Linarith
import Mathlib.Tactic.Tauto

/-!
# `validateSettings` decides the documented ranges
-/

set_option linter.unusedSectionVars false
namespace Osqp
open Spec
variable {K : Type*} [Field K] [LinearOrder K] {d : Dims}

theorem validateSettings_setup (cfg : Cfg) (s : Settings K) :
    validateSettings cfg s true = false ↔ ValidSettings cfg s := by
  unfold validateSettings validateLinsys
  simp only [Bool.true_and, Bool.or_eq_false_iff, Bool.and_eq_false_iff, decide_eq_false_iff_not, not_not, not_le, not_lt,
    Bool.not_eq_false', decide_eq_true_eq, ne_eq, ge_iff_le]
  constructor
  · intro h
    refine ⟨?_, ?_, ?_, ?_⟩
    · constructor <;> grind
    · constructor <;> grind
    · grind
    · grind
  · rintro ⟨h1, h2, h3, h4⟩
    cases h1; cases h2
    grind

theorem validateSettings_update (cfg : Cfg) (s : Settings K) :
    validateSettings cfg s false = false ↔ ValidMutable s ∧ s.adaptive_rho ≤ 3 := by
  unfold validateSettings validateLinsys
  simp only [Bool.false_and, Bool.or_eq_false_iff, Bool.and_eq_false_iff, decide_eq_false_iff_not, not_not, not_le, not_lt,
    Bool.not_eq_false', decide_eq_true_eq, ne_eq, ge_iff_le]
  constructor
  · intro h
    refine ⟨?_, ?_⟩
    · constructor <;> grind
    · grind
  · rintro ⟨h1, h2⟩
    cases h1
    grind

end Osqp
