import Verif.Spec.Pardiso
import Verif.Csc.Demo
import Mathlib.Tactic.FieldSimp
import Mathlib.Tactic.LinearCombination

/-!
# A small library for the examples of C77: it factorises symmetric matrices of order 2, by Cramer's rule
-/

set_option linter.unusedSectionVars false
namespace Osqp.Pardiso
open Osqp.Csc Finset

/-- The entry `(r, c)`, `r ≤ c`, that the arrays denote. -/
def Input.at {K : Type*} [Field K] (inp : Input K) (r c : ℕ) : K :=
  ∑ k ∈ Ico (((inp.ia.rd r).getD 1).toNat - 1) (((inp.ia.rd (r + 1 : ℕ)).getD 1).toNat - 1), if inp.ja.rd k = some ((c + 1 : ℕ) : ℤ) then (inp.a.rd k).getD 0 else 0

theorem Denotes.at {K : Type*} [Field K] {inp : Input K} {N : ℕ} {M : ℕ → ℕ → K} (h : Denotes inp N M) {r c : ℕ} (hr : r ≤ c) (hc : c < N) : M r c = inp.at r c := by
  obtain ⟨ia, ja, a, h1, h2, h3, h4, h5, h6, h7, h8⟩ := h.arrays
  have hmono : ∀ d, ∀ r, r + d ≤ N → ia r ≤ ia (r + d) := by
    intro d
    induction d with
    | zero => intro r _; exact le_refl _
    | succ d ih => intro r hr; exact (ih r (by omega)).trans (h5 (r + d) (by omega))
  have hle : ia (r + 1) ≤ ia N := by
    have := hmono (N - (r + 1)) (r + 1) (by omega)
    rwa [show r + 1 + (N - (r + 1)) = N by omega] at this
  rw [h8 r (by omega) c hc hr]
  unfold Input.at
  rw [h1.rd (show r < N + 1 by omega), h1.rd (show r + 1 < N + 1 by omega)]
  simp only [Option.getD_some, Int.toNat_natCast]
  refine sum_congr rfl fun k hk => ?_
  have hk := mem_Ico.1 hk
  rw [h2.rd (show k < ia N - 1 by omega), h3.rd (show k < ia N - 1 by omega)]
  simp only [Option.some.injEq, Nat.cast_inj, Option.getD_some]

/-- The determinant of the matrix of order 2. -/
def Input.det (inp : Input ℚ) : ℚ := inp.at 0 0 * inp.at 1 1 - inp.at 0 1 * inp.at 0 1

/-- An array with its first two cells set. -/
def fill2 (t : Buf ℚ) (u v : ℚ) : Buf ℚ := ⟨t.size, fun k => if k = 0 then some u else if k = 1 then some v else t.cell k⟩

/-- The library: it refuses matrices of any other order and singular ones, and counts the positive eigenvalues. -/
def two : Lib ℚ where
  symbolic inp := if inp.n = 2 then 0 else -1
  numeric inp := if inp.n = 2 ∧ inp.det ≠ 0 then (0, if inp.det < 0 then 1 else if 0 < inp.at 0 0 then 2 else 0) else (-4, 0)
  solve inp inB b x :=
    let u := (inp.at 1 1 * (b.rd 0).getD 0 - inp.at 0 1 * (b.rd 1).getD 0) / inp.det
    let v := (inp.at 0 0 * (b.rd 1).getD 0 - inp.at 0 1 * (b.rd 0).getD 0) / inp.det
    if inB then (0, fill2 b u v, x) else (0, b, fill2 x u v)

theorem two_solves {inp : Input ℚ} {N : ℕ} {M : ℕ → ℕ → ℚ} (h : Denotes inp N M) (hn : (two.numeric inp).1 = 0) {b t : Buf ℚ} {B : ℕ → ℚ} (hb : Holds b N B) (ht : N ≤ t.size) :
    ∃ X, Holds (fill2 t ((inp.at 1 1 * (b.rd 0).getD 0 - inp.at 0 1 * (b.rd 1).getD 0) / inp.det) ((inp.at 0 0 * (b.rd 1).getD 0 - inp.at 0 1 * (b.rd 0).getD 0) / inp.det)) N X ∧
      ∀ r < N, ∑ c ∈ range N, M r c * X c = B r := by
  have hc : inp.n = 2 ∧ inp.det ≠ 0 := by
    by_contra hc
    simp only [two, if_neg hc] at hn
    exact absurd hn (by decide)
  have hN : N = 2 := by have := h.n.symm.trans hc.1; exact_mod_cast this
  subst hN
  have e0 : b.rd 0 = some (B 0) := hb.rd (k := 0) (by omega)
  have e1 : b.rd 1 = some (B 1) := hb.rd (k := 1) (by omega)
  rw [e0, e1]
  simp only [Option.getD_some]
  refine ⟨fun k => if k = 0 then (inp.at 1 1 * B 0 - inp.at 0 1 * B 1) / inp.det else (inp.at 0 0 * B 1 - inp.at 0 1 * B 0) / inp.det, ⟨ht, fun k hk => ?_⟩, fun r hr => ?_⟩
  · obtain rfl | rfl : k = 0 ∨ k = 1 := by omega
    · rfl
    · rfl
  · have m00 := h.at (r := 0) (c := 0) (by omega) (by omega)
    have m01 := h.at (r := 0) (c := 1) (by omega) (by omega)
    have m11 := h.at (r := 1) (c := 1) (by omega) (by omega)
    have m10 := (h.symm 1 (by omega) 0 (by omega)).trans m01
    have hd := hc.2
    rw [sum_range_succ, sum_range_one]
    simp only [if_true, one_ne_zero, if_false]
    obtain rfl | rfl : r = 0 ∨ r = 1 := by omega
    · rw [m00, m01]; field_simp; unfold Input.det; ring
    · rw [m10, m11]; field_simp; unfold Input.det; ring

theorem two_exact : Exact two where
  inPlace _ _ _ h hn b x _ hb _ _ := two_solves h hn hb hb.1
  apart _ _ _ h hn b x _ hb hx _ := two_solves h hn hb hx
  kept _ _ _ := rfl
  size _ inB _ _ := by cases inB <;> rfl

end Osqp.Pardiso
