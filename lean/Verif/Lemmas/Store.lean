import Verif.Lemmas.Result
import Verif.Spec.Status

/-!
# `store_solution`, status by status
-/

set_option linter.unusedSectionVars false
namespace Osqp
open Spec Matrix
variable {K : Type*} [Field K] [LinearOrder K] [IsStrictOrderedRing K] {d : Dims}

theorem normInf_scale_self {n : ℕ} (v : Fin n → K) (h : 0 < normInf v) :
    normInf (fun i => v i * (1 / normInf v)) = 1 := by
  have hne := h.ne'
  apply le_antisymm
  · rw [normInf_le_iff]
    refine ⟨zero_le_one, fun i => ?_⟩
    rw [abs_mul, abs_of_pos (one_div_pos.2 h), mul_one_div, div_le_one h]
    exact le_normInf v i
  · by_contra hlt
    rw [not_le, normInf_lt_iff] at hlt
    have : normInf v < normInf v := by
      rw [normInf_lt_iff]
      refine ⟨h, fun i => ?_⟩
      have := hlt.2 i
      rw [abs_mul, abs_of_pos (one_div_pos.2 h), mul_one_div, div_lt_one h] at this
      exact this
    exact lt_irrefl _ this

theorem store_x {s : Solver d K} {dst : Solution d K} (h : hasSolution s.info = true) :
    (storeSolution s dst).2 = ⟨userX s, userY s, vSet (Const.nan K), vSet (Const.nan K)⟩ ∧
    userX (storeSolution s dst).1 = userX s ∧ userY (storeSolution s dst).1 = userY s ∧
    (storeSolution s dst).1.info = s.info := by
  unfold storeSolution userX userY
  by_cases hs : s.settings.scaling = 0
  · simp [h, hs]
  · simp only [h, if_true, ne_eq, hs, not_false_eq_true, unscaleSolution, Solution.mk.injEq, and_true]
    constructor <;> funext j <;> simp [vEwProd, vScale, mul_comm]

theorem store_p {s : Solver d K} {dst : Solution d K} (h : s.info.status_val = St.primInf ∨ s.info.status_val = St.primInfInacc) :
    (storeSolution s dst).2 = ⟨vSet (Const.nan K), vSet (Const.nan K), fun i => s.work.delta_y i * (1 / normInf s.work.delta_y), vSet (Const.nan K)⟩ ∧
    (storeSolution s dst).1.work.delta_y = (fun i => s.work.delta_y i * (1 / normInf s.work.delta_y)) ∧
    (storeSolution s dst).1.info = s.info ∧
    (storeSolution s dst).1.work.x = vSet 0 ∧ (storeSolution s dst).1.work.y = vSet 0 ∧ (storeSolution s dst).1.work.z = vSet 0 := by
  have h1 : hasSolution s.info = false := by
    unfold hasSolution; rcases h with h | h <;> rw [h] <;> decide
  have h2 : ¬ (s.info.status_val = St.dualInf ∨ s.info.status_val = St.dualInfInacc) := by
    rcases h with h | h <;> rw [h] <;> decide
  simp [storeSolution, h1, coldStart, h, h2, vScale, vNormInf_eq]
  rfl

theorem store_d {s : Solver d K} {dst : Solution d K} (h : s.info.status_val = St.dualInf ∨ s.info.status_val = St.dualInfInacc) :
    (storeSolution s dst).2 = ⟨vSet (Const.nan K), vSet (Const.nan K), vSet (Const.nan K), fun i => s.work.delta_x i * (1 / normInf s.work.delta_x)⟩ ∧
    (storeSolution s dst).1.work.delta_x = (fun i => s.work.delta_x i * (1 / normInf s.work.delta_x)) ∧
    (storeSolution s dst).1.info = s.info ∧
    (storeSolution s dst).1.work.x = vSet 0 ∧ (storeSolution s dst).1.work.y = vSet 0 ∧ (storeSolution s dst).1.work.z = vSet 0 := by
  have h1 : hasSolution s.info = false := by
    unfold hasSolution; rcases h with h | h <;> rw [h] <;> decide
  have h2 : ¬ (s.info.status_val = St.primInf ∨ s.info.status_val = St.primInfInacc) := by
    rcases h with h | h <;> rw [h] <;> decide
  simp [storeSolution, h1, coldStart, h, h2, vScale, vNormInf_eq]
  rfl

theorem store_n {s : Solver d K} {dst : Solution d K} (h : s.info.status_val = St.nonCvx) :
    (storeSolution s dst).2 = ⟨vSet (Const.nan K), vSet (Const.nan K), dst.prim_inf_cert, dst.dual_inf_cert⟩ ∧
    (storeSolution s dst).1.info = s.info ∧
    (storeSolution s dst).1.work.x = vSet 0 ∧ (storeSolution s dst).1.work.y = vSet 0 ∧ (storeSolution s dst).1.work.z = vSet 0 := by
  have h1 : hasSolution s.info = false := by unfold hasSolution; rw [h]; decide
  have h2 : ¬ (s.info.status_val = St.primInf ∨ s.info.status_val = St.primInfInacc) := by rw [h]; decide
  have h3 : ¬ (s.info.status_val = St.dualInf ∨ s.info.status_val = St.dualInfInacc) := by rw [h]; decide
  simp [storeSolution, h1, coldStart, h2, h3]

theorem status_split (i : Info K) : hasSolution i = true ∨ (i.status_val = St.primInf ∨ i.status_val = St.primInfInacc) ∨
    (i.status_val = St.dualInf ∨ i.status_val = St.dualInfInacc) ∨ i.status_val = St.nonCvx := by
  by_cases h : hasSolution i = true
  · exact Or.inl h
  · right
    rw [hasSolution_iff] at h
    tauto

/-- Storing a second time gives the same vectors. -/
theorem store_twice {s : Solver d K} {dst : Solution d K} :
    (storeSolution (storeSolution s dst).1 (storeSolution s dst).2).2 = (storeSolution s dst).2 ∧
    (s.info.status_val ≠ St.nonCvx → ∀ dst', (storeSolution (storeSolution s dst).1 dst').2 = (storeSolution s dst).2) := by
  have norm2 : ∀ {n : ℕ} (v : Fin n → K), (fun i => (fun i => v i * (1 / normInf v)) i * (1 / normInf (fun i => v i * (1 / normInf v)))) =
      fun i => v i * (1 / normInf v) := by
    intro n v
    rcases (normInf_nonneg v).lt_or_eq with h | h
    · rw [normInf_scale_self v h]; simp
    · have hv : ∀ i, v i = 0 := fun i => by
        have := le_normInf v i; rw [← h] at this; exact abs_eq_zero.1 (le_antisymm this (abs_nonneg _))
      funext i; simp [hv]
  have key : ∀ dst', (s.info.status_val = St.nonCvx → dst' = (storeSolution s dst).2) →
      (storeSolution (storeSolution s dst).1 dst').2 = (storeSolution s dst).2 := by
    intro dst' hd
    rcases status_split s.info with h | h | h | h
    · obtain ⟨a, b, c, e⟩ := store_x (dst := dst) h
      have h' : hasSolution (storeSolution s dst).1.info = true := by rw [e]; exact h
      rw [(store_x h').1, a, b, c]
    · obtain ⟨a, b, e, _⟩ := store_p (dst := dst) h
      have h' := h; rw [← e] at h'
      rw [(store_p h').1, a, b, norm2]
    · obtain ⟨a, b, e, _⟩ := store_d (dst := dst) h
      have h' := h; rw [← e] at h'
      rw [(store_d h').1, a, b, norm2]
    · obtain ⟨a, e, _⟩ := store_n (dst := dst) h
      have h' := h; rw [← e] at h'
      rw [(store_n h').1, hd h, a]
  exact ⟨key _ fun _ => rfl, fun hn dst' => key dst' fun h => absurd h hn⟩

end Osqp

namespace Osqp
open Spec
variable {K : Type*} [Field K] [LinearOrder K] [IsStrictOrderedRing K] {d : Dims} {cfg : Cfg} {env : Env d K}

/-- The stored solution of a successful solve is the output of `store_solution` on a state `p`, and the solver is
left as `store_solution` leaves it. -/
theorem solve_stored {st₀ : Settings K} {U : Data d K} {s s' : Solver d K} (h : Inv cfg st₀ U s)
    (e : osqpSolve cfg env s = (s', 0)) {sol : Solution d K} (hsol : s'.solution = some sol) :
    ∃ p sol0, s.solution = some sol0 ∧ sol = (storeSolution p sol0).2 ∧ s'.work = (storeSolution p sol0).1.work ∧
      s'.info = (storeSolution p sol0).1.info ∧ s'.settings = (storeSolution p sol0).1.settings := by
  obtain ⟨it, t, hf, hn, hseen⟩ := solve_seen h e
  have e1 := hseen.sol
  have e2 := hseen.work
  rw [hsol] at e1
  have hp0 : (postTiming cfg (postPolish cfg env t).1).solution = s.solution := by
    have : t.solution = s.solution := by rw [hf.within.sol]; simp
    simpa using this
  generalize hp : postTiming cfg (postPolish cfg env t).1 = p at *
  have hset : s'.settings = p.settings := by rw [hseen.settings, ← hp]; simp
  have hinf := hseen.info
  rw [hp] at hinf
  unfold storeOwnSolution at e1 e2
  cases hc : p.solution with
  | none => rw [hc] at e1; dsimp only at e1; rw [hc] at e1; cases e1
  | some sol0 =>
    rw [hc] at e1 e2
    dsimp only at e1 e2
    injection e1 with e1
    exact ⟨p, sol0, by rw [← hp0, hc], e1, e2, by rw [hinf]; simp, by rw [hset]; simp⟩

end Osqp
