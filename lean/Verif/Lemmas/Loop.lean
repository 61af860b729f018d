import Verif.Lemmas.Fresh

/-!
# Case analysis of one loop iteration, induction over the loop
-/

set_option linter.unusedSectionVars false
namespace Osqp
open Spec
variable {K : Type*} [Field K] [LinearOrder K] {d : Dims}

/-- After the ADMM step and the interrupt poll. -/
def itAdmm (cfg : Cfg) (env : Env d K) (L : LoopSt d K) : Solver d K := (intrCheck cfg env (admmStep env L.s)).1
/-- After the time check. -/
def itTimed (cfg : Cfg) (env : Env d K) (L : LoopSt d K) : Solver d K := (timeCheck cfg env (itAdmm cfg env L)).1
/-- `can_check_termination` of iteration `iter`. -/
def itCheck (st : Settings K) (iter : ℤ) : Bool :=
  decide (st.check_termination ≠ 0) && decide (iter % st.check_termination = 0)
/-- `can_print` of iteration `iter`. -/
def itPrint (cfg : Cfg) (st : Settings K) (iter : ℤ) : Bool :=
  cfg.printing && decide (st.verbose ≠ 0) && (decide (iter % 200 = 0) || decide (iter = 1))
/-- After the decision to adapt. -/
def itDec (cfg : Cfg) (env : Env d K) (iter : ℤ) (L : LoopSt d K) : Solver d K × Bool :=
  adaptDecision cfg env iter (itTimed cfg env L)
/-- Whether `update_info` is called. -/
def itUpd (cfg : Cfg) (env : Env d K) (iter : ℤ) (L : LoopSt d K) : Bool :=
  itCheck L.s.settings iter || itPrint cfg L.s.settings iter || (itDec cfg env iter L).2 || decide (iter = 1)
/-- After `update_info`. -/
def itInfo (cfg : Cfg) (env : Env d K) (iter : ℤ) (L : LoopSt d K) : Solver d K :=
  if itUpd cfg env iter L then updateInfo cfg env iter (itDec cfg env iter L).1 else (itDec cfg env iter L).1
/-- After `check_termination`. -/
def itTerm (cfg : Cfg) (env : Env d K) (iter : ℤ) (L : LoopSt d K) : Solver d K × Bool :=
  if itCheck L.s.settings iter then checkTermination false (itInfo cfg env iter L) else (itInfo cfg env iter L, false)

theorem iterBody_eq (cfg : Cfg) (env : Env d K) (iter : ℤ) (L : LoopSt d K) :
    iterBody cfg env iter L =
      if (intrCheck cfg env (admmStep env L.s)).2 then .exit (setStatus (itAdmm cfg env L) St.sigint)
      else if (timeCheck cfg env (itAdmm cfg env L)).2 then
        .brk { s := setStatus (itTimed cfg env L) St.timeLimit,
               canPrint := if cfg.printing then false else L.canPrint, canCheck := L.canCheck }
      else if (itTerm cfg env iter L).2 then
        .brk { s := (itTerm cfg env iter L).1, canPrint := itPrint cfg L.s.settings iter, canCheck := itCheck L.s.settings iter }
      else if (adaptPhase cfg env (itDec cfg env iter L).2 (itTerm cfg env iter L).1).2 then
        .exit (adaptPhase cfg env (itDec cfg env iter L).2 (itTerm cfg env iter L).1).1
      else .cont { s := (adaptPhase cfg env (itDec cfg env iter L).2 (itTerm cfg env iter L).1).1,
                   canPrint := itPrint cfg L.s.settings iter, canCheck := itCheck L.s.settings iter } := by
  have hst : (itTimed cfg env L).settings = L.s.settings := by simp [itTimed, itAdmm]
  unfold iterBody
  have e : ∀ (st : Settings K), (itTimed cfg env L).settings = st → L.s.settings = st := by
    intro st h; rw [← hst]; exact h
  unfold itTerm itInfo itUpd itDec
  rw [← hst]
  rfl

/-- Induction over the loop: an invariant of loop heads that is kept by every completed iteration holds at
the head of the iteration in which the loop ends. -/
theorem admmLoop_ind (cfg : Cfg) (env : Env d K) (P : ℤ → LoopSt d K → Prop)
    (hP : ∀ it L L', P it L → iterBody cfg env it L = .cont L' → P (it + 1) L') :
    ∀ (k : ℕ) (iter : ℤ) (L : LoopSt d K), P iter L →
      (∀ it L', admmLoop cfg env k iter L = .done it L' →
        (it = iter + k ∧ P it L') ∨
        (iter ≤ it ∧ it < iter + k ∧ ∃ L0, P it L0 ∧ iterBody cfg env it L0 = .brk L')) ∧
      (∀ s, admmLoop cfg env k iter L = .exit s →
        ∃ it L0, iter ≤ it ∧ it < iter + k ∧ P it L0 ∧ iterBody cfg env it L0 = .exit s) := by
  intro k
  induction k with
  | zero =>
    intro iter L h
    refine ⟨fun it L' e => ?_, fun s e => ?_⟩
    · unfold admmLoop at e; cases e; left; exact ⟨by simp, h⟩
    · unfold admmLoop at e; cases e
  | succ k ih =>
    intro iter L h
    unfold admmLoop
    cases hb : iterBody cfg env iter L with
    | cont L1 =>
      obtain ⟨i1, i2⟩ := ih (iter + 1) L1 (hP _ _ _ h hb)
      refine ⟨fun it L' e => ?_, fun s e => ?_⟩
      · rcases i1 it L' e with ⟨a, b⟩ | ⟨a, b, c⟩
        · left; exact ⟨by rw [a]; push_cast; ring, b⟩
        · right; refine ⟨by omega, by push_cast; omega, c⟩
      · obtain ⟨it, L0, a, b, c⟩ := i2 s e
        exact ⟨it, L0, by omega, by push_cast; omega, c⟩
    | brk L1 =>
      refine ⟨fun it L' e => ?_, fun s e => ?_⟩
      · dsimp only at e; cases e; right
        exact ⟨le_rfl, by push_cast; omega, L, h, hb⟩
      · cases e
    | exit s1 =>
      refine ⟨fun it L' e => ?_, fun s e => ?_⟩
      · cases e
      · dsimp only at e; cases e
        exact ⟨iter, L, le_rfl, by push_cast; omega, h, hb⟩

end Osqp
