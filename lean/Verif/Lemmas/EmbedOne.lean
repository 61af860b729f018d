import Verif.Lemmas.EmbedTwo

/-!
# Mode 1: the iterations of a solve do not depend on what the build ignores
-/

set_option linter.unusedSectionVars false
namespace Osqp
variable {K : Type*} [Field K] [LinearOrder K] {d : Dims}

/-- Values of the fields the build ignores. -/
structure Kept (d : Dims) (K : Type*) where
  p : ℤ
  a : ℤ
  est : K
  ups : ℤ
  o : Option (Solution d K)

variable (cfg : Cfg) (env : Env d K) {h : Kept d K}

/-- The same solver with other values there. -/
def hide (h : Kept d K) (s : Solver d K) : Solver d K :=
  { s with settings := { s.settings with polishing := h.p, adaptive_rho := h.a }, info := { s.info with rho_estimate := h.est, rho_updates := h.ups }, solution := h.o }

def LoopSt.hide (h : Kept d K) (L : LoopSt d K) : LoopSt d K := { L with s := Osqp.hide h L.s }

theorem hide_admmStep (s : Solver d K) : admmStep env (hide h s) = hide h (admmStep env s) := rfl

theorem hide_intrCheck (s : Solver d K) : intrCheck cfg env (hide h s) = (hide h (intrCheck cfg env s).1, (intrCheck cfg env s).2) := by
  unfold intrCheck; split_ifs <;> rfl

theorem hide_timeCheck (s : Solver d K) : timeCheck cfg env (hide h s) = (hide h (timeCheck cfg env s).1, (timeCheck cfg env s).2) := by
  unfold timeCheck; split_ifs <;> rfl

theorem hide_computeReport (s : Solver d K) (x : Vec K d.n) (z y : Vec K d.m) :
    computeReport (hide h s) x z y = (hide h (computeReport s x z y).1, (computeReport s x z y).2) := by
  unfold computeReport computePrimRes computeDualRes computeObj
  dsimp only
  have e : (hide h s).settings.unscaledTerm = s.settings.unscaledTerm := rfl
  have e2 : (hide h s).settings.scaling = s.settings.scaling := rfl
  by_cases hm : d.m = 0 <;> by_cases hs : s.settings.scaling = 0 <;>
    simp only [hm, hs, e2, if_true, if_false, ne_eq, not_true, not_false_iff] <;> rfl

theorem hide_updateInfo (i : ℤ) (s : Solver d K) : updateInfo cfg env i (hide h s) = hide h (updateInfo cfg env i s) := by
  unfold updateInfo
  have hr := hide_computeReport (h := h) s s.work.x s.work.z s.work.y
  have e : (hide h s).work = s.work := rfl
  rw [e, hr]
  split_ifs <;> rfl

theorem hide_isPrimalInfeasible (eps : K) (s : Solver d K) :
    isPrimalInfeasible (hide h s) eps = (hide h (isPrimalInfeasible s eps).1, (isPrimalInfeasible s eps).2) := by
  refine Prod.ext ?_ ?_
  · dsimp only; rw [isPrimalInfeasible_fst, isPrimalInfeasible_fst]; rfl
  · have h : ∀ (b1 b2 : Prop) [Decidable b1] [Decidable b2] (u v w : Solver d K) (c1 : Bool),
        (if b1 then (if b2 then (u, c1) else (v, false)) else (w, false)).2 = (if b1 then (if b2 then c1 else false) else false) := by
      intro b1 b2 _ _ u v w c1; split_ifs <;> rfl
    unfold isPrimalInfeasible
    dsimp only
    rw [h, h]
    rfl

theorem hide_ctTail (b : Bool) (s : Solver d K) (p1 p2 p3 p4 p5 : Bool) :
    ctTail b (hide h s) p1 p2 p3 p4 p5 = (hide h (ctTail b s p1 p2 p3 p4 p5).1, (ctTail b s p1 p2 p3 p4 p5).2) := by
  cases p1 <;> cases p2 <;> cases p3 <;> cases p4 <;> cases p5 <;> rfl

theorem hide_checkTermination (b : Bool) (s : Solver d K) :
    checkTermination b (hide h s) = (hide h (checkTermination b s).1, (checkTermination b s).2) := by
  have e2 : (hide h s).info.prim_res = s.info.prim_res := rfl
  have e3 : (hide h s).info.dual_res = s.info.dual_res := rfl
  by_cases hn : s.info.prim_res > Const.infty K ∨ s.info.dual_res > Const.infty K
  · unfold checkTermination; dsimp only
    rw [if_pos hn, if_pos (by rw [e2, e3]; exact hn)]; rfl
  have h1 := checkTermination_tail b s hn
  have h2 := checkTermination_tail b (hide h s) (by rw [e2, e3]; exact hn)
  dsimp only at h1 h2
  rw [h2, h1]
  have hp : ∀ a r, primTol (hide h s) a r = primTol s a r := fun _ _ => rfl
  have hd : ∀ a r, dualTol (hide h s) a r = dualTol s a r := fun _ _ => rfl
  have hdi : ∀ a, isDualInfeasible (hide h s) a = isDualInfeasible s a := fun _ => rfl
  have hg : ctGapB b (hide h s) = ctGapB b s := rfl
  have e5 : (hide h s).settings.eps_abs = s.settings.eps_abs := rfl
  have e6 : (hide h s).settings.eps_rel = s.settings.eps_rel := rfl
  have e7 : (hide h s).settings.eps_dual_inf = s.settings.eps_dual_inf := rfl
  have e8 : (hide h s).settings.eps_prim_inf = s.settings.eps_prim_inf := rfl
  rw [hide_isPrimalInfeasible]
  simp only [hp, hd, hdi, hg, e2, e3, e5, e6, e7, e8, hide_ctTail]
  split_ifs <;> rfl

def IterOut.hide (h : Kept d K) : IterOut d K → IterOut d K
  | .cont L => .cont (L.hide h)
  | .brk L => .brk (L.hide h)
  | .exit s => .exit (Osqp.hide h s)

theorem hide_iterBody (i : ℤ) (L : LoopSt d K) : iterBodyE .one cfg env i (L.hide h) = (iterBodyE .one cfg env i L).hide h := by
  unfold iterBodyE adaptDecisionE adaptPhaseE
  have e1 : (L.hide h).s = hide h L.s := rfl
  have e2 : (L.hide h).canPrint = L.canPrint := rfl
  have e3 : (L.hide h).canCheck = L.canCheck := rfl
  dsimp only
  simp only [e1, e2, e3, hide_admmStep, hide_intrCheck, hide_timeCheck]
  generalize intrCheck cfg env _ = r1
  generalize timeCheck cfg env _ = r2
  by_cases h1 : r1.2 = true
  · rw [if_pos h1, if_pos h1]; rfl
  rw [if_neg h1, if_neg h1]
  by_cases h2 : r2.2 = true
  · rw [if_pos h2, if_pos h2]; rfl
  rw [if_neg h2, if_neg h2]
  have e4 : (hide h r2.1).settings.check_termination = r2.1.settings.check_termination := rfl
  have e5 : (hide h r2.1).settings.verbose = r2.1.settings.verbose := rfl
  simp only [e4, e5]
  have h3 : ∀ (c : Bool) (t : Solver d K), (if c = true then updateInfo cfg env i (hide h t) else hide h t) =
      hide h (if c = true then updateInfo cfg env i t else t) := by
    intro c t; rw [hide_updateInfo]; split_ifs <;> rfl
  have h4 : ∀ (c : Bool) (t : Solver d K), (if c = true then checkTermination false (hide h t) else (hide h t, false)) =
      (hide h (if c = true then checkTermination false t else (t, false)).1, (if c = true then checkTermination false t else (t, false)).2) := by
    intro c t; rw [hide_checkTermination]; split_ifs <;> rfl
  rw [h3, h4]
  split_ifs <;> rfl

def LoopOut.hide (h : Kept d K) : LoopOut d K → LoopOut d K
  | .done i L => .done i (L.hide h)
  | .exit s => .exit (Osqp.hide h s)

theorem hide_loop (k : ℕ) : ∀ (i : ℤ) (L : LoopSt d K), admmLoopE .one cfg env k i (L.hide h) = (admmLoopE .one cfg env k i L).hide h := by
  induction k with
  | zero => intro i L; rfl
  | succ k ih =>
    intro i L
    unfold admmLoopE
    rw [hide_iterBody]
    cases iterBodyE .one cfg env i L with
    | cont L' => exact ih _ _
    | brk L' => rfl
    | exit s => rfl

theorem hide_entry (s : Solver d K) : solveEntry cfg (hide h s) = (solveEntry cfg s).hide h := by
  unfold solveEntry LoopSt.hide
  have e : (hide h s).work = s.work := rfl
  dsimp only
  by_cases h1 : cfg.profiling = true <;> by_cases h2 : s.work.clear_update_time = true <;> by_cases h3 : cfg.interrupt = true <;>
    by_cases h4 : s.settings.warm_starting = 0 <;>
    simp [h1, h2, h3, h4, hide, coldStart]

theorem hide_postLoop (i : ℤ) (L : LoopSt d K) : postLoopE .one cfg env i (L.hide h) = hide h (postLoopE .one cfg env i L) := by
  have h1 : postCheck cfg env i (L.hide h) = hide h (postCheck cfg env i L) := by
    unfold postCheck
    have e1 : (L.hide h).s = hide h L.s := rfl
    have e2 : (L.hide h).canPrint = L.canPrint := rfl
    have e3 : (L.hide h).canCheck = L.canCheck := rfl
    dsimp only
    rw [e1, e2, e3, hide_updateInfo]
    have h4 : (if (cfg.printing && L.canPrint) = true then hide h L.s else hide h (updateInfo cfg env (i - 1) L.s)) =
      hide h (if (cfg.printing && L.canPrint) = true then L.s else updateInfo cfg env (i - 1) L.s) := by split_ifs <;> rfl
    rw [h4, hide_checkTermination]
    split_ifs <;> rfl
  have h2 : ∀ t : Solver d K, postObj (hide h t) = hide h (postObj t) := by
    intro t
    unfold postObj computeObj
    have e2 : hasSolution (hide h t).info = hasSolution t.info := rfl
    have e3 : (hide h t).settings.scaling = t.settings.scaling := rfl
    dsimp only
    rw [e2, e3]
    by_cases h1 : hasSolution t.info = true <;> by_cases h3 : t.settings.scaling = 0 <;> simp [h1, h3, hide]
  have h3 : ∀ t : Solver d K, postMaxIter (hide h t) = hide h (postMaxIter t) := by
    intro t
    unfold postMaxIter
    have e2 : (hide h t).info.status_val = t.info.status_val := rfl
    dsimp only
    rw [e2, hide_checkTermination]
    split_ifs <;> rfl
  have h4 : ∀ t : Solver d K, postTimeLimit cfg (hide h t) = hide h (postTimeLimit cfg t) := by
    intro t
    unfold postTimeLimit
    have e2 : (hide h t).info.status_val = t.info.status_val := rfl
    dsimp only
    rw [e2, hide_checkTermination]
    split_ifs <;> rfl
  have h5 : ∀ t : Solver d K, postRhoE .one cfg env (hide h t) = hide h (postRhoE .one cfg env t) := by
    intro t
    unfold postRhoE
    by_cases hp : cfg.profiling = true
    · simp only [hp, if_true, reduceCtorEq, if_false]; rfl
    · simp only [hp, reduceCtorEq, if_false]
  unfold postLoopE
  rw [h1, h2, h3, h4, h5]

theorem hide_postTiming (s : Solver d K) : postTiming cfg (hide h s) = hide h (postTiming cfg s) := by
  unfold postTiming
  by_cases h : cfg.profiling = true
  · rw [if_pos h, if_pos h]; rfl
  · rw [if_neg h, if_neg h]

theorem hide_endListener (s : Solver d K) : endListener cfg (hide h s) = hide h (endListener cfg s) := by
  unfold endListener; split_ifs <;> rfl

end Osqp
