import Verif.Model.Cg
import Verif.Lemmas.Num
import Mathlib.Tactic.FieldSimp
import Mathlib.Tactic.Positivity
import Mathlib.Tactic.Ring

/-!
# C49: tolerance of the indirect solver

The property as stated ("never below its hard minimum, never above the fraction of the residuals, non-increasing") is
false of the first iteration of a solve, see `c49_counterexample`; from the second iteration on it holds.
-/

namespace Osqp.Cg

variable {K : Type*} [Field K] [LinearOrder K] [IsStrictOrderedRing K] {sqrt : K → K}

theorem solve_later {s s' : State K} {c : Call K} {eps : K} (adm : s.polish = false) (call : solve sqrt s c = some (s', eps))
    (later : c.admm_iter ≠ 1) :
    ∃ e, s.eps_prev = some e ∧ s'.eps_prev = some eps ∧ s'.polish = false ∧
      eps = max (min (s'.reduction_factor * sqrt (c.prim * c.dual)) e) tolMin ∧
      s'.reduction_interval = s.reduction_interval ∧ s'.tol_fraction = s.tol_fraction ∧
      s'.reduction_factor = (if s.reduction_interval ≤ s.cg_zero_iters then s.reduction_factor / 2 else s.reduction_factor) ∧
      s'.cg_zero_iters = (if c.found then if c.noIter then
          (if s.reduction_interval ≤ s.cg_zero_iters then 0 else s.cg_zero_iters) + 1 else 0
        else if s.reduction_interval ≤ s.cg_zero_iters then 0 else s.cg_zero_iters) := by
  unfold solve at call
  simp only [adm, Bool.false_eq_true, if_false, if_neg later, ge_iff_le, computeTolerance] at call
  by_cases hz : s.reduction_interval ≤ s.cg_zero_iters
  · simp only [if_pos hz] at call ⊢
    cases he : s.eps_prev with
    | none => simp [he] at call
    | some e =>
      refine ⟨e, rfl, ?_⟩
      simp only [he, Option.bind_some, Option.some.injEq, Prod.mk.injEq] at call
      obtain ⟨h1, h2⟩ := call
      rw [cMax_eq, cMin_eq] at h2
      by_cases hf : c.found = true
      · by_cases hn : c.noIter = true
        · simp only [hf, hn, if_true] at h1 ⊢; subst h1; simp [h2, adm, cMax_eq, cMin_eq]
        · simp only [hf, hn, if_true] at h1 ⊢; subst h1; simp [h2, adm, cMax_eq, cMin_eq]
      · simp only [hf] at h1 ⊢; subst h1; simp [h2, adm, cMax_eq, cMin_eq]
  · simp only [if_neg hz] at call ⊢
    cases he : s.eps_prev with
    | none => simp [he] at call
    | some e =>
      refine ⟨e, rfl, ?_⟩
      simp only [he, Option.bind_some, Option.some.injEq, Prod.mk.injEq] at call
      obtain ⟨h1, h2⟩ := call
      rw [cMax_eq, cMin_eq] at h2
      by_cases hf : c.found = true
      · by_cases hn : c.noIter = true
        · simp only [hf, hn, if_true] at h1 ⊢; subst h1; simp [h2, adm, cMax_eq, cMin_eq]
        · simp only [hf, hn, if_true] at h1 ⊢; subst h1; simp [h2, adm, cMax_eq, cMin_eq]
      · simp only [hf] at h1 ⊢; subst h1; simp [h2, adm, cMax_eq, cMin_eq]

theorem solve_first {s s' : State K} {c : Call K} {eps : K} (adm : s.polish = false) (call : solve sqrt s c = some (s', eps))
    (first : c.admm_iter = 1) :
    eps = (if c.rhs_norm < tolMin then 1 else c.rhs_norm * s.tol_fraction) ∧ s'.eps_prev = some eps ∧ s'.polish = false ∧
      s'.reduction_factor = s.tol_fraction ∧ s'.reduction_interval = s.reduction_interval ∧ s'.tol_fraction = s.tol_fraction := by
  unfold solve at call
  simp only [adm, Bool.false_eq_true, if_false, if_pos first, computeTolerance] at call
  by_cases hr : c.rhs_norm < tolMin
  · simp only [if_pos hr, Option.bind_some, Option.some.injEq, Prod.mk.injEq] at call ⊢
    obtain ⟨h1, h2⟩ := call
    by_cases hf : c.found = true
    · by_cases hn : c.noIter = true
      · simp only [hf, hn, if_true] at h1; subst h1; simp [h2, adm]
      · simp only [hf, hn, if_true] at h1; subst h1; simp [h2, adm]
    · simp only [hf] at h1; subst h1; simp [h2, adm]
  · simp only [if_neg hr, Option.bind_some, Option.some.injEq, Prod.mk.injEq] at call ⊢
    obtain ⟨h1, h2⟩ := call
    by_cases hf : c.found = true
    · by_cases hn : c.noIter = true
      · simp only [hf, hn, if_true] at h1; subst h1; simp [h2, adm]
      · simp only [hf, hn, if_true] at h1; subst h1; simp [h2, adm]
    · simp only [hf] at h1; subst h1; simp [h2, adm]

theorem solve_defined (s : State K) (c : Call K) (h : c.admm_iter = 1 ∨ s.eps_prev.isSome ∨ s.polish = true) :
    ∃ r, solve sqrt s c = some r := by
  by_cases hp : s.polish = true
  · unfold solve; simp [hp]
  · by_cases h1 : c.admm_iter = 1
    · unfold solve; simp only [hp, h1, if_true, computeTolerance]
      by_cases hr : c.rhs_norm < tolMin <;> simp [hr]
    · have h2 : s.eps_prev.isSome := by simp_all
      obtain ⟨e, he⟩ := Option.isSome_iff_exists.1 h2
      unfold solve
      simp only [hp, if_neg h1, computeTolerance]
      by_cases hz : s.cg_zero_iters ≥ s.reduction_interval <;> simp [hz, he]

/-- State after a history, in terms of the history alone: the last tolerance used and the fraction in force. -/
def fractionOf (f : K) (es : List (Event K)) : K :=
  es.foldl (fun f e => match e with | .settings g _ => g | .solve _ => f) f

theorem run_append (es es' : List (Event K)) (s : State K) :
    run sqrt s (es ++ es') = (run sqrt s es).bind fun r => (run sqrt r.1 es').bind fun q => some (q.1, r.2 ++ q.2) := by
  induction es generalizing s with
  | nil =>
    simp only [List.nil_append, run, Option.bind_some]
    cases run sqrt s es' <;> rfl
  | cons e es ih =>
    cases e with
    | settings f i => simp only [List.cons_append, run, ih]
    | solve c =>
      simp only [List.cons_append, run]
      cases solve sqrt s c with
      | none => rfl
      | some r =>
        simp only [Option.bind_some, ih]
        cases run sqrt r.1 es with
        | none => rfl
        | some q =>
          simp only [Option.bind_some]
          cases run sqrt q.1 es' <;> rfl

theorem run_state {f : K} {i : ℤ} {es : List (Event K)} {s : State K} {tols : List K}
    (hist : run sqrt (init false f i) es = some (s, tols)) :
    s.polish = false ∧ s.eps_prev = tols.getLast? ∧ s.tol_fraction = fractionOf f es := by
  induction es using List.reverseRecOn generalizing s tols with
  | nil =>
    simp only [run, Option.some.injEq, Prod.mk.injEq] at hist
    obtain ⟨rfl, rfl⟩ := hist
    exact ⟨rfl, rfl, rfl⟩
  | append_singleton es e ih =>
    rw [run_append] at hist
    cases hr : run sqrt (init false f i) es with
    | none => simp [hr] at hist
    | some r =>
      obtain ⟨h1, h2, h3⟩ := ih (s := r.1) (tols := r.2) hr
      simp only [hr, Option.bind_some] at hist
      cases e with
      | settings g k =>
        simp only [run, Option.bind_some, List.append_nil, Option.some.injEq, Prod.mk.injEq] at hist
        obtain ⟨rfl, rfl⟩ := hist
        refine ⟨h1, h2, ?_⟩
        simp [fractionOf, updateSettings]
      | solve c =>
        simp only [run] at hist
        cases hs : solve sqrt r.1 c with
        | none => simp [hs] at hist
        | some q =>
          simp only [hs, Option.bind_some, Option.some.injEq, Prod.mk.injEq] at hist
          obtain ⟨rfl, rfl⟩ := hist
          have hf : fractionOf f (es ++ [Event.solve c]) = fractionOf f es := by simp [fractionOf]
          rw [hf, List.getLast?_append]
          by_cases h : c.admm_iter = 1
          · obtain ⟨-, a, b, -, -, g⟩ := solve_first (s' := q.1) (eps := q.2) h1 hs h
            exact ⟨b, by simpa using a, g.trans h3⟩
          · obtain ⟨e, -, a, b, -, -, g, -⟩ := solve_later (s' := q.1) (eps := q.2) h1 hs h
            exact ⟨b, by simpa using a, g.trans h3⟩

theorem solve_nn {s s' : State K} {c : Call K} {eps : K} (call : solve sqrt s c = some (s', eps)) (nn : 0 ≤ s.cg_zero_iters) :
    0 ≤ s'.cg_zero_iters := by
  have tail : ∀ r : State K, 0 ≤ r.cg_zero_iters → 0 ≤ (if c.found then
      if c.noIter then { r with cg_zero_iters := r.cg_zero_iters + 1 } else { r with cg_zero_iters := 0 } else r).cg_zero_iters := by
    intro r hr
    by_cases hf : c.found = true
    · by_cases hn : c.noIter = true
      · simp only [hf, hn, if_true]; omega
      · simp [hf, hn]
    · simpa [hf] using hr
  unfold solve at call
  simp only [Option.bind_eq_some_iff, Option.some.injEq, Prod.mk.injEq] at call
  obtain ⟨r, hr, hs, -⟩ := call
  rw [← hs]
  apply tail
  by_cases hp : s.polish = true
  · simp only [hp, if_true, Option.some.injEq] at hr
    rw [← hr]; exact nn
  · simp only [hp, Bool.false_eq_true, if_false, Option.bind_eq_some_iff, Option.some.injEq] at hr
    obtain ⟨e, -, he⟩ := hr
    rw [← he]
    by_cases h1 : c.admm_iter = 1
    · simpa [h1] using nn
    · by_cases h2 : s.cg_zero_iters ≥ s.reduction_interval
      · simp [h1, h2]
      · simpa [h1, h2] using nn

theorem run_nn {s s' : State K} {es : List (Event K)} {tols : List K} (hr : run sqrt s es = some (s', tols))
    (nn : 0 ≤ s.cg_zero_iters) : 0 ≤ s'.cg_zero_iters := by
  induction es generalizing s s' tols with
  | nil => simp only [run, Option.some.injEq, Prod.mk.injEq] at hr; exact hr.1 ▸ nn
  | cons e es ih =>
    cases e with
    | settings f i => exact ih (s := updateSettings s f i) hr nn
    | solve c =>
      simp only [run, Option.bind_eq_some_iff, Option.some.injEq, Prod.mk.injEq] at hr
      obtain ⟨r, h1, q, h2, h3, -⟩ := hr
      exact h3 ▸ ih (s := r.1) (s' := q.1) h2 (solve_nn (s' := r.1) h1 nn)

/-- **C49, from the second iteration on.**  After any history of solves and settings changes, the tolerance of a call at
an iteration other than the first is at least the hard minimum, at most the larger of the minimum and the current
fraction of the (geometric mean of the) residuals, and at most the larger of the minimum and the previous tolerance. -/
theorem c49_later_partial {f : K} {i : ℤ} {es : List (Event K)} {s s' : State K} {tols : List K} {c : Call K} {eps : K}
    (hist : run sqrt (init false f i) es = some (s, tols)) (call : solve sqrt s c = some (s', eps))
    (later : c.admm_iter ≠ 1) :
    tolMin ≤ eps ∧ eps ≤ max tolMin (s'.reduction_factor * sqrt (c.prim * c.dual)) ∧
      ∃ e, tols.getLast? = some e ∧ eps ≤ max tolMin e := by
  obtain ⟨h1, h2, -⟩ := run_state hist
  obtain ⟨e, he, -, -, hv, -⟩ := solve_later h1 call later
  refine ⟨hv ▸ le_max_right _ _, ?_, e, h2 ▸ he, ?_⟩
  · rw [hv, max_comm]; exact max_le_max le_rfl (min_le_left _ _)
  · rw [hv, max_comm]; exact max_le_max le_rfl (min_le_right _ _)

/-- **C49, first iteration.**  The tolerance is the fraction in force of the norm of the right-hand side, or 1 when that norm
is below the hard minimum: never above the larger of the two. -/
theorem c49_first {f : K} {i : ℤ} {es : List (Event K)} {s s' : State K} {tols : List K} {c : Call K} {eps : K}
    (hist : run sqrt (init false f i) es = some (s, tols)) (call : solve sqrt s c = some (s', eps))
    (first : c.admm_iter = 1) :
    eps = (if c.rhs_norm < tolMin then 1 else c.rhs_norm * fractionOf f es) ∧ s'.reduction_factor = fractionOf f es := by
  obtain ⟨h1, -, h3⟩ := run_state hist
  obtain ⟨a, -, -, b, -⟩ := solve_first h1 call first
  exact ⟨by rw [a, h3], by rw [b, h3]⟩

/-- No history whose first solve is a first iteration reads the indeterminate `eps_prev`. -/
theorem c49_defined (f : K) (i : ℤ) (c : Call K) (es : List (Event K)) (first : c.admm_iter = 1) :
    ∃ r, run sqrt (init false f i) (.solve c :: es) = some r := by
  have gen : ∀ (es : List (Event K)) (s : State K), s.polish = false → s.eps_prev.isSome → ∃ r, run sqrt s es = some r := by
    intro es
    induction es with
    | nil => intro s _ _; exact ⟨_, rfl⟩
    | cons e es ih =>
      intro s hp he
      cases e with
      | settings g k => exact ih _ hp he
      | solve c =>
        obtain ⟨r, hr⟩ := solve_defined (sqrt := sqrt) s c (Or.inr (Or.inl he))
        have hr' : r.1.polish = false ∧ r.1.eps_prev.isSome := by
          by_cases h : c.admm_iter = 1
          · obtain ⟨-, a, b, -⟩ := solve_first (s' := r.1) (eps := r.2) hp hr h
            exact ⟨b, by simp [a]⟩
          · obtain ⟨e, -, a, b, -⟩ := solve_later (s' := r.1) (eps := r.2) hp hr h
            exact ⟨b, by simp [a]⟩
        obtain ⟨q, hq⟩ := ih r.1 hr'.1 hr'.2
        simp only [run, hr, Option.bind_some, hq]
        exact ⟨_, rfl⟩
  obtain ⟨r, hr⟩ := solve_defined (sqrt := sqrt) (init false f i) c (Or.inl first)
  obtain ⟨-, a, b, -⟩ := solve_first (s' := r.1) (eps := r.2) rfl hr first
  obtain ⟨q, hq⟩ := gen es r.1 b (by simp [a])
  simp only [run, hr, Option.bind_some, hq]
  exact ⟨_, rfl⟩

theorem chain_later {s s' : State K} {cs : List (Call K)} {tols : List K} (adm : s.polish = false)
    (later : ∀ c ∈ cs, c.admm_iter ≠ 1) (hr : run sqrt s (cs.map Event.solve) = some (s', tols)) :
    tols.Pairwise (· ≥ ·) ∧ (∀ e ∈ tols, tolMin ≤ e) ∧
      ∀ e, s.eps_prev = some e → ∀ t ∈ tols, t ≤ max tolMin e := by
  induction cs generalizing s s' tols with
  | nil =>
    simp only [List.map_nil, run, Option.some.injEq, Prod.mk.injEq] at hr
    obtain ⟨-, rfl⟩ := hr
    simp
  | cons c cs ih =>
    simp only [List.map_cons, run] at hr
    cases hs : solve sqrt s c with
    | none => simp [hs] at hr
    | some r =>
      cases hq : run sqrt r.1 (cs.map Event.solve) with
      | none => simp [hs, hq] at hr
      | some q =>
        simp only [hs, hq, Option.bind_some, Option.some.injEq, Prod.mk.injEq] at hr
        obtain ⟨-, rfl⟩ := hr
        obtain ⟨e, he, ha, hp, hv, -⟩ := solve_later (s' := r.1) (eps := r.2) adm hs (later c (by simp))
        obtain ⟨i1, i2, i3⟩ := ih hp (fun c hc => later c (by simp [hc])) hq
        have hmin : tolMin ≤ r.2 := hv ▸ le_max_right _ _
        have hb : ∀ t ∈ q.2, t ≤ r.2 := fun t ht => (i3 _ ha t ht).trans (max_le hmin le_rfl)
        refine ⟨List.pairwise_cons.2 ⟨hb, i1⟩, ?_, ?_⟩
        · intro t ht
          rcases List.mem_cons.1 ht with rfl | ht
          · exact hmin
          · exact i2 t ht
        · intro e' he' t ht
          have : e' = e := by rw [he] at he'; exact (Option.some.inj he').symm
          subst this
          have h1 : r.2 ≤ max tolMin e' := by rw [hv, max_comm]; exact max_le_max le_rfl (min_le_right _ _)
          rcases List.mem_cons.1 ht with rfl | ht
          · exact h1
          · exact (hb t ht).trans h1

/-- **C49, over a solve.**  From the second iteration on the tolerances of a solve never increase and never fall below the hard
minimum, whatever the residuals and the outcomes of the conjugate-gradient runs were. -/
theorem c49_decreasing_partial {f : K} {i : ℤ} {es : List (Event K)} {s s' : State K} {tols after : List K} {cs : List (Call K)}
    (hist : run sqrt (init false f i) es = some (s, tols)) (later : ∀ c ∈ cs, c.admm_iter ≠ 1)
    (calls : run sqrt s (cs.map Event.solve) = some (s', after)) :
    after.Pairwise (· ≥ ·) ∧ ∀ e ∈ after, tolMin ≤ e := by
  obtain ⟨h1, -, -⟩ := run_state hist
  obtain ⟨a, b, -⟩ := chain_later h1 later calls
  exact ⟨a, b⟩

theorem chain_factor {s s' : State K} {cs : List (Call K)} {tols : List K} (adm : s.polish = false)
    (later : ∀ c ∈ cs, c.admm_iter ≠ 1) (nn : 0 ≤ s.cg_zero_iters) (pos : 0 < s.reduction_interval)
    (hr : run sqrt s (cs.map Event.solve) = some (s', tols)) :
    ∃ r : ℕ, s'.reduction_factor = s.reduction_factor / 2 ^ r ∧ 0 ≤ s'.cg_zero_iters ∧
      r * s.reduction_interval + s'.cg_zero_iters ≤ s.cg_zero_iters + (cs.filter fun c => c.found && c.noIter).length := by
  induction cs generalizing s s' tols with
  | nil =>
    simp only [List.map_nil, run, Option.some.injEq, Prod.mk.injEq] at hr
    obtain ⟨rfl, -⟩ := hr
    exact ⟨0, by simp, nn, by simp⟩
  | cons c cs ih =>
    simp only [List.map_cons, run] at hr
    cases hs : solve sqrt s c with
    | none => simp [hs] at hr
    | some r =>
      cases hq : run sqrt r.1 (cs.map Event.solve) with
      | none => simp [hs, hq] at hr
      | some q =>
        simp only [hs, hq, Option.bind_some, Option.some.injEq, Prod.mk.injEq] at hr
        obtain ⟨rfl, -⟩ := hr
        obtain ⟨e, -, -, hp, -, hi, -, hf, hz⟩ := solve_later (s' := r.1) (eps := r.2) adm hs (later c (by simp))
        have hlen : ((List.filter (fun c => c.found && c.noIter) (c :: cs)).length : ℤ) =
            (if c.found = true ∧ c.noIter = true then 1 else 0) + ((cs.filter fun c => c.found && c.noIter).length : ℤ) := by
          by_cases h : c.found = true ∧ c.noIter = true
          · rw [List.filter_cons_of_pos (by simp [h.1, h.2]), if_pos h]; push_cast; simp; ring
          · rw [List.filter_cons_of_neg (by simpa using h), if_neg h]; simp
        have nn' : 0 ≤ r.1.cg_zero_iters := by rw [hz]; split_ifs <;> omega
        obtain ⟨k, h1, h2, h3⟩ := ih hp (fun c hc => later c (by simp [hc])) nn' (hi ▸ pos) hq
        rw [hi] at h3
        by_cases hc : s.reduction_interval ≤ s.cg_zero_iters
        · rw [if_pos hc] at hf
          refine ⟨k + 1, ?_, h2, ?_⟩
          · rw [h1, hf, pow_succ]; field_simp
          · rw [hlen]
            simp only [if_pos hc] at hz
            have : r.1.cg_zero_iters ≤ if c.found = true ∧ c.noIter = true then 1 else 0 := by
              rw [hz]; by_cases a : c.found = true <;> by_cases b : c.noIter = true <;> simp [a, b]
            push_cast
            linarith
        · rw [if_neg hc] at hf
          refine ⟨k, by rw [h1, hf], h2, ?_⟩
          rw [hlen]
          simp only [if_neg hc] at hz
          have : r.1.cg_zero_iters ≤ s.cg_zero_iters + if c.found = true ∧ c.noIter = true then 1 else 0 := by
            rw [hz]; by_cases a : c.found = true <;> by_cases b : c.noIter = true <;> simp [a, b, nn]
          linarith

/-- **C49, the reduction counter.**  Along the later iterations of a solve the fraction is the initial one halved `r` times, at most
once per `reduction_interval` solves that needed no conjugate-gradient iteration (counting those already on the counter). -/
theorem c49_fraction {f : K} {i : ℤ} {es : List (Event K)} {s s' : State K} {tols after : List K} {cs : List (Call K)}
    (hist : run sqrt (init false f i) es = some (s, tols)) (later : ∀ c ∈ cs, c.admm_iter ≠ 1)
    (pos : 0 < s.reduction_interval) (calls : run sqrt s (cs.map Event.solve) = some (s', after)) :
    ∃ r : ℕ, s'.reduction_factor = s.reduction_factor / 2 ^ r ∧
      r * s.reduction_interval ≤ s.cg_zero_iters + (cs.filter fun c => c.found && c.noIter).length := by
  obtain ⟨h1, -, -⟩ := run_state hist
  obtain ⟨r, a, b, c⟩ := chain_factor h1 later (run_nn hist (le_refl _)) pos calls
  exact ⟨r, a, by linarith⟩

/-- **C49, polishing.**  The tolerance is the fixed fraction of the right-hand side, but not below the hard minimum. -/
theorem c49_polish {s s' : State K} {c : Call K} {eps : K} (pol : s.polish = true) (call : solve sqrt s c = some (s', eps)) :
    eps = max (c.rhs_norm * polishTol) tolMin := by
  unfold solve at call
  simp only [pol, if_true, Option.bind_some, Option.some.injEq, Prod.mk.injEq] at call
  rw [← call.2, cMax_eq]

/-! ## A concrete history -/

/-- First iteration with a right-hand side of norm 2e-7, then residuals of size one. -/
def demoFirst : Call ℚ := ⟨1, 2 / 10000000, 1, 1, true, false⟩
def demoNext : Call ℚ := ⟨2, 1, 1, 1, true, true⟩
def demoHist : List (Event ℚ) := [.solve demoFirst, .solve demoNext, .solve demoNext]

/-- **C49 is false as stated**: with the default fraction 0.15 the tolerance of the first iteration is 3e-8, below the
hard minimum 1e-7, and the second iteration uses a larger tolerance than the first although the residuals did not matter. -/
theorem c49_counterexample :
    ∃ (es : List (Event ℚ)) (r : State ℚ × List ℚ), run id (init false (15 / 100) 10) es = some r ∧
      ∃ e₁ e₂, r.2 = [e₁, e₂] ∧ e₁ < tolMin ∧ e₁ < e₂ := by
  refine ⟨[.solve demoFirst, .solve demoNext], (run id (init false (15 / 100) 10) [.solve demoFirst, .solve demoNext]).get (by decide +kernel),
    (Option.some_get _).symm, 3 / 100000000, 1 / 10000000, ?_, ?_, ?_⟩
  · decide +kernel
  · decide +kernel
  · decide +kernel

def demoMid : Option (State ℚ × List ℚ) := run id (init false (15 / 100) 10) [.solve ⟨1, 1, 1, 1, true, false⟩]
def demoEnd : Option (State ℚ × List ℚ) := (demoMid.get (by decide +kernel)).1 |> fun s => run id s ([demoNext, demoNext].map Event.solve)

/-- The hypotheses of the theorems hold of a real history: three calls, two of them later iterations. -/
example : ∃ s tols s' after, run id (init false (15 / 100 : ℚ) 10) [.solve ⟨1, 1, 1, 1, true, false⟩] = some (s, tols) ∧
    run id s ([demoNext, demoNext].map Event.solve) = some (s', after) ∧ (∀ c ∈ [demoNext, demoNext], c.admm_iter ≠ 1) ∧
    0 < s.reduction_interval :=
  ⟨(demoMid.get (by decide +kernel)).1, (demoMid.get (by decide +kernel)).2, (demoEnd.get (by decide +kernel)).1,
    (demoEnd.get (by decide +kernel)).2, (Option.some_get (x := demoMid) (by decide +kernel)).symm,
    (Option.some_get (x := demoEnd) (by decide +kernel)).symm, by decide +kernel, by decide +kernel⟩

/-- A first iteration and a polish call. -/
example : ∃ r, solve id (init false (15 / 100 : ℚ) 10) demoFirst = some r ∧ r.2 = 3 / 100000000 :=
  ⟨(solve id (init false (15 / 100 : ℚ) 10) demoFirst).get (by decide +kernel), (Option.some_get _).symm, by decide +kernel⟩
example : ∃ r, solve id (init true (15 / 100 : ℚ) 10) demoNext = some r ∧ r.2 = 1 / 100000 :=
  ⟨(solve id (init true (15 / 100 : ℚ) 10) demoNext).get (by decide +kernel), (Option.some_get _).symm, by decide +kernel⟩

end Osqp.Cg
