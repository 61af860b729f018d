import Verif.Mem.SetupLemmas

/-!
# C43: setup and cleanup are memory safe under allocation failure

`setupMem c fails` is the sequence of allocations and checks of `osqp_setup` run with an allocator that refuses exactly the
requests `k` with `fails k`; `cleanupMem` is `osqp_cleanup`.  `Out.ub` and `none` are undefined behaviour (a null or
uninitialised pointer is dereferenced, or something that is not a live block is freed).

The English property ("whatever subset of allocations made by osqp_setup itself fails, setup returns a memory error, and osqp_cleanup
afterwards frees every block exactly once") does not hold without exception:
* if the vector `xz_tilde` cannot be allocated, `OSQPVectorf_view` dereferences the null pointer before the check (`c43_view_counterexample`);
* with derivatives, the last vector is never checked: setup returns 0 with a null pointer in the solver (`c43_rhs_counterexample`).
The theorems below are the property without these two allocations.
-/

namespace Osqp.Mem

open Slot

/-- One of the requests made so far was refused. -/
def Refused (fails : ℕ → Bool) (st : St Slot) : Prop := ∃ k < st.heap.next, fails k = true

/-- What the configuration must satisfy: validation has accepted the problem (n ≥ 1), and the error codes of the linear-system
solver are neither 0 nor the memory error (qdldl_interface.c:217-368 returns `OSQP_LINSYS_SOLVER_INIT_ERROR` or `OSQP_NONCVX_ERROR`). -/
def SetupCfg.Ok (c : SetupCfg) : Prop := c.n ≠ 0 ∧ ∀ code, c.linsys = .err code → code ≠ 0 ∧ code ≠ memErr

theorem good (c : SetupCfg) (hc : c.Ok) (fails : ℕ → Bool) : Good [xz_tilde] [dRhs] (assigned c) memErr (setupMem c fails) :=
  chk_sound fails [xz_tilde] [dRhs] (assigned c) memErr (by decide) (setupProg c) absInit initial (setup_chk c hc.1 hc.2) sat_initial

/-- **C43 (no undefined behaviour).**  Whatever requests are refused, `osqp_setup` touches no null, uninitialised or unowned pointer —
except if `xz_tilde` could not be allocated. -/
theorem c43_setup_defined_partial (c : SetupCfg) (hc : c.Ok) (fails : ℕ → Bool) :
    (∃ st code, setupMem c fails = .ret st code) ∨ ∃ st, setupMem c fails = .ub st ∧ xz_tilde ∈ st.failed := by
  have g := good c hc fails
  cases h : setupMem c fails with
  | ub st => rw [h] at g; obtain ⟨x, hx, hf⟩ := g; simp at hx; exact .inr ⟨st, rfl, hx ▸ hf⟩
  | ret st code => exact .inl ⟨st, code, rfl⟩

/-- **C43 (reporting).**  `osqp_setup` returns the memory error exactly if one of its requests was refused.
`hg`: the requests the linear-system solver made for itself were granted (the model has no others of its own); `hr`: the unchecked vector of the derivative
structure was not the one that failed; `hm`: requests for zero bytes (`y` of the solution when there are no constraints) may return null. -/
theorem c43_reports_partial (c : SetupCfg) (hc : c.Ok) (hm : c.m ≠ 0 ∨ c.allocSolution = false) (fails : ℕ → Bool) {st : St Slot} {code : ℤ}
    (h : setupMem c fails = .ret st code) (hg : ∀ k ∈ (st.ptr linsys).blocks, fails k = false) (hr : dRhs ∉ st.failed) :
    code = memErr ↔ Refused fails st := by
  have g := good c hc fails
  rw [h] at g
  have e : (run fails initial (setupProg c)).state = st := by rw [show run fails initial (setupProg c) = _ from h]; rfl
  rw [g.2.1]
  constructor
  · rintro ⟨s, hs, _⟩
    have hrf := run_failed fails (setupProg c) initial (by simp [initial]) s (by rw [e]; exact hs)
    rwa [e] at hrf
  · rintro ⟨k, hk, hf⟩
    have := run_refused fails (w := linsys) (setupProg c) (sub_ok c hc.1) (empty_ok c hc.1 hm) initial (by simp [initial]) k (by rw [e]; exact hk) hf
    rw [e] at this
    rcases this with ⟨s, hs⟩ | hb
    · exact ⟨s, hs, by simp only [List.mem_singleton]; rintro rfl; exact hr hs⟩
    · rw [hg k hb] at hf; simp at hf

/-- Without derivatives the second exception cannot occur: the vector in question is not allocated at all. -/
theorem c43_reports_noDerivatives (c : SetupCfg) (hc : c.Ok) (hd : c.derivatives = false) (hm : c.m ≠ 0 ∨ c.allocSolution = false) (fails : ℕ → Bool)
    {st : St Slot} {code : ℤ} (h : setupMem c fails = .ret st code) (hg : ∀ k ∈ (st.ptr linsys).blocks, fails k = false) :
    code = memErr ↔ Refused fails st := by
  refine c43_reports_partial c hc hm fails h hg fun hf => ?_
  have e : (run fails initial (setupProg c)).state = st := by rw [show run fails initial (setupProg c) = _ from h]; rfl
  rcases run_who fails (setupProg c) initial dRhs (by rw [e]; exact hf) with h1 | ⟨i, hi, ht⟩
  · simp [initial] at h1
  · exact (targets_ok c hc.1).2 hd dRhs (.inr rfl) i hi ht

theorem rhs_not_filled : ∀ p d r s a b : Bool, dRhs ∉ filled ⟨p, d, r, s, a, 1, if b then 1 else 0, .ok 0⟩ := by decide +kernel

/-- With derivatives, the unchecked pointer is allocated unless its allocation failed. -/
theorem rhs_or_failed (c : SetupCfg) (hc : c.Ok) (hd : c.derivatives = true) (fails : ℕ → Bool) {st : St Slot} (h : setupMem c fails = .ret st 0) :
    (st.ptr dRhs).isObj = true ∨ dRhs ∈ st.failed := by
  have g := good c hc fails
  rw [h] at g
  rcases g.2.2 rfl dRhs (List.mem_append_right _ (by rw [hd]; simp)) with h1 | ⟨_, h1⟩
  exacts [.inl h1, .inr h1]

/-- **C43 (success).**  When `osqp_setup` returns 0, every pointer the solver uses has been allocated (`filled c` lists them). -/
theorem c43_complete (c : SetupCfg) (hc : c.Ok) (fails : ℕ → Bool) {st : St Slot} (h : setupMem c fails = .ret st 0) :
    ∀ s ∈ filled c, (st.ptr s).isObj = true := by
  have g := good c hc fails
  rw [h] at g
  intro s hs
  rcases g.2.2 rfl s (List.mem_append_left _ hs) with h1 | ⟨h1, _⟩
  · exact h1
  · exfalso
    have e : s = dRhs := by simpa using h1
    subst e
    rcases c with ⟨p, d, r, sc, a, n, m, l⟩
    have e2 := filled_eq ⟨p, d, r, sc, a, n, m, l⟩ ⟨p, d, r, sc, a, 1, if decide (m ≠ 0) then 1 else 0, .ok 0⟩ rfl rfl rfl rfl rfl (by simp)
    rw [← e2] at hs
    exact rhs_not_filled p d r sc a _ hs

theorem codes_small : ∀ p d r s a b : Bool, ((setupProg ⟨p, d, r, s, a, 1, if b then 1 else 0, .ok 0⟩).map
    fun i => match i with | .check _ code => decide (code = memErr) | _ => true).all (fun b => b) = true := by decide +kernel

theorem subs (c : SetupCfg) : ∀ s r, Instr.initSub s r ∈ setupProg c → r = c.linsys := by
  intro s r h
  rw [setupProg_relink] at h
  obtain ⟨i, _, e⟩ := List.mem_map.1 h
  cases i <;> simp [relink] at e
  exact e.2.symm

/-- **C43 (nothing refused).**  If no request is refused, `osqp_setup` returns 0, or the error code of the linear-system solver. -/
theorem c43_granted (c : SetupCfg) (hc : c.Ok) :
    ∃ st code, setupMem c (fun _ => false) = .ret st code ∧ (code = 0 ∨ c.linsys = .err code) := by
  have e := fun s => run_failed (fun _ => false) (setupProg c) initial (by simp [initial]) s
  have nof : (setupMem c fun _ => false).state.failed = [] := List.eq_nil_iff_forall_not_mem.2 fun s hs => by
    obtain ⟨k, _, hf⟩ := e s hs; simp at hf
  rcases c43_setup_defined_partial c hc (fun _ => false) with ⟨st, code, h⟩ | ⟨st, h, hf⟩
  · refine ⟨st, code, h, ?_⟩
    have g := good c hc (fun _ => false)
    rw [h] at g
    rcases run_code (fun _ => false) (setupProg c) initial h with h1 | ⟨l, h1⟩ | ⟨s, h1⟩
    · exact .inl h1
    · have hm : code = memErr := by
        have e := setup_canon (fun i => match i with | .check _ code => decide (code = memErr) | _ => true)
          (fun i => by cases i <;> rfl) (fun i => by cases i <;> rfl) c hc.1
        have h := codes_small c.profiling c.derivatives c.rhoIsVec c.scaling c.allocSolution (decide (c.m ≠ 0))
        rw [← e, List.all_eq_true] at h
        exact of_decide_eq_true (h _ (List.mem_map.2 ⟨_, h1, rfl⟩))
      obtain ⟨s, hs, _⟩ := g.2.1.1 hm
      rw [h] at nof
      simp only [Out.state] at nof
      rw [nof] at hs; simp at hs
    · exact .inr (subs c s _ h1).symm
  · rw [h] at nof
    simp only [Out.state] at nof
    rw [nof] at hf; simp at hf

/-- **C43 (cleanup).**  Wherever `osqp_setup` returned, with whatever code and whatever requests refused, `osqp_cleanup` runs without undefined
behaviour — it frees only live blocks, so none twice — and afterwards no block is left. -/
theorem c43_cleanup (c : SetupCfg) (hc : c.Ok) (fails : ℕ → Bool) {st : St Slot} {code : ℤ} (h : setupMem c fails = .ret st code) :
    ∃ st', cleanupMem c.profiling c.derivatives st = some st' ∧ st'.heap.live = [] :=
  cleanup_spec (setup_clean c hc.1 hc.2 fails h)

/-! ## Solving in between -/

/-- auxil.c:127-135 `swap_vectors`: two pointers change places. -/
def swapSlots (st : St Slot) (a b : Slot) : St Slot :=
  { st with ptr := fun s => if s = a then st.ptr b else if s = b then st.ptr a else st.ptr s }

/-- What the calls on a set-up solver do to its pointers.  (They allocate nothing that outlives the call, polishing included, if no request is refused.) -/
inductive Exchange
  /-- one iteration of `osqp_solve` (osqp_api.c:702-703): current and previous iterates -/
  | iteration
  /-- `osqp_update_data_vec` with accepted lower bounds (osqp_api.c:1231): the vector holding them takes the place of the old one -/
  | lower
  /-- the same for upper bounds (osqp_api.c:1232) -/
  | upper

/-- The pointers after it. -/
def Exchange.apply (st : St Slot) : Exchange → St Slot
  | .iteration => swapSlots (swapSlots st x x_prev) z z_prev
  | .lower => swapSlots st z_prev dataL
  | .upper => swapSlots st delta_y dataU

/-- A slot that points to a vector outside the derivative structure. -/
def Plain (a : Slot) : Prop := Slot.kids a = [] ∧ a ≠ solver ∧ a ≠ work ∧ a ≠ timer ∧ a ≠ derivative_data ∧ Slot.parent a ≠ some derivative_data

instance (a : Slot) : Decidable (Plain a) := by unfold Plain; infer_instance

theorem swap_other {st : St Slot} {a b q : Slot} (h1 : q ≠ a) (h2 : q ≠ b) : (swapSlots st a b).ptr q = st.ptr q := by
  show (if q = a then _ else if q = b then _ else _) = _
  rw [if_neg h1, if_neg h2]

theorem swap_clean {p d : Bool} {st : St Slot} (h : Clean p d st) {a b : Slot} (hab : a ≠ b) (oa : st.open a = true) (ob : st.open b = true)
    (pa : Plain a) (pb : Plain b) : Clean p d (swapSlots st a b) := by
  have notpar : ∀ s q, Slot.parent s = some q → q ≠ a ∧ q ≠ b := by
    intro s q hq
    constructor
    · rintro rfl; have : s ∈ Slot.kids q := by simp [Slot.kids, mem_all, hq]
      rw [pa.1] at this; simp at this
    · rintro rfl; have : s ∈ Slot.kids q := by simp [Slot.kids, mem_all, hq]
      rw [pb.1] at this; simp at this
  have ata : (swapSlots st a b).ptr a = st.ptr b := by show (if a = a then _ else _) = _; rw [if_pos rfl]
  have atb : (swapSlots st a b).ptr b = st.ptr a := by
    show (if b = a then _ else if b = b then _ else _) = _; rw [if_neg hab.symm, if_pos rfl]
  have op : ∀ s, (swapSlots st a b).open s = st.open s := fun s => open_congr fun q hq => by
    obtain ⟨h1, h2⟩ := notpar s q hq; rw [swap_other h1 h2]
  -- the value of every slot is the old value of its partner
  let π : Slot → Slot := fun s => if s = a then b else if s = b then a else s
  have hπ : ∀ s, (swapSlots st a b).ptr s = st.ptr (π s) := fun s => by
    by_cases h1 : s = a
    · subst h1; rw [ata]; simp [π]
    · by_cases h2 : s = b
      · subst h2; rw [atb]; simp [π, h1]
      · rw [swap_other h1 h2]; simp [π, h1, h2]
  have hinv : ∀ s, π (π s) = s := fun s => by
    by_cases h1 : s = a
    · subst h1; simp [π, hab.symm]
    · by_cases h2 : s = b
      · subst h2; simp [π, h1]
      · simp [π, h1, h2]
  have hop : ∀ s, st.open (π s) = st.open s := fun s => by
    by_cases h1 : s = a
    · subst h1; simp only [π, if_pos]; rw [oa, ob]
    · by_cases h2 : s = b
      · subst h2; simp only [π, if_neg h1, if_pos]; rw [oa, ob]
      · simp only [π, if_neg h1, if_neg h2]
  refine ⟨⟨⟨h.ready.ok, fun k => ?_, fun s t k h1 h2 => ?_, fun s => ?_, fun s hs => ?_⟩, fun s ho => ?_⟩, fun hw s hs => ?_, fun hp => ?_, fun hd s hs => ?_⟩
  · rw [show (swapSlots st a b).heap = st.heap from rfl, h.ready.live]
    constructor
    · rintro ⟨s, hs⟩; exact ⟨π s, by rw [hπ, hinv]; exact hs⟩
    · rintro ⟨s, hs⟩; rw [hπ] at hs; exact ⟨π s, hs⟩
  · rw [hπ] at h1 h2
    have := h.ready.disj _ _ k h1 h2
    rw [← hinv s, ← hinv t, this]
  · rw [hπ]; exact h.ready.nodup _
  · rw [hπ] at hs; rw [op, ← hop]; exact h.ready.nested _ hs
  · rw [op, ← hop] at ho; rw [hπ]; exact h.ready.init _ ho
  · rw [swap_other pa.2.2.1.symm pb.2.2.1.symm] at hw
    rw [hπ]
    refine h.work hw _ ?_
    intro hc
    have : π (π s) = π solver := by rw [hc]
    rw [hinv] at this
    simp only [π, if_neg pa.2.1.symm, if_neg pb.2.1.symm] at this
    exact hs this
  · rw [swap_other pa.2.2.2.1.symm pb.2.2.2.1.symm]; exact h.timer hp
  · rw [hπ]
    have : π s = s := by
      have h1 : s ≠ a := by
        rintro rfl
        rcases hs with hs | hs
        exacts [pa.2.2.2.2.1 hs, pa.2.2.2.2.2 hs]
      have h2 : s ≠ b := by
        rintro rfl
        rcases hs with hs | hs
        exacts [pb.2.2.2.2.1 hs, pb.2.2.2.2.2 hs]
      simp [π, h1, h2]
    rw [this]; exact h.deriv hd s hs

theorem exchange_clean {p d : Bool} {st : St Slot} (h : Clean p d st) (hw : (st.ptr work).isObj = true) (hd : (st.ptr data).isObj = true) (e : Exchange) :
    Clean p d (e.apply st) ∧ ((e.apply st).ptr work).isObj = true ∧ ((e.apply st).ptr data).isObj = true := by
  have ow : ∀ {st : St Slot} s, Slot.parent s = some work → (st.ptr work).isObj = true → st.open s = true := fun s hs hw => by
    rw [open_of (p := work) hs]; exact hw
  have od : ∀ {st : St Slot} s, Slot.parent s = some data → (st.ptr data).isObj = true → st.open s = true := fun s hs hw => by
    rw [open_of (p := data) hs]; exact hw
  cases e with
  | iteration =>
    have c1 := swap_clean h (a := x) (b := x_prev) (by decide) (ow _ rfl hw) (ow _ rfl hw) (by decide) (by decide)
    have w1 : ((swapSlots st x x_prev).ptr work).isObj = true := by rw [swap_other (by decide) (by decide)]; exact hw
    have d1 : ((swapSlots st x x_prev).ptr data).isObj = true := by rw [swap_other (by decide) (by decide)]; exact hd
    refine ⟨swap_clean c1 (a := z) (b := z_prev) (by decide) (ow _ rfl w1) (ow _ rfl w1) (by decide) (by decide), ?_, ?_⟩
    · show ((swapSlots _ z z_prev).ptr work).isObj = true
      rw [swap_other (by decide) (by decide)]; exact w1
    · show ((swapSlots _ z z_prev).ptr data).isObj = true
      rw [swap_other (by decide) (by decide)]; exact d1
  | lower =>
    refine ⟨swap_clean h (a := z_prev) (b := dataL) (by decide) (ow _ rfl hw) (od _ rfl hd) (by decide) (by decide), ?_, ?_⟩
    · show ((swapSlots _ z_prev dataL).ptr work).isObj = true
      rw [swap_other (by decide) (by decide)]; exact hw
    · show ((swapSlots _ z_prev dataL).ptr data).isObj = true
      rw [swap_other (by decide) (by decide)]; exact hd
  | upper =>
    refine ⟨swap_clean h (a := delta_y) (b := dataU) (by decide) (ow _ rfl hw) (od _ rfl hd) (by decide) (by decide), ?_, ?_⟩
    · show ((swapSlots _ delta_y dataU).ptr work).isObj = true
      rw [swap_other (by decide) (by decide)]; exact hw
    · show ((swapSlots _ delta_y dataU).ptr data).isObj = true
      rw [swap_other (by decide) (by decide)]; exact hd

/-- **C43 (after use).**  After a successful setup and any sequence of calls — they exchange the pointers of the current and the previous iterates, and of
old and new bounds — `osqp_cleanup` still frees every block exactly once. -/
theorem c43_cleanup_after_use (c : SetupCfg) (hc : c.Ok) (fails : ℕ → Bool) {st : St Slot} (h : setupMem c fails = .ret st 0) (es : List Exchange) :
    ∃ st', cleanupMem c.profiling c.derivatives (es.foldl Exchange.apply st) = some st' ∧ st'.heap.live = [] := by
  refine cleanup_spec ?_
  have f := c43_complete c hc fails h
  have gen : ∀ (es : List Exchange) (st : St Slot), Clean c.profiling c.derivatives st → (st.ptr work).isObj = true → (st.ptr data).isObj = true →
      Clean c.profiling c.derivatives (es.foldl Exchange.apply st) := by
    intro es
    induction es with
    | nil => intro st h _ _; exact h
    | cons e es ih =>
      intro st h hw hd
      obtain ⟨a1, a2, a3⟩ := exchange_clean h hw hd e
      exact ih _ a1 a2 a3
  exact gen es st (setup_clean c hc.1 hc.2 fails h) (f work (by simp [filled])) (f data (by simp [filled]))

/-! ## The two exceptions -/

/-- The code a program returns (`none`: undefined behaviour). -/
def Out.code {σ : Type} : Out σ → Option ℤ
  | .ub _ => none
  | .ret _ code => some code

/-- A small problem, all options on, and a direct solver that keeps 20 blocks. -/
def demoCfg : SetupCfg := ⟨true, true, true, true, true, 2, 1, .ok 19⟩

theorem demoCfg_ok : demoCfg.Ok := ⟨by decide, by intro code h; cases h⟩

/-- **Counterexample.**  When the vector `xz_tilde` cannot be allocated (one single refused request), `osqp_setup` dereferences a null pointer. -/
theorem c43_view_counterexample : (setupMem demoCfg fun k => decide (k = 31)).code = none ∧
    (setupMem demoCfg fun k => decide (k = 31)).state.failed = [xz_tilde] := by decide +kernel

/-- **Counterexample.**  When the vector `rhs` of the derivative structure cannot be allocated, `osqp_setup` returns 0 all the same, and the solver
contains a null pointer. -/
theorem c43_rhs_counterexample : (setupMem demoCfg fun k => decide (k = 117)).code = some 0 ∧
    (setupMem demoCfg fun k => decide (k = 117)).state.ptr dRhs = .null ∧ dRhs ∈ (setupMem demoCfg fun k => decide (k = 117)).state.failed := by decide +kernel

/-! The hypotheses are met: a run in which everything is granted, one in which the request for the second value array is refused. -/

example : (setupMem demoCfg fun _ => false).code = some 0 := by decide +kernel
example : (setupMem demoCfg fun k => decide (k = 8)).code = some 5 := by decide +kernel
example : (setupMem demoCfg fun k => decide (k = 8 ∨ k = 10)).code = some 5 := by decide +kernel
example : (setupMem { demoCfg with linsys := .err 4 } fun _ => false).code = some 4 := by decide +kernel
example : (setupMem { demoCfg with m := 0, derivatives := false } fun _ => false).code = some 0 := by decide +kernel
example : ((cleanupMem true true (setupMem demoCfg fun _ => false).state).map fun st => st.heap.live) = some [] := by decide +kernel
example : ((cleanupMem true true (setupMem demoCfg fun k => decide (k = 40)).state).map fun st => st.heap.live) = some [] := by decide +kernel
example : ((cleanupMem true true ([Exchange.iteration, .lower, .iteration, .upper].foldl Exchange.apply (setupMem demoCfg fun _ => false).state)).map
    fun st => st.heap.live) = some [] := by decide +kernel
/-- The heap is not empty before. -/
example : (setupMem demoCfg fun k => decide (k = 40)).state.heap.live ≠ [] ∧ (setupMem demoCfg fun _ => false).state.heap.live ≠ [] := by decide +kernel

end Osqp.Mem
