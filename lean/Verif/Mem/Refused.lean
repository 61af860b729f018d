import Verif.Mem.Analysis

/-!
# Refused requests and failed allocations

A constructor returns a null pointer exactly if one of the requests it made was refused.
-/

set_option linter.unusedSectionVars false
namespace Osqp.Mem

variable (fails : ℕ → Bool)

/-- The result is null exactly if a request between the two heaps was refused. -/
def Told (h h' : Heap) (r : Option Obj) : Prop := h.next ≤ h'.next ∧ (r = none ↔ ∃ k, h.next ≤ k ∧ k < h'.next ∧ fails k = true)

theorem malloc_next (h : Heap) : (malloc fails h).1.next = h.next + 1 := by unfold malloc; split_ifs <;> rfl

theorem malloc_none (h : Heap) : (malloc fails h).2 = none ↔ fails h.next = true := by
  unfold malloc; split_ifs with hf
  · simp [hf]
  · simp [hf]

theorem free_next {h h' : Heap} {p : Option ℕ} (e : free h p = some h') : h'.next = h.next := by
  unfold free at e
  cases p with
  | none => cases e; rfl
  | some b =>
    simp only at e
    split_ifs at e
    cases e; rfl

theorem newBlock_told {h h' : Heap} {r : Option Obj} (e : newBlock fails h = some (h', r)) : Told fails h h' r := by
  unfold newBlock at e
  simp only [Option.some.injEq, Prod.mk.injEq] at e
  obtain ⟨rfl, rfl⟩ := e
  rw [Told, malloc_next, Option.map_eq_none_iff, malloc_none]
  refine ⟨by omega, fun hf => ⟨_, le_refl _, by omega, hf⟩, ?_⟩
  rintro ⟨k, h1, h2, h3⟩
  have : k = h.next := by omega
  rwa [← this]

theorem newVec_told {h h' : Heap} {len : ℕ} {r : Option Obj} (e : newVec fails len h = some (h', r)) : Told fails h h' r := by
  unfold newVec at e
  have n1 := malloc_next fails h
  have f1 := malloc_none fails h
  rcases hm : malloc fails h with ⟨g1, _ | b⟩
  · rw [hm] at e n1 f1
    simp only [Option.some.injEq, Prod.mk.injEq] at e
    obtain ⟨rfl, rfl⟩ := e
    simp only at n1
    refine ⟨by omega, fun _ => ⟨h.next, le_refl _, by omega, f1.1 rfl⟩, fun _ => rfl⟩
  rw [hm] at e n1 f1
  simp only at e n1
  have nf : fails h.next = false := by
    by_contra hc; have := f1.2 (by simpa using hc); simp at this
  split_ifs at e with hl
  · simp only [Option.some.injEq, Prod.mk.injEq] at e
    obtain ⟨rfl, rfl⟩ := e
    refine ⟨by omega, fun hc => by simp at hc, ?_⟩
    rintro ⟨k, h1, h2, h3⟩
    have : k = h.next := by omega
    rw [this, nf] at h3; simp at h3
  · have n2 := malloc_next fails g1
    have f2 := malloc_none fails g1
    rcases hm2 : malloc fails g1 with ⟨g2, _ | v⟩
    · rw [hm2] at e n2 f2
      simp only at e n2
      rcases hf : free g2 (some b) with _ | g3
      · rw [hf] at e; simp at e
      · rw [hf] at e
        simp only [Option.bind_some, Option.some.injEq, Prod.mk.injEq] at e
        obtain ⟨rfl, rfl⟩ := e
        have n3 := free_next hf
        exact ⟨by omega, fun _ => ⟨g1.next, by omega, by omega, f2.1 rfl⟩, fun _ => rfl⟩
    · rw [hm2] at e n2 f2
      simp only [Option.some.injEq, Prod.mk.injEq] at e n2
      obtain ⟨rfl, rfl⟩ := e
      have nf2 : fails g1.next = false := by
        by_contra hc; have := f2.2 (by simpa using hc); simp at this
      refine ⟨by omega, fun hc => by simp at hc, ?_⟩
      rintro ⟨k, h1, h2, h3⟩
      have : k = h.next ∨ k = g1.next := by omega
      rcases this with rfl | rfl
      · rw [nf] at h3; simp at h3
      · rw [nf2] at h3; simp at h3

theorem newCsc_told {h h' : Heap} {r : Option Obj} (e : newCsc fails h = some (h', r)) : Told fails h h' r := by
  unfold newCsc at e
  have n1 := malloc_next fails h
  have f1 := malloc_none fails h
  rcases hm : malloc fails h with ⟨g1, _ | a⟩
  · rw [hm] at e n1 f1
    simp only [Option.some.injEq, Prod.mk.injEq] at e
    obtain ⟨rfl, rfl⟩ := e
    simp only at n1
    refine ⟨by omega, fun _ => ⟨h.next, le_refl _, by omega, f1.1 rfl⟩, fun _ => rfl⟩
  rw [hm] at e n1 f1
  simp only at e n1
  have nf : fails h.next = false := by
    by_contra hc; have := f1.2 (by simpa using hc); simp at this
  have n2 := malloc_next fails g1
  have f2 := malloc_none fails g1
  rcases hm2 : malloc fails g1 with ⟨g2, bp⟩
  rw [hm2] at n2 f2 e
  have n3 := malloc_next fails g2
  have f3 := malloc_none fails g2
  rcases hm3 : malloc fails g2 with ⟨g3, bi⟩
  simp only [hm3] at n3 f3 e
  have n4 := malloc_next fails g3
  have f4 := malloc_none fails g3
  rcases hm4 : malloc fails g3 with ⟨g4, bx⟩
  simp only [hm4] at n4 f4 e
  simp only at n2
  have bad : ∀ {h'' : Heap}, ((free g4 bp).bind fun h => (free h bi).bind fun h => (free h bx).bind fun h => (free h (some a)).bind fun h =>
      some (h, (none : Option Obj))) = some (h'', r) → h''.next = g4.next ∧ r = none := by
    intro h'' e
    rcases e1 : free g4 bp with _ | k1
    · rw [e1] at e; simp at e
    rw [e1, Option.bind_some] at e
    rcases e2 : free k1 bi with _ | k2
    · rw [e2] at e; simp at e
    rw [e2, Option.bind_some] at e
    rcases e3 : free k2 bx with _ | k3
    · rw [e3] at e; simp at e
    rw [e3, Option.bind_some] at e
    rcases e4 : free k3 (some a) with _ | k4
    · rw [e4] at e; simp at e
    rw [e4] at e
    simp only [Option.bind_some, Option.some.injEq, Prod.mk.injEq] at e
    obtain ⟨rfl, rfl⟩ := e
    exact ⟨by rw [free_next e4, free_next e3, free_next e2, free_next e1], rfl⟩
  cases bp with
  | none =>
    obtain ⟨b1, b2⟩ := bad e
    exact ⟨by omega, fun _ => ⟨g1.next, by omega, by omega, f2.1 rfl⟩, fun _ => b2⟩
  | some bp =>
    cases bi with
    | none =>
      obtain ⟨b1, b2⟩ := bad e
      exact ⟨by omega, fun _ => ⟨g2.next, by omega, by omega, f3.1 rfl⟩, fun _ => b2⟩
    | some bi =>
      cases bx with
      | none =>
        obtain ⟨b1, b2⟩ := bad e
        exact ⟨by omega, fun _ => ⟨g3.next, by omega, by omega, f4.1 rfl⟩, fun _ => b2⟩
      | some bx =>
        simp only [Option.some.injEq, Prod.mk.injEq] at e
        obtain ⟨rfl, rfl⟩ := e
        refine ⟨by omega, fun hc => by simp at hc, ?_⟩
        rintro ⟨k, h1, h2, h3⟩
        have : k = h.next ∨ k = g1.next ∨ k = g2.next ∨ k = g3.next := by omega
        rcases this with rfl | rfl | rfl | rfl
        · rw [nf] at h3; simp at h3
        · have := f2.2 h3; simp at this
        · have := f3.2 h3; simp at this
        · have := f4.2 h3; simp at this

theorem newMat_told {h h' : Heap} {r : Option Obj} (e : newMat fails h = some (h', r)) : Told fails h h' r := by
  unfold newMat at e
  have n1 := malloc_next fails h
  have f1 := malloc_none fails h
  rcases hm : malloc fails h with ⟨g1, _ | a⟩
  · rw [hm] at e n1 f1
    simp only [Option.some.injEq, Prod.mk.injEq] at e
    obtain ⟨rfl, rfl⟩ := e
    simp only at n1
    refine ⟨by omega, fun _ => ⟨h.next, le_refl _, by omega, f1.1 rfl⟩, fun _ => rfl⟩
  rw [hm] at e n1 f1
  simp only at e n1
  rcases hc : newCsc fails g1 with _ | ⟨g2, o⟩
  · rw [hc] at e; simp at e
  rw [hc, Option.bind_some] at e
  obtain ⟨l2, t2⟩ := newCsc_told fails hc
  cases o with
  | none =>
    simp only at e
    rcases hf : free g2 (some a) with _ | g3
    · rw [hf] at e; simp at e
    · rw [hf] at e
      simp only [Option.bind_some, Option.some.injEq, Prod.mk.injEq] at e
      obtain ⟨rfl, rfl⟩ := e
      have n3 := free_next hf
      obtain ⟨k, a1, a2, a3⟩ := t2.1 rfl
      exact ⟨by omega, fun _ => ⟨k, by omega, by omega, a3⟩, fun _ => rfl⟩
  | some o =>
    simp only [Option.some.injEq, Prod.mk.injEq] at e
    obtain ⟨rfl, rfl⟩ := e
    refine ⟨by omega, fun hc => by simp at hc, ?_⟩
    rintro ⟨k, h1, h2, h3⟩
    by_cases hk : k = h.next
    · rw [hk] at h3; have := f1.2 h3; simp at this
    · have := t2.2 ⟨k, by omega, h2, h3⟩; simp at this

variable {σ : Type} [DecidableEq σ] [Layout σ]

/-- The slot an instruction fills. -/
def Instr.target : Instr σ → Option σ
  | .struct s _ | .vec s _ | .mat s | .view s _ | .raw s _ | .initSub s _ => some s
  | _ => none

/-- The state a program ends in. -/
def Out.state : Out σ → St σ
  | .ub st => st
  | .ret st _ => st

/-- A request for zero bytes. -/
def Instr.empty : Instr σ → Bool
  | .raw _ bytes => decide (bytes = 0)
  | _ => false

theorem checkAll_state {st : St σ} {code : ℤ} {l : List σ} :
    checkAll st code l = .go st ∨ (∃ o, checkAll st code l = .stop o ∧ o.state = st) := by
  induction l with
  | nil => exact .inl rfl
  | cons s l ih =>
    unfold checkAll
    split_ifs
    · cases st.ptr s with
      | uninit => exact .inr ⟨_, rfl, rfl⟩
      | null => exact .inr ⟨_, rfl, rfl⟩
      | obj o => exact ih
    · exact .inr ⟨_, rfl, rfl⟩

/-- What a step does to slots, requests and failures: either it stops in the same state (or with a slot set to null), or ... -/
structure Moves (i : Instr σ) (st st' : St σ) : Prop where
  keep : ∀ s, i.target ≠ some s → (st.ptr s).isObj = false → (st'.ptr s).isObj = false
  failed : ∀ s ∈ st'.failed, s ∈ st.failed ∨ ∃ k < st'.heap.next, fails k = true
  who : ∀ s ∈ st'.failed, s ∈ st.failed ∨ i.target = some s
  le : st.heap.next ≤ st'.heap.next
  more : ∀ s ∈ st.failed, s ∈ st'.failed
  told : i.empty = false → ∀ k, st.heap.next ≤ k → k < st'.heap.next → fails k = true →
    (∃ s, s ∈ st'.failed) ∨ ∃ s r, i = .initSub s r ∧ k ∈ (st'.ptr s).blocks

theorem Moves.same (i : Instr σ) (st : St σ) : Moves fails i st st :=
  ⟨fun _ _ h => h, fun _ h => .inl h, fun _ h => .inl h, le_refl _, fun _ h => h, fun _ k h1 h2 => by omega⟩

theorem Moves.setNull (i : Instr σ) (st : St σ) (s : σ) : Moves fails i st { st with ptr := Function.update st.ptr s .null } :=
  ⟨fun t _ h => by simp only [Function.update_apply]; split_ifs; exacts [rfl, h], fun _ h => .inl h, fun _ h => .inl h, le_refl _, fun _ h => h, fun _ k h1 h2 => by
    simp only at h2; omega⟩

theorem Moves.store {i : Instr σ} {st : St σ} {s : σ} (hi : i.target = some s) {c : Bool} (hc : i.empty = false → c = true) {h' : Heap} {r : Option Obj}
    (ht : Told fails st.heap h' r) : Moves fails i st (st.store s c (h', r)) := by
  refine ⟨fun t hne ho => ?_, fun t hf => ?_, fun t hf => ?_, by rw [store_heap]; exact ht.1, fun t hf => ?_, fun he k h1 h2 h3 => ?_⟩
  · have : t ≠ s := fun e => hne (by rw [hi, e])
    rw [store_ptr, if_neg this]; exact ho
  · rw [store_failed] at hf
    split_ifs at hf with hcond
    · obtain ⟨k, _, hk, hfk⟩ := ht.2.1 hcond.1
      exact .inr ⟨k, by rw [store_heap]; exact hk, hfk⟩
    · exact .inl hf
  · rw [store_failed] at hf
    split_ifs at hf with hcond
    · rcases List.mem_cons.1 hf with rfl | hf
      · exact .inr hi
      · exact .inl hf
    · exact .inl hf
  · rw [store_failed]; split_ifs
    · exact List.mem_cons_of_mem _ hf
    · exact hf
  · rw [store_heap] at h2
    refine .inl ⟨s, ?_⟩
    rw [store_failed, if_pos ⟨ht.2.2 ⟨k, h1, h2, h3⟩, hc he⟩]; simp

theorem step_moves (st : St σ) (i : Instr σ) :
    (∃ st', step fails st i = .go st' ∧ Moves fails i st st') ∨ (∃ o, step fails st i = .stop o ∧ Moves fails i st o.state) := by
  have mk : ∀ (s : σ) (c : Bool) (r : Option (Heap × Option Obj)), i.target = some s → (i.empty = false → c = true) →
      (∀ h' o, r = some (h', o) → Told fails st.heap h' o) →
      (∃ st', make st s c r = .go st' ∧ Moves fails i st st') ∨ (∃ o, make st s c r = .stop o ∧ Moves fails i st o.state) := by
    intro s c r hi hc hr
    unfold make
    split_ifs
    · rcases r with _ | ⟨h', o⟩
      · exact .inr ⟨_, rfl, Moves.same fails i st⟩
      · exact .inl ⟨_, rfl, Moves.store fails hi hc (hr h' o rfl)⟩
    · exact .inr ⟨_, rfl, Moves.same fails i st⟩
  cases i with
  | struct s zeroed =>
    simp only [step]
    by_cases hop : st.open s = true
    · rw [if_pos hop]
      have hb := newBlock_told fails (h := st.heap) (h' := (malloc fails st.heap).1) (r := (malloc fails st.heap).2.map fun b => [b]) rfl
      rcases hm : malloc fails st.heap with ⟨g, _ | b⟩
      · rw [hm] at hb
        exact .inl ⟨_, rfl, Moves.store fails rfl (fun _ => rfl) hb⟩
      · rw [hm] at hb
        refine .inl ⟨_, rfl, ?_⟩
        have := Moves.store fails (i := .struct s zeroed) (st := st.fields s (if zeroed = true then Ptr.null else Ptr.uninit)) (s := s) (c := true) rfl (fun _ => rfl) hb
        refine ⟨fun t hne ho => this.keep t hne ?_, this.failed, this.who, this.le, this.more, this.told⟩
        show (if t ∈ Layout.kids s then (if zeroed = true then Ptr.null else Ptr.uninit) else st.ptr t).isObj = false
        by_cases htk : t ∈ Layout.kids s
        · rw [if_pos htk]; cases zeroed <;> rfl
        · rw [if_neg htk]; exact ho
    · rw [if_neg hop]; exact .inr ⟨_, rfl, Moves.same fails _ st⟩
  | vec s len => exact mk s true _ rfl (fun _ => rfl) (fun _ _ => newVec_told fails)
  | mat s => exact mk s true _ rfl (fun _ => rfl) (fun _ _ => newMat_told fails)
  | view s base =>
    simp only [step]
    split_ifs
    · exact .inr ⟨_, rfl, Moves.same fails _ st⟩
    · exact mk s true _ rfl (fun _ => rfl) (fun _ _ => newBlock_told fails)
  | raw s bytes => exact mk s _ _ rfl (fun he => by simpa [Instr.empty] using he) (fun _ _ => newBlock_told fails)
  | null s =>
    simp only [step]
    split_ifs
    · exact .inl ⟨_, rfl, Moves.setNull fails _ st s⟩
    · exact .inr ⟨_, rfl, Moves.same fails _ st⟩
  | check l code =>
    rcases checkAll_state (st := st) (code := code) (l := l) with e | ⟨o, e, hs⟩
    · exact .inl ⟨st, e, Moves.same fails _ st⟩
    · exact .inr ⟨o, e, by rw [hs]; exact Moves.same fails _ st⟩
  | use l =>
    simp only [step]
    split_ifs
    · exact .inl ⟨_, rfl, Moves.same fails _ st⟩
    · exact .inr ⟨_, rfl, Moves.same fails _ st⟩
  | initSub s res =>
    simp only [step]
    split_ifs
    · cases res with
      | ok k =>
        refine .inl ⟨_, rfl, fun t hne ho => ?_, fun t hf => ?_, fun t hf => ?_, by rw [store_heap]; simp [grab], fun t hf => ?_, fun _ j h1 h2 h3 => ?_⟩
        · have : t ≠ s := fun e => hne (by rw [e]; rfl)
          rw [store_ptr, if_neg this]; exact ho
        · rw [store_failed] at hf; simp at hf; exact .inl hf
        · rw [store_failed] at hf; simp at hf; exact .inl hf
        · rw [store_failed]; simpa using hf
        · refine .inr ⟨s, _, rfl, ?_⟩
          rw [store_blocks, if_pos rfl]
          rw [store_heap] at h2
          simp only [grab, Option.getD_some, List.mem_range'_1] at h2 ⊢
          omega
      | err code => exact .inr ⟨_, rfl, Moves.setNull fails _ st s⟩
    · exact .inr ⟨_, rfl, Moves.same fails _ st⟩

/-- Slots that no instruction fills stay empty. -/
theorem run_keep {s : σ} (prog : List (Instr σ)) (hp : ∀ i ∈ prog, i.target ≠ some s) : ∀ st : St σ, (st.ptr s).isObj = false →
    ((run fails st prog).state.ptr s).isObj = false := by
  induction prog with
  | nil => intro st h; exact h
  | cons i is ih =>
    intro st h
    rcases step_moves fails st i with ⟨st', e, m⟩ | ⟨o, e, m⟩
    · simp only [run, e]
      exact ih (fun j hj => hp j (List.mem_cons_of_mem _ hj)) st' (m.keep s (hp i (by simp)) h)
    · simp only [run, e]; exact m.keep s (hp i (by simp)) h

theorem run_le (prog : List (Instr σ)) : ∀ st : St σ, st.heap.next ≤ (run fails st prog).state.heap.next ∧ ∀ s ∈ st.failed, s ∈ (run fails st prog).state.failed := by
  induction prog with
  | nil => intro st; exact ⟨le_refl _, fun _ h => h⟩
  | cons i is ih =>
    intro st
    rcases step_moves fails st i with ⟨st', e, m⟩ | ⟨o, e, m⟩
    · simp only [run, e]
      exact ⟨le_trans m.le (ih st').1, fun s hs => (ih st').2 s (m.more s hs)⟩
    · simp only [run, e]; exact ⟨m.le, m.more⟩

/-- A failed allocation comes from a refused request. -/
theorem run_failed (prog : List (Instr σ)) : ∀ st : St σ, (∀ s ∈ st.failed, ∃ k < st.heap.next, fails k = true) →
    ∀ s ∈ (run fails st prog).state.failed, ∃ k < (run fails st prog).state.heap.next, fails k = true := by
  have grow : ∀ {i : Instr σ} {st st' : St σ}, Moves fails i st st' → (∀ s ∈ st.failed, ∃ k < st.heap.next, fails k = true) →
      ∀ s ∈ st'.failed, ∃ k < st'.heap.next, fails k = true := by
    intro i st st' m h s hs
    rcases m.failed s hs with h1 | h1
    · obtain ⟨k, hk, hf⟩ := h s h1; exact ⟨k, lt_of_lt_of_le hk m.le, hf⟩
    · exact h1
  induction prog with
  | nil => intro st h; exact h
  | cons i is ih =>
    intro st h
    rcases step_moves fails st i with ⟨st', e, m⟩ | ⟨o, e, m⟩
    · simp only [run, e]; exact ih st' (grow m h)
    · simp only [run, e]; exact grow m h

/-- Only slots the program fills can fail. -/
theorem run_who (prog : List (Instr σ)) : ∀ st : St σ, ∀ s ∈ (run fails st prog).state.failed, s ∈ st.failed ∨ ∃ i ∈ prog, i.target = some s := by
  induction prog with
  | nil => intro st s h; exact .inl h
  | cons i is ih =>
    intro st s hs
    rcases step_moves fails st i with ⟨st', e, m⟩ | ⟨o, e, m⟩
    · simp only [run, e] at hs
      rcases ih st' s hs with h1 | ⟨j, hj, ht⟩
      · rcases m.who s h1 with h1 | h1
        exacts [.inl h1, .inr ⟨i, by simp, h1⟩]
      · exact .inr ⟨j, List.mem_cons_of_mem _ hj, ht⟩
    · simp only [run, e] at hs
      rcases m.who s hs with h1 | h1
      exacts [.inl h1, .inr ⟨i, by simp, h1⟩]

theorem checkAll_code {st st' : St σ} {code code' : ℤ} {l : List σ} (h : checkAll st code l = .stop (.ret st' code')) : code' = code := by
  induction l with
  | nil => simp [checkAll] at h
  | cons s l ih =>
    unfold checkAll at h
    split_ifs at h
    · cases hp : st.ptr s with
      | uninit => rw [hp] at h; simp at h
      | null => rw [hp] at h; simp at h; exact h.2.symm
      | obj o => rw [hp] at h; exact ih h
    · simp at h

theorem make_stop {st st' : St σ} {s : σ} {c : Bool} {r : Option (Heap × Option Obj)} {code : ℤ} : make st s c r ≠ .stop (.ret st' code) := by
  unfold make
  split_ifs
  · rcases r with _ | r <;> simp
  · simp

/-- The codes a program can return. -/
theorem run_code (prog : List (Instr σ)) : ∀ (st : St σ) {st' : St σ} {code : ℤ}, run fails st prog = .ret st' code →
    code = 0 ∨ (∃ l, .check l code ∈ prog) ∨ ∃ s, .initSub s (.err code) ∈ prog := by
  induction prog with
  | nil => intro st st' code h; simp only [run, Out.ret.injEq] at h; exact .inl h.2.symm
  | cons i is ih =>
    intro st st' code h
    rcases step_moves fails st i with ⟨st1, e, m⟩ | ⟨o, e, m⟩
    · simp only [run, e] at h
      rcases ih st1 h with h1 | ⟨l, h1⟩ | ⟨s, h1⟩
      exacts [.inl h1, .inr (.inl ⟨l, List.mem_cons_of_mem _ h1⟩), .inr (.inr ⟨s, List.mem_cons_of_mem _ h1⟩)]
    · simp only [run, e] at h
      subst h
      cases i with
      | struct s z =>
        simp only [step] at e
        by_cases ho : st.open s = true
        · rw [if_pos ho] at e; rcases hm : malloc fails st.heap with ⟨g, _ | b⟩ <;> simp [hm] at e
        · rw [if_neg ho] at e; simp at e
      | vec s len => exact absurd e make_stop
      | mat s => exact absurd e make_stop
      | view s b =>
        simp only [step] at e
        split_ifs at e
        · simp at e
        · exact absurd e make_stop
      | raw s b => exact absurd (show make st s (decide (b ≠ 0)) (newBlock fails st.heap) = _ from e) make_stop
      | null s => simp only [step] at e; split_ifs at e; simp at e
      | check l c => exact .inr (.inl ⟨l, by rw [checkAll_code e]; simp⟩)
      | use l => simp only [step] at e; split_ifs at e; simp at e
      | initSub s r =>
        simp only [step] at e
        split_ifs at e
        · cases r with
          | ok k => simp at e
          | err c => simp at e; exact .inr (.inr ⟨s, by simp [e.2]⟩)
        · simp at e

/-- The linear-system solver's blocks stay its blocks. -/
theorem step_sub {w : σ} {i : Instr σ} (hi : i.target ≠ some w) (hk : ∀ s z, i = .struct s z → w ∉ Layout.kids s) (hn : ∀ s, i = .null s → s ≠ w) {st st' : St σ}
    (e : step fails st i = .go st' ∨ ∃ o, step fails st i = .stop o ∧ o.state = st') : st'.ptr w = st.ptr w := by
  have mk : ∀ (s : σ) (c : Bool) (r : Option (Heap × Option Obj)), i.target = some s →
      (make st s c r = .go st' ∨ ∃ o, make st s c r = .stop o ∧ o.state = st') → st'.ptr w = st.ptr w := by
    intro s c r ht he
    have hne : w ≠ s := fun h => hi (by rw [ht, h])
    unfold make at he
    split_ifs at he
    · rcases r with _ | r
      · simp only [reduceCtorEq, false_or, Step.stop.injEq] at he
        obtain ⟨o, rfl, rfl⟩ := he; rfl
      · simp only [Step.go.injEq, reduceCtorEq, false_and, exists_false, or_false] at he
        rw [← he, store_ptr, if_neg hne]
    · simp only [reduceCtorEq, false_or, Step.stop.injEq] at he
      obtain ⟨o, rfl, rfl⟩ := he; rfl
  cases i with
  | struct s zeroed =>
    have hne : w ≠ s := fun h => hi (by rw [h]; rfl)
    simp only [step] at e
    by_cases hop : st.open s = true
    · rw [if_pos hop] at e
      rcases hm : malloc fails st.heap with ⟨g, _ | b⟩
      · simp only [hm, Step.go.injEq, reduceCtorEq, false_and, exists_false, or_false] at e
        rw [← e, store_ptr, if_neg hne]
      · simp only [hm, Step.go.injEq, reduceCtorEq, false_and, exists_false, or_false] at e
        rw [← e, store_ptr, if_neg hne]
        show (if w ∈ Layout.kids s then _ else _) = _
        rw [if_neg (hk s zeroed rfl)]
    · rw [if_neg hop] at e
      simp only [reduceCtorEq, false_or, Step.stop.injEq] at e
      obtain ⟨o, rfl, rfl⟩ := e; rfl
  | vec s len => exact mk s true _ rfl e
  | mat s => exact mk s true _ rfl e
  | view s base =>
    simp only [step] at e
    split_ifs at e
    · simp only [reduceCtorEq, false_or, Step.stop.injEq] at e
      obtain ⟨o, rfl, rfl⟩ := e; rfl
    · exact mk s true _ rfl e
  | raw s bytes => exact mk s (decide (bytes ≠ 0)) (newBlock fails st.heap) rfl e
  | null s =>
    have hne : w ≠ s := fun h => hn s rfl h.symm
    simp only [step] at e
    split_ifs at e
    · simp only [Step.go.injEq, reduceCtorEq, false_and, exists_false, or_false] at e
      rw [← e]; simp [Function.update_apply, hne]
    · simp only [reduceCtorEq, false_or, Step.stop.injEq] at e
      obtain ⟨o, rfl, rfl⟩ := e; rfl
  | check l code =>
    rcases checkAll_state (st := st) (code := code) (l := l) with e' | ⟨o, e', hs⟩
    · simp only [step, e', Step.go.injEq, reduceCtorEq, false_and, exists_false, or_false] at e
      rw [← e]
    · simp only [step, e', reduceCtorEq, false_or, Step.stop.injEq] at e
      obtain ⟨o', rfl, rfl⟩ := e; rw [hs]
  | use l =>
    simp only [step] at e
    split_ifs at e
    · simp only [Step.go.injEq, reduceCtorEq, false_and, exists_false, or_false] at e
      rw [← e]
    · simp only [reduceCtorEq, false_or, Step.stop.injEq] at e
      obtain ⟨o, rfl, rfl⟩ := e; rfl
  | initSub s res =>
    have hne : w ≠ s := fun h => hi (by rw [h]; rfl)
    simp only [step] at e
    split_ifs at e
    · cases res with
      | ok k =>
        simp only [Step.go.injEq, reduceCtorEq, false_and, exists_false, or_false] at e
        rw [← e, store_ptr, if_neg hne]
      | err code =>
        simp only [reduceCtorEq, false_or, Step.stop.injEq] at e
        obtain ⟨o, rfl, rfl⟩ := e
        simp [Out.state, Function.update_apply, hne]
    · simp only [reduceCtorEq, false_or, Step.stop.injEq] at e
      obtain ⟨o, rfl, rfl⟩ := e; rfl

/-- `w` is written by nothing but `initSub`. -/
def onlySub (w : σ) : Instr σ → Bool
  | .initSub s _ => decide (s = w)
  | .struct s _ => decide (s ≠ w ∧ w ∉ Layout.kids s)
  | .vec s _ | .mat s | .view s _ | .raw s _ | .null s => decide (s ≠ w)
  | _ => true

/-- `initSub` instructions. -/
def isSub : Instr σ → Bool
  | .initSub _ _ => true
  | _ => false

/-- The linear-system solver is initialised at most once, and afterwards its pointer is not written. -/
def subOk (w : σ) : List (Instr σ) → Bool
  | [] => true
  | i :: is => (if is.any isSub then !isSub i else onlySub w i) && subOk w is

/-- Before and after the linear-system solver has been initialised: every refused request has left a trace. -/
theorem run_refused {w : σ} (prog : List (Instr σ)) (ho : subOk w prog = true) (he : ∀ i ∈ prog, i.empty = false) : ∀ st : St σ,
    (∀ k < st.heap.next, fails k = true → (∃ s, s ∈ st.failed) ∨ (prog.any isSub = false ∧ k ∈ (st.ptr w).blocks)) →
    ∀ k < (run fails st prog).state.heap.next, fails k = true →
      (∃ s, s ∈ (run fails st prog).state.failed) ∨ k ∈ ((run fails st prog).state.ptr w).blocks := by
  induction prog with
  | nil => intro st h k hk hf; rcases h k hk hf with a | a; exacts [.inl a, .inr a.2]
  | cons i is ih =>
    intro st h
    simp only [subOk, Bool.and_eq_true] at ho
    obtain ⟨hoi, hos⟩ := ho
    have hei := he i (by simp)
    have key : ∀ st', Moves fails i st st' → (step fails st i = .go st' ∨ ∃ o, step fails st i = .stop o ∧ o.state = st') →
        ∀ k < st'.heap.next, fails k = true → (∃ s, s ∈ st'.failed) ∨ (is.any isSub = false ∧ k ∈ (st'.ptr w).blocks) := by
      intro st' m e k hk hf
      by_cases hlt : k < st.heap.next
      · rcases h k hlt hf with ⟨s, hs⟩ | ⟨hs, hb⟩
        · exact .inl ⟨s, m.more s hs⟩
        · rw [List.any_cons, Bool.or_eq_false_iff] at hs
          obtain ⟨hns, hs⟩ := hs
          rw [hs] at hoi
          simp only [Bool.false_eq_true, if_false] at hoi
          refine .inr ⟨hs, ?_⟩
          rw [step_sub fails (w := w) ?_ ?_ ?_ e]
          · exact hb
          · intro ht
            cases i <;> simp_all [onlySub, Instr.target, isSub]
          · rintro s z rfl; simp [onlySub] at hoi; exact hoi.2
          · rintro s rfl; simpa [onlySub] using hoi
      · rcases m.told hei k (by omega) hk hf with a | ⟨s, r, rfl, hb⟩
        · exact .inl a
        · split_ifs at hoi with ha
          · simp [isSub] at hoi
          · have : s = w := by simpa [onlySub] using hoi
            exact .inr ⟨by simpa using ha, this ▸ hb⟩
    rcases step_moves fails st i with ⟨st', e, m⟩ | ⟨o, e, m⟩
    · simp only [run, e]
      exact ih hos (fun j hj => he j (List.mem_cons_of_mem _ hj)) st' (key st' m (.inl e))
    · simp only [run, e]
      intro k hk hf
      rcases key o.state m (.inr ⟨o, e, rfl⟩) k hk hf with a | a
      exacts [.inl a, .inr a.2]

end Osqp.Mem
