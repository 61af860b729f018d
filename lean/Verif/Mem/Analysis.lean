import Verif.Mem.Prog

/-!
# A static check for allocation programs, and its soundness

`chk` walks over a program once and keeps track of which slots are certainly allocated, which are allocated but not yet checked,
and which may be uninitialised.  `chk_sound` says what it guarantees for every allocator.
-/

set_option linter.unusedSectionVars false
namespace Osqp.Mem

variable {σ : Type} [DecidableEq σ] [Layout σ]

/-- `kids` lists exactly the fields. -/
class LawfulLayout (σ : Type) [Layout σ] : Prop where
  kids_iff : ∀ s t : σ, t ∈ Layout.kids s ↔ Layout.parent t = some s

/-- Every live block belongs to exactly one slot, and every slot that owns something lies in an allocated structure. -/
structure Own (st : St σ) : Prop where
  ok : st.heap.Ok
  live : ∀ b, b ∈ st.heap.live ↔ ∃ s, b ∈ (st.ptr s).blocks
  disj : ∀ s t b, b ∈ (st.ptr s).blocks → b ∈ (st.ptr t).blocks → s = t
  nodup : ∀ s, (st.ptr s).blocks.Nodup
  nested : ∀ s, (st.ptr s).isObj = true → st.open s = true

/-- A state `osqp_cleanup` can be given: everything is owned and no field that exists is uninitialised. -/
structure Ready (st : St σ) : Prop extends Own st where
  init : ∀ s, st.open s = true → st.ptr s ≠ .uninit

theorem blocks_of_not_obj {p : Ptr} (h : p.isObj = false) : p.blocks = [] := by cases p <;> simp_all [Ptr.isObj, Ptr.blocks]

theorem open_congr {st st' : St σ} {s : σ} (h : ∀ p, Layout.parent s = some p → (st'.ptr p).isObj = (st.ptr p).isObj) : st'.open s = st.open s := by
  unfold St.open
  cases hp : Layout.parent s with
  | none => rfl
  | some p => exact h p hp

theorem open_of {st : St σ} {s p : σ} (hp : Layout.parent s = some p) : st.open s = (st.ptr p).isObj := by unfold St.open; rw [hp]

@[simp] theorem store_heap (st : St σ) (s : σ) (c : Bool) (r : Heap × Option Obj) : (st.store s c r).heap = r.1 := by
  unfold St.store; split <;> rfl

theorem store_ptr (st : St σ) (s : σ) (c : Bool) (r : Heap × Option Obj) (t : σ) :
    (st.store s c r).ptr t = if t = s then (match r.2 with | none => Ptr.null | some o => .obj o) else st.ptr t := by
  unfold St.store; split <;> simp_all [Function.update_apply]

theorem store_blocks (st : St σ) (s : σ) (c : Bool) (r : Heap × Option Obj) (t : σ) :
    ((st.store s c r).ptr t).blocks = if t = s then r.2.getD [] else (st.ptr t).blocks := by
  rw [store_ptr]; split_ifs
  · cases r.2 <;> rfl
  · rfl

theorem store_failed (st : St σ) (s : σ) (c : Bool) (r : Heap × Option Obj) :
    (st.store s c r).failed = if r.2 = none ∧ c = true then s :: st.failed else st.failed := by
  unfold St.store
  rcases r with ⟨h, _ | o⟩
  · cases c <;> simp
  · simp

theorem Own.store {st : St σ} (h : Own st) {s : σ} (c : Bool) (hs : (st.ptr s).isObj = false) (ho : st.open s = true) {h' : Heap} {r : Option Obj}
    (hm : Made st.heap h' r) : Own (st.store s c (h', r)) := by
  have old : ∀ t b, t ≠ s → b ∈ (st.ptr t).blocks → b < st.heap.next := fun t b _ hb => h.ok.fresh b ((h.live b).2 ⟨t, hb⟩)
  refine ⟨by rw [store_heap]; exact hm.ok, fun b => ?_, fun t u b h1 h2 => ?_, fun t => ?_, fun t ht => ?_⟩
  · rw [store_heap]; simp only; rw [hm.live, h.live]
    constructor
    · rintro (⟨t, ht⟩ | hb)
      · have : t ≠ s := by rintro rfl; rw [blocks_of_not_obj hs] at ht; simp at ht
        exact ⟨t, by rw [store_blocks, if_neg this]; exact ht⟩
      · exact ⟨s, by rw [store_blocks, if_pos rfl]; exact hb⟩
    · rintro ⟨t, ht⟩
      rw [store_blocks] at ht
      split_ifs at ht with e
      · exact .inr ht
      · exact .inl ⟨t, ht⟩
  · rw [store_blocks] at h1 h2
    split_ifs at h1 h2 with e1 e2 e2
    · rw [e1, e2]
    · have := hm.new b h1; have := old u b e2 h2; omega
    · have := hm.new b h2; have := old t b e1 h1; omega
    · exact h.disj t u b h1 h2
  · rw [store_blocks]; split_ifs
    · exact hm.nodup
    · exact h.nodup t
  · have key : ∀ p, Layout.parent t = some p → (st.open t = true) → ((st.store s c (h', r)).ptr p).isObj = true := by
      intro p hp hop
      rw [open_of hp] at hop
      have : p ≠ s := by rintro rfl; rw [hs] at hop; exact absurd hop (by simp)
      rw [store_ptr, if_neg this]; exact hop
    have hot : st.open t = true := by
      by_cases e : t = s
      · rw [e]; exact ho
      · rw [store_ptr, if_neg e] at ht; exact h.nested t ht
    cases hp : Layout.parent t with
    | none => unfold St.open; rw [hp]
    | some p => rw [open_of hp]; exact key p hp hot

theorem Own.fields [LawfulLayout σ] {st : St σ} (h : Own st) {s : σ} (hs : (st.ptr s).isObj = false) {v : Ptr} (hv : v.isObj = false) :
    Own (st.fields s v) := by
  have kid : ∀ t, t ∈ Layout.kids s → (st.ptr t).isObj = false := by
    intro t ht
    rw [LawfulLayout.kids_iff] at ht
    by_contra hc
    have := h.nested t (by simpa using hc)
    rw [open_of ht, hs] at this; simp at this
  have bl : ∀ t, ((st.fields s v).ptr t).blocks = (st.ptr t).blocks := by
    intro t
    unfold St.fields; simp only
    split_ifs with ht
    · rw [blocks_of_not_obj hv, blocks_of_not_obj (kid t ht)]
    · rfl
  have ob : ∀ t, ((st.fields s v).ptr t).isObj = (st.ptr t).isObj := by
    intro t
    unfold St.fields; simp only
    split_ifs with ht
    · rw [hv, kid t ht]
    · rfl
  refine ⟨h.ok, fun b => ?_, fun t u b h1 h2 => ?_, fun t => ?_, fun t ht => ?_⟩
  · simp only [bl]; exact h.live b
  · rw [bl] at h1 h2; exact h.disj t u b h1 h2
  · rw [bl]; exact h.nodup t
  · rw [open_congr (st := st) (fun p _ => ob p)]; rw [ob] at ht; exact h.nested t ht

theorem Own.setNull {st : St σ} (h : Own st) {s : σ} (hs : (st.ptr s).isObj = false) :
    Own { st with ptr := Function.update st.ptr s .null } := by
  have bl : ∀ t, (Function.update st.ptr s .null t).blocks = (st.ptr t).blocks := by
    intro t; rw [Function.update_apply]; split_ifs with e
    · rw [e, blocks_of_not_obj hs]; rfl
    · rfl
  have ob : ∀ t, (Function.update st.ptr s .null t).isObj = (st.ptr t).isObj := by
    intro t; rw [Function.update_apply]; split_ifs with e
    · rw [e, hs]; rfl
    · rfl
  refine ⟨h.ok, fun b => ?_, fun t u b h1 h2 => ?_, fun t => ?_, fun t ht => ?_⟩
  · simp only [bl]; exact h.live b
  · simp only [bl] at h1 h2; exact h.disj t u b h1 h2
  · simp only [bl]; exact h.nodup t
  · rw [open_congr (st := st) (fun p _ => ob p)]; simp only [ob] at ht; exact h.nested t ht

/-! ## The abstract state -/

/-- What the check knows: slots that are allocated; slots that exist but may be uninitialised; slots assigned but not yet checked;
slots assigned whose null value is not an error. -/
structure Abs (σ : Type) where
  valid : List σ
  uninit : List σ
  pend : List σ
  loose : List σ

/-- The slot has not been assigned. -/
def Abs.unassigned (a : Abs σ) (s : σ) : Bool := decide (s ∉ a.valid ∧ s ∉ a.pend ∧ s ∉ a.loose)

/-- The structure the slot lies in is allocated. -/
def Abs.inside (a : Abs σ) (s : σ) : Bool :=
  match Layout.parent s with
  | none => true
  | some p => decide (p ∈ a.valid)

/-- The slot has been assigned and is no longer uninitialised. -/
def Abs.assign (a : Abs σ) (s : σ) : Abs σ := { a with uninit := a.uninit.filter (· ≠ s), pend := s :: a.pend }

/-- The same when a null value is not an error. -/
def Abs.assignLoose (a : Abs σ) (s : σ) : Abs σ := { a with uninit := a.uninit.filter (· ≠ s), loose := s :: a.loose }

/-- The slot is known not to be null. -/
def Abs.promote (a : Abs σ) (s : σ) : Abs σ := { a with valid := s :: a.valid, pend := a.pend.filter (· ≠ s) }

/-- The abstract state describes the state. -/
structure Sat (a : Abs σ) (st : St σ) : Prop where
  own : Own st
  known : ∀ s, (st.ptr s).isObj = true → s ∈ a.valid ∨ s ∈ a.pend ∨ s ∈ a.loose
  valid : ∀ s ∈ a.valid, (st.ptr s).isObj = true
  uninit : ∀ s, st.ptr s = .uninit → st.open s = true → s ∈ a.uninit
  failed : ∀ s ∈ st.failed, s ∈ a.pend ∧ st.ptr s = .null
  nulls : ∀ s ∈ a.pend, st.ptr s = .null → s ∈ st.failed
  pend : ∀ s ∈ a.pend, st.ptr s ≠ .uninit ∧ a.inside s = true

theorem Sat.not_obj {a : Abs σ} {st : St σ} (h : Sat a st) {s : σ} (hu : a.unassigned s = true) : (st.ptr s).isObj = false := by
  by_contra hc
  have hu := of_decide_eq_true hu
  rcases h.known s (by simpa using hc) with h1 | h1 | h1
  exacts [hu.1 h1, hu.2.1 h1, hu.2.2 h1]

theorem Sat.open_of_inside {a : Abs σ} {st : St σ} (h : Sat a st) {s : σ} (hi : a.inside s = true) : st.open s = true := by
  unfold Abs.inside at hi
  cases hp : Layout.parent s with
  | none => unfold St.open; rw [hp]
  | some p => rw [hp] at hi; rw [open_of hp]; exact h.valid p (of_decide_eq_true hi)

theorem inside_mono {a a' : Abs σ} (h : ∀ s ∈ a.valid, s ∈ a'.valid) {s : σ} (hi : a.inside s = true) : a'.inside s = true := by
  unfold Abs.inside at hi ⊢
  split <;> simp_all

/-- Assigning a slot that has no fields. -/
theorem Sat.store [LawfulLayout σ] {a : Abs σ} {st : St σ} (h : Sat a st) {s : σ} (hu : a.unassigned s = true) (hi : a.inside s = true)
    (hk : Layout.kids s = []) {h' : Heap} {r : Option Obj} (hm : Made st.heap h' r) : Sat (a.assign s) (st.store s true (h', r)) := by
  have hn := h.not_obj hu
  have ho := h.open_of_inside hi
  have hu' := of_decide_eq_true hu
  have np : ∀ t, Layout.parent t ≠ some s := fun t ht => by
    have := (LawfulLayout.kids_iff s t).2 ht; rw [hk] at this; simp at this
  have op : ∀ t, (st.store s true (h', r)).open t = st.open t := fun t => open_congr fun p hp => by
    rw [store_ptr, if_neg (fun e => np t (by rw [hp, e]))]
  refine ⟨h.own.store true hn ho hm, fun t ht => ?_, fun t ht => ?_, fun t ht hot => ?_, fun t ht => ?_, fun t ht hnull => ?_, fun t ht => ?_⟩
  · by_cases e : t = s
    · exact .inr (.inl (by simp [Abs.assign, e]))
    · rw [store_ptr, if_neg e] at ht
      rcases h.known t ht with h1 | h1 | h1
      exacts [.inl h1, .inr (.inl (List.mem_cons_of_mem _ h1)), .inr (.inr h1)]
  · have : t ≠ s := fun e => hu'.1 (e ▸ ht)
    rw [store_ptr, if_neg this]; exact h.valid t ht
  · rw [op] at hot
    have e : t ≠ s := by rintro rfl; rw [store_ptr, if_pos rfl] at ht; cases r <;> simp at ht
    rw [store_ptr, if_neg e] at ht
    exact List.mem_filter.2 ⟨h.uninit t ht hot, by simpa using e⟩
  · rw [store_failed] at ht
    have old : t ∈ st.failed → t ∈ (a.assign s).pend ∧ (st.store s true (h', r)).ptr t = .null := fun hf => by
      obtain ⟨h1, h2⟩ := h.failed t hf
      have e : t ≠ s := fun e => hu'.2.1 (e ▸ h1)
      exact ⟨List.mem_cons_of_mem _ h1, by rw [store_ptr, if_neg e]; exact h2⟩
    split_ifs at ht with hr
    · rcases List.mem_cons.1 ht with rfl | hf
      · refine ⟨by simp [Abs.assign], ?_⟩
        rw [store_ptr, if_pos rfl]
        have hr := hr.1; simp only at hr; rw [hr]
      · exact old hf
    · exact old ht
  · rw [store_failed]
    rcases List.mem_cons.1 ht with rfl | hp
    · rw [store_ptr, if_pos rfl] at hnull
      have : r = none := by cases r <;> simp_all
      rw [if_pos ⟨this, rfl⟩]; simp
    · have e : t ≠ s := fun e => hu'.2.1 (e ▸ hp)
      rw [store_ptr, if_neg e] at hnull
      have := h.nulls t hp hnull
      split_ifs
      · exact List.mem_cons_of_mem _ this
      · exact this
  · rcases List.mem_cons.1 ht with rfl | hp
    · refine ⟨?_, hi⟩
      rw [store_ptr, if_pos rfl]; cases r <;> simp
    · have e : t ≠ s := fun e => hu'.2.1 (e ▸ hp)
      rw [store_ptr, if_neg e]; exact h.pend t hp

/-- Assigning a slot whose null value is not an error. -/
theorem Sat.storeLoose [LawfulLayout σ] {a : Abs σ} {st : St σ} (h : Sat a st) {s : σ} (hu : a.unassigned s = true) (hi : a.inside s = true)
    (hk : Layout.kids s = []) {h' : Heap} {r : Option Obj} (hm : Made st.heap h' r) : Sat (a.assignLoose s) (st.store s false (h', r)) := by
  have hn := h.not_obj hu
  have ho := h.open_of_inside hi
  have hu' := of_decide_eq_true hu
  have np : ∀ t, Layout.parent t ≠ some s := fun t ht => by
    have := (LawfulLayout.kids_iff s t).2 ht; rw [hk] at this; simp at this
  have op : ∀ t, (st.store s false (h', r)).open t = st.open t := fun t => open_congr fun p hp => by
    rw [store_ptr, if_neg (fun e => np t (by rw [hp, e]))]
  have hf : (st.store s false (h', r)).failed = st.failed := by rw [store_failed]; simp
  refine ⟨h.own.store false hn ho hm, fun t ht => ?_, fun t ht => ?_, fun t ht hot => ?_, fun t ht => ?_, fun t ht hnull => ?_, fun t ht => ?_⟩
  · by_cases e : t = s
    · exact .inr (.inr (by simp [Abs.assignLoose, e]))
    · rw [store_ptr, if_neg e] at ht
      rcases h.known t ht with h1 | h1 | h1
      exacts [.inl h1, .inr (.inl h1), .inr (.inr (List.mem_cons_of_mem _ h1))]
  · have : t ≠ s := fun e => hu'.1 (e ▸ ht)
    rw [store_ptr, if_neg this]; exact h.valid t ht
  · rw [op] at hot
    have e : t ≠ s := by rintro rfl; rw [store_ptr, if_pos rfl] at ht; cases r <;> simp at ht
    rw [store_ptr, if_neg e] at ht
    exact List.mem_filter.2 ⟨h.uninit t ht hot, by simpa using e⟩
  · rw [hf] at ht
    obtain ⟨h1, h2⟩ := h.failed t ht
    have e : t ≠ s := fun e => hu'.2.1 (e ▸ h1)
    exact ⟨h1, by rw [store_ptr, if_neg e]; exact h2⟩
  · rw [hf]
    have e : t ≠ s := fun e => hu'.2.1 (e ▸ ht)
    rw [store_ptr, if_neg e] at hnull
    exact h.nulls t ht hnull
  · have e : t ≠ s := fun e => hu'.2.1 (e ▸ ht)
    rw [store_ptr, if_neg e]; exact h.pend t ht

/-- Allocating a structure. -/
theorem Sat.struct [LawfulLayout σ] (fails : ℕ → Bool) {a : Abs σ} {st : St σ} (h : Sat a st) {s : σ} (hu : a.unassigned s = true)
    (hi : a.inside s = true) (hself : Layout.parent s ≠ some s) (hk : ∀ t ∈ Layout.kids s, t ∉ a.pend) (zeroed : Bool) :
    ∃ st', step fails st (.struct s zeroed) = .go st' ∧
      Sat { a.assign s with uninit := (a.uninit.filter (· ≠ s)) ++ (if zeroed then [] else Layout.kids s) } st' := by
  have hn := h.not_obj hu
  have ho := h.open_of_inside hi
  have hu' := of_decide_eq_true hu
  have hm := malloc_made fails h.own.ok
  have hv : (if zeroed = true then Ptr.null else Ptr.uninit).isObj = false := by cases zeroed <;> rfl
  simp only [step, if_pos ho]
  rcases hml : malloc fails st.heap with ⟨g, _ | b⟩
  · rw [hml] at hm
    refine ⟨_, rfl, ?_⟩
    have cl : ∀ t, Layout.parent t = some s → (st.store s true (g, none)).open t = false := fun t ht => by
      rw [open_of ht, store_ptr, if_pos rfl]; rfl
    have op : ∀ t, Layout.parent t ≠ some s → (st.store s true (g, none)).open t = st.open t := fun t ht => open_congr fun p hp => by
      rw [store_ptr, if_neg (fun e => ht (by rw [hp, e]))]
    refine ⟨h.own.store true hn ho hm, fun t ht => ?_, fun t ht => ?_, fun t ht hot => ?_, fun t ht => ?_, fun t ht hnull => ?_, fun t ht => ?_⟩
    · have e : t ≠ s := by rintro rfl; rw [store_ptr, if_pos rfl] at ht; simp [Ptr.isObj] at ht
      rw [store_ptr, if_neg e] at ht
      rcases h.known t ht with h1 | h1 | h1
      exacts [.inl h1, .inr (.inl (List.mem_cons_of_mem _ h1)), .inr (.inr h1)]
    · have : t ≠ s := fun e => hu'.1 (e ▸ ht)
      rw [store_ptr, if_neg this]; exact h.valid t ht
    · have hp : Layout.parent t ≠ some s := fun hp => by rw [cl t hp] at hot; simp at hot
      rw [op t hp] at hot
      have e : t ≠ s := by rintro rfl; rw [store_ptr, if_pos rfl] at ht; simp at ht
      rw [store_ptr, if_neg e] at ht
      exact List.mem_append_left _ (List.mem_filter.2 ⟨h.uninit t ht hot, by simpa using e⟩)
    · rw [store_failed, if_pos ⟨rfl, rfl⟩] at ht
      rcases List.mem_cons.1 ht with rfl | hf
      · exact ⟨by simp [Abs.assign], by rw [store_ptr, if_pos rfl]⟩
      · obtain ⟨h1, h2⟩ := h.failed t hf
        have e : t ≠ s := fun e => hu'.2.1 (e ▸ h1)
        exact ⟨List.mem_cons_of_mem _ h1, by rw [store_ptr, if_neg e]; exact h2⟩
    · rw [store_failed, if_pos ⟨rfl, rfl⟩]
      rcases List.mem_cons.1 ht with rfl | hp
      · simp
      · have e : t ≠ s := fun e => hu'.2.1 (e ▸ hp)
        rw [store_ptr, if_neg e] at hnull
        exact List.mem_cons_of_mem _ (h.nulls t hp hnull)
    · rcases List.mem_cons.1 ht with rfl | hp
      · exact ⟨by rw [store_ptr, if_pos rfl]; simp, hi⟩
      · have e : t ≠ s := fun e => hu'.2.1 (e ▸ hp)
        rw [store_ptr, if_neg e]; exact h.pend t hp
  · rw [hml] at hm
    refine ⟨_, rfl, ?_⟩
    set v : Ptr := if zeroed = true then Ptr.null else Ptr.uninit with hvd
    have sk : s ∉ Layout.kids s := fun hc => hself ((LawfulLayout.kids_iff s s).1 hc)
    have kp : ∀ t, t ≠ s → ((st.fields s v).store s true (g, some [b])).ptr t = if t ∈ Layout.kids s then v else st.ptr t := fun t ht => by
      rw [store_ptr, if_neg ht]; rfl
    have sp : ((st.fields s v).store s true (g, some [b])).ptr s = .obj [b] := by rw [store_ptr, if_pos rfl]
    have kid : ∀ t ∈ Layout.kids s, (st.ptr t).isObj = false := by
      intro t ht
      rw [LawfulLayout.kids_iff] at ht
      by_contra hc
      have := h.own.nested t (by simpa using hc)
      rw [open_of ht, hn] at this; simp at this
    have hn' : ((st.fields s v).ptr s).isObj = false := by
      show (if s ∈ Layout.kids s then v else st.ptr s).isObj = false
      rw [if_neg sk]; exact hn
    have ho' : (st.fields s v).open s = true := by
      rw [open_congr (st := st)]
      · exact ho
      · intro p hp
        show (if p ∈ Layout.kids s then v else st.ptr p).isObj = _
        split_ifs with hpk
        · rw [hv, kid p hpk]
        · rfl
    have fl : ((st.fields s v).store s true (g, some [b])).failed = st.failed := by rw [store_failed]; simp [St.fields]
    have nk : ∀ t ∈ a.pend, t ∉ Layout.kids s := fun t ht hc => hk t hc ht
    refine ⟨(h.own.fields hn hv).store true hn' ho' hm, fun t ht => ?_, fun t ht => ?_, fun t ht hot => ?_, fun t ht => ?_, fun t ht hnull => ?_, fun t ht => ?_⟩
    · by_cases e : t = s
      · exact .inr (.inl (by simp [Abs.assign, e]))
      · rw [kp t e] at ht
        split_ifs at ht with htk
        · rw [hv] at ht; simp at ht
        · rcases h.known t ht with h1 | h1 | h1
          exacts [.inl h1, .inr (.inl (List.mem_cons_of_mem _ h1)), .inr (.inr h1)]
    · have e : t ≠ s := fun e => hu'.1 (e ▸ ht)
      have := h.valid t ht
      rw [kp t e]
      split_ifs with htk
      · rw [kid t htk] at this; simp at this
      · exact this
    · have e : t ≠ s := by rintro rfl; rw [sp] at ht; simp at ht
      rw [kp t e] at ht
      split_ifs at ht with htk
      · refine List.mem_append_right _ ?_
        cases zeroed with
        | true => simp [hvd] at ht
        | false => simpa using htk
      · have hp : Layout.parent t ≠ some s := fun hp => htk ((LawfulLayout.kids_iff s t).2 hp)
        have : st.open t = true := by
          rw [← hot]
          refine (open_congr fun p hp' => ?_).symm
          have e' : p ≠ s := fun e => hp (by rw [hp', e])
          rw [kp p e']
          split_ifs with hpk
          · rw [hv, kid p hpk]
          · rfl
        exact List.mem_append_left _ (List.mem_filter.2 ⟨h.uninit t ht this, by simpa using e⟩)
    · rw [fl] at ht
      obtain ⟨h1, h2⟩ := h.failed t ht
      have e : t ≠ s := fun e => hu'.2.1 (e ▸ h1)
      exact ⟨List.mem_cons_of_mem _ h1, by rw [kp t e, if_neg (nk t h1)]; exact h2⟩
    · rw [fl]
      rcases List.mem_cons.1 ht with rfl | hp
      · rw [sp] at hnull; simp at hnull
      · have e : t ≠ s := fun e => hu'.2.1 (e ▸ hp)
        rw [kp t e, if_neg (nk t hp)] at hnull
        exact h.nulls t hp hnull
    · rcases List.mem_cons.1 ht with rfl | hp
      · exact ⟨by rw [sp]; simp, hi⟩
      · have e : t ≠ s := fun e => hu'.2.1 (e ▸ hp)
        rw [kp t e, if_neg (nk t hp)]; exact h.pend t hp

theorem Sat.promote {a : Abs σ} {st : St σ} (h : Sat a st) {s : σ} (hs : (st.ptr s).isObj = true) : Sat (a.promote s) st := by
  refine ⟨h.own, fun t ht => ?_, fun t ht => ?_, h.uninit, fun t ht => ?_, fun t ht => ?_, fun t ht => ?_⟩
  · by_cases e : t = s
    · exact .inl (by simp [Abs.promote, e])
    · rcases h.known t ht with h1 | h1 | h1
      exacts [.inl (List.mem_cons_of_mem _ h1), .inr (.inl (List.mem_filter.2 ⟨h1, by simpa using e⟩)), .inr (.inr h1)]
  · rcases List.mem_cons.1 ht with rfl | ht
    · exact hs
    · exact h.valid t ht
  · obtain ⟨h1, h2⟩ := h.failed t ht
    have e : t ≠ s := by rintro rfl; rw [h2] at hs; simp [Ptr.isObj] at hs
    exact ⟨List.mem_filter.2 ⟨h1, by simpa using e⟩, h2⟩
  · exact h.nulls t (List.mem_filter.1 ht).1
  · have := h.pend t (List.mem_filter.1 ht).1
    exact ⟨this.1, inside_mono (fun _ => List.mem_cons_of_mem _) this.2⟩

theorem Sat.setNull [LawfulLayout σ] {a : Abs σ} {st : St σ} (h : Sat a st) {s : σ} (hu : a.unassigned s = true) :
    Sat a { st with ptr := Function.update st.ptr s .null } := by
  have hn := h.not_obj hu
  have hu' := of_decide_eq_true hu
  have ob : ∀ t, (Function.update st.ptr s .null t).isObj = (st.ptr t).isObj := by
    intro t; rw [Function.update_apply]; split_ifs with e
    · rw [e, hn]; rfl
    · rfl
  refine ⟨h.own.setNull hn, fun t ht => ?_, fun t ht => ?_, fun t ht hot => ?_, fun t ht => ?_, fun t ht hnull => ?_, fun t ht => ?_⟩
  · simp only [ob] at ht; exact h.known t ht
  · simp only [ob]; exact h.valid t ht
  · simp only [Function.update_apply] at ht
    split_ifs at ht
    rw [open_congr (st := st) (fun p _ => ob p)] at hot
    exact h.uninit t ht hot
  · obtain ⟨h1, h2⟩ := h.failed t ht
    have e : t ≠ s := fun e => hu'.2.1 (e ▸ h1)
    exact ⟨h1, by simp only [Function.update_apply, if_neg e]; exact h2⟩
  · have e : t ≠ s := fun e => hu'.2.1 (e ▸ ht)
    simp only [Function.update_apply, if_neg e] at hnull
    exact h.nulls t ht hnull
  · have e : t ≠ s := fun e => hu'.2.1 (e ▸ ht)
    simp only [Function.update_apply, if_neg e]
    exact h.pend t ht

/-! ## The check -/

section
variable (X Y V : List σ) (memErr : ℤ)

/-- The check.  `X`: slots through which a view may be taken although they have not been checked; `Y`: slots that may remain
unchecked at the end; `V`: slots that must be allocated (or be unchecked ones) when the program returns 0. -/
def chk (a : Abs σ) : List (Instr σ) → Bool
  | [] => a.uninit.isEmpty && decide (∀ s ∈ a.pend, s ∈ Y) && decide (∀ s ∈ V, s ∈ a.valid ∨ s ∈ a.pend)
  | .struct s zeroed :: is => a.unassigned s && a.inside s && decide (Layout.parent s ≠ some s) && decide (∀ t ∈ Layout.kids s, t ∉ a.pend) &&
      chk { a.assign s with uninit := (a.uninit.filter (· ≠ s)) ++ (if zeroed then [] else Layout.kids s) } is
  | .vec s _ :: is => a.unassigned s && a.inside s && (Layout.kids s).isEmpty && chk (a.assign s) is
  | .mat s :: is => a.unassigned s && a.inside s && (Layout.kids s).isEmpty && chk (a.assign s) is
  | .view s base :: is => a.unassigned s && a.inside s && (Layout.kids s).isEmpty &&
      (decide (base ∈ a.valid) && a.inside base || decide (base ∈ X ∧ base ∈ a.pend)) && chk (a.assign s) is
  | .raw s bytes :: is => a.unassigned s && a.inside s && (Layout.kids s).isEmpty &&
      (if bytes = 0 then chk (a.assignLoose s) is else chk (a.assign s) is)
  | .null s :: is => a.unassigned s && a.inside s && chk a is
  | .check l code :: is => decide (∀ s ∈ l, s ∈ a.pend ∧ s ∉ Y) && decide (∀ u ∈ a.uninit, ∃ p, Layout.parent u = some p ∧ l = [p]) &&
      decide (code = memErr) && chk (l.foldl Abs.promote a) is
  | .use l :: is => decide (∀ s ∈ l, s ∈ a.valid ∧ a.inside s = true) && chk a is
  | .initSub s res :: is => a.unassigned s && a.inside s && (Layout.kids s).isEmpty && a.uninit.isEmpty && a.pend.isEmpty && decide (memErr ≠ 0) &&
      (match res with
       | .ok _ => chk ((a.assign s).promote s) is
       | .err code => decide (code ≠ 0 ∧ code ≠ memErr))

/-- What the check guarantees. -/
def Good : Out σ → Prop
  | .ub st => ∃ x ∈ X, x ∈ st.failed
  | .ret st code => Ready st ∧ (code = memErr ↔ ∃ s ∈ st.failed, s ∉ Y) ∧ (code = 0 → ∀ s ∈ V, (st.ptr s).isObj = true ∨ (s ∈ Y ∧ s ∈ st.failed))

end

theorem Ready.of_sat {a : Abs σ} {st : St σ} (h : Sat a st) (hu : ∀ s ∈ a.uninit, st.open s = false) : Ready st :=
  ⟨h.own, fun s ho hn => by rw [hu s (h.uninit s hn ho)] at ho; simp at ho⟩

theorem made_step [LawfulLayout σ] {a : Abs σ} {st : St σ} (h : Sat a st) {s : σ} (hu : a.unassigned s = true) (hi : a.inside s = true)
    (hk : Layout.kids s = []) {r : Option (Heap × Option Obj)} (hm : ∃ h' o, r = some (h', o) ∧ Made st.heap h' o) :
    ∃ st', make st s true r = .go st' ∧ Sat (a.assign s) st' := by
  obtain ⟨h', o, rfl, m⟩ := hm
  refine ⟨_, by unfold make; rw [if_pos (h.open_of_inside hi)], h.store hu hi hk m⟩

theorem check_step {X Y V : List σ} {a : Abs σ} {st : St σ} {code : ℤ} (hcode : code ≠ 0) (l0 : List σ) (hp0 : ∀ s ∈ l0, s ∈ a.pend)
    (hu : ∀ u ∈ a.uninit, ∃ p, Layout.parent u = some p ∧ l0 = [p]) (h0 : Sat a st) :
    ∀ (l : List σ) (a' : Abs σ), (∀ s ∈ l, s ∈ l0 ∧ s ∉ Y) → Sat a' st →
      (checkAll st code l = .go st ∧ Sat (l.foldl Abs.promote a') st) ∨
      (∃ o, checkAll st code l = .stop o ∧ Good X Y V code o) := by
  intro l
  induction l with
  | nil => intro a' _ h; exact .inl ⟨rfl, h⟩
  | cons s l ih =>
    intro a' hl h
    have hs := hl s (by simp)
    have hsp := hp0 s hs.1
    obtain ⟨hni, hin⟩ := h0.pend s hsp
    unfold checkAll
    rw [if_pos (h0.open_of_inside hin)]
    cases hpt : st.ptr s with
    | uninit => exact absurd hpt hni
    | null =>
      refine .inr ⟨_, rfl, ?_⟩
      have hf := h0.nulls s hsp hpt
      refine ⟨Ready.of_sat h0 fun u hm => ?_, ⟨fun _ => ⟨s, hf, hs.2⟩, fun _ => rfl⟩, fun e => absurd e hcode⟩
      obtain ⟨p, hpu, e⟩ := hu u hm
      rw [e] at hs
      have : s = p := by simpa using hs.1
      rw [open_of hpu, ← this, hpt]; rfl
    | obj o =>
      simp only
      exact ih (a'.promote s) (fun t ht => hl t (List.mem_cons_of_mem _ ht)) (h.promote (by rw [hpt]; rfl))

/-- **Soundness of the check.** -/
theorem chk_sound [LawfulLayout σ] (fails : ℕ → Bool) (X Y V : List σ) (memErr : ℤ) (hme : memErr ≠ 0) (prog : List (Instr σ)) :
    ∀ (a : Abs σ) (st : St σ), chk X Y V memErr a prog = true → Sat a st → Good X Y V memErr (run fails st prog) := by
  induction prog with
  | nil =>
    intro a st hc h
    simp only [chk, Bool.and_eq_true, decide_eq_true_eq, List.isEmpty_iff] at hc
    obtain ⟨⟨h1, h2⟩, h3⟩ := hc
    refine ⟨Ready.of_sat h (by rw [h1]; simp), ⟨fun e => absurd e.symm hme, ?_⟩, fun _ s hs => ?_⟩
    rotate_left
    · rcases h3 s hs with h4 | h4
      · exact .inl (h.valid s h4)
      · cases hp : st.ptr s with
        | uninit => exact absurd hp (h.pend s h4).1
        | null => exact .inr ⟨h2 s h4, h.nulls s h4 hp⟩
        | obj o => exact .inl rfl
    rintro ⟨s, hs, hy⟩
    exact absurd (h2 s (h.failed s hs).1) hy
  | cons i is ih =>
    intro a st hc h
    cases i with
    | struct s zeroed =>
      simp only [chk, Bool.and_eq_true, decide_eq_true_eq] at hc
      obtain ⟨⟨⟨⟨h1, h2⟩, h3⟩, h4⟩, h5⟩ := hc
      obtain ⟨st', e, hs⟩ := h.struct fails h1 h2 h3 h4 zeroed
      simp only [run, e]
      exact ih _ _ h5 hs
    | vec s len =>
      simp only [chk, Bool.and_eq_true, List.isEmpty_iff] at hc
      obtain ⟨⟨⟨h1, h2⟩, h3⟩, h4⟩ := hc
      obtain ⟨st', e, hs⟩ := made_step h h1 h2 h3 (newVec_made fails len h.own.ok)
      simp only [run, step, e]
      exact ih _ _ h4 hs
    | mat s =>
      simp only [chk, Bool.and_eq_true, List.isEmpty_iff] at hc
      obtain ⟨⟨⟨h1, h2⟩, h3⟩, h4⟩ := hc
      obtain ⟨st', e, hs⟩ := made_step h h1 h2 h3 (newMat_made fails h.own.ok)
      simp only [run, step, e]
      exact ih _ _ h4 hs
    | view s base =>
      simp only [chk, Bool.and_eq_true, List.isEmpty_iff, Bool.or_eq_true, decide_eq_true_eq] at hc
      obtain ⟨⟨⟨⟨h1, h2⟩, h3⟩, hb⟩, h4⟩ := hc
      obtain ⟨st', e, hs⟩ := made_step h h1 h2 h3 (newBlock_made fails h.own.ok)
      simp only [run, step]
      by_cases hd : (malloc fails st.heap).2.isSome = true ∧ ¬ (st.open base = true ∧ (st.ptr base).isObj = true)
      · rw [if_pos hd]
        rcases hb with ⟨hv, hi⟩ | ⟨hx, hp⟩
        · exact absurd ⟨h.open_of_inside hi, h.valid base hv⟩ hd.2
        · obtain ⟨a1, a2⟩ := h.pend base hp
          have : st.ptr base = .null := by
            cases hpt : st.ptr base with
            | uninit => exact absurd hpt a1
            | null => rfl
            | obj o => exact absurd ⟨h.open_of_inside a2, by rw [hpt]; rfl⟩ hd.2
          exact ⟨base, hx, h.nulls base hp this⟩
      · rw [if_neg hd, e]
        exact ih _ _ h4 hs
    | raw s bytes =>
      simp only [chk, Bool.and_eq_true, List.isEmpty_iff] at hc
      obtain ⟨⟨⟨h1, h2⟩, h3⟩, h4⟩ := hc
      simp only [run, step]
      by_cases hb : bytes = 0
      · rw [if_pos hb] at h4
        obtain ⟨h', o, e, m⟩ := newBlock_made fails h.own.ok
        have hd : decide (bytes ≠ 0) = false := by simp [hb]
        rw [e, hd]
        simp only [make, if_pos (h.open_of_inside h2)]
        exact ih _ _ h4 (h.storeLoose h1 h2 h3 m)
      · rw [if_neg hb] at h4
        obtain ⟨st', e, hs⟩ := made_step h h1 h2 h3 (newBlock_made fails h.own.ok)
        have hd : decide (bytes ≠ 0) = true := by simp [hb]
        rw [hd, e]
        exact ih _ _ h4 hs
    | null s =>
      simp only [chk, Bool.and_eq_true] at hc
      obtain ⟨⟨h1, h2⟩, h4⟩ := hc
      simp only [run, step, if_pos (h.open_of_inside h2)]
      exact ih _ _ h4 (h.setNull h1)
    | check l code =>
      simp only [chk, Bool.and_eq_true, decide_eq_true_eq] at hc
      obtain ⟨⟨⟨h1, h2⟩, h3⟩, h4⟩ := hc
      subst h3
      rcases check_step (X := X) (Y := Y) (V := V) hme l (fun s hs => (h1 s hs).1) h2 h l a (fun s hs => ⟨hs, (h1 s hs).2⟩) h with ⟨e, hs⟩ | ⟨o, e, hg⟩
      · simp only [run, step, e]; exact ih _ _ h4 hs
      · simp only [run, step, e]; exact hg
    | use l =>
      simp only [chk, Bool.and_eq_true, decide_eq_true_eq] at hc
      obtain ⟨h1, h4⟩ := hc
      have : (l.all fun s => st.open s && (st.ptr s).isObj) = true := by
        rw [List.all_eq_true]
        intro s hs
        rw [Bool.and_eq_true]
        exact ⟨h.open_of_inside (h1 s hs).2, h.valid s (h1 s hs).1⟩
      simp only [run, step, if_pos this]
      exact ih _ _ h4 h
    | initSub s res =>
      simp only [chk, Bool.and_eq_true, List.isEmpty_iff] at hc
      obtain ⟨⟨⟨⟨⟨⟨h1, h2⟩, h3⟩, h4⟩, h5⟩, -⟩, h6⟩ := hc
      simp only [run, step, if_pos (h.open_of_inside h2)]
      cases res with
      | ok k =>
        have hs := h.store h1 h2 h3 (grab_made (k + 1) h.own.ok)
        refine ih _ _ h6 (hs.promote ?_)
        rw [store_ptr, if_pos rfl]; rfl
      | err code =>
        simp only [decide_eq_true_eq] at h6
        have hs := h.setNull h1
        refine ⟨Ready.of_sat hs (by rw [h4]; simp), ⟨fun e => absurd e h6.2, ?_⟩, fun e => absurd e h6.1⟩
        rintro ⟨t, ht, _⟩
        have := (hs.failed t ht).1
        rw [h5] at this; simp at this

/-! ## Releasing -/

/-- What is left after the slots in `D` have been released. -/
structure Left (st0 st : St σ) (D : List σ) : Prop where
  own : st.heap.Ok
  live : ∀ b, b ∈ st.heap.live ↔ ∃ s, s ∉ D ∧ b ∈ (st0.ptr s).blocks
  same : ∀ s, s ∉ D → st.ptr s = st0.ptr s

theorem Ready.left {st : St σ} (h : Ready st) : Left st st [] := ⟨h.ok, fun b => by rw [h.live]; simp, fun _ _ => rfl⟩

theorem Left.open_eq {st0 st : St σ} {D : List σ} (h : Left st0 st D) {s : σ} (hp : ∀ p, Layout.parent s = some p → p ∉ D) : st.open s = st0.open s :=
  open_congr fun p hp' => by rw [h.same p (hp p hp')]

/-- Releasing one slot. -/
theorem Left.freeSlot {st0 st : St σ} {D : List σ} (r : Ready st0) (h : Left st0 st D) {s : σ} (hs : s ∉ D)
    (hp : ∀ p, Layout.parent s = some p → p ∉ D) (ho : st0.open s = true) :
    ∃ st', freeSlot st s = some st' ∧ Left st0 st' (s :: D) := by
  unfold Osqp.Mem.freeSlot
  rw [if_pos (by rw [h.open_eq hp]; exact ho), h.same s hs]
  cases hpt : st0.ptr s with
  | uninit => exact absurd hpt (r.init s ho)
  | null =>
    refine ⟨st, rfl, h.own, fun b => ?_, fun t ht => h.same t (fun hc => ht (List.mem_cons_of_mem _ hc))⟩
    rw [h.live]
    constructor
    · rintro ⟨t, h1, h2⟩
      have : t ≠ s := by rintro rfl; rw [hpt] at h2; simp [Ptr.blocks] at h2
      exact ⟨t, by simp [this, h1], h2⟩
    · rintro ⟨t, h1, h2⟩; exact ⟨t, fun hc => h1 (List.mem_cons_of_mem _ hc), h2⟩
  | obj o =>
    have hb : (st0.ptr s).blocks = o := by rw [hpt]; rfl
    obtain ⟨h', e, ok, _, l⟩ := freeAll_spec h.own (o := o) (by have := r.nodup s; rwa [hb] at this)
      (fun b hbo => (h.live b).2 ⟨s, hs, by rw [hb]; exact hbo⟩)
    simp only [e, Option.bind_some]
    refine ⟨_, rfl, ok, fun b => ?_, fun t ht => ?_⟩
    · simp only; rw [l, h.live]
      constructor
      · rintro ⟨⟨t, h1, h2⟩, h3⟩
        have : t ≠ s := by rintro rfl; rw [hb] at h2; exact h3 h2
        exact ⟨t, by simp [this, h1], h2⟩
      · rintro ⟨t, h1, h2⟩
        refine ⟨⟨t, fun hc => h1 (List.mem_cons_of_mem _ hc), h2⟩, fun hbo => ?_⟩
        have := r.disj t s b h2 (by rw [hb]; exact hbo)
        exact h1 (by simp [this])
    · have : t ≠ s := fun e => ht (by simp [e])
      simp only [Function.update_apply, if_neg this]
      exact h.same t (fun hc => ht (List.mem_cons_of_mem _ hc))

/-- Slots that own nothing need not be released. -/
theorem Left.skip {st0 st : St σ} {D : List σ} (h : Left st0 st D) {l : List σ} (hl : ∀ s ∈ l, (st0.ptr s).isObj = false) : Left st0 st (l.reverse ++ D) := by
  refine ⟨h.own, fun b => ?_, fun t ht => h.same t (fun hc => ht (List.mem_append_right _ hc))⟩
  rw [h.live]
  constructor
  · rintro ⟨t, h1, h2⟩
    refine ⟨t, fun hc => ?_, h2⟩
    rcases List.mem_append.1 hc with hc | hc
    · have := blocks_of_not_obj (hl t (List.mem_reverse.1 hc)); rw [this] at h2; simp at h2
    · exact h1 hc
  · rintro ⟨t, h1, h2⟩; exact ⟨t, fun hc => h1 (List.mem_append_right _ hc), h2⟩

/-- The order of the frees is right: nothing is released twice and no structure before its fields. -/
def orderOk (D : List σ) : List σ → Bool
  | [] => true
  | s :: l => decide (s ∉ D) && (match Layout.parent s with | none => true | some p => decide (p ∉ D)) && orderOk (s :: D) l

theorem Left.frees {st0 : St σ} (r : Ready st0) {l : List σ} : ∀ {st : St σ} {D : List σ}, Left st0 st D → orderOk D l = true →
    (∀ s ∈ l, st0.open s = true) → ∃ st', l.foldlM Osqp.Mem.freeSlot st = some st' ∧ Left st0 st' (l.reverse ++ D) := by
  induction l with
  | nil => intro st D h _ _; exact ⟨st, rfl, by simpa using h⟩
  | cons s l ih =>
    intro st D h ho hop
    simp only [orderOk, Bool.and_eq_true, decide_eq_true_eq] at ho
    obtain ⟨⟨h1, h2⟩, h3⟩ := ho
    obtain ⟨st1, e1, l1⟩ := h.freeSlot r h1 (fun p hp => by rw [hp] at h2; exact of_decide_eq_true h2) (hop s (by simp))
    obtain ⟨st2, e2, l2⟩ := ih l1 h3 (fun t ht => hop t (List.mem_cons_of_mem _ ht))
    refine ⟨st2, ?_, by simpa using l2⟩
    rw [List.foldlM_cons, e1]; exact e2

/-- The blocks of a release program in a structure `w` (or a sibling of it): each guarded block releases the guard itself or its fields. -/
def blocksOk (top : List σ) (D : List σ) : List (Block σ) → Bool
  | [] => true
  | b :: bs =>
    orderOk D b.frees &&
    (match b.guard with
     | none => decide (∀ s ∈ b.frees, ∃ p ∈ top, Layout.parent s = some p)
     | some g => decide (g ∉ D) && decide (∃ p ∈ top, Layout.parent g = some p ∧ p ∉ D) &&
        decide (∀ s ∈ b.frees, s = g ∨ Layout.parent s = some g)) &&
    blocksOk top (b.frees.reverse ++ D) bs

theorem Left.blocks {st0 : St σ} (r : Ready st0) {top : List σ} (ht : ∀ p ∈ top, (st0.ptr p).isObj = true) {bs : List (Block σ)} :
    ∀ {st : St σ} {D : List σ}, Left st0 st D → blocksOk top D bs = true →
      ∃ st', bs.foldlM runBlock st = some st' ∧ Left st0 st' (bs.foldl (fun D b => b.frees.reverse ++ D) D) := by
  induction bs with
  | nil => intro st D h _; exact ⟨st, rfl, h⟩
  | cons b bs ih =>
    intro st D h hok
    simp only [blocksOk, Bool.and_eq_true] at hok
    obtain ⟨⟨h1, h2⟩, h3⟩ := hok
    suffices hh : ∃ st1, runBlock st b = some st1 ∧ Left st0 st1 (b.frees.reverse ++ D) by
      obtain ⟨st1, e1, l1⟩ := hh
      obtain ⟨st2, e2, l2⟩ := ih l1 h3
      exact ⟨st2, by rw [List.foldlM_cons, e1]; exact e2, l2⟩
    unfold runBlock
    cases hg : b.guard with
    | none =>
      rw [hg] at h2
      simp only [decide_eq_true_eq] at h2
      simp only
      exact h.frees r h1 (fun s hs => by obtain ⟨p, hp, e⟩ := h2 s hs; rw [open_of e]; exact ht p hp)
    | some g =>
      rw [hg] at h2
      simp only [Bool.and_eq_true, decide_eq_true_eq] at h2
      obtain ⟨⟨a1, ⟨p, hp, e, hpD⟩⟩, a3⟩ := h2
      have hog : st0.open g = true := by rw [open_of e]; exact ht p hp
      have hog' : st.open g = true := by
        rw [h.open_eq (fun q hq => by rw [e] at hq; rw [← Option.some.inj hq]; exact hpD)]; exact hog
      simp only [if_pos hog', h.same g a1]
      cases hpt : st0.ptr g with
      | uninit => exact absurd hpt (r.init g hog)
      | null =>
        refine ⟨st, rfl, h.skip fun s hs => ?_⟩
        rcases a3 s hs with rfl | hps
        · rw [hpt]; rfl
        · by_contra hc
          have := r.nested s (by simpa using hc)
          rw [open_of hps, hpt] at this; simp [Ptr.isObj] at this
      | obj o =>
        simp only
        refine h.frees r h1 fun s hs => ?_
        rcases a3 s hs with rfl | hps
        · exact hog
        · rw [open_of hps, hpt]; rfl

end Osqp.Mem
