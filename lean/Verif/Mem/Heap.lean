import Mathlib.Data.List.Basic
import Mathlib.Tactic.Linarith

/-!
# The heap

Blocks are named by the number of the allocation request that produced them.  Which requests fail is decided by an
arbitrary function of the request number (`fails`), so a statement for all `fails` covers every subset of failing
allocations.  Freeing a block that is not live (a double free, or a pointer that was never allocated) is undefined
behaviour: `none`.
-/

namespace Osqp.Mem

/-- The heap: how many requests have been made, and the live blocks. -/
structure Heap where
  next : ℕ
  live : List ℕ

/-- `c_malloc` / `c_calloc` (include/private/glob_opts.h): request number `next` fails or gives a new block. -/
def malloc (fails : ℕ → Bool) (h : Heap) : Heap × Option ℕ :=
  if fails h.next then ({ h with next := h.next + 1 }, none) else (⟨h.next + 1, h.next :: h.live⟩, some h.next)

/-- `c_free(p)`: a null pointer is allowed. -/
def free (h : Heap) (p : Option ℕ) : Option Heap :=
  match p with
  | none => some h
  | some b => if b ∈ h.live then some { h with live := h.live.erase b } else none

/-- An object made of several blocks, in the order in which its `free` function frees them. -/
abbrev Obj := List ℕ

/-- Frees the blocks of an object. -/
def freeAll (h : Heap) (o : Obj) : Option Heap := o.foldlM (fun h b => free h (some b)) h

variable (fails : ℕ → Bool)

/-- A single block: `c_malloc(sizeof(T))`, `c_calloc(1, sizeof(T))`; also `OSQPTimer_new` (timing_linux.c:19-21),
`copy_settings` (util.c:304-) and `OSQPVectorf_view` (vector.c:215-224), which make one request. -/
def newBlock (h : Heap) : Option (Heap × Option Obj) :=
  let r := malloc fails h
  some (r.1, r.2.map fun b => [b])

/-- vector.c:48-126 `OSQPVectorf_malloc`, `OSQPVectorf_calloc`, `OSQPVectori_malloc`, `OSQPVectori_calloc`, and
vector.c:24-34 `OSQPVectorf_new`: the struct, then the values if the length is not zero; the struct is freed when the
values cannot be allocated.  Freed (vector.c:143-153) values first. -/
def newVec (length : ℕ) (h : Heap) : Option (Heap × Option Obj) :=
  let r := malloc fails h
  match r.2 with
  | none => some (r.1, none)
  | some b =>
    if length = 0 then some (r.1, some [b])
    else
      let r := malloc fails r.1
      match r.2 with
      | none => (free r.1 (some b)).bind fun h => some (h, none)
      | some v => some (r.1, some [v, b])

/-- csc_utils.c:101-132 `csc_spalloc` (with values, not triplet) and `csc_spfree`: struct, `p`, `i`, `x`; when one of the arrays cannot
be allocated the others and the struct are freed. -/
def newCsc (h : Heap) : Option (Heap × Option Obj) :=
  let r := malloc fails h
  match r.2 with
  | none => some (r.1, none)
  | some a =>
    let p := malloc fails r.1
    let i := malloc fails p.1
    let x := malloc fails i.1
    match p.2, i.2, x.2 with
    | some bp, some bi, some bx => some (x.1, some [bp, bi, bx, a])
    | bp, bi, bx =>
      (free x.1 bp).bind fun h => (free h bi).bind fun h => (free h bx).bind fun h => (free h (some a)).bind fun h =>
      some (h, none)

/-- matrix.c:24-43 `OSQPMatrix_new_from_csc` with csc_utils.c:390-400 `csc_copy`; freed by matrix.c:209-212 `OSQPMatrix_free`. -/
def newMat (h : Heap) : Option (Heap × Option Obj) :=
  let r := malloc fails h
  match r.2 with
  | none => some (r.1, none)
  | some o =>
    (newCsc fails r.1).bind fun r =>
    match r.2 with
    | none => (free r.1 (some o)).bind fun h => some (h, none)
    | some c => some (r.1, some (c ++ [o]))

/-- `k` requests that are all granted (used for the blocks of a successfully initialised linear-system solver). -/
def grab (k : ℕ) (h : Heap) : Heap × Obj := (⟨h.next + k, List.range' h.next k ++ h.live⟩, List.range' h.next k)

/-! ## What the constructors do -/

/-- Live blocks are distinct and older than the next request. -/
structure Heap.Ok (h : Heap) : Prop where
  nodup : h.live.Nodup
  fresh : ∀ b ∈ h.live, b < h.next

/-- The result of a constructor: either nothing is left behind, or exactly the blocks of the object, all new. -/
structure Made (h h' : Heap) (r : Option Obj) : Prop where
  ok : h'.Ok
  le : h.next ≤ h'.next
  live : ∀ b, b ∈ h'.live ↔ b ∈ h.live ∨ b ∈ r.getD []
  nodup : (r.getD []).Nodup
  new : ∀ b ∈ r.getD [], h.next ≤ b

theorem malloc_made {h : Heap} (ok : h.Ok) : Made h (malloc fails h).1 ((malloc fails h).2.map fun b => [b]) := by
  unfold malloc
  split_ifs with hf
  · exact ⟨⟨ok.nodup, fun b hb => Nat.lt_succ_of_lt (ok.fresh b hb)⟩, Nat.le_succ _, by simp, by simp, by simp⟩
  · refine ⟨⟨?_, ?_⟩, Nat.le_succ _, ?_, by simp, by simp⟩
    · rw [List.nodup_cons]; exact ⟨fun hb => absurd (ok.fresh _ hb) (lt_irrefl _), ok.nodup⟩
    · intro b hb
      rcases List.mem_cons.1 hb with rfl | hb
      · exact Nat.lt_succ_self _
      · exact Nat.lt_succ_of_lt (ok.fresh b hb)
    · intro b; simp [or_comm]

theorem free_some {h : Heap} (ok : h.Ok) {b : ℕ} (hb : b ∈ h.live) :
    ∃ h', free h (some b) = some h' ∧ h'.Ok ∧ h'.next = h.next ∧ ∀ c, c ∈ h'.live ↔ c ∈ h.live ∧ c ≠ b := by
  refine ⟨{ h with live := h.live.erase b }, by simp [free, hb], ⟨ok.nodup.erase _, fun c hc => ok.fresh c (List.mem_of_mem_erase hc)⟩, rfl,
    fun c => ?_⟩
  rw [ok.nodup.mem_erase_iff]; exact and_comm

theorem free_opt {h : Heap} (ok : h.Ok) {p : Option ℕ} (hb : ∀ b, p = some b → b ∈ h.live) :
    ∃ h', free h p = some h' ∧ h'.Ok ∧ h'.next = h.next ∧ ∀ c, c ∈ h'.live ↔ c ∈ h.live ∧ p ≠ some c := by
  cases p with
  | none => exact ⟨h, rfl, ok, rfl, by simp⟩
  | some b =>
    obtain ⟨h', e, a1, a2, a3⟩ := free_some ok (hb b rfl)
    exact ⟨h', e, a1, a2, fun c => by rw [a3]; simp [eq_comm]⟩

/-- Freeing the blocks of an object whose blocks are live and distinct removes exactly these. -/
theorem freeAll_spec {h : Heap} (ok : h.Ok) {o : Obj} (nd : o.Nodup) (hl : ∀ b ∈ o, b ∈ h.live) :
    ∃ h', freeAll h o = some h' ∧ h'.Ok ∧ h'.next = h.next ∧ ∀ c, c ∈ h'.live ↔ c ∈ h.live ∧ c ∉ o := by
  induction o generalizing h with
  | nil => exact ⟨h, rfl, ok, rfl, by simp⟩
  | cons b o ih =>
    obtain ⟨h1, e1, ok1, n1, l1⟩ := free_some ok (hl b (by simp))
    rw [List.nodup_cons] at nd
    obtain ⟨h2, e2, ok2, n2, l2⟩ := ih ok1 nd.2 (fun c hc => (l1 c).2 ⟨hl c (by simp [hc]), fun e => nd.1 (e ▸ hc)⟩)
    refine ⟨h2, ?_, ok2, by rw [n2, n1], fun c => ?_⟩
    · unfold freeAll at e2 ⊢
      rw [List.foldlM_cons, e1]; exact e2
    · rw [l2, l1]; simp [and_assoc]

theorem newBlock_made {h : Heap} (ok : h.Ok) : ∃ h' r, newBlock fails h = some (h', r) ∧ Made h h' r :=
  ⟨_, _, rfl, malloc_made fails ok⟩

theorem newVec_made (len : ℕ) {h : Heap} (ok : h.Ok) : ∃ h' r, newVec fails len h = some (h', r) ∧ Made h h' r := by
  have h1 := malloc_made fails ok
  unfold newVec
  rcases hm : malloc fails h with ⟨g1, _ | b⟩
  · rw [hm] at h1; exact ⟨g1, none, rfl, h1⟩
  · rw [hm] at h1
    simp only [Option.map_some] at h1
    by_cases hl : len = 0
    · simp only [if_pos hl]; exact ⟨g1, _, rfl, h1⟩
    · simp only [if_neg hl]
      have h2 := malloc_made fails h1.ok
      rcases hm2 : malloc fails g1 with ⟨g2, _ | v⟩
      · rw [hm2] at h2
        simp only [Option.map_none] at h2
        obtain ⟨g3, e3, ok3, n3, l3⟩ := free_some h2.ok (b := b) ((h2.live b).2 (.inl ((h1.live b).2 (.inr (by simp)))))
        simp only [e3, Option.bind_some]
        refine ⟨g3, none, rfl, ok3, by rw [n3]; exact le_trans h1.le h2.le, fun c => ?_, by simp, by simp⟩
        rw [l3, h2.live, h1.live]
        have := h1.new b (by simp)
        have hb : b ∉ h.live := fun hb => absurd (ok.fresh b hb) (by omega)
        simp only [Option.getD_some, Option.getD_none, List.mem_singleton, List.not_mem_nil, or_false, ne_eq]
        constructor
        · rintro ⟨a | a, c⟩
          · exact a
          · exact absurd a c
        · intro a; exact ⟨.inl a, fun e => hb (e ▸ a)⟩
      · rw [hm2] at h2
        simp only [Option.map_some] at h2
        have n1 := h1.new b (by simp)
        have n2 := h2.new v (by simp)
        have hb1 : b < g1.next := h1.ok.fresh b ((h1.live b).2 (.inr (by simp)))
        refine ⟨g2, _, rfl, h2.ok, le_trans h1.le h2.le, fun c => ?_, ?_, ?_⟩
        · rw [h2.live, h1.live]; simp only [Option.getD_some, List.mem_singleton, List.mem_cons, List.not_mem_nil, or_false]; tauto
        · simp; omega
        · intro c hc
          have := h1.le
          simp only [Option.getD_some, List.mem_cons, List.not_mem_nil, or_false] at hc
          rcases hc with rfl | rfl <;> omega

theorem newCsc_made {h : Heap} (ok : h.Ok) : ∃ h' r, newCsc fails h = some (h', r) ∧ Made h h' r := by
  have h1 := malloc_made fails ok
  unfold newCsc
  rcases hm : malloc fails h with ⟨g1, _ | a⟩
  · rw [hm] at h1; exact ⟨g1, none, rfl, h1⟩
  rw [hm] at h1
  simp only [Option.map_some] at h1
  have h2 := malloc_made fails h1.ok
  rcases hm2 : malloc fails g1 with ⟨g2, bp⟩
  rw [hm2] at h2
  have h3 := malloc_made fails h2.ok
  rcases hm3 : malloc fails g2 with ⟨g3, bi⟩
  rw [hm3] at h3
  have h4 := malloc_made fails h3.ok
  rcases hm4 : malloc fails g3 with ⟨g4, bx⟩
  rw [hm4] at h4
  simp only [hm2, hm3, hm4]
  have na := h1.new a (by simp)
  have la : a < g1.next := h1.ok.fresh a ((h1.live a).2 (.inr (by simp)))
  have np : ∀ b, bp = some b → g1.next ≤ b ∧ b < g2.next := by
    rintro b rfl; exact ⟨h2.new b (by simp), h2.ok.fresh b ((h2.live b).2 (.inr (by simp)))⟩
  have ni : ∀ b, bi = some b → g2.next ≤ b ∧ b < g3.next := by
    rintro b rfl; exact ⟨h3.new b (by simp), h3.ok.fresh b ((h3.live b).2 (.inr (by simp)))⟩
  have nx : ∀ b, bx = some b → g3.next ≤ b ∧ b < g4.next := by
    rintro b rfl; exact ⟨h4.new b (by simp), h4.ok.fresh b ((h4.live b).2 (.inr (by simp)))⟩
  have i1 : h.next ≤ g1.next := h1.le
  have i2 : g1.next ≤ g2.next := h2.le
  have i3 : g2.next ≤ g3.next := h3.le
  have i4 : g3.next ≤ g4.next := h4.le
  have mem : ∀ (o : Option ℕ) c, c ∈ (o.map fun b => [b]).getD [] ↔ o = some c := by
    intro o c; cases o <;> simp [eq_comm]
  have lv : ∀ c, c ∈ g4.live ↔ c ∈ h.live ∨ c = a ∨ bp = some c ∨ bi = some c ∨ bx = some c := by
    intro c
    rw [h4.live, h3.live, h2.live, h1.live, mem, mem, mem]
    simp only [Option.getD_some, List.mem_singleton]; tauto
  have fr : (∃ h', ((free g4 bp).bind fun h => (free h bi).bind fun h => (free h bx).bind fun h => (free h (some a)).bind fun h =>
      some (h, (none : Option Obj))) = some (h', none) ∧ Made h h' none) := by
    obtain ⟨f1, e1, o1, m1, l1⟩ := free_opt h4.ok (p := bp) (fun b hb => (lv b).2 (by tauto))
    obtain ⟨f2, e2, o2, m2, l2⟩ := free_opt o1 (p := bi) (fun b hb => (l1 b).2 ⟨(lv b).2 (by tauto), fun hp => by
      have := np b hp; have := ni b hb; omega⟩)
    obtain ⟨f3, e3, o3, m3, l3⟩ := free_opt o2 (p := bx) (fun b hb => (l2 b).2 ⟨(l1 b).2 ⟨(lv b).2 (by tauto), fun hp => by
      have := np b hp; have := nx b hb; omega⟩, fun hp => by have := ni b hp; have := nx b hb; omega⟩)
    obtain ⟨f4, e4, o4, m4, l4⟩ := free_some o3 (b := a) ((l3 a).2 ⟨(l2 a).2 ⟨(l1 a).2 ⟨(lv a).2 (by tauto), fun hp => by
      have := np a hp; omega⟩, fun hp => by have := ni a hp; omega⟩, fun hp => by have := nx a hp; omega⟩)
    have m1 : f1.next = g4.next := m1
    refine ⟨f4, by simp only [e1, e2, e3, e4, Option.bind_some], o4, by omega, fun c => ?_, by simp, by simp⟩
    rw [l4, l3, l2, l1, lv]
    simp only [Option.getD_none, List.not_mem_nil, or_false]
    constructor
    · tauto
    · intro hc
      have := ok.fresh c hc
      refine ⟨⟨⟨⟨.inl hc, fun hp => ?_⟩, fun hp => ?_⟩, fun hp => ?_⟩, fun e => ?_⟩
      · have := np c hp; omega
      · have := ni c hp; omega
      · have := nx c hp; omega
      · omega
  obtain ⟨h', e', made⟩ := fr
  cases bp with
  | none => exact ⟨h', none, e', made⟩
  | some bp =>
    cases bi with
    | none => exact ⟨h', none, e', made⟩
    | some bi =>
      cases bx with
      | none => exact ⟨h', none, e', made⟩
      | some bx =>
        have := np bp rfl; have := ni bi rfl; have := nx bx rfl
        refine ⟨g4, _, rfl, h4.ok, by omega, fun c => ?_, ?_, ?_⟩
        · rw [lv]; simp only [Option.some.injEq, Option.getD_some, List.mem_cons, List.not_mem_nil, or_false]
          constructor
          · rintro (a | a | a | a | a) <;> simp [a]
          · rintro (a | a | a | a | a) <;> simp [a]
        · simp; omega
        · intro c hc
          simp only [Option.getD_some, List.mem_cons, List.not_mem_nil, or_false] at hc
          rcases hc with rfl | rfl | rfl | rfl <;> omega

theorem newMat_made {h : Heap} (ok : h.Ok) : ∃ h' r, newMat fails h = some (h', r) ∧ Made h h' r := by
  have h1 := malloc_made fails ok
  unfold newMat
  rcases hm : malloc fails h with ⟨g1, _ | a⟩
  · rw [hm] at h1; exact ⟨g1, none, rfl, h1⟩
  rw [hm] at h1
  simp only [Option.map_some] at h1
  obtain ⟨g2, r, e2, h2⟩ := newCsc_made fails h1.ok
  simp only [e2, Option.bind_some]
  have na := h1.new a (by simp)
  have la : a < g1.next := h1.ok.fresh a ((h1.live a).2 (.inr (by simp)))
  have i1 : h.next ≤ g1.next := h1.le
  have i2 : g1.next ≤ g2.next := h2.le
  cases r with
  | none =>
    obtain ⟨f1, e1, o1, m1, l1⟩ := free_some h2.ok (b := a) ((h2.live a).2 (.inl ((h1.live a).2 (.inr (by simp)))))
    simp only [e1, Option.bind_some]
    refine ⟨f1, none, rfl, o1, by omega, fun c => ?_, by simp, by simp⟩
    rw [l1, h2.live, h1.live]
    simp only [Option.getD_some, Option.getD_none, List.mem_singleton, List.not_mem_nil, or_false, ne_eq]
    constructor
    · tauto
    · intro hc
      exact ⟨.inl hc, fun e => by have := ok.fresh c hc; omega⟩
  | some o =>
    refine ⟨g2, _, rfl, h2.ok, by omega, fun c => ?_, ?_, ?_⟩
    · rw [h2.live, h1.live]; simp only [Option.getD_some, List.mem_singleton, List.mem_append]; tauto
    · simp only [Option.getD_some]
      rw [List.nodup_append]
      refine ⟨h2.nodup, by simp, ?_⟩
      intro c hc d hd e
      have := h2.new c hc
      simp only [List.mem_singleton] at hd
      omega
    · intro c hc
      simp only [Option.getD_some, List.mem_append, List.mem_singleton] at hc
      rcases hc with hc | rfl
      · have := h2.new c hc; omega
      · exact na

theorem grab_made (k : ℕ) {h : Heap} (ok : h.Ok) : Made h (grab k h).1 (some (grab k h).2) := by
  unfold grab
  refine ⟨⟨?_, ?_⟩, by simp, ?_, ?_, ?_⟩
  · rw [List.nodup_append]
    refine ⟨List.nodup_range', ok.nodup, fun a ha b hb e => ?_⟩
    have := ok.fresh b hb
    simp only [List.mem_range'_1] at ha
    omega
  · intro b hb
    simp only [List.mem_append, List.mem_range'_1] at hb
    show b < h.next + k
    rcases hb with hb | hb
    · omega
    · have := ok.fresh b hb; omega
  · intro b; simp only [Option.getD_some, List.mem_append]; tauto
  · exact List.nodup_range'
  · intro b hb; simp only [Option.getD_some, List.mem_range'_1] at hb; exact hb.1

end Osqp.Mem
