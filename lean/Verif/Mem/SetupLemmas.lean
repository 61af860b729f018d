import Verif.Mem.Refused
import Verif.Mem.Setup

/-!
# `osqp_setup` passes the check; `osqp_cleanup` frees in the right order
-/

set_option linter.unusedSectionVars false
namespace Osqp.Mem

open Slot

theorem mem_all (s : Slot) : s ∈ Slot.all := by cases s <;> decide

instance : LawfulLayout Slot := ⟨fun s t => by
  show t ∈ Slot.kids s ↔ Slot.parent t = some s
  simp [Slot.kids, mem_all]⟩

section
variable {σ : Type} [DecidableEq σ] [Layout σ]

/-- The instruction does not write to `w`. -/
def spares (w : σ) : Instr σ → Bool
  | .struct s _ => decide (s ≠ w ∧ w ∉ Layout.kids s)
  | .vec s _ | .mat s | .view s _ | .raw s _ | .null s | .initSub s _ => decide (s ≠ w)
  | _ => true

/-- Only the slots it fills are changed. -/
theorem run_same (fails : ℕ → Bool) {w : σ} (prog : List (Instr σ)) (ho : ∀ i ∈ prog, spares w i = true) :
    ∀ st : St σ, (run fails st prog).state.ptr w = st.ptr w := by
  induction prog with
  | nil => intro st; rfl
  | cons i is ih =>
    intro st
    have hoi := ho i (by simp)
    have key : ∀ st', (step fails st i = .go st' ∨ ∃ o, step fails st i = .stop o ∧ o.state = st') → st'.ptr w = st.ptr w := by
      intro st' e
      refine step_sub fails ?_ ?_ ?_ e
      · intro ht
        cases i <;> simp_all [spares, Instr.target]
      · rintro s z rfl; simp [spares] at hoi; exact hoi.2
      · rintro s rfl; simpa [spares] using hoi
    rcases step_moves fails st i with ⟨st', e, m⟩ | ⟨o, e, m⟩
    · simp only [run, e]
      rw [ih (fun j hj => ho j (List.mem_cons_of_mem _ hj)) st', key st' (.inl e)]
    · simp only [run, e]; exact key o.state (.inr ⟨o, e, rfl⟩)

/-- Replaces the outcome of the linear-system solver's initialisation. -/
def relink (res : Sub) : Instr σ → Instr σ
  | .initSub s _ => .initSub s res
  | i => i

theorem chk_relink (X Y V : List σ) (memErr : ℤ) (res : Sub) (hr : ∀ code, res = .err code → code ≠ 0 ∧ code ≠ memErr) (prog : List (Instr σ)) :
    ∀ a : Abs σ, chk X Y V memErr a (prog.map (relink (.ok 0))) = true → chk X Y V memErr a (prog.map (relink res)) = true := by
  induction prog with
  | nil => intro a h; exact h
  | cons i is ih =>
    intro a h
    cases i with
    | struct s z => simp only [List.map_cons, relink, chk, Bool.and_eq_true] at h ⊢; exact ⟨h.1, ih _ h.2⟩
    | vec s l => simp only [List.map_cons, relink, chk, Bool.and_eq_true] at h ⊢; exact ⟨h.1, ih _ h.2⟩
    | mat s => simp only [List.map_cons, relink, chk, Bool.and_eq_true] at h ⊢; exact ⟨h.1, ih _ h.2⟩
    | view s b => simp only [List.map_cons, relink, chk, Bool.and_eq_true] at h ⊢; exact ⟨h.1, ih _ h.2⟩
    | raw s b =>
      simp only [List.map_cons, relink, chk, Bool.and_eq_true] at h ⊢
      refine ⟨h.1, ?_⟩
      have := h.2
      split_ifs at this ⊢
      · exact ih _ this
      · exact ih _ this
    | null s => simp only [List.map_cons, relink, chk, Bool.and_eq_true] at h ⊢; exact ⟨h.1, ih _ h.2⟩
    | check l c => simp only [List.map_cons, relink, chk, Bool.and_eq_true] at h ⊢; exact ⟨h.1, ih _ h.2⟩
    | use l => simp only [List.map_cons, relink, chk, Bool.and_eq_true] at h ⊢; exact ⟨h.1, ih _ h.2⟩
    | initSub s r =>
      simp only [List.map_cons, relink, chk, Bool.and_eq_true] at h ⊢
      refine ⟨h.1, ?_⟩
      cases res with
      | ok k => exact ih _ h.2
      | err code => exact decide_eq_true (hr code rfl)

/-- Forgets the lengths of the vectors. -/
def strip : Instr σ → Instr σ
  | .vec s _ => .vec s 0
  | .raw s b => .raw s (if b = 0 then 0 else 1)
  | i => i

theorem chk_strip (X Y V : List σ) (memErr : ℤ) (prog : List (Instr σ)) : ∀ a : Abs σ, chk X Y V memErr a (prog.map strip) = chk X Y V memErr a prog := by
  induction prog with
  | nil => intro a; rfl
  | cons i is ih =>
    intro a
    cases i with
    | raw s b => by_cases hb : b = 0 <;> simp [strip, chk, ih, hb]
    | initSub s r => cases r <;> simp [strip, chk, ih]
    | _ => simp [strip, chk, ih]

end

/-- What the check starts from. -/
def absInit : Abs Slot := ⟨[], [solver], [], []⟩

theorem sat_initial : Sat absInit initial where
  own := ⟨⟨by simp [initial], by simp [initial]⟩, by simp [initial, Ptr.blocks], by simp [initial, Ptr.blocks], by simp [initial, Ptr.blocks], by simp [initial, Ptr.isObj]⟩
  known := by simp [initial, Ptr.isObj]
  valid := by simp [absInit]
  uninit := by
    intro s _ ho
    cases s <;> first | (simp [absInit]; done) | exact absurd ho (by decide)
  failed := by simp [initial]
  nulls := by simp [absInit]
  pend := by simp [absInit]

/-- Every pointer a successful setup fills. -/
def filled (c : SetupCfg) : List Slot :=
  [solver, settings, info, work, data, linsys, pol, x, y, z, xz_tilde, xtilde_view, ztilde_view, x_prev, z_prev, Ax, Px, Aty, delta_y, Atdelta_y,
   delta_x, Pdelta_x, Adelta_x, dataP, dataA, dataQ, dataL, dataU, polFlags, polX, polZ, polY] ++
  (if c.rhoIsVec then [rho_vec, rho_inv_vec, constr_type] else []) ++
  (if c.scaling then [scaling, D_temp, D_temp_A, E_temp, scD, scDinv, scE, scEinv] else []) ++
  (if c.allocSolution then [solution, solX, solDualCert] ++ (if c.m ≠ 0 then [solY, solPrimCert] else []) else []) ++
  (if c.profiling then [timer] else []) ++
  (if c.derivatives then [derivative_data, dY_u, dY_l, dRyl, dRyu] else [])

/-- The same with the pointer that is filled but never checked. -/
def assigned (c : SetupCfg) : List Slot := filled c ++ if c.derivatives then [dRhs] else []

theorem setupProg_relink (c : SetupCfg) : setupProg c = (setupProg c).map (relink c.linsys) := by
  rcases c with ⟨_ | _, _ | _, _ | _, _ | _, _ | _, n, m, l⟩ <;> by_cases hm : m = 0 <;>
    simp [setupProg, setupStructs, setupData, setupIterates, setupScaling, setupSolver, setupSolution, setupRest, relink, hm]

theorem setupProg_ok (c : SetupCfg) : (setupProg c).map (relink (.ok 0)) = setupProg { c with linsys := .ok 0 } := by
  rcases c with ⟨_ | _, _ | _, _ | _, _ | _, _ | _, n, m, l⟩ <;> by_cases hm : m = 0 <;>
    simp [setupProg, setupStructs, setupData, setupIterates, setupScaling, setupSolver, setupSolution, setupRest, relink, hm]

theorem setupProg_strip (p d r s a : Bool) (n m : ℕ) (hn : n ≠ 0) (hm : m ≠ 0) :
    (setupProg ⟨p, d, r, s, a, n, m, .ok 0⟩).map strip = (setupProg ⟨p, d, r, s, a, 1, 1, .ok 0⟩).map strip := by
  cases p <;> cases d <;> cases r <;> cases s <;> cases a <;>
    simp [setupProg, setupStructs, setupData, setupIterates, setupScaling, setupSolver, setupSolution, setupRest, strip, hm, hn]

theorem setupProg_strip0 (p d r s a : Bool) (n : ℕ) (hn : n ≠ 0) :
    (setupProg ⟨p, d, r, s, a, n, 0, .ok 0⟩).map strip = (setupProg ⟨p, d, r, s, a, 1, 0, .ok 0⟩).map strip := by
  cases p <;> cases d <;> cases r <;> cases s <;> cases a <;>
    simp [setupProg, setupStructs, setupData, setupIterates, setupScaling, setupSolver, setupSolution, setupRest, strip, hn]

theorem setup_chk_small : ∀ p d r s a b : Bool,
    chk [xz_tilde] [dRhs] (assigned ⟨p, d, r, s, a, 1, if b then 1 else 0, .ok 0⟩) memErr absInit (setupProg ⟨p, d, r, s, a, 1, if b then 1 else 0, .ok 0⟩) = true := by
  decide +kernel

theorem filled_eq (c c' : SetupCfg) (h1 : c'.profiling = c.profiling) (h2 : c'.derivatives = c.derivatives) (h3 : c'.rhoIsVec = c.rhoIsVec)
    (h4 : c'.scaling = c.scaling) (h5 : c'.allocSolution = c.allocSolution) (h6 : c'.m ≠ 0 ↔ c.m ≠ 0) : filled c' = filled c := by
  unfold filled; rw [h1, h2, h3, h4, h5]; simp only [h6]

theorem assigned_eq (c c' : SetupCfg) (h1 : c'.profiling = c.profiling) (h2 : c'.derivatives = c.derivatives) (h3 : c'.rhoIsVec = c.rhoIsVec)
    (h4 : c'.scaling = c.scaling) (h5 : c'.allocSolution = c.allocSolution) (h6 : c'.m ≠ 0 ↔ c.m ≠ 0) : assigned c' = assigned c := by
  unfold assigned; rw [filled_eq c c' h1 h2 h3 h4 h5 h6, h2]

/-- `osqp_setup` passes the check. -/
theorem setup_chk (c : SetupCfg) (hn : c.n ≠ 0) (hl : ∀ code, c.linsys = .err code → code ≠ 0 ∧ code ≠ memErr) :
    chk [xz_tilde] [dRhs] (assigned c) memErr absInit (setupProg c) = true := by
  rw [setupProg_relink c]
  refine chk_relink _ _ _ _ _ hl _ _ ?_
  rw [setupProg_ok, ← chk_strip]
  rcases c with ⟨p, d, r, s, a, n, m, l⟩
  by_cases hm : m = 0
  · subst hm
    show chk _ _ _ _ _ ((setupProg ⟨p, d, r, s, a, n, 0, .ok 0⟩).map strip) = true
    rw [setupProg_strip0 p d r s a n hn, chk_strip]
    exact setup_chk_small p d r s a false
  · show chk _ _ _ _ _ ((setupProg ⟨p, d, r, s, a, n, m, .ok 0⟩).map strip) = true
    rw [setupProg_strip p d r s a n m hn hm, chk_strip,
      assigned_eq ⟨p, d, r, s, a, 1, 1, .ok 0⟩ ⟨p, d, r, s, a, n, m, l⟩ rfl rfl rfl rfl rfl (by simp [hm])]
    exact setup_chk_small p d r s a true

end Osqp.Mem

namespace Osqp.Mem

open Slot

/-- What the swaps and `osqp_cleanup` need to know about a state: the guard on `work` in `osqp_cleanup` is not needed for anything but `solver`,
and the fields of the structures this build does not have are empty. -/
structure Clean (profiling derivatives : Bool) (st : St Slot) : Prop where
  ready : Ready st
  work : (st.ptr work).isObj = false → ∀ s, s ≠ solver → (st.ptr s).isObj = false
  timer : profiling = false → (st.ptr timer).isObj = false
  deriv : derivatives = false → ∀ s, s = derivative_data ∨ Slot.parent s = some derivative_data → (st.ptr s).isObj = false

theorem obj_solver {st : St Slot} (h : Ready st) (s : Slot) (hs : (st.ptr s).isObj = true) : (st.ptr solver).isObj = true := by
  have up : ∀ t p, Slot.parent t = some p → (st.ptr t).isObj = true → (st.ptr p).isObj = true := fun t p hp ht => by
    have := h.nested t ht
    rwa [open_of (show Layout.parent t = some p from hp)] at this
  have k1 := up work solver rfl
  have k2 := up solution solver rfl
  have k3 := up data work rfl
  have k4 := up scaling work rfl
  have k5 := up pol work rfl
  have k6 := up derivative_data work rfl
  cases s <;> first
    | exact hs
    | exact up _ solver rfl hs
    | exact k1 (up _ work rfl hs)
    | exact k2 (up _ solution rfl hs)
    | exact k1 (k3 (up _ data rfl hs))
    | exact k1 (k4 (up _ scaling rfl hs))
    | exact k1 (k5 (up _ pol rfl hs))
    | exact k1 (k6 (up _ derivative_data rfl hs))

theorem cleanup_blocksOk : ∀ p d : Bool, blocksOk [work, solver] [] (cleanupBlocks p d) = true := by decide +kernel

theorem cleanup_left : ∀ p d : Bool, let D := (cleanupBlocks p d).foldl (fun D b => b.frees.reverse ++ D) [];
    work ∉ D ∧ solver ∉ D ∧ ∀ s ∈ Slot.all, s ∉ D → s = work ∨ s = solver ∨ (p = false ∧ s = timer) ∨
      (d = false ∧ (s = derivative_data ∨ Slot.parent s = some derivative_data)) := by decide +kernel

/-- **`osqp_cleanup` releases everything, exactly once.** -/
theorem cleanup_spec {p d : Bool} {st : St Slot} (h : Clean p d st) : ∃ st', cleanupMem p d st = some st' ∧ st'.heap.live = [] := by
  have ho : st.open solver = true := rfl
  have empty : ∀ {st' : St Slot} {D : List Slot}, Left st st' D → (∀ s, s ∉ D → (st.ptr s).isObj = false) → st'.heap.live = [] := by
    intro st' D hl hD
    refine List.eq_nil_iff_forall_not_mem.2 fun b hb => ?_
    obtain ⟨s, h1, h2⟩ := (hl.live b).1 hb
    rw [blocks_of_not_obj (hD s h1)] at h2; simp at h2
  unfold cleanupMem
  cases hs : st.ptr solver with
  | uninit => exact absurd hs (h.ready.init solver ho)
  | null =>
    refine ⟨st, rfl, empty h.ready.left fun s _ => ?_⟩
    by_contra hc
    have := obj_solver h.ready s (by simpa using hc)
    rw [hs] at this; simp [Ptr.isObj] at this
  | obj o =>
    have hos : (st.ptr solver).isObj = true := by rw [hs]; rfl
    have how : st.open work = true := hos
    simp only
    cases hw : st.ptr work with
    | uninit => exact absurd hw (h.ready.init work how)
    | null =>
      simp only [Option.bind_some]
      obtain ⟨st1, e1, l1⟩ := h.ready.left.freeSlot h.ready (s := solver) (by simp) (fun p hp => by cases hp) ho
      refine ⟨st1, e1, empty l1 fun s hs => h.work (by rw [hw]; rfl) s (by simpa using hs)⟩
    | obj o' =>
      simp only
      have how' : (st.ptr work).isObj = true := by rw [hw]; rfl
      obtain ⟨st1, e1, l1⟩ := h.ready.left.blocks h.ready (top := [work, solver]) (by
        intro q hq; simp only [List.mem_cons, List.not_mem_nil, or_false] at hq
        rcases hq with rfl | rfl
        exacts [how', hos]) (cleanup_blocksOk p d)
      obtain ⟨c1, c2, c3⟩ := cleanup_left p d
      obtain ⟨st2, e2, l2⟩ := l1.freeSlot h.ready (s := work) c1 (fun q hq => by
        have : q = solver := (Option.some.inj hq).symm
        rw [this]; exact c2) how
      obtain ⟨st3, e3, l3⟩ := l2.freeSlot h.ready (s := solver) (fun hc => by
        rcases List.mem_cons.1 hc with hc | hc
        · exact absurd hc (by decide)
        · exact c2 hc) (fun q hq => by cases hq) ho
      rw [e1, Option.bind_some, e2, Option.bind_some]
      refine ⟨st3, e3, empty l3 fun s hs => ?_⟩
      simp only [List.mem_cons, not_or] at hs
      rcases c3 s (mem_all s) hs.2.2 with a | a | a | a
      · exact absurd a hs.2.1
      · exact absurd a hs.1
      · rw [a.2]; exact h.timer a.1
      · exact h.deriv a.1 s a.2

/-- The instructions with lengths and outcomes forgotten do not depend on the lengths, except through `m = 0`. -/
theorem setup_canon {β : Type} (f : Instr Slot → β) (h1 : ∀ i, f (strip i) = f i) (h2 : ∀ i, f (relink (.ok 0) i) = f i) (c : SetupCfg) (hn : c.n ≠ 0) :
    (setupProg c).map f = (setupProg ⟨c.profiling, c.derivatives, c.rhoIsVec, c.scaling, c.allocSolution, 1, if decide (c.m ≠ 0) then 1 else 0, .ok 0⟩).map f := by
  have e1 : ∀ l : List (Instr Slot), (l.map strip).map f = l.map f := fun l => by rw [List.map_map]; exact List.map_congr_left fun i _ => h1 i
  have e2 : ∀ l : List (Instr Slot), (l.map (relink (.ok 0))).map f = l.map f := fun l => by
    rw [List.map_map]; exact List.map_congr_left fun i _ => h2 i
  rw [← e2, setupProg_ok, ← e1]
  rcases c with ⟨p, d, r, s, a, n, m, l⟩
  by_cases hm : m = 0
  · subst hm
    show List.map f ((setupProg ⟨p, d, r, s, a, n, 0, .ok 0⟩).map strip) = _
    rw [setupProg_strip0 p d r s a n hn, e1]; rfl
  · show List.map f ((setupProg ⟨p, d, r, s, a, n, m, .ok 0⟩).map strip) = _
    rw [setupProg_strip p d r s a n m hn hm, e1]
    simp [hm]

theorem targets_small : ∀ p d r s a b : Bool, let T := (setupProg ⟨p, d, r, s, a, 1, if b then 1 else 0, .ok 0⟩).map Instr.target;
    (p = false → some timer ∉ T) ∧ (d = false → ∀ s ∈ [derivative_data, dY_u, dY_l, dRyl, dRyu, dRhs], some s ∉ T) := by decide +kernel

theorem targets_ok (c : SetupCfg) (hn : c.n ≠ 0) :
    (c.profiling = false → ∀ i ∈ setupProg c, i.target ≠ some timer) ∧
    (c.derivatives = false → ∀ s, s = derivative_data ∨ Slot.parent s = some derivative_data → ∀ i ∈ setupProg c, i.target ≠ some s) := by
  have e := setup_canon Instr.target (fun i => by cases i <;> rfl) (fun i => by cases i <;> rfl) c hn
  have h := targets_small c.profiling c.derivatives c.rhoIsVec c.scaling c.allocSolution (decide (c.m ≠ 0))
  simp only at h
  rw [← e] at h
  refine ⟨fun hp i hi ht => h.1 hp (List.mem_map.2 ⟨i, hi, ht⟩), fun hd s hs i hi ht => h.2 hd s ?_ (List.mem_map.2 ⟨i, hi, ht⟩)⟩
  revert hs; cases s <;> decide

theorem setup_drop (c : SetupCfg) : setupProg c = [.struct solver true, .check [solver] memErr, .struct work true, .check [work] memErr] ++ (setupProg c).drop 4 := by
  rfl

theorem spares_small : ∀ p d r s a b : Bool, (((setupProg ⟨p, d, r, s, a, 1, if b then 1 else 0, .ok 0⟩).map (spares work)).drop 4).all
    (fun b => b) = true := by decide +kernel

theorem spares_ok (c : SetupCfg) (hn : c.n ≠ 0) : ∀ i ∈ (setupProg c).drop 4, spares work i = true := by
  have e := setup_canon (spares work) (fun i => by cases i <;> rfl) (fun i => by cases i <;> rfl) c hn
  have h := spares_small c.profiling c.derivatives c.rhoIsVec c.scaling c.allocSolution (decide (c.m ≠ 0))
  rw [← e, ← List.map_drop, List.all_eq_true] at h
  intro i hi
  exact h _ (List.mem_map.2 ⟨i, hi, rfl⟩)

/-- The first two allocations. -/
theorem setup_first (c : SetupCfg) (hn : c.n ≠ 0) (fails : ℕ → Bool) :
    ((setupMem c fails).state.ptr work).isObj = false → ∀ s, s ≠ solver → ((setupMem c fails).state.ptr s).isObj = false := by
  intro hw t ht
  have l : ∀ s : Slot, (initial.ptr s).isObj = false := fun _ => rfl
  unfold setupMem at hw ⊢
  rw [setup_drop c] at hw ⊢
  by_cases h0 : fails 0 = true
  · have e : step fails initial (.struct solver true) = .go (initial.store solver true (⟨1, []⟩, none)) := by
      simp [step, St.open, Layout.parent, Slot.parent, malloc, initial, h0]
    have e2 : step fails (initial.store solver true (⟨1, []⟩, none)) (.check [solver] memErr) =
        .stop (.ret (initial.store solver true (⟨1, []⟩, none)) memErr) := by
      simp [step, checkAll, St.open, Layout.parent, Slot.parent, store_ptr]
    simp only [List.cons_append, run, e, e2, Out.state]
    rw [store_ptr, if_neg ht]; exact l t
  · have e : step fails initial (.struct solver true) = .go ((initial.fields solver .null).store solver true (⟨1, [0]⟩, some [0])) := by
      simp [step, St.open, Layout.parent, Slot.parent, malloc, initial, h0]
    set st1 := (initial.fields solver .null).store solver true (⟨1, [0]⟩, some [0]) with hst1
    have p1 : st1.ptr solver = .obj [0] := by rw [hst1, store_ptr, if_pos rfl]
    have q1 : ∀ s, s ≠ solver → (st1.ptr s).isObj = false := fun s hs => by
      rw [hst1, store_ptr, if_neg hs]
      show (if s ∈ Layout.kids solver then Ptr.null else Ptr.uninit).isObj = false
      split_ifs <;> rfl
    have e2 : step fails st1 (.check [solver] memErr) = .go st1 := by
      simp [step, checkAll, St.open, Layout.parent, Slot.parent, p1]
    have ow : st1.open work = true := by simp [St.open, Layout.parent, Slot.parent, p1, Ptr.isObj]
    have n1 : st1.heap = ⟨1, [0]⟩ := by rw [hst1, store_heap]
    by_cases h1 : fails 1 = true
    · have e3 : step fails st1 (.struct work true) = .go (st1.store work true (⟨2, [0]⟩, none)) := by
        simp [step, ow, malloc, n1, h1]
      have e4 : step fails (st1.store work true (⟨2, [0]⟩, none)) (.check [work] memErr) =
          .stop (.ret (st1.store work true (⟨2, [0]⟩, none)) memErr) := by
        have : (st1.store work true (⟨2, [0]⟩, none)).open work = true := by
          rw [open_of (p := solver) rfl, store_ptr, if_neg (by decide), p1]; rfl
        simp [step, checkAll, this, store_ptr]
      simp only [List.cons_append, run, e, e2, e3, e4, Out.state]
      rw [store_ptr]; split_ifs with htw
      · rfl
      · exact q1 t ht
    · exfalso
      have e3 : step fails st1 (.struct work true) = .go ((st1.fields work .null).store work true (⟨2, [1, 0]⟩, some [1])) := by
        simp [step, ow, malloc, n1, h1]
      set st2 := (st1.fields work .null).store work true (⟨2, [1, 0]⟩, some [1]) with hst2
      have p2 : st2.ptr work = .obj [1] := by rw [hst2, store_ptr, if_pos rfl]
      have e4 : step fails st2 (.check [work] memErr) = .go st2 := by
        have : st2.open work = true := by
          rw [open_of (p := solver) rfl, hst2, store_ptr, if_neg (by decide)]
          show (if solver ∈ Layout.kids work then Ptr.null else st1.ptr solver).isObj = true
          rw [if_neg (by decide), p1]; rfl
        simp [step, checkAll, this, p2]
      simp only [List.cons_append, List.nil_append, run, e, e2, e3, e4] at hw
      rw [run_same fails _ (spares_ok c hn), p2] at hw
      simp [Ptr.isObj] at hw

/-- Wherever `osqp_setup` returns, `osqp_cleanup` can be called. -/
theorem setup_clean (c : SetupCfg) (hn : c.n ≠ 0) (hl : ∀ code, c.linsys = .err code → code ≠ 0 ∧ code ≠ memErr) (fails : ℕ → Bool) {st : St Slot} {code : ℤ}
    (h : setupMem c fails = .ret st code) : Clean c.profiling c.derivatives st := by
  have g := chk_sound fails [xz_tilde] [dRhs] (assigned c) memErr (by decide) (setupProg c) absInit initial (setup_chk c hn hl) sat_initial
  have e : (setupMem c fails).state = st := by rw [h]; rfl
  have f := setup_first c hn fails
  rw [e] at f
  unfold setupMem at h
  rw [h] at g
  have t := targets_ok c hn
  refine ⟨g.1, f, fun hp => ?_, fun hd s hs => ?_⟩
  · have := run_keep fails (setupProg c) (t.1 hp) initial rfl
    rwa [h] at this
  · have := run_keep fails (setupProg c) (t.2 hd s hs) initial rfl
    rwa [h] at this

theorem subOk_map (w : Slot) (f : Instr Slot → Instr Slot) (h1 : ∀ i, isSub (f i) = isSub i) (h2 : ∀ i, onlySub w (f i) = onlySub w i) (l : List (Instr Slot)) :
    subOk w (l.map f) = subOk w l := by
  have ha : ∀ l : List (Instr Slot), (l.map f).any isSub = l.any isSub := fun l => by
    rw [List.any_map]; congr 1; funext i; exact h1 i
  induction l with
  | nil => rfl
  | cons i is ih => simp only [List.map_cons, subOk, ha, h1, h2, ih]

theorem sub_small : ∀ p d r s a b : Bool, subOk linsys (setupProg ⟨p, d, r, s, a, 1, if b then 1 else 0, .ok 0⟩) = true := by decide +kernel

theorem sub_ok (c : SetupCfg) (hn : c.n ≠ 0) : subOk linsys (setupProg c) = true := by
  have s1 : ∀ l, subOk linsys (l.map strip) = subOk linsys l := subOk_map _ _ (fun i => by cases i <;> rfl) (fun i => by cases i <;> rfl)
  have s2 : ∀ l, subOk linsys (l.map (relink (.ok 0))) = subOk linsys l := subOk_map _ _ (fun i => by cases i <;> rfl) (fun i => by cases i <;> rfl)
  rw [← s2, setupProg_ok, ← s1]
  rcases c with ⟨p, d, r, s, a, n, m, l⟩
  by_cases hm : m = 0
  · subst hm
    show subOk linsys ((setupProg ⟨p, d, r, s, a, n, 0, .ok 0⟩).map strip) = true
    rw [setupProg_strip0 p d r s a n hn, s1]
    exact sub_small p d r s a false
  · show subOk linsys ((setupProg ⟨p, d, r, s, a, n, m, .ok 0⟩).map strip) = true
    rw [setupProg_strip p d r s a n m hn hm, s1]
    exact sub_small p d r s a true

theorem empty_small : ∀ p d r s a b : Bool, b = true ∨ a = false →
    ((setupProg ⟨p, d, r, s, a, 1, if b then 1 else 0, .ok 0⟩).map Instr.empty).all (fun b => !b) = true := by decide +kernel

theorem empty_ok (c : SetupCfg) (hn : c.n ≠ 0) (hm : c.m ≠ 0 ∨ c.allocSolution = false) : ∀ i ∈ setupProg c, i.empty = false := by
  have e := setup_canon Instr.empty (fun i => by
    cases i with
    | raw s b => by_cases hb : b = 0 <;> simp [strip, Instr.empty, hb]
    | _ => rfl) (fun i => by cases i <;> rfl) c hn
  have h := empty_small c.profiling c.derivatives c.rhoIsVec c.scaling c.allocSolution (decide (c.m ≠ 0)) (by simpa using hm)
  rw [← e, List.all_eq_true] at h
  intro i hi
  simpa using h _ (List.mem_map.2 ⟨i, hi, rfl⟩)

end Osqp.Mem
