import Verif.Spec.Gpu
import Verif.Vm.Lemmas
import Mathlib.Tactic.FinCases
import Mathlib.Data.Fintype.Prod

/-!
# Interleavings of independent threads

If the accesses of different threads commute, every interleaving ends as running one thread after the other does.
-/

set_option linter.unusedSectionVars false
namespace Osqp.Gpu
open Csc Vm
variable {M α β γ ι : Type}

/-! ## One thread alone -/

/-- A thread run to its end. -/
def seq : Prog M α → M → Option (α × M)
  | .ret a, m => some (a, m)
  | .act a k, m => (a m).bind fun r => seq (k r.1) r.2

/-- All accesses of the program, whatever the values read, satisfy `Q`. -/
def All (Q : (β : Type) → (M → Option (β × M)) → Prop) : Prog M α → Prop
  | .ret _ => True
  | .act (β := β) a k => Q β a ∧ ∀ b, All Q (k b)

theorem seq_ret (a : α) (m : M) : seq (.ret a : Prog M α) m = some (a, m) := rfl
theorem seq_act (a : M → Option (β × M)) (k : β → Prog M α) (m : M) : seq (.act a k) m = (a m).bind fun r => seq (k r.1) r.2 := rfl
theorem step_act (a : M → Option (β × M)) (k : β → Prog M α) (m : M) : step (.act a k) m = (a m).map fun r => (k r.1, r.2) := rfl
theorem step_ret (a : α) (m : M) : step (.ret a : Prog M α) m = some (.ret a, m) := rfl
theorem pbind_act (a : M → Option (β × M)) (k : β → Prog M α) (f : α → Prog M γ) : (Prog.act a k).bind f = .act a fun b => (k b).bind f := rfl
theorem pure_eq (a : α) : (pure a : Prog M α) = .ret a := rfl
theorem bind_eq (p : Prog M α) (f : α → Prog M γ) : (p >>= f) = p.bind f := rfl

theorem seq_bind (p : Prog M α) (f : α → Prog M γ) (m : M) : seq (p.bind f) m = (seq p m).bind fun r => seq (f r.1) r.2 := by
  induction p generalizing m with
  | ret a => rfl
  | act a k ih =>
    rw [pbind_act, seq_act, seq_act, Option.bind_assoc]
    congr 1; funext r; exact ih r.1 r.2

theorem all_bind {Q : (β : Type) → (M → Option (β × M)) → Prop} {p : Prog M α} {f : α → Prog M γ} (h : All Q p) (h' : ∀ a, All Q (f a)) :
    All Q (p.bind f) := by
  induction p with
  | ret a => exact h' a
  | act a k ih => exact ⟨h.1, fun b => ih b (h.2 b)⟩

/-- One access, then the rest alone. -/
theorem seq_step (p : Prog M α) (m : M) : ((step p m).bind fun r => seq r.1 r.2) = seq p m := by
  cases p with
  | ret a => rfl
  | act a k => rw [step_act, seq_act]; cases a m <;> rfl

theorem all_step {Q : (β : Type) → (M → Option (β × M)) → Prop} {p q : Prog M α} {m m' : M} (h : All Q p) (e : step p m = some (q, m')) : All Q q := by
  cases p with
  | ret a => simp only [step, Option.some.injEq, Prod.mk.injEq] at e; rw [← e.1]; trivial
  | act a k =>
    rw [step_act] at e
    cases ha : a m with
    | none => rw [ha] at e; simp at e
    | some r => rw [ha] at e; simp only [Option.map_some, Option.some.injEq, Prod.mk.injEq] at e; rw [← e.1]; exact h.2 _

/-! ## Commuting accesses -/

/-- The two accesses give the same values and memory in either order. -/
def Comm (a : M → Option (β × M)) (b : M → Option (γ × M)) : Prop :=
  ∀ m, ((a m).bind fun r => (b r.2).map fun s => (r.1, s.1, s.2)) = (b m).bind fun s => (a s.2).map fun r => (r.1, s.1, r.2)

theorem Comm.symm {a : M → Option (β × M)} {b : M → Option (γ × M)} (h : Comm a b) : Comm b a := by
  intro m
  have := congrArg (Option.map fun x : β × γ × M => (x.2.1, x.1, x.2.2)) (h m)
  simp only [Option.map_bind, Function.comp_def, Option.map_map] at this
  exact this.symm

/-- A step commutes with a whole thread. -/
theorem step_seq {Q Q' : (β : Type) → (M → Option (β × M)) → Prop} (hc : ∀ β γ a b, Q β a → Q' γ b → Comm a b) {p : Prog M α} {q : Prog M γ} (hp : All Q p)
    (hq : All Q' q) (m : M) :
    ((step p m).bind fun r => (seq q r.2).map fun s => (r.1, s.2)) = (seq q m).bind fun s => (step p s.2) := by
  cases p with
  | ret a =>
    simp only [step, Option.bind_some]
    cases seq q m <;> rfl
  | act a k =>
    have ha := hp.1
    clear hp
    induction q generalizing m with
    | ret c =>
      simp only [step, seq, Option.map_some, Option.bind_some]
      cases a m <;> rfl
    | act b l ih =>
      have h := hc _ _ _ _ ha hq.1 m
      simp only [step_act, seq_act] at ih ⊢
      have e1 : ((b m).bind fun s => ((a s.2).map fun r => (k r.1, r.2)).bind fun r => (seq (l s.1) r.2).map fun t => (r.1, t.2)) =
          (b m).bind fun s => (seq (l s.1) s.2).bind fun t => (a t.2).map fun r => (k r.1, r.2) := by
        congr 1; funext s; exact ih s.1 (hq.2 s.1) s.2
      rw [Option.bind_assoc, ← e1]
      have h2 := congrArg (fun o => o.bind fun x => (seq (l x.2.1) x.2.2).map fun t => (k x.1, t.2)) h
      simp only [Option.bind_assoc, Option.bind_map, Function.comp_def, Option.map_bind] at h2 ⊢
      exact h2

/-! ## All threads one after the other -/

/-- The threads in `L` one after the other. -/
def seqAll (ts : ι → Prog M Unit) : List ι → M → Option M
  | [], m => some m
  | t :: L, m => (seq (ts t) m).bind fun r => seqAll ts L r.2

variable [DecidableEq ι]

theorem seqAll_congr {ts us : ι → Prog M Unit} (L : List ι) (h : ∀ t ∈ L, ts t = us t) (m : M) : seqAll ts L m = seqAll us L m := by
  induction L generalizing m with
  | nil => rfl
  | cons t L ih =>
    unfold seqAll
    rw [h t (by simp)]
    congr 1; funext r; exact ih (fun s hs => h s (by simp [hs])) r.2

variable {Q : ι → (β : Type) → (M → Option (β × M)) → Prop}

/-- A step of any thread may be taken first. -/
theorem seqAll_step (hc : ∀ s t, s ≠ t → ∀ β γ a b, Q s β a → Q t γ b → Comm a b) {ts : ι → Prog M Unit} (hQ : ∀ t, All (Q t) (ts t)) (t : ι)
    (L : List ι) (hL : L.Nodup) (ht : t ∈ L) (m : M) :
    ((step (ts t) m).bind fun r => seqAll (Function.update ts t r.1) L r.2) = seqAll ts L m := by
  induction L generalizing m with
  | nil => simp at ht
  | cons s L ih =>
    rw [List.nodup_cons] at hL
    by_cases e : s = t
    · subst e
      simp only [seqAll, Function.update_self]
      rw [← seq_step (ts s) m, Option.bind_assoc]
      congr 1; funext r
      congr 1; funext r'
      refine seqAll_congr L (fun u hu => ?_) _
      have : u ≠ s := fun e => hL.1 (e ▸ hu)
      simp only [Function.update_of_ne this]
    · have ht' : t ∈ L := by simpa [Ne.symm e] using ht
      simp only [seqAll, Function.update_of_ne e]
      have h := step_seq (hc t s (Ne.symm e)) (hQ t) (hQ s) m
      have h2 := congrArg (fun o => o.bind fun x => seqAll (Function.update ts t x.1) L x.2) h
      simp only [Option.bind_assoc, Option.bind_map, Function.comp_def] at h2
      rw [h2]
      congr 1; funext r
      exact ih hL.2 ht' r.2

/-- **Serialisation.** After any number of turns, running what is left one thread after the other gives what running everything so
would have given. -/
theorem serial (hc : ∀ s t, s ≠ t → ∀ β γ a b, Q s β a → Q t γ b → Comm a b) {ts : ι → Prog M Unit} (hQ : ∀ t, All (Q t) (ts t)) (L : List ι)
    (hL : L.Nodup) (hm : ∀ t, t ∈ L) (s : List ι) (m : M) :
    ((run ts s m).bind fun r => seqAll r.1 L r.2) = seqAll ts L m := by
  induction s generalizing ts m with
  | nil => rfl
  | cons t s ih =>
    unfold run
    rw [Option.bind_assoc, ← seqAll_step hc hQ t L hL (hm t) m]
    cases e : step (ts t) m with
    | none => rfl
    | some r =>
      refine ih (fun u => ?_) r.2
      by_cases h : u = t
      · subst h; rw [Function.update_self]; exact all_step (hQ u) e
      · rw [Function.update_of_ne h]; exact hQ u

/-! ## Coming to the end -/

/-- `q` is what is left of `p` after one access. -/
def Sub (q p : Prog M α) : Prop := ∃ (β : Type) (a : M → Option (β × M)) (k : β → Prog M α) (b : β), p = .act a k ∧ q = k b

theorem sub_wf : WellFounded (Sub (M := M) (α := α)) := by
  refine ⟨fun p => ?_⟩
  induction p with
  | ret a => exact ⟨_, fun q h => by obtain ⟨_, _, _, _, h, _⟩ := h; cases h⟩
  | act a k ih =>
    refine ⟨_, fun q h => ?_⟩
    obtain ⟨_, _, _, b, h, rfl⟩ := h
    cases h
    exact ih b

theorem run_append (ts : ι → Prog M Unit) (s s' : List ι) (m : M) : run ts (s ++ s') m = (run ts s m).bind fun r => run r.1 s' r.2 := by
  induction s generalizing ts m with
  | nil => rfl
  | cons t s ih =>
    simp only [List.cons_append, run, Option.bind_assoc]
    congr 1; funext r; exact ih _ _

/-- Runs that never go wrong come to the end if every thread gets turns. -/
theorem fair_ends [Fintype ι] {ts : ι → Prog M Unit} {m : M} (hs : ∀ s, ∃ c, run ts s m = some c) (s : ℕ → ι) (hf : Fair s) :
    ∃ k c, run ts ((List.range k).map s) m = some c ∧ Finished c.1 := by
  choose c hcr using fun k => hs ((List.range k).map s)
  have hnext : ∀ k, ∃ r, step ((c k).1 (s k)) (c k).2 = some r ∧ (c (k + 1)).1 = Function.update (c k).1 (s k) r.1 := by
    intro k
    have h := hcr (k + 1)
    rw [List.range_succ, List.map_append, run_append, hcr k] at h
    simp only [Option.bind_some, List.map_cons, List.map_nil, run] at h
    cases e : step ((c k).1 (s k)) (c k).2 with
    | none => rw [e] at h; simp at h
    | some r =>
      rw [e] at h
      simp only [Option.bind_some, Option.some.injEq] at h
      exact ⟨r, rfl, by rw [← h]⟩
  -- a finished thread stays finished
  have stay : ∀ t k, (c k).1 t = .ret () → ∀ j, k ≤ j → (c j).1 t = .ret () := by
    intro t k h j hj
    induction j, hj using Nat.le_induction with
    | base => exact h
    | succ j hj ih =>
      obtain ⟨r, hr, e⟩ := hnext j
      rw [e]
      by_cases ht : t = s j
      · subst ht
        rw [Function.update_self]
        rw [ih] at hr
        simp only [step, Option.some.injEq] at hr
        rw [← hr]
      · rw [Function.update_of_ne ht, ih]
  -- every thread finishes
  have fin : ∀ t, ∃ k, (c k).1 t = .ret () := by
    intro t
    have key : ∀ p : Prog M Unit, ∀ k, (c k).1 t = p → ∃ k, (c k).1 t = .ret () := by
      intro p
      induction p using sub_wf.induction with
      | _ p ih =>
        intro k hk
        cases p with
        | ret a => exact ⟨k, hk⟩
        | act a q =>
          obtain ⟨j, hj, hsj⟩ := hf t k
          -- the first turn of `t` after `k`
          have : ∃ j, k ≤ j ∧ s j = t := ⟨j, hj, hsj⟩
          classical
          let j0 := Nat.find this
          obtain ⟨h1, h2⟩ := Nat.find_spec this
          have same : ∀ i, k ≤ i → i ≤ j0 → (c i).1 t = (c k).1 t := by
            intro i hi
            induction i, hi using Nat.le_induction with
            | base => intro _; rfl
            | succ i hi ih' =>
              intro hle
              obtain ⟨r, _, e⟩ := hnext i
              rw [e, Function.update_of_ne, ih' (by omega)]
              intro e'
              exact Nat.find_min this (m := i) (by exact Nat.lt_of_succ_le hle) ⟨hi, e'.symm⟩
          have hc0 : (c j0).1 t = .act a q := (same j0 h1 le_rfl).trans hk
          obtain ⟨r, hr, e⟩ := hnext j0
          have h2' : s j0 = t := h2
          rw [h2', hc0] at hr
          rw [h2'] at e
          refine ih r.1 ?_ (j0 + 1) (by rw [e, Function.update_self])
          simp only [step] at hr
          cases ha : a (c j0).2 with
          | none => rw [ha] at hr; simp at hr
          | some x =>
            rw [ha] at hr
            simp only [Option.map_some, Option.some.injEq] at hr
            exact ⟨_, a, q, x.1, rfl, by rw [← hr]⟩
    exact key _ 0 rfl
  choose k hk using fin
  refine ⟨Finset.univ.sup k, _, hcr _, fun t => stay t (k t) (hk t) _ (Finset.le_sup (Finset.mem_univ t))⟩

theorem seqAll_finished {ts : ι → Prog M Unit} (h : Finished ts) (L : List ι) (m : M) : seqAll ts L m = some m := by
  induction L with
  | nil => rfl
  | cons t L ih => simp only [seqAll, h t, seq, Option.bind_some]; exact ih

/-- Independent threads: if running them one after the other ends in `m'`, so does every interleaving. -/
theorem always_of_serial [Fintype ι] (hc : ∀ s t, s ≠ t → ∀ β γ a b, Q s β a → Q t γ b → Comm a b) {ts : ι → Prog M Unit}
    (hQ : ∀ t, All (Q t) (ts t)) {m m' : M} {L : List ι} (hL : L.Nodup) (hm : ∀ t, t ∈ L) (h : seqAll ts L m = some m') :
    Always ts m (· = m') := by
  have hs : ∀ s, ∃ c, run ts s m = some c := by
    intro s
    have := serial hc hQ L hL hm s m
    rw [h] at this
    cases e : run ts s m with
    | none => rw [e] at this; simp at this
    | some c => exact ⟨c, rfl⟩
  refine ⟨hs, fun s c e hfin => ?_, fair_ends hs⟩
  have := serial hc hQ L hL hm s m
  rw [h, e, Option.bind_some, seqAll_finished hfin] at this
  exact Option.some.inj this

end Osqp.Gpu
