import Verif.Cuda.GpuLemmas
import Mathlib.Data.List.Perm.Basic
import Mathlib.Data.List.Range

/-!
# Which accesses commute, and what a grid of threads goes through
-/

set_option linter.unusedSectionVars false
namespace Osqp.Gpu
open Csc Vm
variable {M α β γ ι K : Type}

/-! ## Accesses to one element -/

/-- The memory with one element replaced. -/
def setCell (σ : Store α) (b k : ℕ) (c : Option α) : Store α := Function.update σ b ⟨(σ b).size, Function.update (σ b).cell k c⟩

/-- An access to element `k` of array `b`: `h` says what is done with it. -/
def cellOp (b : ℕ) (k : ℤ) (h : Option α → Option (β × Option α)) (σ : Store α) : Option (β × Store α) :=
  if 0 ≤ k ∧ k < (σ b).size then (h ((σ b).cell k.toNat)).map fun r => (r.1, setCell σ b k.toNat r.2) else none

/-- Reading. -/
def readOp (c : Option α) : Option (α × Option α) := c.map fun o => (o, c)
/-- Writing. -/
def writeOp (x : α) (_ : Option α) : Option (Unit × Option α) := some ((), some x)
/-- Replacing by a function of the old value. -/
def rmwOp (f : α → α) (c : Option α) : Option (Unit × Option α) := c.map fun o => ((), some (f o))

theorem setCell_size (σ : Store α) (b k : ℕ) (c : Option α) (b' : ℕ) : (setCell σ b k c b').size = (σ b').size := by
  unfold setCell
  by_cases h : b' = b
  · subst h; rw [Function.update_self]
  · rw [Function.update_of_ne h]

theorem setCell_cell (σ : Store α) (b k : ℕ) (c : Option α) (b' k' : ℕ) :
    (setCell σ b k c b').cell k' = if b' = b ∧ k' = k then c else (σ b').cell k' := by
  unfold setCell
  by_cases h : b' = b
  · subst h; rw [Function.update_self]; simp [Function.update_apply]
  · rw [Function.update_of_ne h, if_neg (by simp [h])]

theorem store_ext {σ τ : Store α} (h1 : ∀ b, (σ b).size = (τ b).size) (h2 : ∀ b k, (σ b).cell k = (τ b).cell k) : σ = τ := by
  funext b
  have a := h1 b
  have c := funext (h2 b)
  cases e : σ b; cases e' : τ b
  rw [e, e'] at a c
  simp only at a c
  rw [a, c]

theorem setCell_self (σ : Store α) (b k : ℕ) : setCell σ b k ((σ b).cell k) = σ := by
  refine store_ext (fun b' => setCell_size ..) fun b' k' => ?_
  rw [setCell_cell]; split_ifs with h
  · rw [h.1, h.2]
  · rfl

theorem setCell_twice (σ : Store α) (b k : ℕ) (c d : Option α) : setCell (setCell σ b k c) b k d = setCell σ b k d := by
  refine store_ext (fun b' => by simp only [setCell_size]) fun b' k' => ?_
  simp only [setCell_cell]; split_ifs <;> rfl

theorem setCell_comm (σ : Store α) {b k b' k' : ℕ} (h : ¬ (b = b' ∧ k = k')) (c d : Option α) :
    setCell (setCell σ b k c) b' k' d = setCell (setCell σ b' k' d) b k c := by
  refine store_ext (fun b' => by simp only [setCell_size]) fun b'' k'' => ?_
  simp only [setCell_cell]
  split_ifs with h1 h2 <;> first | rfl | (exfalso; exact h ⟨by omega, by omega⟩)

/-- Accesses to different elements commute. -/
theorem cellOp_comm {b b' : ℕ} {k k' : ℤ} (h : Option α → Option (β × Option α)) (h' : Option α → Option (γ × Option α)) (hd : ¬ (b = b' ∧ k = k')) :
    Comm (cellOp b k h) (cellOp b' k' h') := by
  intro σ
  unfold cellOp
  by_cases h1 : 0 ≤ k ∧ k < (σ b).size
  swap
  · rw [if_neg h1]
    split_ifs with h2
    · simp only [Option.bind_none, Option.bind_map, Function.comp_def, setCell_size, if_neg h1, Option.map_none]
      cases h' _ <;> rfl
    · rfl
  by_cases h2 : 0 ≤ k' ∧ k' < (σ b').size
  swap
  · rw [if_neg h2]
    simp only [if_pos h1, Option.bind_none, Option.bind_map, Function.comp_def, setCell_size, if_neg h2, Option.map_none]
    cases h _ <;> rfl
  have hd' : ¬ (b = b' ∧ k.toNat = k'.toNat) := fun e => hd ⟨e.1, by omega⟩
  have e1 : ∀ c, (setCell σ b k.toNat c b').cell k'.toNat = (σ b').cell k'.toNat := fun c => by
    rw [setCell_cell, if_neg (fun e => hd' ⟨e.1.symm, e.2.symm⟩)]
  have e2 : ∀ c, (setCell σ b' k'.toNat c b).cell k.toNat = (σ b).cell k.toNat := fun c => by
    rw [setCell_cell, if_neg hd']
  simp only [if_pos h1, if_pos h2, Option.bind_map, Function.comp_def, setCell_size, Option.map_map, e1, e2]
  cases h ((σ b).cell k.toNat) with
  | none => cases h' ((σ b').cell k'.toNat) <;> rfl
  | some r =>
    cases h' ((σ b').cell k'.toNat) with
    | none => rfl
    | some s => simp only [Option.bind_some, Option.map_some, setCell_comm σ hd' r.2 s.2]

/-- Accesses to one element commute if what they do with it does. -/
theorem cellOp_comm_same {b : ℕ} {k : ℤ} (h : Option α → Option (β × Option α)) (h' : Option α → Option (γ × Option α))
    (hd : ∀ c, ((h c).bind fun r => (h' r.2).map fun s => (r.1, s.1, s.2)) = (h' c).bind fun s => (h s.2).map fun r => (r.1, s.1, r.2)) :
    Comm (cellOp b k h) (cellOp b k h') := by
  intro σ
  unfold cellOp
  by_cases h1 : 0 ≤ k ∧ k < (σ b).size
  swap
  · simp only [if_neg h1, Option.bind_none]
  simp only [if_pos h1, Option.bind_map, Function.comp_def, setCell_size, Option.map_map, setCell_cell, and_self, if_true, setCell_twice]
  have := congrArg (Option.map fun x : β × γ × Option α => (x.1, x.2.1, setCell σ b k.toNat x.2.2)) (hd ((σ b).cell k.toNat))
  simp only [Option.map_bind, Option.map_map, Function.comp_def] at this
  exact this

/-! ## Private, read-only and accumulating elements -/

/-- An access to an element of the thread's own, a read of one that nobody writes, or an update, by one of a family of functions, of
one that is only updated so. -/
inductive Cls (own ro acc : ℕ → ℤ → Prop) (fam : (α → α) → Prop) : (β : Type) → (Store α → Option (β × Store α)) → Prop
  | own {β : Type} (b k) (h : Option α → Option (β × Option α)) : own b k → Cls own ro acc fam β (cellOp b k h)
  | ro (b k) : ro b k → Cls own ro acc fam α (cellOp b k readOp)
  | acc (b k f) : acc b k → fam f → Cls own ro acc fam Unit (cellOp b k (rmwOp f))

theorem cls_comm {own own' ro acc : ℕ → ℤ → Prop} {fam : (α → α) → Prop} (h1 : ∀ b k, own b k → ¬ own' b k)
    (h2 : ∀ b k, (own b k ∨ own' b k) → ¬ ro b k ∧ ¬ acc b k) (h3 : ∀ b k, ro b k → ¬ acc b k)
    (hf : ∀ f g, fam f → fam g → ∀ x, f (g x) = g (f x)) {a : Store α → Option (β × Store α)} {a' : Store α → Option (γ × Store α)}
    (ha : Cls own ro acc fam β a) (ha' : Cls own' ro acc fam γ a') : Comm a a' := by
  cases ha with
  | own b k h ho =>
    cases ha' with
    | own b' k' h' ho' => exact cellOp_comm _ _ (by rintro ⟨rfl, rfl⟩; exact h1 _ _ ho ho')
    | ro b' k' hr => exact cellOp_comm _ _ (by rintro ⟨rfl, rfl⟩; exact (h2 _ _ (.inl ho)).1 hr)
    | acc b' k' f hc _ => exact cellOp_comm _ _ (by rintro ⟨rfl, rfl⟩; exact (h2 _ _ (.inl ho)).2 hc)
  | ro b k hr =>
    cases ha' with
    | own b' k' h' ho' => exact cellOp_comm _ _ (by rintro ⟨rfl, rfl⟩; exact (h2 _ _ (.inr ho')).1 hr)
    | ro b' k' _ =>
      by_cases e : b = b' ∧ k = k'
      · obtain ⟨rfl, rfl⟩ := e
        exact cellOp_comm_same _ _ fun c => by cases c <;> rfl
      · exact cellOp_comm _ _ e
    | acc b' k' f hc _ => exact cellOp_comm _ _ (by rintro ⟨rfl, rfl⟩; exact h3 _ _ hr hc)
  | acc b k f hc hf1 =>
    cases ha' with
    | own b' k' h' ho' => exact cellOp_comm _ _ (by rintro ⟨rfl, rfl⟩; exact (h2 _ _ (.inr ho')).2 hc)
    | ro b' k' hr => exact cellOp_comm _ _ (by rintro ⟨rfl, rfl⟩; exact h3 _ _ hr hc)
    | acc b' k' g hc' hg =>
      by_cases e : b = b' ∧ k = k'
      · obtain ⟨rfl, rfl⟩ := e
        refine cellOp_comm_same _ _ fun c => ?_
        cases c with
        | none => rfl
        | some o => simp only [rmwOp, Option.map_some, Option.bind_some, hf g f hg hf1 o]
      · exact cellOp_comm _ _ e

theorem Cls.mono {own own' ro acc : ℕ → ℤ → Prop} {fam : (α → α) → Prop} (h : ∀ b k, own b k → own' b k)
    {a : Store α → Option (β × Store α)} (ha : Cls own ro acc fam β a) : Cls own' ro acc fam β a := by
  cases ha with
  | own b k f ho => exact .own b k f (h _ _ ho)
  | ro b k hr => exact .ro b k hr
  | acc b k f hc hf => exact .acc b k f hc hf

/-! ## Both kinds of arrays -/

def liftF (a : Store K → Option (β × Store K)) (m : Dev K) : Option (β × Dev K) := (a m.f).map fun r => (r.1, { m with f := r.2 })
def liftZ (a : Store ℤ → Option (β × Store ℤ)) (m : Dev K) : Option (β × Dev K) := (a m.z).map fun r => (r.1, { m with z := r.2 })

theorem liftF_comm {a : Store K → Option (β × Store K)} {b : Store K → Option (γ × Store K)} (h : Comm a b) : Comm (liftF a) (liftF b) := by
  intro m
  have := congrArg (Option.map fun x : β × γ × Store K => (x.1, x.2.1, (⟨x.2.2, m.z⟩ : Dev K))) (h m.f)
  simp only [Option.map_bind, Option.map_map, Function.comp_def] at this
  simp only [liftF, Option.bind_map, Option.map_map, Function.comp_def]
  exact this

theorem liftZ_comm {a : Store ℤ → Option (β × Store ℤ)} {b : Store ℤ → Option (γ × Store ℤ)} (h : Comm a b) :
    Comm (liftZ (K := K) a) (liftZ b) := by
  intro m
  have := congrArg (Option.map fun x : β × γ × Store ℤ => (x.1, x.2.1, (⟨m.f, x.2.2⟩ : Dev K))) (h m.z)
  simp only [Option.map_bind, Option.map_map, Function.comp_def] at this
  simp only [liftZ, Option.bind_map, Option.map_map, Function.comp_def]
  exact this

theorem liftFZ_comm (a : Store K → Option (β × Store K)) (b : Store ℤ → Option (γ × Store ℤ)) : Comm (liftF a) (liftZ b) := by
  intro m
  unfold liftF liftZ
  cases h1 : a m.f <;> cases h2 : b m.z <;> simp [h1, h2]

/-- Which elements are whose. -/
structure Areas where
  roF : ℕ → ℤ → Prop
  accF : ℕ → ℤ → Prop
  roZ : ℕ → ℤ → Prop
  accZ : ℕ → ℤ → Prop
  fam : (ℤ → ℤ) → Prop

/-- The accesses of a thread whose own elements are `ownF` and `ownZ`. -/
def Touches [Add K] (A : Areas) (ownF ownZ : ℕ → ℤ → Prop) (β : Type) (a : Dev K → Option (β × Dev K)) : Prop :=
  (∃ a', Cls ownF A.roF A.accF (fun f => ∃ x, f = (· + x)) β a' ∧ a = liftF a') ∨
  (∃ a', Cls ownZ A.roZ A.accZ A.fam β a' ∧ a = liftZ a') ∨ a = fun _ => none

theorem touches_comm [AddCommSemigroup K] {A : Areas} {ownF ownZ ownF' ownZ' : ℕ → ℤ → Prop}
    (f1 : ∀ b k, ownF b k → ¬ ownF' b k) (f2 : ∀ b k, (ownF b k ∨ ownF' b k) → ¬ A.roF b k ∧ ¬ A.accF b k) (f3 : ∀ b k, A.roF b k → ¬ A.accF b k)
    (z1 : ∀ b k, ownZ b k → ¬ ownZ' b k) (z2 : ∀ b k, (ownZ b k ∨ ownZ' b k) → ¬ A.roZ b k ∧ ¬ A.accZ b k) (z3 : ∀ b k, A.roZ b k → ¬ A.accZ b k)
    (hf : ∀ f g, A.fam f → A.fam g → ∀ x, f (g x) = g (f x)) {a : Dev K → Option (β × Dev K)} {a' : Dev K → Option (γ × Dev K)}
    (ha : Touches A ownF ownZ β a) (ha' : Touches A ownF' ownZ' γ a') : Comm a a' := by
  have none_comm : ∀ {β γ : Type} (b : Dev K → Option (γ × Dev K)), Comm (β := β) (fun _ => none) b := by
    intro β γ b m; cases h : b m <;> simp [h]
  rcases ha with ⟨c, hc, rfl⟩ | ⟨c, hc, rfl⟩ | rfl
  · rcases ha' with ⟨c', hc', rfl⟩ | ⟨c', hc', rfl⟩ | rfl
    · refine liftF_comm (cls_comm f1 f2 f3 ?_ hc hc')
      rintro _ _ ⟨x, rfl⟩ ⟨y, rfl⟩ o
      exact add_right_comm o y x
    · exact liftFZ_comm _ _
    · exact (none_comm _).symm
  · rcases ha' with ⟨c', hc', rfl⟩ | ⟨c', hc', rfl⟩ | rfl
    · exact (liftFZ_comm _ _).symm
    · exact liftZ_comm (cls_comm z1 z2 z3 hf hc hc')
    · exact (none_comm _).symm
  · exact none_comm _

theorem Touches.mono [Add K] {A : Areas} {ownF ownZ ownF' ownZ' : ℕ → ℤ → Prop} (h1 : ∀ b k, ownF b k → ownF' b k) (h2 : ∀ b k, ownZ b k → ownZ' b k)
    {a : Dev K → Option (β × Dev K)} (h : Touches A ownF ownZ β a) : Touches A ownF' ownZ' β a := by
  rcases h with ⟨c, hc, e⟩ | ⟨c, hc, e⟩ | e
  · exact .inl ⟨c, hc.mono h1, e⟩
  · exact .inr (.inl ⟨c, hc.mono h2, e⟩)
  · exact .inr (.inr e)

theorem All.mono {Q Q' : (β : Type) → (M → Option (β × M)) → Prop} (h : ∀ β a, Q β a → Q' β a) {p : Prog M α} (hp : All Q p) : All Q' p := by
  induction p with
  | ret a => trivial
  | act a k ih => exact ⟨h _ _ hp.1, fun b => ih b (hp.2 b)⟩

/-! ## The accesses of the kernels are of this form -/

theorem rd_cellOp (v : Ref) (i : ℤ) (σ : Store α) : (rd σ v i).map (fun x => (x, σ)) = cellOp v.blk (v.off + i) readOp σ := by
  unfold rd Buf.rd cellOp readOp
  split_ifs with h
  · cases e : (σ v.blk).cell ((v.off : ℤ) + i).toNat with
    | none => rfl
    | some o =>
      simp only [Option.map_some]
      rw [← e, setCell_self]
  · rfl

theorem wr_setCell (v : Ref) (i : ℤ) (x : α) (σ : Store α) :
    wr σ v i x = if 0 ≤ (v.off : ℤ) + i ∧ (v.off : ℤ) + i < (σ v.blk).size then some (setCell σ v.blk ((v.off : ℤ) + i).toNat (some x)) else none := by
  unfold wr Buf.wr
  split_ifs <;> rfl

theorem wr_cellOp (v : Ref) (i : ℤ) (x : α) (σ : Store α) : (wr σ v i x).map (fun s => ((), s)) = cellOp v.blk (v.off + i) (writeOp x) σ := by
  rw [wr_setCell]
  unfold cellOp writeOp
  split_ifs <;> rfl

theorem rmw_cellOp (v : Ref) (i : ℤ) (f : α → α) (σ : Store α) :
    ((rd σ v i).bind fun o => (wr σ v i (f o)).map fun s => ((), s)) = cellOp v.blk (v.off + i) (rmwOp f) σ := by
  simp only [wr_setCell]
  unfold rd Buf.rd cellOp rmwOp
  split_ifs with h
  · cases e : (σ v.blk).cell ((v.off : ℤ) + i).toNat <;> rfl
  · rfl

theorem ld_eq (v : Ref) (i : ℤ) : (ld v i : Prog (Dev K) K) = .act (liftF (cellOp v.blk (v.off + i) readOp)) .ret := by
  unfold ld; congr 1; funext m
  rw [liftF, ← rd_cellOp, Option.map_map]; rfl
theorem st_eq (v : Ref) (i : ℤ) (x : K) : (st v i x : Prog (Dev K) Unit) = .act (liftF (cellOp v.blk (v.off + i) (writeOp x))) .ret := by
  unfold st; congr 1; funext m
  rw [liftF, ← wr_cellOp, Option.map_map]; rfl
theorem ldz_eq (v : Ref) (i : ℤ) : (ldz v i : Prog (Dev K) ℤ) = .act (liftZ (cellOp v.blk (v.off + i) readOp)) .ret := by
  unfold ldz; congr 1; funext m
  rw [liftZ, ← rd_cellOp, Option.map_map]; rfl
theorem stz_eq (v : Ref) (i : ℤ) (x : ℤ) : (stz v i x : Prog (Dev K) Unit) = .act (liftZ (cellOp v.blk (v.off + i) (writeOp x))) .ret := by
  unfold stz; congr 1; funext m
  rw [liftZ, ← wr_cellOp, Option.map_map]; rfl
theorem atomicAdd_eq [Add K] (v : Ref) (x : K) : atomicAdd v x = .act (liftF (cellOp v.blk (v.off + 0) (rmwOp (· + x)))) .ret := by
  unfold atomicAdd; congr 1; funext m
  rw [liftF, ← rmw_cellOp, Option.map_bind]
  simp only [Function.comp_def, Option.map_map]
theorem atomicAnd_eq (v : Ref) (x : ℤ) : (atomicAnd v x : Prog (Dev K) Unit) = .act (liftZ (cellOp v.blk (v.off + 0) (rmwOp (Int.land · x)))) .ret := by
  unfold atomicAnd; congr 1; funext m
  rw [liftZ, ← rmw_cellOp, Option.map_bind]
  simp only [Function.comp_def, Option.map_map]
theorem atomicOr_eq (v : Ref) (x : ℤ) : (atomicOr v x : Prog (Dev K) Unit) = .act (liftZ (cellOp v.blk (v.off + 0) (rmwOp (Int.lor · x)))) .ret := by
  unfold atomicOr; congr 1; funext m
  rw [liftZ, ← rmw_cellOp, Option.map_bind]
  simp only [Function.comp_def, Option.map_map]

section
variable [Add K] {A : Areas} {ownF ownZ : ℕ → ℤ → Prop}

theorem all_ld {v : Ref} {i : ℤ} (h : A.roF v.blk (v.off + i) ∨ ownF v.blk (v.off + i)) : All (Touches A ownF ownZ) (ld v i : Prog (Dev K) K) := by
  rw [ld_eq]
  refine ⟨.inl ⟨_, ?_, rfl⟩, fun _ => trivial⟩
  rcases h with h | h
  · exact .ro _ _ h
  · exact .own _ _ _ h
theorem all_st {v : Ref} {i : ℤ} {x : K} (h : ownF v.blk (v.off + i)) : All (Touches A ownF ownZ) (st v i x : Prog (Dev K) Unit) := by
  rw [st_eq]; exact ⟨.inl ⟨_, .own _ _ _ h, rfl⟩, fun _ => trivial⟩
theorem all_ldz {v : Ref} {i : ℤ} (h : A.roZ v.blk (v.off + i) ∨ ownZ v.blk (v.off + i)) : All (Touches A ownF ownZ) (ldz v i : Prog (Dev K) ℤ) := by
  rw [ldz_eq]
  refine ⟨.inr (.inl ⟨_, ?_, rfl⟩), fun _ => trivial⟩
  rcases h with h | h
  · exact .ro _ _ h
  · exact .own _ _ _ h
theorem all_stz {v : Ref} {i : ℤ} {x : ℤ} (h : ownZ v.blk (v.off + i)) : All (Touches A ownF ownZ) (stz v i x : Prog (Dev K) Unit) := by
  rw [stz_eq]; exact ⟨.inr (.inl ⟨_, .own _ _ _ h, rfl⟩), fun _ => trivial⟩
theorem all_atomicAdd {v : Ref} {x : K} (h : A.accF v.blk (v.off + 0)) : All (Touches A ownF ownZ) (atomicAdd v x) := by
  rw [atomicAdd_eq]; exact ⟨.inl ⟨_, .acc _ _ _ h ⟨x, rfl⟩, rfl⟩, fun _ => trivial⟩
theorem all_atomicAnd {v : Ref} {x : ℤ} (h : A.accZ v.blk (v.off + 0)) (hf : A.fam (Int.land · x)) :
    All (Touches A ownF ownZ) (atomicAnd v x : Prog (Dev K) Unit) := by
  rw [atomicAnd_eq]; exact ⟨.inr (.inl ⟨_, .acc _ _ _ h hf, rfl⟩), fun _ => trivial⟩
theorem all_atomicOr {v : Ref} {x : ℤ} (h : A.accZ v.blk (v.off + 0)) (hf : A.fam (Int.lor · x)) :
    All (Touches A ownF ownZ) (atomicOr v x : Prog (Dev K) Unit) := by
  rw [atomicOr_eq]; exact ⟨.inr (.inl ⟨_, .acc _ _ _ h hf, rfl⟩), fun _ => trivial⟩
theorem all_fail : All (Touches A ownF ownZ) (.act (β := Unit) (fun _ => none) .ret : Prog (Dev K) Unit) := ⟨.inr (.inr rfl), fun _ => trivial⟩
theorem all_ret (a : α) : All (Touches (K := K) A ownF ownZ) (.ret a) := trivial
end

/-! ## What the threads go through -/

/-- The elements a thread goes through. -/
def visits (g n : ℕ) : ℕ → ℕ → List ℕ
  | 0, _ => []
  | k + 1, i => if i < n then i :: visits g n k (i + g) else []

theorem mem_visits {g n k i j : ℕ} (hg : 0 < g) (hk : n ≤ i + k) : j ∈ visits g n k i ↔ j < n ∧ ∃ c, j = i + c * g := by
  induction k generalizing i with
  | zero =>
    simp only [visits, List.not_mem_nil, false_iff]
    rintro ⟨h, c, rfl⟩
    omega
  | succ k ih =>
    unfold visits
    split_ifs with h
    · rw [List.mem_cons, ih (by omega)]
      constructor
      · rintro (rfl | ⟨h1, c, rfl⟩)
        · exact ⟨h, 0, by simp⟩
        · exact ⟨h1, c + 1, by ring⟩
      · rintro ⟨h1, c, rfl⟩
        cases c with
        | zero => left; simp
        | succ c => right; exact ⟨h1, c, by ring⟩
    · simp only [List.not_mem_nil, false_iff]
      rintro ⟨h1, c, rfl⟩
      omega

theorem nodup_visits {g n : ℕ} (hg : 0 < g) (k i : ℕ) : (visits g n k i).Nodup := by
  have low : ∀ k i j, j ∈ visits g n k i → i ≤ j := by
    intro k
    induction k with
    | zero => intro i j h; simp [visits] at h
    | succ k ih =>
      intro i j h
      unfold visits at h
      split_ifs at h
      · rcases List.mem_cons.1 h with rfl | h
        · exact le_rfl
        · have := ih _ _ h; omega
      · simp at h
  induction k generalizing i with
  | zero => simp [visits]
  | succ k ih =>
    unfold visits
    split_ifs
    · rw [List.nodup_cons]
      exact ⟨fun h => by have := low _ _ _ h; omega, ih _⟩
    · simp

/-- A loop over a list of elements. -/
def seqL {σ : Type} (body : ℕ → σ → Prog M σ) : List ℕ → σ → M → Option (σ × M)
  | [], s, m => some (s, m)
  | i :: L, s, m => (seq (body i s) m).bind fun r => seqL body L r.1 r.2

theorem seqL_append {σ : Type} (body : ℕ → σ → Prog M σ) (L L' : List ℕ) (s : σ) (m : M) :
    seqL body (L ++ L') s m = (seqL body L s m).bind fun r => seqL body L' r.1 r.2 := by
  induction L generalizing s m with
  | nil => rfl
  | cons i L ih =>
    simp only [List.cons_append, seqL, Option.bind_assoc]
    congr 1; funext r; exact ih _ _

theorem seq_gridLoop {σ : Type} (g n : ℕ) (body : ℕ → σ → Prog M σ) (k i : ℕ) (s : σ) (m : M) :
    seq (gridLoop g n body k i s) m = seqL body (visits g n k i) s m := by
  induction k generalizing i s m with
  | zero => rfl
  | succ k ih =>
    unfold gridLoop visits
    split_ifs
    · rw [bind_eq, seq_bind]
      simp only [seqL]
      congr 1; funext r; exact ih _ _ _
    · rfl

theorem all_gridLoop {σ : Type} {Q : (β : Type) → (M → Option (β × M)) → Prop} {g n : ℕ} {body : ℕ → σ → Prog M σ} (k i : ℕ) (s : σ)
    (h : ∀ j ∈ visits g n k i, ∀ s, All Q (body j s)) : All Q (gridLoop g n body k i s) := by
  induction k generalizing i s with
  | zero => trivial
  | succ k ih =>
    unfold gridLoop
    unfold visits at h
    split_ifs with hi
    · rw [if_pos hi] at h
      rw [bind_eq]
      exact all_bind (h i (by simp) s) fun a => ih _ _ fun j hj => h j (by simp [hj])
    · trivial

theorem idx_lt {G B : ℕ} (t : Fin G × Fin B) : idx t < B * G := by
  unfold idx
  have h1 := t.1.2
  have h2 := t.2.2
  calc (t.2 : ℕ) + B * t.1 < B + B * t.1 := by omega
    _ = B * (t.1 + 1) := by ring
    _ ≤ B * G := Nat.mul_le_mul le_rfl h1

theorem idx_inj {G B : ℕ} : Function.Injective (idx (G := G) (B := B)) := by
  intro s t h
  unfold idx at h
  have h1 : (s.2 : ℕ) = t.2 := by
    have := congrArg (· % B) h
    simpa [Nat.add_mul_mod_self_left, Nat.mod_eq_of_lt s.2.2, Nat.mod_eq_of_lt t.2.2] using this
  have hB : 0 < B := by have := s.2.2; omega
  have h2 : (s.1 : ℕ) = t.1 := by
    have h3 : B * (s.1 : ℕ) = B * t.1 := by omega
    exact Nat.eq_of_mul_eq_mul_left hB h3
  exact Prod.ext (Fin.ext h2) (Fin.ext h1)

theorem idx_surj {G B j : ℕ} (h : j < B * G) : ∃ t : Fin G × Fin B, idx t = j := by
  have hB : 0 < B := by rcases Nat.eq_zero_or_pos B with rfl | h'; simp at h; exact h'
  refine ⟨(⟨j / B, Nat.div_lt_of_lt_mul h⟩, ⟨j % B, Nat.mod_lt _ hB⟩), ?_⟩
  unfold idx
  exact Nat.mod_add_div j B

/-- The elements of thread `t`. -/
def mine (n G B : ℕ) (t : Fin G × Fin B) : List ℕ := visits (B * G) n n (idx t)

theorem mem_mine {n G B : ℕ} (t : Fin G × Fin B) (j : ℕ) : j ∈ mine n G B t ↔ j < n ∧ j % (B * G) = idx t := by
  have hg : 0 < B * G := lt_of_le_of_lt (Nat.zero_le _) (idx_lt t)
  rw [mine, mem_visits hg (by omega)]
  refine and_congr_right fun _ => ⟨?_, fun h => ⟨j / (B * G), ?_⟩⟩
  · rintro ⟨c, rfl⟩
    rw [Nat.add_mul_mod_self_right, Nat.mod_eq_of_lt (idx_lt t)]
  · rw [← h, Nat.mul_comm (j / _)]; exact (Nat.mod_add_div j _).symm

/-- Each element is gone through exactly once. -/
theorem mine_perm (n G B : ℕ) (hg : 0 < B * G) {L : List (Fin G × Fin B)} (hL : L.Nodup) (hm : ∀ t, t ∈ L) :
    (L.flatMap (mine n G B)).Perm (List.range n) := by
  rw [List.perm_ext_iff_of_nodup _ List.nodup_range]
  · intro j
    simp only [List.mem_flatMap, List.mem_range, mem_mine]
    constructor
    · rintro ⟨t, _, h, _⟩; exact h
    · intro h
      obtain ⟨t, ht⟩ := idx_surj (Nat.mod_lt j hg)
      exact ⟨t, hm t, h, ht.symm⟩
  · rw [List.nodup_flatMap]
    refine ⟨fun t _ => nodup_visits hg _ _, hL.imp fun {s t} hne => ?_⟩
    intro j h1 h2
    rw [mem_mine] at h1 h2
    exact hne (idx_inj (h1.2.symm.trans h2.2))

theorem seqAll_strided (n G B : ℕ) (body : ℕ → Prog M Unit) (L : List (Fin G × Fin B)) (m : M) :
    seqAll (strided n body G B) L m = (seqL (fun i _ => body i) (L.flatMap (mine n G B)) () m).map Prod.snd := by
  induction L generalizing m with
  | nil => rfl
  | cons t L ih =>
    rw [List.flatMap_cons, seqL_append, Option.map_bind]
    unfold seqAll strided
    rw [seq_gridLoop]
    congr 1; funext r
    exact ih r.2

end Osqp.Gpu
