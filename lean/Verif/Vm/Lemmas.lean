import Verif.Vm.Spec
import Verif.Csc.Lemmas

/-!
# Loops over shared vectors
-/

set_option linter.unusedSectionVars false
namespace Osqp.Vm
open Csc
variable {K : Type*} {σ σ' τ : Store K} {x a b : Ref} {n : ℕ} {f g : Fin n → K}

theorem Has.toRoom (h : Has σ x n f) : Room σ x n := ⟨h.len, h.room⟩

theorem Has.rd (h : Has σ x n f) (i : Fin n) : rd σ x (i : ℕ) = some (f i) := by
  unfold Vm.rd Buf.rd
  have h1 := h.room
  have h2 := i.2
  rw [if_pos ⟨by omega, by omega⟩]
  have : ((x.off : ℤ) + ((i : ℕ) : ℤ)).toNat = x.off + i := by omega
  rw [this, h.val]

theorem Has.uniq (h : Has σ x n f) (h' : Has σ x n g) : f = g := by
  funext i
  have := (h.val i).symm.trans (h'.val i)
  exact Option.some.inj this

theorem OnlyAt.refl : OnlyAt x σ σ := ⟨fun _ => rfl, fun _ _ _ => rfl⟩

theorem OnlyAt.trans (h : OnlyAt x σ τ) (h' : OnlyAt x τ σ') : OnlyAt x σ σ' :=
  ⟨fun b => (h'.1 b).trans (h.1 b), fun b k hk => (h'.2 b k hk).trans (h.2 b k hk)⟩

theorem OnlyAt.room (h : OnlyAt x σ σ') {m : ℕ} (ha : Room σ a m) : Room σ' a m :=
  ⟨ha.len, by rw [h.1]; exact ha.room⟩

theorem OnlyAt.has (h : OnlyAt x σ σ') {m : ℕ} {f : Fin m → K} (ha : Has σ a m f) (hp : Apart x a) : Has σ' a m f := by
  refine ⟨ha.len, by rw [h.1]; exact ha.room, fun i => ?_⟩
  rw [h.2, ha.val]
  rintro ⟨e, h1, h2⟩
  have := ha.len
  rcases hp with hp | hp | hp
  · exact hp e.symm
  · omega
  · have := i.2; omega

theorem wr_eq (h : x.off + n ≤ (σ x.blk).size) {k : ℕ} (hk : k < n) (v : K) :
    wr σ x (k : ℤ) v = some (Function.update σ x.blk ((σ x.blk).set (x.off + k) v)) := by
  unfold wr
  have e : ((x.off : ℤ) + (k : ℤ)) = ((x.off + k : ℕ) : ℤ) := by push_cast; rfl
  rw [e, Buf.wr_eq (by omega)]; rfl

theorem upd_cell (σ : Store K) (x : Ref) (k : ℕ) (v : K) (b j : ℕ) :
    ((Function.update σ x.blk ((σ x.blk).set (x.off + k) v)) b).cell j =
      if b = x.blk ∧ j = x.off + k then some v else (σ b).cell j := by
  by_cases hb : b = x.blk
  · subst hb
    rw [Function.update_self, Buf.set_cell]
    simp
  · rw [Function.update_of_ne hb, if_neg (by simp [hb])]

theorem upd_size (σ : Store K) (x : Ref) (k : ℕ) (v : K) (b : ℕ) :
    ((Function.update σ x.blk ((σ x.blk).set (x.off + k) v)) b).size = (σ b).size := by
  by_cases hb : b = x.blk
  · subst hb; rw [Function.update_self]; rfl
  · rw [Function.update_of_ne hb]

/-- State of an element-by-element loop after `k` rounds. -/
structure Upto (σ : Store K) (x : Ref) (n : ℕ) (g : Fin n → K) (k : ℕ) (τ : Store K) : Prop where
  size : ∀ b, (τ b).size = (σ b).size
  done : ∀ i : Fin n, (i : ℕ) < k → (τ x.blk).cell (x.off + i) = some (g i)
  rest : ∀ b j, ¬ (b = x.blk ∧ x.off ≤ j ∧ j < x.off + k) → (τ b).cell j = (σ b).cell j

/-- What a round may read: the operand's current element is the original one. -/
theorem Upto.rd {k : ℕ} (h : Upto σ x n g k τ) (hx : x.len = n) (ha : Has σ a n f) (hp : Apart x a ∨ Same x a) (hk : k < n) :
    rd τ a (k : ℤ) = some (f ⟨k, hk⟩) := by
  unfold Vm.rd Buf.rd
  have h1 := ha.room
  rw [if_pos ⟨by omega, by rw [h.size]; omega⟩]
  have : ((a.off : ℤ) + (k : ℤ)).toNat = a.off + k := by omega
  rw [this, h.rest]
  · exact ha.val ⟨k, hk⟩
  · rintro ⟨e, e1, e2⟩
    have := ha.len
    rcases hp with (hp | hp | hp) | hp
    · exact hp e.symm
    · omega
    · omega
    · have := hp.2; omega

theorem Upto.write {k : ℕ} (h : Upto σ x n g k τ) (hr : Room σ x n) (hk : k < n) {v : K} (hv : v = g ⟨k, hk⟩) :
    ∃ τ', wr τ x (k : ℤ) v = some τ' ∧ Upto σ x n g (k + 1) τ' := by
  subst hv
  refine ⟨_, wr_eq (n := n) (by rw [h.size]; exact hr.room) hk _, ⟨fun b => by rw [upd_size, h.size], fun i hi => ?_, fun b j hj => ?_⟩⟩
  · rw [upd_cell]
    by_cases e : (i : ℕ) = k
    · rw [if_pos ⟨rfl, by rw [e]⟩]; congr 2; exact Fin.ext e.symm
    · rw [if_neg (by rintro ⟨_, e'⟩; exact e (by omega))]; exact h.done i (by omega)
  · rw [upd_cell, if_neg (by rintro ⟨e, e'⟩; exact hj ⟨e, by omega, by omega⟩)]
    exact h.rest b j (by rintro ⟨e, e1, e2⟩; exact hj ⟨e, e1, by omega⟩)

/-- A round that leaves the element as it is. -/
theorem Upto.keep {k : ℕ} (h : Upto σ x n g k τ) (hx : Has σ x n f) (hk : k < n) (hv : f ⟨k, hk⟩ = g ⟨k, hk⟩) :
    Upto σ x n g (k + 1) τ := by
  refine ⟨h.size, fun i hi => ?_, fun b j hj => h.rest b j (by rintro ⟨e, e1, e2⟩; exact hj ⟨e, e1, by omega⟩)⟩
  by_cases e : (i : ℕ) = k
  · have : i = ⟨k, hk⟩ := Fin.ext e
    subst this
    rw [h.rest _ _ (by rintro ⟨_, _, e2⟩; simp only at e2; omega), hx.val, hv]
  · exact h.done i (by omega)

theorem Upto.zero : Upto σ x n g 0 σ := ⟨fun _ => rfl, fun i hi => absurd hi (Nat.not_lt_zero _), fun _ _ _ => rfl⟩

theorem Upto.result (h : Upto σ x n g n σ') (hr : Room σ x n) : Has σ' x n g ∧ OnlyAt x σ σ' := by
  refine ⟨⟨hr.len, by rw [h.size]; exact hr.room, fun i => h.done i i.2⟩, h.size, fun b k hk => h.rest b k (by rw [hr.len] at hk; exact hk)⟩

/-- Element-by-element loop. -/
theorem map_loop {body : ℤ → Store K → Option (Store K)} (hr : Room σ x n)
    (hs : ∀ k (hk : k < n) τ, Upto σ x n g k τ → ∃ τ', body (k : ℤ) τ = some τ' ∧ Upto σ x n g (k + 1) τ') :
    ∃ σ', forI 0 (n : ℤ) body σ = some σ' ∧ Has σ' x n g ∧ OnlyAt x σ σ' := by
  obtain ⟨σ', e, h⟩ := forI_zero (f := body) (hi := n) (s := σ) (Upto σ x n g) Upto.zero (fun k τ hk h => hs k hk τ h)
  exact ⟨σ', e, h.result hr⟩

/-- Accumulating loop. -/
theorem fold_loop {α : Type*} {body : ℤ → α → Option α} {n : ℕ} (step : α → Fin n → α) (r : α)
    (hs : ∀ k (hk : k < n) r, body (k : ℤ) r = some (step r ⟨k, hk⟩)) :
    forI 0 (n : ℤ) body r = some ((List.finRange n).foldl step r) := by
  obtain ⟨r', e, h⟩ := forI_zero (f := body) (hi := n) (s := r)
    (fun k q => q = ((List.finRange n).take k).foldl step r) (by simp) (fun k q hk h => by
      refine ⟨_, hs k hk q, ?_⟩
      rw [List.take_succ_eq_append_getElem (by simpa using hk), List.foldl_append, ← h]
      simp)
  rw [e, h, List.take_of_length_le (by simp)]

end Osqp.Vm
