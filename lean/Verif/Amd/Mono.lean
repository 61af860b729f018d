import Verif.Amd.Order

/-!
# The ordering depends on the pattern only

Whatever else is in the arrays, or behind the part of them that is used.
-/

namespace Osqp.Amd
open Csc
set_option linter.unusedSectionVars false

variable {σ β : Type}

/-- If `m` is defined then `m'` has the same result. -/
def Le (m m' : Option β) : Prop := ∀ r, m = some r → m' = some r

theorem Le.rfl {m : Option β} : Le m m := fun _ h => h
theorem Le.bind {m m' : Option σ} {f f' : σ → Option β} (h : Le m m') (hf : ∀ s, Le (f s) (f' s)) : Le (m >>= f) (m' >>= f') := by
  intro r e
  cases m with
  | none => cases e
  | some s => rw [h s _root_.rfl]; exact hf s r e
theorem Le.ite {c : Prop} [Decidable c] {a a' b b' : Option β} (h : Le a a') (h' : Le b b') : Le (if c then a else b) (if c then a' else b') := by
  split_ifs
  · exact h
  · exact h'
theorem Le.forI {f f' : ℤ → σ → Option σ} (h : ∀ i s, Le (f i s) (f' i s)) (lo hi : ℤ) (s : σ) : Le (forI lo hi f s) (forI lo hi f' s) := by
  unfold Csc.forI
  generalize (hi - lo).toNat = k
  induction k generalizing lo s with
  | zero => exact Le.rfl
  | succ k ih => exact Le.bind (h lo s) (fun s => ih (lo + 1) s)
theorem Le.loop {f f' : σ → Option (σ ⊕ β)} (h : ∀ s, Le (f s) (f' s)) (k : ℕ) (s : σ) : Le (loop f k s) (loop f' k s) := by
  induction k generalizing s with
  | zero => exact Le.rfl
  | succ k ih =>
    refine Le.bind (h s) (fun r => ?_)
    cases r with
    | inl s => exact ih s
    | inr b => exact Le.rfl

/-- Everything in `b` is in `b'`. -/
def Sub (b b' : Buf ℤ) : Prop := ∀ i, Le (b.rd i) (b'.rd i)

variable {Ap Ai Ap' Ai' : Buf ℤ} (hp : Sub Ap Ap') (hi : Sub Ai Ai')
include hp hi

theorem valid_mono (n : ℤ) : Le (valid n Ap Ai) (valid n Ap' Ai') := by
  unfold valid
  refine Le.ite Le.rfl (Le.bind (hp _) fun nz => Le.bind (hp _) fun p0 => Le.ite Le.rfl (Le.bind (Le.forI (fun j r => ?_) _ _ _) fun _ => Le.rfl))
  cases r with
  | none => exact Le.rfl
  | some v =>
    refine Le.bind (hp _) fun p1 => Le.bind (hp _) fun p2 => Le.ite Le.rfl (Le.bind (Le.forI (fun p r => ?_) _ _ _) fun _ => Le.rfl)
    cases r with
    | none => exact Le.rfl
    | some w => exact Le.bind (hi _) fun _ => Le.rfl

theorem distinct_mono (n : ℤ) (act : ℤ → ℤ → σ → Option σ) (s : σ × Buf ℤ) : Le (distinct n Ap Ai act s) (distinct n Ap' Ai' act s) := by
  unfold distinct
  exact Le.forI (fun j s => Le.bind (hp _) fun _ => Le.bind (hp _) fun _ => Le.forI (fun p s => Le.bind (hi _) fun _ => Le.rfl) _ _ _) _ _ _

theorem preprocess_mono (n nz : ℤ) (W Flag : Buf ℤ) : Le (preprocess n nz Ap Ai W Flag) (preprocess n nz Ap' Ai' W Flag) := by
  unfold preprocess
  exact Le.bind Le.rfl fun _ => Le.bind (distinct_mono hp hi _ _ _) fun _ => Le.bind Le.rfl fun _ => Le.bind Le.rfl fun _ => Le.bind Le.rfl fun _ => Le.bind (distinct_mono hp hi _ _ _) fun _ => Le.rfl

theorem scanLower_mono (act : ℤ → ℤ → σ → Option σ) (k j : ℤ) (s : σ × Buf ℤ) : Le (scanLower Ap Ai act k j s) (scanLower Ap' Ai' act k j s) := by
  unfold scanLower
  exact Le.bind (hp _) fun _ => Le.bind Le.rfl fun _ => Le.bind (Le.loop (fun r => Le.ite (Le.bind (hi _) fun _ => Le.rfl) Le.rfl) _ _) fun _ => Le.rfl

theorem scanCol_mono (act : ℤ → ℤ → σ → Option σ) (k : ℤ) (s : σ × Buf ℤ) : Le (scanCol Ap Ai act k s) (scanCol Ap' Ai' act k s) := by
  unfold scanCol
  exact Le.bind (hp _) fun _ => Le.bind (hp _) fun _ => Le.bind (Le.loop (fun r => Le.ite (Le.bind (hi _) fun _ => Le.ite (Le.bind Le.rfl fun _ => Le.bind (scanLower_mono hp hi _ _ _ _) fun _ => Le.rfl) Le.rfl) Le.rfl) _ _) fun _ => Le.rfl

theorem scanAAt_mono (n : ℤ) (act : ℤ → ℤ → σ → Option σ) (s : σ × Buf ℤ) : Le (scanAAt n Ap Ai act s) (scanAAt n Ap' Ai' act s) := by
  unfold scanAAt
  exact Le.bind (Le.forI (fun k s => scanCol_mono hp hi _ _ _) _ _ _) fun _ =>
    Le.forI (fun j s => Le.bind Le.rfl fun _ => Le.bind (hp _) fun _ => Le.bind (Le.forI (fun p s => Le.bind (hi _) fun _ => Le.rfl) _ _ _) fun _ => Le.rfl) _ _ _

theorem tail_mono (n dense0 imax lim status : ℤ) (Len P Pinv : Buf ℤ) :
    Le (do
      let (nzaat, Len, P) ← aat n Ap Ai Len P
      let slen := nzaat + nzaat / 5 + 7 * n
      let (_, P) ← amd1 n dense0 imax lim Ap Ai P Pinv Len slen
      (pure (status, P) : Option (ℤ × Buf ℤ)))
      (do
      let (nzaat, Len, P) ← aat n Ap' Ai' Len P
      let slen := nzaat + nzaat / 5 + 7 * n
      let (_, P) ← amd1 n dense0 imax lim Ap' Ai' P Pinv Len slen
      (pure (status, P) : Option (ℤ × Buf ℤ))) := by
  refine Le.bind ?_ fun _ => Le.bind ?_ fun _ => Le.rfl
  · unfold aat
    exact Le.bind Le.rfl fun _ => Le.bind (scanAAt_mono hp hi _ _ _) fun _ => Le.rfl
  · unfold amd1
    exact Le.bind Le.rfl fun _ => Le.bind (scanAAt_mono hp hi _ _ _) fun _ => Le.rfl

theorem order_mono (n dense0 imax lim : ℤ) (P : Buf ℤ) : Le (order n dense0 imax lim Ap Ai P) (order n dense0 imax lim Ap' Ai' P) := by
  unfold order
  refine Le.ite Le.rfl (Le.ite Le.rfl (Le.bind (hp _) fun nz => Le.ite Le.rfl (Le.bind (valid_mono hp hi _) fun st => Le.ite Le.rfl ?_)))
  by_cases c : st = 1
  · rw [if_pos c, if_pos c]
    exact Le.bind (preprocess_mono hp hi _ _ _ _) fun _ => Le.rfl
  · rw [if_neg c, if_neg c]
    exact tail_mono hp hi _ _ _ _ _ _ _ _

end Osqp.Amd
