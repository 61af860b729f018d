import Mathlib.Tactic.Linarith
import Mathlib.Tactic.Ring
import Mathlib.Logic.Function.Basic

/-!
# Raw memory: C arrays and loops

A C array is a buffer with a size; its cells may be uninitialised.  Every access is checked: an access outside
the bounds and a read of an uninitialised cell give `none`, which stands for undefined behaviour.  A C `for` loop is
`forI`.  Nothing here corresponds to a particular line of the source; the functions of `csc_math.c`, `csc_utils.c`,
`kkt.c` are written with these operations in `Csc/Model.lean` and `Csc/Kkt.lean`.
-/

namespace Osqp.Csc

/-- A C array. -/
structure Buf (α : Type*) where
  size : ℕ
  cell : ℕ → Option α

variable {α σ : Type*}

/-- `malloc(n * sizeof)`: nothing initialised (a negative size is not modelled: it gives an empty array). -/
def Buf.fresh (n : ℤ) : Buf α := ⟨n.toNat, fun _ => none⟩
/-- `calloc(n, sizeof)`, all cells hold `v` (zero). -/
def Buf.zeroed (n : ℤ) (v : α) : Buf α := ⟨n.toNat, fun _ => some v⟩

/-- `b[i]` as an rvalue. -/
def Buf.rd (b : Buf α) (i : ℤ) : Option α := if 0 ≤ i ∧ i < b.size then b.cell i.toNat else none

/-- Array `b` with cell `k` set to `v`. -/
def Buf.set (b : Buf α) (k : ℕ) (v : α) : Buf α := { b with cell := Function.update b.cell k (some v) }

/-- `b[i] = v`. -/
def Buf.wr (b : Buf α) (i : ℤ) (v : α) : Option (Buf α) := if 0 ≤ i ∧ i < b.size then some (b.set i.toNat v) else none

/-- `k` rounds of a loop starting at counter value `i`. -/
def forGo (f : ℤ → σ → Option σ) : ℕ → ℤ → σ → Option σ
  | 0, _, s => some s
  | k + 1, i, s => (f i s).bind (forGo f k (i + 1))

/-- `for (i = lo; i < hi; i++) s = f(i, s)` (the bound is not changed by the body). -/
def forI (lo hi : ℤ) (f : ℤ → σ → Option σ) (s : σ) : Option σ := forGo f (hi - lo).toNat lo s

/-- `for (j = 0; j < n; j++) for (i = p[j]; i < p[j+1]; i++) s = body(j, i, s)`: the loop over the entries of a
compressed-column matrix (the array `p` is not changed by the body). -/
def forCols (p : Buf ℤ) (n : ℤ) (body : ℤ → ℤ → σ → Option σ) (s : σ) : Option σ :=
  forI 0 n (fun j s => (p.rd j).bind fun a => (p.rd (j + 1)).bind fun b => forI a b (body j) s) s

/-! ## What an array holds -/

/-- The first `n` cells of `b` exist, are initialised and hold `f 0, …, f (n-1)`. -/
def Holds (b : Buf α) (n : ℕ) (f : ℕ → α) : Prop := n ≤ b.size ∧ ∀ k < n, b.cell k = some (f k)

theorem Holds.rd {b : Buf α} {n : ℕ} {f : ℕ → α} (h : Holds b n f) {k : ℕ} (hk : k < n) : b.rd (k : ℤ) = some (f k) := by
  unfold Buf.rd
  rw [if_pos ⟨by omega, by have := h.1; omega⟩, Int.toNat_natCast, h.2 k hk]

theorem Holds.rd' {b : Buf α} {n : ℕ} {f : ℕ → α} (h : Holds b n f) {i : ℤ} {k : ℕ} (hi : i = k) (hk : k < n) :
    b.rd i = some (f k) := by rw [hi]; exact h.rd hk

theorem Buf.wr_eq {b : Buf α} {k : ℕ} {v : α} (h : k < b.size) : b.wr (k : ℤ) v = some (b.set k v) := by
  unfold Buf.wr
  rw [if_pos ⟨by omega, by omega⟩, Int.toNat_natCast]

theorem Holds.wr {b : Buf α} {n : ℕ} {f : ℕ → α} (h : Holds b n f) {k : ℕ} (hk : k < n) (v : α) :
    b.wr (k : ℤ) v = some (b.set k v) := Buf.wr_eq (by have := h.1; omega)

@[simp] theorem Buf.set_size (b : Buf α) (k : ℕ) (v : α) : (b.set k v).size = b.size := rfl
theorem Buf.set_cell (b : Buf α) (k : ℕ) (v : α) (i : ℕ) : (b.set k v).cell i = if i = k then some v else b.cell i := by
  unfold Buf.set; simp [Function.update_apply]

theorem Holds.set {b : Buf α} {n : ℕ} {f : ℕ → α} (h : Holds b n f) (k : ℕ) (v : α) :
    Holds (b.set k v) n (Function.update f k v) := by
  refine ⟨h.1, fun i hi => ?_⟩
  rw [Buf.set_cell, Function.update_apply]
  split_ifs
  · rfl
  · exact h.2 i hi

theorem Holds.congr {b : Buf α} {n : ℕ} {f g : ℕ → α} (h : Holds b n f) (e : ∀ k < n, f k = g k) : Holds b n g :=
  ⟨h.1, fun k hk => by rw [h.2 k hk, e k hk]⟩

theorem Holds.mono {b : Buf α} {n m : ℕ} {f : ℕ → α} (h : Holds b n f) (hm : m ≤ n) : Holds b m f :=
  ⟨le_trans hm h.1, fun k hk => h.2 k (by omega)⟩

/-- One more cell filled. -/
theorem Holds.extend {b : Buf α} {n : ℕ} {f : ℕ → α} (h : Holds b n f) (hs : n < b.size) (v : α) (hv : f n = v) :
    Holds (b.set n v) (n + 1) f := by
  refine ⟨hs, fun i hi => ?_⟩
  rw [Buf.set_cell]
  split_ifs with e
  · rw [e, hv]
  · exact h.2 i (by omega)

theorem Holds.zero {b : Buf α} {f : ℕ → α} : Holds b 0 f := ⟨Nat.zero_le _, fun k hk => absurd hk (Nat.not_lt_zero k)⟩

theorem Holds.uniq {b : Buf α} {n : ℕ} {f g : ℕ → α} (h : Holds b n f) (h' : Holds b n g) {k : ℕ} (hk : k < n) : f k = g k := by
  have := (h.2 k hk).symm.trans (h'.2 k hk); exact Option.some.inj this

theorem zeroed_holds (n : ℕ) (v : α) : Holds (Buf.zeroed (n : ℤ) v) n (fun _ => v) := ⟨by simp [Buf.zeroed], fun _ _ => rfl⟩
@[simp] theorem fresh_size (n : ℕ) : (Buf.fresh (n : ℤ) : Buf α).size = n := by simp [Buf.fresh]

/-! ## Loop rules -/

theorem forGo_nat {f : ℤ → σ → Option σ} (I : ℕ → σ → Prop) (hi : ℕ)
    (hs : ∀ k s, k < hi → I k s → ∃ s', f (k : ℤ) s = some s' ∧ I (k + 1) s') :
    ∀ (c lo : ℕ) (s : σ), lo + c = hi → I lo s → ∃ s', forGo f c (lo : ℤ) s = some s' ∧ I hi s' := by
  intro c
  induction c with
  | zero => intro lo s e h; rw [← e]; exact ⟨s, rfl, h⟩
  | succ c ih =>
    intro lo s e h
    obtain ⟨s1, e1, h1⟩ := hs lo s (by omega) h
    obtain ⟨s2, e2, h2⟩ := ih (lo + 1) s1 (by omega) h1
    refine ⟨s2, ?_, h2⟩
    unfold forGo
    rw [e1]
    push_cast at e2
    exact e2

/-- Loop rule: an invariant kept by every round. -/
theorem forI_nat {f : ℤ → σ → Option σ} {lo hi : ℕ} {s : σ} (I : ℕ → σ → Prop) (hle : lo ≤ hi) (h0 : I lo s)
    (hs : ∀ k s, lo ≤ k → k < hi → I k s → ∃ s', f (k : ℤ) s = some s' ∧ I (k + 1) s') :
    ∃ s', forI (lo : ℤ) (hi : ℤ) f s = some s' ∧ I hi s' := by
  obtain ⟨s', e, h1, _⟩ := forGo_nat (f := f) (fun k s => I k s ∧ lo ≤ k) hi
    (fun k s hk h => by obtain ⟨s', e, h'⟩ := hs k s h.2 hk h.1; exact ⟨s', e, h', by omega⟩) (hi - lo) lo s (by omega) ⟨h0, le_refl _⟩
  refine ⟨s', ?_, h1⟩
  unfold forI
  have : ((hi : ℤ) - lo).toNat = hi - lo := by omega
  rw [this]; exact e

theorem forI_zero {f : ℤ → σ → Option σ} {hi : ℕ} {s : σ} (I : ℕ → σ → Prop) (h0 : I 0 s)
    (hs : ∀ k s, k < hi → I k s → ∃ s', f (k : ℤ) s = some s' ∧ I (k + 1) s') :
    ∃ s', forI 0 (hi : ℤ) f s = some s' ∧ I hi s' := by
  have := forI_nat (f := f) (lo := 0) (hi := hi) I (Nat.zero_le _) h0 (fun k s _ hk h => hs k s hk h)
  simpa using this

/-- Rule for the loop over the entries of a matrix. -/
theorem forCols_nat {p : Buf ℤ} {n : ℕ} {P : ℕ → ℕ} (hp : Holds p (n + 1) (fun j => (P j : ℤ))) (hmono : ∀ j < n, P j ≤ P (j + 1))
    {body : ℤ → ℤ → σ → Option σ} {s : σ} (I : ℕ → σ → Prop) (h0 : I (P 0) s)
    (hs : ∀ j k s, j < n → P j ≤ k → k < P (j + 1) → I k s → ∃ s', body (j : ℤ) (k : ℤ) s = some s' ∧ I (k + 1) s') :
    ∃ s', forCols p (n : ℤ) body s = some s' ∧ I (P n) s' := by
  unfold forCols
  refine forI_zero (fun j s => I (P j) s) h0 (fun j s hj h => ?_)
  obtain ⟨s', e, h'⟩ := forI_nat (f := body (j : ℤ)) (lo := P j) (hi := P (j + 1)) I (hmono j hj) h (fun k s h1 h2 h3 => hs j k s hj h1 h2 h3)
  refine ⟨s', ?_, h'⟩
  rw [hp.rd (by omega)]
  simp only [Option.bind_some]
  rw [hp.rd' (k := j + 1) (by push_cast; ring) (by omega)]
  simpa only [Option.bind_some] using e

end Osqp.Csc
