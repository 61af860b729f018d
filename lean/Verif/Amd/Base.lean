import Verif.Amd.Model

/-!
# Reasoning about checked arrays

`b.at i` is the content of a cell, `Full b n` says that the first `n` cells may be read, `Ens m Q` that `m` is defined and its result
satisfies `Q`.
-/

namespace Osqp.Amd
open Csc
set_option linter.unusedSectionVars false

/-- The content of cell `i` (0 if there is none). -/
def at' (b : Buf ℤ) (i : ℤ) : ℤ := if 0 ≤ i then (b.cell i.toNat).getD 0 else 0

scoped instance : CoeFun (Buf ℤ) fun _ => ℤ → ℤ := ⟨at'⟩

/-- The first `n` cells exist and are initialised. -/
def Full (b : Buf ℤ) (n : ℤ) : Prop := n ≤ b.size ∧ ∀ i : ℤ, 0 ≤ i → i < n → b.rd i = some (b i)

/-- `b` with cell `i` set to `v`. -/
def upd (b : Buf ℤ) (i v : ℤ) : Buf ℤ := b.set i.toNat v

theorem upd_size (b : Buf ℤ) (i v : ℤ) : (upd b i v).size = b.size := rfl

theorem upd_at (b : Buf ℤ) {i v : ℤ} (hi : 0 ≤ i) (j : ℤ) : upd b i v j = if j = i then v else b j := by
  unfold upd at'
  by_cases hj : 0 ≤ j
  · rw [if_pos hj, if_pos hj, Buf.set_cell]
    by_cases e : j = i
    · rw [if_pos e, if_pos (by rw [e])]; rfl
    · rw [if_neg e, if_neg (by omega)]
  · rw [if_neg hj, if_neg hj, if_neg (by omega)]

theorem upd_same (b : Buf ℤ) {i v : ℤ} (hi : 0 ≤ i) : upd b i v i = v := by rw [upd_at b hi, if_pos rfl]
theorem upd_ne (b : Buf ℤ) {i v j : ℤ} (hi : 0 ≤ i) (h : j ≠ i) : upd b i v j = b j := by rw [upd_at b hi, if_neg h]

theorem wr_upd {b : Buf ℤ} {i v : ℤ} (h0 : 0 ≤ i) (h1 : i < b.size) : b.wr i v = some (upd b i v) := by
  unfold Buf.wr upd; rw [if_pos ⟨h0, h1⟩]

theorem rd_of_cell {b : Buf ℤ} {i : ℤ} (h0 : 0 ≤ i) (h1 : i < b.size) (h : b.cell i.toNat ≠ none) : b.rd i = some (b i) := by
  unfold Buf.rd at'
  rw [if_pos ⟨h0, h1⟩, if_pos h0]
  obtain ⟨v, hv⟩ := Option.ne_none_iff_exists'.mp h
  rw [hv]; rfl

theorem Full.cell {b : Buf ℤ} {n : ℤ} (h : Full b n) {i : ℤ} (h0 : 0 ≤ i) (h1 : i < n) : b.cell i.toNat ≠ none := by
  intro e
  have := h.2 i h0 h1
  unfold Buf.rd at this
  rw [if_pos ⟨h0, by have := h.1; omega⟩, e] at this
  simp at this

theorem Full.upd {b : Buf ℤ} {n : ℤ} (h : Full b n) (i v : ℤ) : Full (upd b i v) n := by
  refine ⟨h.1, fun j h0 h1 => rd_of_cell h0 (by have := h.1; rw [upd_size]; omega) ?_⟩
  unfold Amd.upd
  rw [Buf.set_cell]
  split_ifs
  · simp
  · exact h.cell h0 h1

/-- One more cell written. -/
theorem Full.grow {b : Buf ℤ} {n : ℤ} (h : Full b n) (h0 : 0 ≤ n) (hs : n < b.size) (v : ℤ) : Full (Amd.upd b n v) (n + 1) := by
  refine ⟨by rw [upd_size]; omega, fun j h0 h1 => rd_of_cell h0 (by rw [upd_size]; omega) ?_⟩
  unfold Amd.upd
  rw [Buf.set_cell]
  split_ifs
  · simp
  · exact h.cell h0 (by omega)

theorem Full.mono {b : Buf ℤ} {n m : ℤ} (h : Full b n) (hm : m ≤ n) : Full b m := ⟨le_trans hm h.1, fun i h0 h1 => h.2 i h0 (by omega)⟩
theorem Full.none (b : Buf ℤ) : Full b 0 := ⟨by omega, fun i h0 h1 => by omega⟩
theorem Full.rd {b : Buf ℤ} {n i : ℤ} (h : Full b n) (h0 : 0 ≤ i) (h1 : i < n) : b.rd i = some (b i) := h.2 i h0 h1
theorem Full.wr {b : Buf ℤ} {n i : ℤ} (h : Full b n) (h0 : 0 ≤ i) (h1 : i < n) (v : ℤ) : b.wr i v = some (Amd.upd b i v) :=
  wr_upd h0 (by have := h.1; omega)

theorem full_of_holds {b : Buf ℤ} {n : ℕ} {f : ℕ → ℤ} (h : Holds b n f) : Full b n ∧ ∀ k : ℕ, k < n → b (k : ℤ) = f k := by
  refine ⟨⟨by have := h.1; omega, fun i h0 h1 => rd_of_cell h0 (by have := h.1; omega) ?_⟩, fun k hk => ?_⟩
  · rw [h.2 _ (by omega)]; simp
  · unfold at'; rw [if_pos (by omega), Int.toNat_natCast, h.2 k hk]; rfl

theorem holds_of_full {b : Buf ℤ} {n : ℕ} (h : Full b n) : Holds b n (fun k => b (k : ℤ)) := by
  refine ⟨by have := h.1; omega, fun k hk => ?_⟩
  have h1 := h.cell (i := k) (by omega) (by omega)
  rw [Int.toNat_natCast] at h1
  obtain ⟨v, hv⟩ := Option.ne_none_iff_exists'.mp h1
  show b.cell k = some (at' b k)
  unfold at'
  rw [if_pos (by omega), Int.toNat_natCast, hv]; rfl

/-! ## Defined results -/

variable {σ β : Type}

/-- `m` is defined, and its result satisfies `Q`. -/
def Ens (m : Option β) (Q : β → Prop) : Prop := ∃ b, m = some b ∧ Q b

theorem Ens.some {b : β} {Q : β → Prop} (h : Q b) : Ens (some b) Q := ⟨b, rfl, h⟩
theorem Ens.pure {b : β} {Q : β → Prop} (h : Q b) : Ens (pure b : Option β) Q := ⟨b, rfl, h⟩

theorem Ens.bind {m : Option σ} {f : σ → Option β} {P : σ → Prop} {Q : β → Prop} (h : Ens m P) (hf : ∀ s, P s → Ens (f s) Q) :
    Ens (m >>= f) Q := by
  obtain ⟨s, e, hs⟩ := h
  rw [e]; exact hf s hs

theorem Ens.imp {m : Option β} {P Q : β → Prop} (h : Ens m P) (hi : ∀ b, P b → Q b) : Ens m Q := by
  obtain ⟨b, e, hb⟩ := h; exact ⟨b, e, hi b hb⟩

theorem Ens.rd {b : Buf ℤ} {n i : ℤ} {f : ℤ → Option β} {Q : β → Prop} (h : Full b n) (h0 : 0 ≤ i) (h1 : i < n) (hf : Ens (f (b i)) Q) :
    Ens (b.rd i >>= f) Q := by rw [h.rd h0 h1]; exact hf

theorem Ens.wr {b : Buf ℤ} {i v : ℤ} {f : Buf ℤ → Option β} {Q : β → Prop} (h0 : 0 ≤ i) (h1 : i < b.size) (hf : Ens (f (upd b i v)) Q) :
    Ens (b.wr i v >>= f) Q := by rw [wr_upd h0 h1]; exact hf

theorem Ens.wrLast {b : Buf ℤ} {i v : ℤ} {Q : Buf ℤ → Prop} (h0 : 0 ≤ i) (h1 : i < b.size) (hf : Q (upd b i v)) : Ens (b.wr i v) Q := by
  rw [wr_upd h0 h1]; exact ⟨_, rfl, hf⟩

/-! ## Loops -/

/-- Rule for `for` loops. -/
theorem Ens.forI {f : ℤ → σ → Option σ} {lo hi : ℤ} {s : σ} (I : ℤ → σ → Prop) (hle : lo ≤ hi) (h0 : I lo s)
    (hs : ∀ k s, lo ≤ k → k < hi → I k s → Ens (f k s) (I (k + 1))) : Ens (forI lo hi f s) (I hi) := by
  unfold Csc.forI
  obtain ⟨c, hc⟩ : ∃ c : ℕ, hi = lo + c := ⟨(hi - lo).toNat, by omega⟩
  have e : (hi - lo).toNat = c := by omega
  rw [e]
  clear e
  induction c generalizing lo s with
  | zero => exact ⟨s, rfl, by rw [hc]; simpa using h0⟩
  | succ c ih =>
    obtain ⟨s1, e1, h1⟩ := hs lo s le_rfl (by omega) h0
    unfold forGo
    rw [e1]
    exact ih (by omega) h1 (fun k s h2 h3 h4 => hs k s (by omega) h3 h4) (by push_cast at hc; omega)

/-- Rule for a loop that runs at most once more when its bounds are crossed. -/
theorem forI_empty {f : ℤ → σ → Option σ} {lo hi : ℤ} {s : σ} (h : hi ≤ lo) : Csc.forI lo hi f s = some s := by
  unfold Csc.forI
  have e : (hi - lo).toNat = 0 := by omega
  rw [e]; rfl

/-- Rule for `while` loops: the measure decreases. -/
theorem Ens.loop {step : σ → Option (σ ⊕ β)} (I : σ → Prop) (Q : β → Prop) (μ : σ → ℕ)
    (hs : ∀ s, I s → Ens (step s) (fun r => match r with | .inl s' => I s' ∧ μ s' < μ s | .inr b => Q b)) :
    ∀ (fuel : ℕ) (s : σ), I s → μ s < fuel → Ens (loop step fuel s) Q := by
  intro fuel
  induction fuel with
  | zero => intro s _ h; omega
  | succ k ih =>
    intro s hI hm
    obtain ⟨r, e, hr⟩ := hs s hI
    unfold Amd.loop
    rw [e]
    cases r with
    | inl s' => exact ih s' hr.1 (by have := hr.2; omega)
    | inr b => exact ⟨b, rfl, hr⟩

/-! ## Assignments -/

section
variable {M : Mem} {i v : ℤ} {f : Mem → Option β} {Q : β → Prop}

theorem Ens.wPe (h0 : 0 ≤ i) (h1 : i < M.Pe.size) (hf : Ens (f { M with Pe := upd M.Pe i v }) Q) : Ens (M.wPe i v >>= f) Q := by
  unfold Mem.wPe; rw [wr_upd h0 h1]; exact hf
theorem Ens.wIw (h0 : 0 ≤ i) (h1 : i < M.Iw.size) (hf : Ens (f { M with Iw := upd M.Iw i v }) Q) : Ens (M.wIw i v >>= f) Q := by
  unfold Mem.wIw; rw [wr_upd h0 h1]; exact hf
theorem Ens.wLen (h0 : 0 ≤ i) (h1 : i < M.Len.size) (hf : Ens (f { M with Len := upd M.Len i v }) Q) : Ens (M.wLen i v >>= f) Q := by
  unfold Mem.wLen; rw [wr_upd h0 h1]; exact hf
theorem Ens.wNv (h0 : 0 ≤ i) (h1 : i < M.Nv.size) (hf : Ens (f { M with Nv := upd M.Nv i v }) Q) : Ens (M.wNv i v >>= f) Q := by
  unfold Mem.wNv; rw [wr_upd h0 h1]; exact hf
theorem Ens.wNext (h0 : 0 ≤ i) (h1 : i < M.Next.size) (hf : Ens (f { M with Next := upd M.Next i v }) Q) : Ens (M.wNext i v >>= f) Q := by
  unfold Mem.wNext; rw [wr_upd h0 h1]; exact hf
theorem Ens.wLast (h0 : 0 ≤ i) (h1 : i < M.Last.size) (hf : Ens (f { M with Last := upd M.Last i v }) Q) : Ens (M.wLast i v >>= f) Q := by
  unfold Mem.wLast; rw [wr_upd h0 h1]; exact hf
theorem Ens.wHead (h0 : 0 ≤ i) (h1 : i < M.Head.size) (hf : Ens (f { M with Head := upd M.Head i v }) Q) : Ens (M.wHead i v >>= f) Q := by
  unfold Mem.wHead; rw [wr_upd h0 h1]; exact hf
theorem Ens.wElen (h0 : 0 ≤ i) (h1 : i < M.Elen.size) (hf : Ens (f { M with Elen := upd M.Elen i v }) Q) : Ens (M.wElen i v >>= f) Q := by
  unfold Mem.wElen; rw [wr_upd h0 h1]; exact hf
theorem Ens.wDegree (h0 : 0 ≤ i) (h1 : i < M.Degree.size) (hf : Ens (f { M with Degree := upd M.Degree i v }) Q) : Ens (M.wDegree i v >>= f) Q := by
  unfold Mem.wDegree; rw [wr_upd h0 h1]; exact hf
theorem Ens.wW (h0 : 0 ≤ i) (h1 : i < M.W.size) (hf : Ens (f { M with W := upd M.W i v }) Q) : Ens (M.wW i v >>= f) Q := by
  unfold Mem.wW; rw [wr_upd h0 h1]; exact hf

theorem Ens.last {m : Option β} (h : Ens (m >>= fun b => Option.some b) Q) : Ens m Q := by
  obtain ⟨b, e, hb⟩ := h
  cases m with
  | none => simp at e
  | some x => exact ⟨x, rfl, by simp at e; rw [e]; exact hb⟩
end

end Osqp.Amd
