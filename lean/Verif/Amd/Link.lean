import Verif.Props.Amd
import Verif.Props.Kkt
import Verif.Amd.Mono

/-!
# The ordering of a stored matrix
-/

namespace Osqp.Amd
open Csc
set_option linter.unusedSectionVars false

variable {K : Type*}

/-- What the ordering takes from the machine: `(Int) (alpha * sqrt(n))` of the dense rows, `Int_MAX`, and the modulus of the type of the hash. The
first is a function of the order of the matrix. -/
structure Machine where
  dense : ℤ → ℤ
  imax : ℤ
  hash : ℤ

/-- qdldl_interface.c:157-161, :816: `amd_order(M->n, M->p, M->i, P, NULL, info)` with a new array `P`. -/
def orderCsc (c : Machine) (M : Csc K) : Option (ℤ × Buf ℤ) := order M.n (c.dense M.n) c.imax c.hash M.p M.i (Buf.fresh M.n)

/-- The ordering left in `P`; an array nothing was written to if the call is undefined. -/
def amdOf (c : Machine) (M : Csc K) : Buf ℤ := match orderCsc c M with | some r => r.2 | none => Buf.fresh M.n

theorem IsPermutation.is {n : ℕ} {P : Buf ℤ} (h : IsPermutation n P) : ∃ p, PermIs P n p := by
  obtain ⟨p, hp⟩ := h
  refine ⟨fun k => if h : k < n then p ⟨k, h⟩ else 0, ⟨?_, fun k hk => ?_⟩, fun k hk => ?_, fun a ha b hb e => ?_⟩
  · rcases Nat.eq_zero_or_pos n with h0 | h0
    · omega
    · have := hp ⟨n - 1, by omega⟩
      unfold Buf.rd at this
      split_ifs at this with c
      simp only at c; omega
  · have := hp ⟨k, hk⟩
    unfold Buf.rd at this
    split_ifs at this with c
    simpa [hk] using this
  · simp only [hk, dif_pos]; exact (p ⟨k, hk⟩).2
  · simp only [ha, hb, dif_pos] at e
    exact congrArg Fin.val (p.injective (Fin.ext e))

section
variable [Field K] [LinearOrder K] {V V' : View K} {M M' : Csc K}

theorem view_wf (h : V.Valid) (sq : V.m = V.n) : WellFormed V.n (fun j => (V.p j : ℤ)) (fun k => (V.i k : ℤ)) :=
  ⟨by simp [h.zero], fun j hj => by have := h.mono j hj; simpa using this, fun p hp => ⟨by simp, by
    have := h.rows p (by simpa [View.nnz] using hp); simpa [sq] using this⟩⟩

/-- The ordering of a stored square matrix is defined, reports success and leaves a permutation. -/
theorem stored_ok (h : Rep M V) (sq : V.m = V.n) (c : Machine) : ∃ st P p, orderCsc c M = some (st, P) ∧ (st = 0 ∨ st = 1) ∧ PermIs P V.n p := by
  have hi : ∀ j ≤ V.n, Holds M.i ((V.p j : ℤ)).toNat fun k => (V.i k : ℤ) := fun j hj => h.i.mono (by have := h.valid.le hj le_rfl; simpa [View.nnz] using this)
  obtain ⟨st, P, e, hP, hs, _⟩ := c69_order (P := Buf.fresh (V.n : ℤ)) h.p hi (by simp) (view_wf h.valid sq) (c.dense V.n) c.imax c.hash
  obtain ⟨p, hp⟩ := hP.is
  exact ⟨st, P, p, by unfold orderCsc; rw [h.n]; exact e, hs, hp⟩

theorem amdOf_perm (h : Rep M V) (sq : V.m = V.n) (c : Machine) : ∃ p, PermIs (amdOf c M) V.n p := by
  obtain ⟨st, P, p, e, _, hp⟩ := stored_ok h sq c
  exact ⟨p, by unfold amdOf; rw [e]; exact hp⟩

/-- The first `n` cells of an array. -/
def cut (n : ℕ) (f : ℕ → ℤ) : Buf ℤ := ⟨n, fun k => if k < n then some (f k) else none⟩
theorem cut_holds (n : ℕ) (f : ℕ → ℤ) : Holds (cut n f) n f := ⟨le_rfl, fun k hk => if_pos hk⟩
theorem cut_sub {n : ℕ} {f : ℕ → ℤ} {b : Buf ℤ} (h : Holds b n f) : Sub (cut n f) b := by
  intro i r e
  unfold Buf.rd at e
  split_ifs at e with c
  simp only [cut] at c e
  rw [if_pos (by omega)] at e
  obtain ⟨k, rfl⟩ := Int.eq_ofNat_of_zero_le c.1
  rw [h.rd (by omega)]
  simpa using e

/-- Two stored square matrices with the same pattern are ordered alike, whatever their values are and whatever is
behind the parts of the arrays that are used. -/
theorem pattern_ok (h : Rep M V) (h' : Rep M' V') (sq : V.m = V.n) (sq' : V'.m = V'.n) (hn : V'.n = V.n) (hp : ∀ j ≤ V.n, V'.p j = V.p j) (hi : ∀ k < V.nnz, V'.i k = V.i k) (c : Machine) :
    orderCsc c M' = orderCsc c M := by
  set ap : ℕ → ℤ := fun j => (V.p j : ℤ)
  set ai : ℕ → ℤ := fun k => (V.i k : ℤ)
  have hz : V'.nnz = V.nnz := by show V'.p V'.n = V.p V.n; rw [hn, hp _ le_rfl]
  obtain ⟨st, P, e, _⟩ := c69_order (P := Buf.fresh (V.n : ℤ)) (cut_holds (V.n + 1) ap) (ai := ai) (Ai := cut V.nnz ai)
    (fun j hj => (cut_holds V.nnz ai).mono (by have := h.valid.le hj le_rfl; simpa [ap, View.nnz] using this)) (by simp) (view_wf h.valid sq) (c.dense V.n) c.imax c.hash
  have e1 := order_mono (cut_sub h.p) (cut_sub h.i) _ _ _ _ _ _ e
  have e2 := order_mono (Ap := cut (V.n + 1) ap) (Ai := cut V.nnz ai) (cut_sub (b := M'.p) ((hn ▸ h'.p).congr fun j hj => by rw [hp j (by omega)]))
    (cut_sub (b := M'.i) ((hz ▸ h'.i).congr fun k hk => by rw [hi k hk])) _ _ _ _ _ _ e
  unfold orderCsc
  rw [h.n, h'.n, hn]
  exact e2.trans e1.symm

theorem kktEnts_pat (VP VA : View K) (X Y : ℕ → K) (sigma sigma' : K) (R R' : ℕ → K) :
    All2 (fun _ e e' => e.c = e'.c ∧ e.r = e'.r) (kktEnts VP VA sigma R) (kktEnts (VP.withX X) (VA.withX Y) sigma' R') := by
  unfold kktEnts
  refine All2.append (All2.pre fun k hk => All2.single ⟨rfl, rfl⟩) (All2.append (All2.pre fun j hj => ?_) (All2.append (All2.pre fun k hk => All2.single ⟨rfl, rfl⟩) (All2.pre fun t ht => All2.single ⟨rfl, rfl⟩)))
  by_cases hm : Missing VP j
  · rw [show gM VP sigma j = [⟨j, j, sigma⟩] from if_pos hm, show gM (VP.withX X) sigma' j = [⟨j, j, sigma'⟩] from if_pos hm]
    exact All2.single ⟨rfl, rfl⟩
  · rw [show gM VP sigma j = [] from if_neg hm, show gM (VP.withX X) sigma' j = [] from if_neg hm]
    exact All2.nil _

theorem laid_pat {m n : ℕ} {l l' : List (Ent K)} (hl : All2 (fun _ e e' => e.c = e'.c ∧ e.r = e'.r) l l') (h : Laid m n l V) (h' : Laid m n l' V') (hc : InCols n l) :
    (∀ j ≤ V.n, V'.p j = V.p j) ∧ ∀ k < V.nnz, V'.i k = V.i k := by
  have hm := hl.map_c fun _ _ _ h => h.1
  refine ⟨fun j hj => ?_, fun t ht => ?_⟩
  · rw [h.vn] at hj
    rw [h.p j hj, h'.p j hj, start_congr hm]
  · obtain ⟨k, hk, rfl⟩ := h.pos hc ht
    have hk' : k < l'.length := hl.1 ▸ hk
    rw [h.i k hk, dest_congr hm (hl.2 k hk hk').1, h'.i k hk', (hl.2 k hk hk').2]

end
end Osqp.Amd
