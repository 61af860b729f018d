import Verif.Amd.Dfs

/-!
# The last part of `AMD_2`

From the assembly forest to the permutation.
-/

namespace Osqp.Amd
open Csc Finset
set_option linter.unusedSectionVars false

variable {n : ℤ} {rep : ℤ → ℤ} {rank : ℤ → ℕ}

theorem flip_all {A : Buf ℤ} (hn : 0 ≤ n) (hA : Full A n) :
    Ens (forI 0 n (fun i (b : Buf ℤ) => do
    let v ← b.rd i
    b.wr i (flip v)) A) (fun b => b.size = A.size ∧ Full b n ∧ ∀ i, 0 ≤ i → i < n → b i = flip (A i)) := by
  refine Ens.imp (Ens.forI (fun m (b : Buf ℤ) => b.size = A.size ∧ Full b n ∧ (∀ i, 0 ≤ i → i < m → b i = flip (A i)) ∧ ∀ i, m ≤ i → b i = A i) hn
    ⟨rfl, hA, fun i h0 h1 => by omega, fun _ _ => rfl⟩ ?_) (fun b h => ⟨h.1, h.2.1, h.2.2.1⟩)
  rintro k b h0 h1 ⟨hs, hf, hv, hr⟩
  refine Ens.rd hf h0 h1 (Ens.wrLast h0 (by have := hf.1; omega) ⟨hs, hf.upd _ _, fun i i0 i1 => ?_, fun i hi => ?_⟩)
  · rw [upd_at _ h0]; split_ifs with e
    · rw [e, hr k le_rfl]
    · exact hv i i0 (by omega)
  · rw [upd_ne _ h0 (by omega)]; exact hr i (by omega)

/-- What the main loop must leave. -/
structure Left (n : ℤ) (M : Mem) (rep : ℤ → ℤ) (rank : ℤ → ℕ) : Prop where
  fullPe : Full M.Pe n
  fullNv : Full M.Nv n
  fullElen : Full M.Elen n
  sizes : n ≤ M.W.size ∧ n ≤ M.Head.size ∧ n ≤ M.Next.size ∧ n ≤ M.Last.size
  forest : Forest n (fun i => flip (M.Pe i)) M.Nv rep rank
  elen : ∀ i, 0 ≤ i → i < n → 0 < M.Nv i → M.Elen i < -1

/-- A forest is a statement about the nodes `0..n-1` only. -/
theorem Forest.congr {par par' nv : ℤ → ℤ} (F : Forest n par nv rep rank) (h : ∀ i, 0 ≤ i → i < n → par' i = par i) : Forest n par' nv rep rank where
  nv := F.nv
  pr i h0 h1 := by rw [h i h0 h1]; exact F.pr i h0 h1
  elt i h0 h1 := by rw [h i h0 h1]; exact F.elt i h0 h1
  self := F.self
  up i h0 h1 := by rw [h i h0 h1]; exact F.up i h0 h1
  apart i h0 h1 := by rw [h i h0 h1]; exact F.apart i h0 h1
  joined i h0 h1 := by rw [h i h0 h1]; exact F.joined i h0 h1
  cnt := F.cnt

theorem finish_ok {M : Mem} (hn : 0 ≤ n) (h : Left n M rep rank) : Ens (finish n M) (fun r => Inverse n r.2 r.1) := by
  unfold finish
  refine Ens.bind (flip_all hn h.fullPe) ?_
  rintro Pe ⟨_, fPe, vPe⟩
  refine Ens.bind (flip_all hn h.fullElen) ?_
  rintro El ⟨_, fEl, vEl⟩
  have F : Forest n Pe M.Nv rep rank := h.forest.congr fun i h0 h1 => vPe i h0 h1
  refine Ens.bind (compressPaths_ok hn h.fullNv fPe F) ?_
  rintro Q ⟨fQ, Qp, Qv⟩
  refine Ens.bind (postorder_ok hn F h.fullNv fQ Qp fEl (fun i h0 h1 hv => ?_) h.sizes.1 h.sizes.2.1 h.sizes.2.2.1 h.sizes.2.2.2) ?_
  · rw [vEl i h0 h1]; have := h.elen i h0 h1 hv; unfold flip; omega
  rintro ⟨W, H, N, L⟩ ⟨⟨K, hW⟩, sH, sN, sL⟩
  exact permutation_ok hn F hW h.fullNv fQ Qv sH sN sL

end Osqp.Amd
