import Verif.Csc.Rows
import Verif.Csc.Demo

/-!
# Sparse matrix conversions and row selection (C38, C39)

As in `Props/Csc.lean`, matrices are C structs in raw memory and `some …` in a conclusion says that no uninitialised
cell is read and no array is overrun.  Index maps are optional arrays: `none` is a `NULL` pointer.

Specification vocabulary (all small): `Rep`, `View.entry`, `View.symEntry`, `View.Triu` (`Csc/Spec.lean`);
`MapFits map N`: the map, if given, has room for `N` indices; `MapSet map map' S f`: `map'` is the array `map` with
`f k` stored in the cells selected by `S` and nothing else changed; `Locates V N f I J X`: `f` sends `k < N` to distinct
stored entries of `V` with row `I k`, column `J k` and value `X k` (`Csc/Fill.lean`); `PinvIs pv n π`: the optional
array `pv` holds the permutation `π`.
-/

set_option linter.unusedSectionVars false
namespace Osqp.Csc
open Finset

variable {K : Type*} [Field K] [LinearOrder K]

/-- **C38** (triplets).  Given `N` triplets (row `I k`, column `J k`, value `X k`) inside an `m × n` matrix,
`triplet_to_csc` returns a well-formed matrix with exactly `N` stored entries whose entry at `(r,c)` is the sum of the
values of the triplets at `(r,c)`, and the index map sends each triplet to its own stored entry. -/
theorem c38_triplet {T : Csc K} {m n N : ℕ} {I J : ℕ → ℕ} {X : ℕ → K} (hm : T.m = m) (hn : T.n = n) (hz : T.nz = N)
    (hi : Holds T.i N (fun k => (I k : ℤ))) (hj : Holds T.p N (fun k => (J k : ℤ))) (hx : Holds T.x N X)
    (hI : ∀ k < N, I k < m) (hJ : ∀ k < N, J k < n) {map : Option (Buf ℤ)} (hmap : MapFits map N) :
    ∃ C map' V f, tripletToCsc T map = some (C, map') ∧ Rep C V ∧ V.m = m ∧ V.n = n ∧ V.nnz = N ∧ C.i.size = N ∧ C.x.size = N ∧ C.nzmax = N ∧
      (∀ r, ∀ c < n, V.entry r c = ∑ k ∈ range N, if I k = r ∧ J k = c then X k else 0) ∧
      Locates V N f I J X ∧ MapSet map map' (· < N) f := by
  obtain ⟨C, map', V, e, h1, h2, h3, h4, h5, h6⟩ := triplet_aux hm hn hz hi hj hx hI hJ hmap
  have hc : InCols n (pre (one I J X) N) := pre_all fun k hk e he => by
    rw [one, List.mem_singleton] at he; rw [he]; exact hJ k hk
  refine ⟨C, map', V, _, e, h1, h2.vm, h2.vn, by rw [h2.nnz hc, pre_one_length], h3, h4, h5, fun r c hc' => ?_, h2.locates hI hJ, h6⟩
  rw [h2.entry hc (pre_all fun k hk e he => by rw [one, List.mem_singleton] at he; rw [he]; exact hI k hk) hc', matOf_pre_one]

/-- **C38** (symmetric permutation).  For an upper triangle `V` and a permutation `π` of its indices, `csc_symperm`
returns a well-formed upper triangle whose symmetric matrix is the permuted one, `W(π i, π j) = V(i, j)`, and the index
map sends each stored entry to its new place. -/
theorem c38_symperm {A : Csc K} {V : View K} (h : Rep A V) (hsq : V.m = V.n) (ht : V.Triu) {pv : Option (Buf ℤ)} {π : ℕ → ℕ}
    (hpv : PinvIs pv V.n π) (hπ : ∀ j < V.n, π j < V.n) (hinj : ∀ i < V.n, ∀ j < V.n, π i = π j → i = j)
    {map : Option (Buf ℤ)} (hmap : MapFits map V.nnz) :
    ∃ C map' W f, symperm A pv map = some (C, map') ∧ Rep C W ∧ W.m = V.n ∧ W.n = V.n ∧ W.Triu ∧ W.nnz = V.nnz ∧ C.i.size = W.nnz ∧ C.x.size = W.nnz ∧
      (∀ i < V.n, ∀ j < V.n, W.symEntry (π i) (π j) = V.symEntry i j) ∧
      Locates W V.nnz f (fun k => min (π (V.i k)) (π (V.col k))) (fun k => max (π (V.i k)) (π (V.col k))) V.x ∧ MapSet map map' (· < V.nnz) f := by
  obtain ⟨C, map', W, e, h1, h2, h3, h4, _, h6⟩ := symperm_aux h hsq ht hpv hπ hmap
  obtain ⟨g1, g2, g3⟩ := symOne_laid h.valid hsq ht hπ hinj h2
  have hle : ∀ {k}, k < V.nnz → V.i k ≤ V.col k := fun hk => Triu.le h.valid ht hk
  have hc : InCols V.n (pre (symOne V π) V.nnz) := pre_all fun k hk e he => by
    rw [show symOne V π k = [⟨max (π (V.i k)) (π (V.col k)), min (π (V.i k)) (π (V.col k)), V.x k⟩] from if_pos (hle hk), List.mem_singleton] at he
    rw [he]
    exact max_lt (hπ _ (hsq ▸ h.valid.rows k hk)) (hπ _ (h.valid.col_spec hk).1)
  have hlen : ∀ N ≤ V.nnz, (pre (symOne V π) N).length = N := by
    intro N
    induction N with
    | zero => intro _; rfl
    | succ N ih =>
      intro hN
      rw [pre_succ, List.length_append, ih (by omega), show symOne V π N = [_] from if_pos (hle (by omega))]; rfl
  have hnz : W.nnz = V.nnz := by rw [h2.nnz hc, hlen _ (le_refl _)]
  exact ⟨C, map', W, _, e, h1, h2.vm, h2.vn, g1, hnz, by rw [hnz, h3], by rw [hnz, h4], g2, g3, h6⟩

/-- **C38** (inverse permutation).  `csc_pinv` of a permutation is its inverse. -/
theorem c38_pinv {p : Buf ℤ} {n : ℕ} {P : ℕ → ℕ} (hp : Holds p n (fun k => (P k : ℤ))) (hlt : ∀ k < n, P k < n)
    (hinj : ∀ a < n, ∀ b < n, P a = P b → a = b) :
    ∃ (b : Buf ℤ) (Q : ℕ → ℕ), pinv p (n : ℤ) = some b ∧ Holds b n (fun k => ((Q k : ℕ) : ℤ)) ∧ (∀ k < n, Q k < n) ∧ (∀ k < n, Q (P k) = k) ∧ (∀ k < n, P (Q k) = k) :=
  pinv_aux hp hlt hinj

/-- **C38** (symmetrisation).  `triu_to_csc` turns an upper triangle into the full symmetric matrix. -/
theorem c38_symmetrise {M : Csc K} {V : View K} (h : Rep M V) (hsq : V.m = V.n) (ht : V.Triu) :
    ∃ C W, triuToCsc M = some (some C) ∧ Rep C W ∧ W.m = V.n ∧ W.n = V.n ∧ C.nzmax = W.nnz ∧ C.i.size = W.nnz ∧ C.x.size = W.nnz ∧
      ∀ r < V.n, ∀ c < V.n, W.entry r c = V.symEntry r c :=
  triuToCsc_aux h hsq ht

/-- **C38** (vertical stacking).  `vstack` puts `B` below `A`. -/
theorem c38_vstack {A B : Csc K} {V W : View K} (hA : Rep A V) (hB : Rep B W) (hn : V.n = W.n) (hzA : (V.nnz : ℤ) ≤ A.nzmax) (hzB : (W.nnz : ℤ) ≤ B.nzmax) :
    ∃ C U, vstack A B = some (some C) ∧ Rep C U ∧ U.m = V.m + W.m ∧ U.n = V.n ∧ C.nzmax = U.nnz ∧ C.i.size = U.nnz ∧ C.x.size = U.nnz ∧
      (∀ r < V.m, ∀ c < V.n, U.entry r c = V.entry r c) ∧ ∀ r < W.m, ∀ c < V.n, U.entry (V.m + r) c = W.entry r c :=
  vstack_aux hA hB hn hzA hzB

/-- **C38** (copy).  `csc_copy` reproduces the matrix, entry by entry. -/
theorem c38_copy {A : Csc K} {V : View K} (h : Rep A V) : ∃ B, copy A = some B ∧ Rep B V ∧ B.nzmax = V.nnz := copy_aux h

/-- **C39**.  `csc_submatrix_byrows` keeps exactly the rows whose flag is not zero, in their order: a kept row `r` becomes
row number (kept rows before `r`); the result has as many rows as were kept, all columns, and is well formed. -/
theorem c39_rows {A : Csc K} {V : View K} (h : Rep A V) {rows : Buf ℤ} {F : ℕ → ℤ} (hF : Holds rows V.m F) :
    ∃ R W, submatrixByRows A rows = some R ∧ Rep R W ∧ W.m = ((range V.m).filter fun t => F t ≠ 0).card ∧ W.n = V.n ∧
      R.nzmax = W.nnz ∧ R.i.size = W.nnz ∧ R.x.size = W.nnz ∧
      ∀ r < V.m, F r ≠ 0 → ∀ c < V.n, W.entry (((range r).filter fun t => F t ≠ 0).card) c = V.entry r c :=
  submatrix_aux h hF

/-! ## The hypotheses are met -/

/-- Three triplets, two of them at the same position. -/
def demoT : Csc ℚ := ⟨2, 3, Demo.buf [2, 0, 2], Demo.buf [1, 0, 1], Demo.buf [5, 6, 7], 3, 3⟩

example : ∃ C map' V f, tripletToCsc demoT (some (Buf.fresh 3)) = some (C, map') ∧ Rep C V ∧ V.m = 2 ∧ V.n = 3 ∧ V.nnz = 3 ∧ C.i.size = 3 ∧ C.x.size = 3 ∧
    C.nzmax = ((3 : ℕ) : ℤ) ∧ (∀ r, ∀ c < 3, V.entry r c = ∑ k ∈ range 3, if [1, 0, 1].getD k 0 = r ∧ [2, 0, 2].getD k 0 = c then [(5 : ℚ), 6, 7].getD k default else 0) ∧
    Locates V 3 f (fun k => [1, 0, 1].getD k 0) (fun k => [2, 0, 2].getD k 0) (fun k => [(5 : ℚ), 6, 7].getD k default) ∧ MapSet (some (Buf.fresh 3)) map' (· < 3) f := by
  refine c38_triplet (T := demoT) (N := 3) (I := fun k => [1, 0, 1].getD k 0) (J := fun k => [2, 0, 2].getD k 0) (X := fun k => [(5 : ℚ), 6, 7].getD k default)
    rfl rfl rfl ?_ ?_ (Demo.buf_holds [(5 : ℚ), 6, 7]) (by decide) (by decide) (fun b hb => ?_)
  · exact ⟨le_refl _, by decide⟩
  · exact ⟨le_refl _, by decide⟩
  · simp only [Option.some.injEq] at hb; rw [← hb]; decide

/-- The rotation of three indices, applied to an upper triangle without full diagonal. -/
def demoRot : Buf ℤ := Demo.buf [2, 0, 1]

theorem demoRot_holds : Holds demoRot 3 (fun k => ((([2, 0, 1].getD k 0 : ℕ)) : ℤ)) := ⟨le_refl _, by decide⟩

example : ∃ C map' W f, symperm Demo.triu (some demoRot) (some (Buf.fresh 4)) = some (C, map') ∧ Rep C W ∧ W.m = 3 ∧ W.n = 3 ∧ W.Triu ∧ W.nnz = 4 ∧
    C.i.size = W.nnz ∧ C.x.size = W.nnz ∧
    (∀ i < 3, ∀ j < 3, W.symEntry ([2, 0, 1].getD i 0) ([2, 0, 1].getD j 0) = Demo.triuV.symEntry i j) ∧
    Locates W 4 f (fun k => min ([2, 0, 1].getD (Demo.triuV.i k) 0) ([2, 0, 1].getD (Demo.triuV.col k) 0))
      (fun k => max ([2, 0, 1].getD (Demo.triuV.i k) 0) ([2, 0, 1].getD (Demo.triuV.col k) 0)) Demo.triuV.x ∧ MapSet (some (Buf.fresh 4)) map' (· < 4) f := by
  refine c38_symperm Demo.triu_rep rfl Demo.triu_triu (pv := some demoRot) (π := fun k => [2, 0, 1].getD k 0) demoRot_holds (by decide) (by decide) (fun b hb => ?_)
  simp only [Option.some.injEq] at hb; rw [← hb]; decide

example : ∃ (b : Buf ℤ) (Q : ℕ → ℕ), pinv demoRot ((3 : ℕ) : ℤ) = some b ∧ Holds b 3 (fun k => ((Q k : ℕ) : ℤ)) ∧ (∀ k < 3, Q k < 3) ∧
    (∀ k < 3, Q ([2, 0, 1].getD k 0) = k) ∧ (∀ k < 3, [2, 0, 1].getD (Q k) 0 = k) :=
  c38_pinv demoRot_holds (by decide) (by decide)

example : ∃ C W, triuToCsc Demo.triu = some (some C) ∧ Rep C W ∧ W.m = 3 ∧ W.n = 3 ∧ C.nzmax = W.nnz ∧ C.i.size = W.nnz ∧ C.x.size = W.nnz ∧
    ∀ r < 3, ∀ c < 3, W.entry r c = Demo.triuV.symEntry r c := c38_symmetrise Demo.triu_rep rfl Demo.triu_triu

example : ∃ C U, vstack Demo.triu Demo.rect = some (some C) ∧ Rep C U ∧ U.m = 3 + 2 ∧ U.n = 3 ∧ C.nzmax = U.nnz ∧ C.i.size = U.nnz ∧ C.x.size = U.nnz ∧
    (∀ r < 3, ∀ c < 3, U.entry r c = Demo.triuV.entry r c) ∧ ∀ r < 2, ∀ c < 3, U.entry (3 + r) c = Demo.rectV.entry r c :=
  c38_vstack Demo.triu_rep Demo.rect_rep rfl (by decide) (by decide)

example : ∃ B, copy Demo.rect = some B ∧ Rep B Demo.rectV ∧ B.nzmax = Demo.rectV.nnz := c38_copy Demo.rect_rep

/-- Keeping the second of two rows: one row remains, and it is the old second row. -/
example : ∃ R W, submatrixByRows Demo.rect (Demo.buf [0, 1]) = some R ∧ Rep R W ∧ W.m = 1 ∧ W.n = 3 ∧ ∀ c < 3, W.entry 0 c = Demo.rectV.entry 1 c := by
  obtain ⟨R, W, h1, h2, h3, h4, _, _, _, h5⟩ := c39_rows Demo.rect_rep (Demo.buf_holds [(0 : ℤ), 1])
  exact ⟨R, W, h1, h2, by rw [h3]; decide, h4, fun c hc => h5 1 (by decide) (by decide) c hc⟩

/-- Keeping no row gives an empty matrix, through the branch for `Rm = 0`. -/
example : ∃ R W, submatrixByRows Demo.rect (Demo.buf [0, 0]) = some R ∧ Rep R W ∧ W.m = 0 ∧ W.n = 3 := by
  obtain ⟨R, W, h1, h2, h3, h4, _⟩ := c39_rows Demo.rect_rep (Demo.buf_holds [(0 : ℤ), 0])
  exact ⟨R, W, h1, h2, by rw [h3]; decide, h4⟩

/-! ## `triplet_to_csr` overruns its row pointers

The function (csc_utils.c:247-286, called nowhere in the repository) allocates `n + 1` pointers and writes `m + 1`. -/

/-- A 3 × 1 matrix with one entry: `triplet_to_csr` writes outside the array of row pointers. -/
theorem c38_tripletToCsr_overrun : tripletToCsr (⟨3, 1, Demo.buf [0], Demo.buf [2], Demo.buf [5], 1, 1⟩ : Csc ℚ) none = none := by decide +kernel

end Osqp.Csc
