import Verif.Cuda.SelectLemmas
import Verif.Props.Mats

/-!
# C75: products, norms and row selection on the device

`HoldsRows`, `ByColumn`, `Reduces`, `IsNormOf`, `Distinct` and `Lists` are in `Spec/Rows.lean`; `Stores` and the histories in `Spec/Mats.lean`.
-/

namespace Osqp.Cuda
open Matrix Osqp.Spec

variable {K : Type*} [Field K] {m n : ℕ} {sort : Sorter}

/-! ### Compressed rows -/

/-- The arrays of the user hold the transpose in compressed rows. -/
theorem user_rows {q : Pat m n} (hq : ByColumn q) (x : Fin q.nnz → K) :
    HoldsRows { rows := n, cols := m, ptr := colPtr q, row := fun k => (q.col k).val, col := fun k => (q.row k).val, val := fun k => some (x k) } (dense q x)ᵀ := by
  refine ⟨rfl, rfl, (c74_A (sort := fun _ row _ => Tuple.sort row) (.init x)).2, fun e f h => hq h, fun i hi => compress_get _ hi⟩

/-- **C75** (setup; a matrix with entries, or one with at most as many rows as columns). Both copies of the constraint matrix are held in compressed rows, with pointers for all rows, and
the arrays are those of `c74_A`. Missing: a matrix without entries that has more rows than columns (`c75_empty_counterexample`). -/
theorem c75_init_partial {q : Pat m n} (hs : SortsByRow sort) (hq : ByColumn q) (x : Fin q.nnz → K) (h : q.nnz ≠ 0 ∨ m ≤ n) : ∃ A At, matInitA sort q x = some (A, At) ∧
    HoldsRows A (dense q x) ∧ HoldsRows At (dense q x)ᵀ ∧ A.row = (initA sort q x).row ∧ A.col = (initA sort q x).col ∧ A.val = (initA sort q x).val ∧ At.row = (initA sort q x).rowT ∧
      At.col = (initA sort q x).colT ∧ At.val = (initA sort q x).valT := by
  have U := user_rows hq x
  unfold matInitA
  rw [expand_some U.sorted U.stores.row_lt U.pointers, Option.bind_some]
  by_cases hN : q.nnz = 0
  · obtain ⟨N, row, col⟩ := q
    dsimp only at hN
    subst hN
    obtain ⟨T, t1, t2, t3, t4, t5⟩ := transpose_empty (sort := sort) U
    dsimp only at t1
    rw [t1]
    refine ⟨T, _, rfl, ?_, U, funext fun e => e.elim0, funext fun e => e.elim0, funext fun e => e.elim0, rfl, rfl, rfl⟩
    have := t5 (by rcases h with h | h; exact absurd rfl h; exact h)
    rwa [transpose_transpose] at this
  · obtain ⟨T, t1, t2, t3, t4, t5⟩ := transpose_some hs U hN
    dsimp only at t1
    rw [t1]
    rw [transpose_transpose] at t2
    exact ⟨T, _, rfl, t2, U, t3, t4, t5, rfl, rfl, rfl⟩

/-- **C75** (histories, same restriction). Updates and scalings leave the pointers alone; with the arrays they leave, both copies hold the current matrix. -/
theorem c75_history_partial {q : Pat m n} {M : GenMat q.nnz K} {v : Fin q.nnz → K} (hs : SortsByRow sort) (hq : ByColumn q) (h : q.nnz ≠ 0 ∨ m ≤ n) (hist : HistA sort q M v)
    (x : Fin q.nnz → K) : ∃ A At, matInitA sort q x = some (A, At) ∧ HoldsRows ⟨m, n, A.ptr, M.row, M.col, M.val⟩ (dense q v) ∧ HoldsRows ⟨n, m, At.ptr, M.rowT, M.colT, M.valT⟩ (dense q v)ᵀ := by
  obtain ⟨A, At, h0, hA, hT, r1, r2, r3, t1, t2, t3⟩ := c75_init_partial hs hq x h
  have st := c74_A hist
  have inv := invA hist
  have i0 := invA (HistA.init (sort := sort) (p := q) x)
  have er : A.row = M.row := r1.trans (funext fun e => (i0.row e).trans (inv.row e).symm)
  have et : At.row = M.rowT := t1.trans (funext fun e => (i0.rowT e).trans (inv.rowT e).symm)
  refine ⟨A, At, h0, ⟨rfl, rfl, st.1, ?_, fun i hi => ?_⟩, ⟨rfl, rfl, st.2, ?_, fun i hi => ?_⟩⟩
  · dsimp only; rw [← er]; exact hA.sorted
  · dsimp only; rw [hA.pointers i hi, er]
  · dsimp only; rw [← et]; exact hT.sorted
  · dsimp only; rw [hT.pointers i hi, et]

/-! ### Products -/

/-- **C75** (products). The product of a matrix held in compressed rows with a vector reads memory in bounds and gives `alpha * B * x + beta * y`; with `beta = 0` the previous content of `y`,
written or not, has no influence. -/
theorem c75_product [DecidableEq K] {N : ℕ} {M : CsrMat N K} {B : Matrix (Fin m) (Fin n) K} (h : HoldsRows M B) (x : Vec K n) (alpha beta : K) :
    (∀ y : Vec K m, spmv M.ptr M.col M.val x (fun i => some (y i)) alpha beta = fun i => some (alpha * (B *ᵥ x) i + beta * y i)) ∧
      ∀ y : Fin m → Option K, spmv M.ptr M.col M.val x y alpha 0 = fun i => some (alpha * (B *ᵥ x) i) := by
  constructor
  · intro y
    funext i
    unfold spmv
    rw [rowSum_some h x i, Option.bind_some]
    split
    · rename_i hb; rw [hb, zero_mul, add_zero]
    · rfl
  · intro y
    funext i
    unfold spmv
    rw [rowSum_some h x i, Option.bind_some, if_pos rfl]

/-- **C75** (products through `OSQPMatrix_Axpy`, `OSQPMatrix_Atxpy`). For every matrix, with or without entries, `y` becomes `alpha * B * x + beta * y`; here the pointers are not used if there
are no entries. -/
theorem c75_axpy [DecidableEq K] {N : ℕ} {M : CsrMat N K} {B : Matrix (Fin m) (Fin n) K} (st : Stores M.row M.col M.val B) (h : N ≠ 0 → HoldsRows M B) (x : Vec K n) (y : Vec K m)
    (alpha beta : K) : matrixAxpy M.ptr M.col M.val x (fun i => some (y i)) alpha beta = fun i => some (alpha * (B *ᵥ x) i + beta * y i) := by
  unfold matrixAxpy
  by_cases h0 : N = 0 ∨ alpha = 0
  · rw [if_pos h0]
    funext i
    have : alpha * (B *ᵥ x) i = 0 := by
      rcases h0 with h0 | h0
      · obtain ⟨v, _, h2⟩ := st.sums
        subst h0
        have : (B *ᵥ x) i = 0 := by
          simp only [mulVec, dotProduct]
          exact Finset.sum_eq_zero fun j _ => by rw [h2]; simp
        rw [this, mul_zero]
      · rw [h0, zero_mul]
    rw [this, zero_add]; rfl
  · rw [if_neg h0]
    push Not at h0
    split
    · exact (c75_product (h h0.1) x alpha beta).1 y
    · rename_i hd
      -- a matrix with entries has rows and columns
      have e : Fin N := ⟨0, Nat.pos_of_ne_zero h0.1⟩
      have := st.row_lt e
      have := st.col_lt e
      omega

/-- **C75 fails** for a constraint matrix without entries that has more rows than columns: `csr_transpose` keeps the `n + 1` row pointers, so that a product with it reads beyond them, as the
conjugate-gradient solver does in every iteration (cuda_pcg.cu:83-96 tests `m == 0`, not `nnz == 0`). -/
theorem c75_empty [DecidableEq K] {q : Pat m n} (h0 : q.nnz = 0) (more : n < m) (x : Fin q.nnz → K) :
    ∃ A At, matInitA sort q x = some (A, At) ∧ A.rows = m ∧ A.ptr.length = n + 1 ∧ ∀ (v : Vec K n) y alpha beta (i : Fin m), n ≤ i.val → spmv A.ptr A.col A.val v y alpha beta i = none := by
  obtain ⟨N, row, col⟩ := q
  dsimp only at h0
  subst h0
  unfold matInitA csrTranspose expand
  dsimp only
  rw [allSome_some (g := fun e => e.elim0) (fun e => e.elim0), Option.bind_some, if_pos rfl, allSome_some (g := fun e => e.elim0) (fun e => e.elim0)]
  refine ⟨_, _, rfl, rfl, by simp [colPtr, compress], fun v y alpha beta i hi => ?_⟩
  dsimp only
  unfold spmv rowSum
  have : (colPtr (⟨0, row, col⟩ : Pat m n))[i.val + 1]? = none := by
    rw [List.getElem?_eq_none_iff]; simp only [colPtr, compress, List.length_map, List.length_range]; omega
  rw [this]
  cases (colPtr (⟨0, row, col⟩ : Pat m n))[i.val]? <;> rfl

/-- **C75 is false**: two constraints without entries on one variable. The first row of the product is zero, the second is undefined. -/
theorem c75_empty_counterexample : ∃ A At, matInitA sort (⟨0, Fin.elim0, Fin.elim0⟩ : Pat 2 1) (fun e => e.elim0 : Fin 0 → ℚ) = some (A, At) ∧
    spmv (rows := 2) A.ptr A.col A.val ![1] (fun _ => some 0) 1 0 0 = some 0 ∧ spmv (rows := 2) A.ptr A.col A.val ![1] (fun _ => some 0) 1 0 1 = none := by
  unfold matInitA csrTranspose expand
  dsimp only
  rw [allSome_some (g := fun e => e.elim0) (fun e => e.elim0), Option.bind_some, if_pos rfl, allSome_some (g := fun e => e.elim0) (fun e => e.elim0)]
  exact ⟨_, _, rfl, by decide +kernel, by decide +kernel⟩

/-! ### Norms -/

/-- **C75** (norms). For a matrix with entries, sorted by rows and none of them twice, the routine writes within bounds and gives the largest absolute value of every row, zero for an
empty one: whatever `res` held before, however the library brackets the reduction, and in whatever order the threads write. -/
theorem c75_norms_partial [LinearOrder K] [IsStrictOrderedRing K] {N : ℕ} {red : List K → K} (hred : Reduces absMaximum red) (ord : ∀ k, Equiv.Perm (Fin k)) {row col : Fin N → ℕ}
    {val : Fin N → Option K} {B : Matrix (Fin m) (Fin n) K} (st : Stores row col val B) (hs : Monotone row) (dist : Distinct row col) (hN : N ≠ 0) (res : Fin m → Option K) :
    ∃ z : Fin m → K, rowNormInf red ord row val res = some (fun i => some (z i)) ∧ ∀ i, IsNormOf (B i) (z i) := by
  obtain ⟨v, v1, v2⟩ := st.sums
  obtain ⟨z, z1, z2⟩ := rowNormInf_some hred ord hN v1 hs st.row_lt res
  have hB : ∀ e, B ⟨row e, st.row_lt e⟩ ⟨col e, st.col_lt e⟩ = v e := by
    intro e
    rw [v2, Finset.sum_eq_single e]
    · rw [if_pos ⟨rfl, rfl⟩]
    · intro f _ hf
      exact if_neg fun hc => hf (dist f e hc.1 hc.2)
    · intro hc; exact absurd (Finset.mem_univ _) hc
  refine ⟨z, z1, fun i => ⟨fun j => ?_, ?_⟩⟩
  · by_cases he : ∃ e, row e = i.val ∧ col e = j.val
    · obtain ⟨e, h1, h2⟩ := he
      have := hB e
      rw [show (⟨row e, st.row_lt e⟩ : Fin m) = i from Fin.ext h1, show (⟨col e, st.col_lt e⟩ : Fin n) = j from Fin.ext h2] at this
      rw [this]
      exact (z2 i).1 e h1
    · have : B i j = 0 := by
        rw [v2]
        exact Finset.sum_eq_zero fun e _ => if_neg fun hc => he ⟨e, hc⟩
      rw [this, abs_zero]
      rcases (z2 i).2 with h | ⟨e, _, h⟩
      · exact h.1.ge
      · rw [← h]; exact abs_nonneg _
  · rcases (z2 i).2 with h | ⟨e, h1, h2⟩
    · exact Or.inl h.1
    · refine Or.inr ⟨⟨col e, st.col_lt e⟩, ?_⟩
      rw [← h2, ← hB e, show (⟨row e, st.row_lt e⟩ : Fin m) = i from Fin.ext h1]

/-- **C75 fails** for the norms of a matrix without entries: nothing is written, where the built-in back end writes zeros. -/
theorem c75_norms_empty [LinearOrder K] {red : List K → K} {ord : ∀ k, Equiv.Perm (Fin k)} {row : Fin 0 → ℕ} {val : Fin 0 → Option K} (res : Fin m → Option K) :
    rowNormInf red ord row val res = some res := by unfold rowNormInf; rw [if_pos rfl]

/-- **C75** (norms, as the scaling uses them). For any constraint matrix, the norms of the columns of the KKT matrix come out right all the same if `D_temp_A` is zero before, as it is
(`OSQPVectorf_calloc`, osqp_api.c:473). -/
theorem c75_scaling_norms [LinearOrder K] [IsStrictOrderedRing K] {NP NA : ℕ} {red : List K → K} (hred : Reduces absMaximum red) (ord : ∀ k, Equiv.Perm (Fin k)) {rowP colP : Fin NP → ℕ}
    {valP : Fin NP → Option K} {rowT colT : Fin NA → ℕ} {valT : Fin NA → Option K} {P : Matrix (Fin n) (Fin n) K} {A : Matrix (Fin m) (Fin n) K} (stP : Stores rowP colP valP P)
    (sP : Monotone rowP) (dP : Distinct rowP colP) (hNP : NP ≠ 0) (stA : Stores rowT colT valT Aᵀ) (sA : Monotone rowT) (dA : Distinct rowT colT) (D : Fin n → Option K) :
    ∃ a b : Fin n → K, kktColNorms red ord rowP valP rowT valT D (fun _ => some 0) = some (fun j => some (max (a j) (b j))) ∧ (∀ j, IsNormOf (P j) (a j)) ∧ ∀ j, IsNormOf (fun i => A i j) (b j) := by
  obtain ⟨a, a1, a2⟩ := c75_norms_partial hred ord stP sP dP hNP D
  have hb : ∃ b : Fin n → K, rowNormInf red ord rowT valT (fun _ : Fin n => some (0 : K)) = some (fun j => some (b j)) ∧ ∀ j, IsNormOf (fun i => A i j) (b j) := by
    by_cases h0 : NA = 0
    · subst h0
      refine ⟨fun _ => 0, c75_norms_empty _, fun j => ⟨fun i => ?_, Or.inl rfl⟩⟩
      obtain ⟨v, _, h2⟩ := stA.sums
      have := h2 j i
      rw [transpose_apply] at this
      change |A i j| ≤ 0
      rw [this]; simp
    · exact c75_norms_partial hred ord stA sA dA h0 _
  obtain ⟨b, b1, b2⟩ := hb
  refine ⟨a, b, ?_, a2, b2⟩
  unfold kktColNorms
  rw [a1, Option.bind_some, b1, Option.map_some]
  rfl

/-! ### Selection of rows -/

theorem selected {N : ℕ} {row col : Fin N → ℕ} {val : Fin N → Option K} {B : Matrix (Fin m) (Fin n) K} (st : Stores row col val B) (mono : Monotone row) {flags : Fin m → ℤ}
    (hf : ∀ i, (flags i).natAbs ≤ 1) (ord : Equiv.Perm (Fin N)) (hN : N ≠ 0) : ∃ (k : ℕ) (A : CsrMat k K) (g : Fin A.rows → Fin m),
      submatByRows sort row col val flags n ord = (csrTranspose sort A.rows n A.ptr A.col A.val).map (fun At => ⟨k, A, At⟩) ∧ Lists g flags ∧ HoldsRows A (B.submatrix g id) ∧
        A.ptr.length = A.rows + 1 ∧ ((∀ e i, row e = i.val → flags i = 0) → k = 0) := by
  have H := picked_holds st mono hf
  have E := submat_eq (sort := sort) (val := val) (col := col) st.row_lt hf n ord hN
  have L : (picked col val st.row_lt flags n).ptr.length = (picked col val st.row_lt flags n).rows + 1 := by simp [picked, compress]
  have Z : (∀ e (i : Fin m), row e = i.val → flags i = 0) → (Finset.univ.filter fun e => entryPred st.row_lt flags e ≠ 0).card = 0 := by
    intro h
    rw [Finset.card_eq_zero, Finset.filter_eq_empty_iff]
    intro e _ he
    exact he (by unfold entryPred rowPred; rw [h e ⟨row e, st.row_lt e⟩ rfl]; rfl)
  generalize picked col val st.row_lt flags n = A at H E L
  generalize (Finset.univ.filter fun e => entryPred st.row_lt flags e ≠ 0).card = k at A H E L Z
  have hrows : A.rows = (Finset.univ.filter fun i => rowPred flags i ≠ 0).card := H.rows
  have hg : ∃ g : Fin A.rows → Fin m, Lists g flags ∧ HoldsRows A (B.submatrix g id) := by
    rw [hrows]; exact ⟨_, lists_sel flags, H⟩
  obtain ⟨g, g1, g2⟩ := hg
  exact ⟨k, A, g, E, g1, g2, L, Z⟩

/-- **C75** (selection of rows). From a matrix with entries, the rows with a flag `1` or `-1` are selected in their order, and held in compressed rows together with the transpose: in
whatever order the threads write. Missing: a matrix without entries (`c75_select_no_entries`), and selected rows without entries, fewer than there are columns, for the transpose
(`c75_select_empty_rows`). -/
theorem c75_select_partial {N : ℕ} {row col : Fin N → ℕ} {val : Fin N → Option K} {B : Matrix (Fin m) (Fin n) K} (hs : SortsByRow sort) (st : Stores row col val B) (mono : Monotone row)
    {flags : Fin m → ℤ} (hf : ∀ i, flags i = -1 ∨ flags i = 0 ∨ flags i = 1) (ord : Equiv.Perm (Fin N)) (hN : N ≠ 0) :
    ∃ (k : ℕ) (A At : CsrMat k K) (g : Fin A.rows → Fin m), submatByRows sort row col val flags n ord = some ⟨k, A, At⟩ ∧ Lists g flags ∧ HoldsRows A (B.submatrix g id) ∧
      At.rows = n ∧ (k ≠ 0 ∨ n ≤ A.rows → HoldsRows At (B.submatrix g id)ᵀ) := by
  have hf' : ∀ i, (flags i).natAbs ≤ 1 := fun i => by rcases hf i with h | h | h <;> rw [h] <;> decide
  obtain ⟨k, A, g, E, g1, g2, _, _⟩ := selected (sort := sort) st mono hf' ord hN
  by_cases hk : k = 0
  · subst hk
    obtain ⟨T, t1, t2, t3, t4, t5⟩ := transpose_empty (sort := sort) g2
    rw [t1, Option.map_some] at E
    exact ⟨0, A, T, g, E, g1, g2, t3, fun h => t5 (by rcases h with h | h; exact absurd rfl h; exact h)⟩
  · obtain ⟨T, t1, t2, _⟩ := transpose_some hs g2 hk
    rw [t1, Option.map_some] at E
    exact ⟨k, A, T, g, E, g1, g2, t2.rows, fun _ => t2⟩

/-- **C75 fails** for the selection of rows from a matrix without entries: the number of entries to allocate is read without having been written (cuda_csr.cu:810-814). -/
theorem c75_select_no_entries {row col : Fin 0 → ℕ} {val : Fin 0 → Option K} (flags : Fin m → ℤ) (ord : Equiv.Perm (Fin 0)) : submatByRows sort row col val flags n ord = none := by
  unfold submatByRows
  by_cases hm : m ≠ 0
  · rw [dif_pos hm, dif_neg (by simp)]
  · rw [dif_neg hm]

/-- **C75 fails** for the transpose when the selected rows have no entries and are fewer than the columns: a product with it reads beyond its row pointers, as the conjugate-gradient solver
does during polishing (cuda_pcg.cu:101-105). -/
theorem c75_select_empty_rows [DecidableEq K] {N : ℕ} {row col : Fin N → ℕ} {val : Fin N → Option K} {B : Matrix (Fin m) (Fin n) K} (st : Stores row col val B) (mono : Monotone row)
    {flags : Fin m → ℤ} (hf : ∀ i, flags i = -1 ∨ flags i = 0 ∨ flags i = 1) (ord : Equiv.Perm (Fin N)) (hN : N ≠ 0) (empty : ∀ e i, row e = i.val → flags i = 0) :
    ∃ (k : ℕ) (A At : CsrMat k K) (g : Fin A.rows → Fin m), submatByRows sort row col val flags n ord = some ⟨k, A, At⟩ ∧ Lists g flags ∧ At.rows = n ∧
      ∀ (v : Vec K A.rows) y alpha beta (j : Fin n), A.rows ≤ j.val → spmv At.ptr At.col At.val v y alpha beta j = none := by
  have hf' : ∀ i, (flags i).natAbs ≤ 1 := fun i => by rcases hf i with h | h | h <;> rw [h] <;> decide
  obtain ⟨k, A, g, E, g1, g2, L, Z⟩ := selected (sort := sort) st mono hf' ord hN
  have hk := Z empty
  subst hk
  obtain ⟨T, t1, t2, t3, t4, t5⟩ := transpose_empty (sort := sort) g2
  rw [t1, Option.map_some] at E
  refine ⟨0, A, T, g, E, g1, t3, fun v y alpha beta j hj => ?_⟩
  unfold spmv rowSum
  have : T.ptr[j.val + 1]? = none := by rw [List.getElem?_eq_none_iff, t2, L]; omega
  rw [this]
  cases T.ptr[j.val]? <;> rfl

/-! ### The hypotheses are met -/

/-- `[0 3; -5 4; 0 0]`. -/
def demoPat : Pat 3 2 := ⟨3, ![1, 0, 1], ![0, 1, 1]⟩

/-- Reducing from the right. -/
def redRight : List ℚ → ℚ
  | [] => 0
  | [v] => v
  | v :: l => absMaximum v (redRight l)

theorem redRight_ok : Reduces absMaximum redRight := by
  refine ⟨fun _ => rfl, fun l hl => ?_⟩
  match l, hl with
  | v :: w :: l, _ => exact ⟨[v], w :: l, rfl, by simp, by simp, rfl⟩

example : ∃ A At, matInitA (fun _ row _ => Tuple.sort row) demoPat (![-5, 3, 4] : Fin 3 → ℚ) = some (A, At) ∧ HoldsRows A (!![0, 3; -5, 4; 0, 0] : Matrix (Fin 3) (Fin 2) ℚ) := by
  obtain ⟨A, At, h, hA, _⟩ := c75_init_partial sorter_ok (q := demoPat) (by unfold ByColumn demoPat; decide) (![-5, 3, 4] : Fin 3 → ℚ) (Or.inl (by decide))
  have : dense demoPat (![-5, 3, 4] : Fin 3 → ℚ) = !![0, 3; -5, 4; 0, 0] := by ext i j; fin_cases i <;> fin_cases j <;> decide +kernel
  rw [this] at hA
  exact ⟨A, At, h, hA⟩

/-- The norms of its rows are 3, 5 and 0, though nothing had been written to `res`. -/
example : ∃ z : Fin 3 → ℚ, rowNormInf redRight (fun _ => 1) (fun e => ((demoPat.row (Tuple.sort demoPat.row e)).val)) (fun e => some ((![-5, 3, 4] : Fin 3 → ℚ) (Tuple.sort demoPat.row e)))
    (fun _ : Fin 3 => none) = some (fun i => some (z i)) ∧ ∀ i, IsNormOf ((!![0, 3; -5, 4; 0, 0] : Matrix (Fin 3) (Fin 2) ℚ) i) (z i) := by
  have hd : dense demoPat (![-5, 3, 4] : Fin 3 → ℚ) = !![0, 3; -5, 4; 0, 0] := by ext i j; fin_cases i <;> fin_cases j <;> decide +kernel
  rw [← hd]
  have st := stores_perm (stores_transpose (user_rows (q := demoPat) (by unfold ByColumn demoPat; decide) (![-5, 3, 4] : Fin 3 → ℚ)).stores) (Tuple.sort demoPat.row)
  rw [transpose_transpose] at st
  refine c75_norms_partial redRight_ok _ st (Tuple.monotone_sort demoPat.row) (fun e f h1 h2 => ?_) (by decide) _
  have inj : ∀ a b : Fin 3, (demoPat.row a).val = (demoPat.row b).val → (demoPat.col a).val = (demoPat.col b).val → a = b := by unfold demoPat; decide
  exact (Tuple.sort demoPat.row).injective (inj _ _ h1 h2)

/-- Selecting its third and second row. -/
example : ∃ (k : ℕ) (A At : CsrMat k ℚ) (g : Fin A.rows → Fin 3), submatByRows (fun _ row _ => Tuple.sort row) ![0, 1, 1] ![1, 0, 1] (fun e => some ((![3, -5, 4] : Fin 3 → ℚ) e)) ![0, 1, -1] 2 1
    = some ⟨k, A, At⟩ ∧ Lists g ![0, 1, -1] ∧ HoldsRows A ((!![0, 3; -5, 4; 0, 0] : Matrix (Fin 3) (Fin 2) ℚ).submatrix g id) := by
  have st : Stores ![0, 1, 1] ![1, 0, 1] (fun e => some ((![3, -5, 4] : Fin 3 → ℚ) e)) (!![0, 3; -5, 4; 0, 0] : Matrix (Fin 3) (Fin 2) ℚ) :=
    ⟨by decide, by decide, _, fun _ => rfl, by intro i j; fin_cases i <;> fin_cases j <;> decide +kernel⟩
  obtain ⟨k, A, At, g, h1, h2, h3, _⟩ := c75_select_partial sorter_ok st (by decide) (flags := ![0, 1, -1]) (by decide) 1 (by decide)
  exact ⟨k, A, At, g, h1, h2, h3⟩

/-- **C75 is false**: selecting the empty third row, its transpose has two rows but only the pointers of one. -/
theorem c75_select_counterexample : ∃ (k : ℕ) (A At : CsrMat k ℚ), submatByRows sort ![0, 1, 1] ![1, 0, 1] (fun e => some ((![3, -5, 4] : Fin 3 → ℚ) e)) ![0, 0, 1] 2 1 = some ⟨k, A, At⟩ ∧
    A.rows = 1 ∧ At.rows = 2 ∧ ∀ (v : Vec ℚ A.rows) (y : Fin 2 → Option ℚ) alpha beta, spmv At.ptr At.col At.val v y alpha beta 1 = none := by
  have st : Stores ![0, 1, 1] ![1, 0, 1] (fun e => some ((![3, -5, 4] : Fin 3 → ℚ) e)) (!![0, 3; -5, 4; 0, 0] : Matrix (Fin 3) (Fin 2) ℚ) :=
    ⟨by decide, by decide, _, fun _ => rfl, by intro i j; fin_cases i <;> fin_cases j <;> decide +kernel⟩
  obtain ⟨k, A, At, g, h1, h2, h3, h4⟩ := c75_select_empty_rows (sort := sort) (flags := ![0, 0, 1]) st (by decide) (by decide) 1 (by decide) (by decide)
  have hg : ∀ j, g j = 2 := by
    intro j
    have := (h2.all (g j)).2 ⟨j, rfl⟩
    revert this
    generalize g j = i
    revert i
    decide
  obtain ⟨j, _⟩ := (h2.all 2).1 (by decide)
  have hr : A.rows = 1 := by
    have h0 := j.2
    by_contra hne
    have := h2.mono.injective ((hg ⟨0, by omega⟩).trans (hg ⟨1, by omega⟩).symm)
    simp at this
  exact ⟨k, A, At, h1, hr, h3, fun v y alpha beta => h4 v y alpha beta 1 (by rw [hr]; decide)⟩

end Osqp.Cuda
