import Verif.Cuda.MatsLemmas
import Verif.Props.Pcg
import Mathlib.Data.Fin.Tuple.Sort

/-!
# C74: the matrices in device memory are those of the user

`Stores`, `SortsByRow`, `Overwritten` and the histories `HistA`, `HistP` are in `Spec/Mats.lean`; `dense` and `denseSym` (one triangle given) in `Spec/Basic.lean`.
-/

namespace Osqp.Cuda
open Matrix Osqp.Spec

variable {K : Type*} [Field K] {m n : ℕ} {sort : Sorter}

/-- **C74** (constraint matrix). After any sequence of whole and partial updates and scalings, the matrix on the device is the one with the current values, and the second copy is its
transpose; every cell has been written. -/
theorem c74_A {q : Pat m n} {M : GenMat q.nnz K} {v : Fin q.nnz → K} (hist : HistA sort q M v) :
    Stores M.row M.col M.val (dense q v) ∧ Stores M.rowT M.colT M.valT (dense q v)ᵀ := by
  have h := invA hist
  constructor
  · refine ⟨fun e => by rw [h.row]; exact Fin.is_lt _, fun e => by rw [h.col]; exact Fin.is_lt _, fun e => v (sort q.nnz (fun k => (q.row k).val) (fun k => (q.col k).val) e), h.val, fun i j => ?_⟩
    simp only [h.row, h.col, Fin.val_inj]
    exact (Equiv.sum_comp _ fun k => if q.row k = i ∧ q.col k = j then v k else 0).symm
  · refine ⟨fun e => by rw [h.rowT]; exact Fin.is_lt _, fun e => by rw [h.colT]; exact Fin.is_lt _, v, h.valT, fun i j => ?_⟩
    simp only [h.rowT, h.colT, Fin.val_inj, transpose_apply, dense]
    exact Finset.sum_congr rfl fun k _ => if_congr and_comm rfl rfl

/-- **C74** (constraint matrix). The rows stay sorted, as compressed row storage requires. -/
theorem c74_A_sorted {q : Pat m n} {M : GenMat q.nnz K} {v : Fin q.nnz → K} (hs : SortsByRow sort) (hist : HistA sort q M v) : Monotone M.row := by
  intro e f h
  rw [(invA hist).row, (invA hist).row]
  exact hs q.nnz (fun k => (q.row k).val) (fun k => (q.col k).val) h

/-- **C74** (constraint matrix). Updates access memory within bounds, in whatever order the threads write. -/
theorem c74_A_safe {q : Pat m n} {M : GenMat q.nnz K} {v : Fin q.nnz → K} (hist : HistA sort q M v) :
    (∀ Ax, ∃ M', updateWholeA M Ax = some M') ∧ ∀ {k : ℕ} {Ax : Fin k → K} {idx : Fin k → ℕ} (ord : Equiv.Perm (Fin k)) {v'}, Overwritten v idx Ax v' → ∃ M', updateSomeA M Ax idx ord = some M' :=
  ⟨fun Ax => ⟨_, wholeA_some (invA hist) Ax⟩, fun ord _ new => ⟨_, someA_some (invA hist) ord new⟩⟩

/-- **C74** (cost matrix, with restrictions on the history: `HistP`). The matrix on the device is the symmetric matrix with the current values, scaled; every cell has been written, and the
rows are sorted. Missing: whole updates when a diagonal entry is not given (`c74_uninitialised`), and updates of some entries after a whole update (`c74_stale`). -/
theorem c74_P_partial {p : Pat n n} {M : SymMat n p.nnz (fullNnz p) K} {v b c} {D : Fin n → K} (hs : SortsByRow sort)
    (once : ∀ k l, p.row k = p.col k → p.row l = p.col l → p.row k = p.row l → k = l) (hist : HistP sort p M v b c D) :
    Stores M.row M.col M.val (Matrix.of fun i j => c * (D i * denseSym p v i j * D j)) ∧ Monotone M.row := by
  have h := invP hs once hist
  have rl := pos_real (p := p) hs once
  refine ⟨⟨fun e => by rw [h.row]; exact rl e, fun e => by rw [h.col]; exact real_col p (rl e), _, h.val, fun i j => ?_⟩, ?_⟩
  · have key := (sorted_sum (fullNnz_le p) (hs _ (fullRow p) (fullCol p)) (card_real p once)
      (fun k => if fullRow p k = i.val ∧ fullCol p k = j.val then extVal p v k else 0)).2
    rw [real_sum] at key
    rw [of_apply, ← key, Finset.mul_sum, Finset.sum_mul, Finset.mul_sum]
    refine Finset.sum_congr rfl fun e _ => ?_
    rw [h.row, h.col]
    change c * (D i * (if fullRow p (posOf sort p e) = i.val ∧ fullCol p (posOf sort p e) = j.val then extVal p v (posOf sort p e) else 0) * D j) = _
    split
    · rename_i he
      rw [he.1, he.2, extD_lt D i.2, extD_lt D j.2]
    · ring
  · intro e f he
    rw [h.row, h.row]
    exact hs _ (fullRow p) (fullCol p) he

/-- **C74** (cost matrix). Updates access memory within bounds, in whatever order the threads write. -/
theorem c74_P_safe {p : Pat n n} {M : SymMat n p.nnz (fullNnz p) K} {v b c} {D : Fin n → K} (hs : SortsByRow sort)
    (once : ∀ k l, p.row k = p.col k → p.row l = p.col l → p.row k = p.row l → k = l) :
    (∀ (x : Fin p.nnz → K) ord, ∃ M, initP sort p x ord = some M) ∧ (HistP sort p M v b c D → ∀ Px, ∃ M', updateWholeP M Px = some M') ∧
      (HistP sort p M v true c D → ∀ {k : ℕ} {Px : Fin k → K} {idx : Fin k → ℕ} (ord : Equiv.Perm (Fin k)) {v'}, Overwritten v idx Px v' → ∃ M', updateSomeP M Px idx ord = some M') :=
  ⟨fun x ord => ⟨_, initP_some p x ord⟩, fun hist Px => ⟨_, wholeP_some (invP hs once hist) Px⟩,
    fun hist _ _ _ ord _ new => ⟨_, someP_some (invP hs once hist).to_full ((invP hs once hist).triu rfl) ord new⟩⟩

/-- **C74** (diagonal). For an upper triangle without repeated entries, no entry of the full matrix is stored twice, and the list of diagonal positions, which the preconditioner is computed
from, points at the diagonal entries. -/
theorem c74_diagonal {p : Pat n n} {M : SymMat n p.nnz (fullNnz p) K} {v b c} {D : Fin n → K} (hs : SortsByRow sort) (upper : ∀ k, p.row k ≤ p.col k)
    (distinct : ∀ k l, p.row k = p.row l → p.col k = p.col l → k = l) (hist : HistP sort p M v b c D) :
    (∀ e f, M.row e = M.row f → M.col e = M.col f → e = f) ∧ ∀ j, ∃ e : Fin (fullNnz p), M.diag j = some e.val ∧ M.row e = j.val ∧ M.col e = j.val := by
  have once : DiagOnce p := fun k l hk hl hkl => distinct k l hkl (hk ▸ hl ▸ hkl)
  have h := invP hs once hist
  have rl := pos_real (p := p) hs once
  refine ⟨fun e f hr hc => ?_, fun j => ?_⟩
  · rw [h.row, h.row] at hr
    rw [h.col, h.col] at hc
    exact pos_inj (real_inj p upper distinct (rl e) (rl f) hr hc)
  · obtain ⟨k, h1, h2⟩ := real_diag p j
    obtain ⟨e, rfl⟩ := pos_surj hs once (k := k) (by rw [h1]; exact j.2)
    obtain ⟨ord, hd⟩ := h.diag
    rw [hd]
    exact diag_found ord (e := e) ⟨by rw [h.row, h1], by rw [h.col, h2]⟩

/-! ### Link to the conjugate-gradient solver (C72) -/

theorem of_stores {N : ℕ} {row col : Fin N → ℕ} {val : Fin N → Option K} {B : Matrix (Fin m) (Fin n) K} (h : Stores row col val B) :
    ∃ C : Csr m n K, ∃ hN : C.pat.nnz = N, (∀ e, (C.pat.row e).val = row (Fin.cast hN e) ∧ (C.pat.col e).val = col (Fin.cast hN e) ∧ val (Fin.cast hN e) = some (C.val e)) ∧ dense C.pat C.val = B := by
  obtain ⟨x, h1, h2⟩ := h.sums
  refine ⟨⟨⟨N, fun e => ⟨row e, h.row_lt e⟩, fun e => ⟨col e, h.col_lt e⟩⟩, x⟩, rfl, fun e => ⟨rfl, rfl, h1 e⟩, ?_⟩
  ext i j
  rw [h2]
  exact Finset.sum_congr rfl fun e _ => by simp only [Fin.ext_iff]

/-- **C74** (link). The matrices that these histories leave on the device meet what C72 asks of the arguments of the solver: for every `P` and `A` there are the arrays of the device seen as
`Csr`, and a solver created from them is consistent and wired; its system is that of the user's (scaled) data. -/
theorem c74_system [LinearOrder K] [IsStrictOrderedRing K] {p : Pat n n} {M : SymMat n p.nnz (fullNnz p) K} {v b c} {D : Fin n → K} {q : Pat m n} {MA : GenMat q.nnz K} {w : Fin q.nnz → K} (hs : SortsByRow sort)
    (upper : ∀ k, p.row k ≤ p.col k) (distinct : ∀ k l, p.row k = p.row l → p.col k = p.col l → k = l) (distinctA : ∀ k l, q.row k = q.row l → q.col k = q.col l → k = l)
    (histP : HistP sort p M v b c D) (histA : HistA sort q MA w) :
    ∃ (P : Csr n n K) (diagInd : Vec (Fin P.pat.nnz) n) (A : Csr m n K) (At : Csr n m K), (∀ j, M.diag j = some (diagInd j).val) ∧
      dense P.pat P.val = (Matrix.of fun i j => c * (D i * denseSym p v i j * D j)) ∧ dense A.pat A.val = dense q w ∧
      ∀ rho_vec st polishing junk, Consistent (init P diagInd A At rho_vec st polishing junk) ∧ Wired (init P diagInd A At rho_vec st polishing junk) := by
  have once : DiagOnce p := fun k l hk hl hkl => distinct k l hkl (hk ▸ hl ▸ hkl)
  obtain ⟨P, hN, hP, hPd⟩ := of_stores (c74_P_partial hs once histP).1
  obtain ⟨hu, hd⟩ := c74_diagonal hs upper distinct histP
  obtain ⟨A, hNA, hA, hAd⟩ := of_stores (c74_A histA).1
  obtain ⟨At, hNT, hT, hTd⟩ := of_stores (c74_A histA).2
  choose e he using hd
  refine ⟨P, fun j => Fin.cast hN.symm (e j), A, At, fun j => by simpa using (he j).1, hPd, hAd, fun rho_vec st polishing junk => ?_⟩
  have cons : (dense P.pat P.val)ᵀ = dense P.pat P.val ∧ dense At.pat At.val = (dense A.pat A.val)ᵀ := by
    rw [hTd, hAd, hPd]
    refine ⟨?_, rfl⟩
    ext i j
    simp only [transpose_apply, of_apply, denseSym]
    have : (∑ k, if (p.row k = j ∧ p.col k = i) ∨ (p.row k = i ∧ p.col k = j) then v k else 0) = ∑ k, if (p.row k = i ∧ p.col k = j) ∨ (p.row k = j ∧ p.col k = i) then v k else 0 :=
      Finset.sum_congr rfl fun k _ => if_congr or_comm rfl rfl
    rw [this]; ring
  have wir : (∀ j, P.pat.row (Fin.cast hN.symm (e j)) = j) ∧ (∀ j, P.pat.col (Fin.cast hN.symm (e j)) = j) ∧ (∀ k l, P.pat.row k = P.pat.row l → P.pat.col k = P.pat.col l → k = l) ∧
      ∀ k l, At.pat.row k = At.pat.row l → At.pat.col k = At.pat.col l → k = l := by
    refine ⟨fun j => Fin.ext ?_, fun j => Fin.ext ?_, fun k l h1 h2 => ?_, fun k l h1 h2 => ?_⟩
    · rw [(hP _).1]; simpa using (he j).2.1
    · rw [(hP _).2.1]; simpa using (he j).2.2
    · have := hu (Fin.cast hN k) (Fin.cast hN l) (by rw [← (hP k).1, ← (hP l).1, h1]) (by rw [← (hP k).2.1, ← (hP l).2.1, h2])
      simpa using this
    · have ia := invA histA
      have a1 := congrArg Fin.val h1
      have a2 := congrArg Fin.val h2
      rw [(hT k).1, (hT l).1, ia.rowT, ia.rowT] at a1
      rw [(hT k).2.1, (hT l).2.1, ia.colT, ia.colT] at a2
      have := distinctA (Fin.cast hNT k) (Fin.cast hNT l) (Fin.ext a2) (Fin.ext a1)
      simpa using this
  unfold init updatePrecond
  dsimp only
  cases st.cg_precond with
  | no => exact ⟨⟨cons.1, cons.2⟩, ⟨wir.1, wir.2.1, wir.2.2.1, wir.2.2.2⟩⟩
  | diagonal =>
    simp only [updatePrecondDiagonal]
    split
    · exact ⟨⟨cons.1, cons.2⟩, ⟨wir.1, wir.2.1, wir.2.2.1, wir.2.2.2⟩⟩
    · exact ⟨⟨cons.1, cons.2⟩, ⟨wir.1, wir.2.1, wir.2.2.1, wir.2.2.2⟩⟩

/-! ### Where the property fails -/

/-- **C74 fails** when a diagonal entry is not among the given ones: after an update of all values, the diagonal entry of the matrix on the device is memory that nothing has been written to
(`cuda_malloc` of `d_P_val_new`, cuda_csr.cu:643, does not clear the last cell, which `d_P_triu_to_full_ind` refers to). -/
theorem c74_uninitialised {p : Pat n n} {M : SymMat n p.nnz (fullNnz p) K} {v b c} {D : Fin n → K} (hs : SortsByRow sort)
    (once : ∀ k l, p.row k = p.col k → p.row l = p.col l → p.row k = p.row l → k = l) (hist : HistP sort p M v b c D) {j : Fin n} (missing : ∀ k, ¬ (p.row k = j ∧ p.col k = j)) (Px : Fin p.nnz → K) :
    ∃ M' e, updateWholeP M Px = some M' ∧ M'.row e = j.val ∧ M'.col e = j.val ∧ M'.val e = none := by
  have h := invP hs once hist
  have hj : ¬ hasDiag p j = true := fun hd => by obtain ⟨k, hk⟩ := (hasDiag_iff p j).1 hd; exact missing k hk
  have hk := fullRow_3 p j
  rw [if_neg hj] at hk
  obtain ⟨e, he⟩ := pos_surj hs once (p := p) (k := ⟨2 * p.nnz + j, by omega⟩) (by rw [hk.1]; exact j.2)
  refine ⟨_, e, wholeP_some h Px, ?_, ?_, ?_⟩
  · exact (h.row e).trans (by rw [he, hk.1])
  · exact (h.col e).trans (by rw [he, hk.2])
  · simp only [withCell, reducePerm, he]
    have : ¬ 2 * p.nnz + j.val < 2 * p.nnz := by omega
    simp [this]

/-- **C74 fails** when some entries are updated after a whole update: the other entries are back at their values from before the whole update (which does not write
`d_P_triu_val`, cuda_csr.cu:639-651). -/
theorem c74_stale {p : Pat n n} {M M1 : SymMat n p.nnz (fullNnz p) K} {v v' Px : Fin p.nnz → K} {k : ℕ} {new : Fin k → K} {idx : Fin k → ℕ} {ord : Equiv.Perm (Fin k)} (hs : SortsByRow sort)
    (once : ∀ k l, p.row k = p.col k → p.row l = p.col l → p.row k = p.row l → k = l) (hist : HistP sort p M v true 1 (fun _ => 1)) (first : updateWholeP M Px = some M1) (old : Overwritten v idx new v') :
    ∃ M2, updateSomeP M1 new idx ord = some M2 ∧ Stores M2.row M2.col M2.val (denseSym p v') := by
  have h := invP hs once hist
  rw [wholeP_some h] at first
  cases first
  have h2 := someP_some h.to_full (h.triu rfl) ord old
  have st := (c74_P_partial hs once (.part hist old h2)).1
  have hd : (Matrix.of fun i j => (1 : K) * (1 * denseSym p v' i j * 1)) = denseSym p v' := by ext i j; simp
  rw [hd] at st
  exact ⟨_, someP_some h.to_full (h.triu rfl) ord old, st⟩

/-- Sorting by rows, for instance by Mathlib's. -/
theorem sorter_ok : SortsByRow fun _ row _ => Tuple.sort row := fun _ row _ => Tuple.monotone_sort row

/-- `diag(1, 1)`. -/
def diagPat : Pat 2 2 := ⟨2, ![0, 1], ![0, 1]⟩

/-- **C74 is false**: from `P = diag(1, 1)` update all values to `(5, 5)` and then the first to 7. The matrix should be `diag(7, 5)`, but it is `diag(7, 1)`. -/
theorem c74_stale_counterexample (hs : SortsByRow sort) (ord : Equiv.Perm (Fin (fullNnz diagPat))) (ord' : Equiv.Perm (Fin 1)) : ∃ M M1 M2 : SymMat 2 2 (fullNnz diagPat) ℚ,
    initP sort diagPat (fun _ => 1) ord = some M ∧ updateWholeP M (fun _ => 5) = some M1 ∧ updateSomeP M1 ![7] ![0] ord' = some M2 ∧
      Stores M2.row M2.col M2.val (!![7, 0; 0, 1] : Matrix (Fin 2) (Fin 2) ℚ) ∧ ¬ Stores M2.row M2.col M2.val (!![7, 0; 0, 5] : Matrix (Fin 2) (Fin 2) ℚ) := by
  have once : DiagOnce diagPat := by unfold DiagOnce diagPat; decide
  have h0 := initP_some (sort := sort) diagPat (fun _ => (1 : ℚ)) ord
  have hist : HistP sort diagPat _ _ _ _ _ := .init h0
  have h1 := wholeP_some (invP hs once hist) (fun _ => 5)
  obtain ⟨M2, h2, st⟩ := c74_stale (ord := ord') (new := ![7]) (idx := ![0]) (v' := ![7, 1]) hs once hist h1
    ⟨fun a b _ => Subsingleton.elim a b, by intro e; fin_cases e; decide, by intro e; fin_cases e; rfl, by
      intro k hk; fin_cases k
      · exact absurd rfl (hk 0)
      · rfl⟩
  have hd : denseSym diagPat ![7, 1] = (!![7, 0; 0, 1] : Matrix (Fin 2) (Fin 2) ℚ) := by
    ext i j; fin_cases i <;> fin_cases j <;> decide +kernel
  rw [hd] at st
  refine ⟨_, _, M2, h0, h1, h2, st, fun st' => ?_⟩
  obtain ⟨x, a1, a2⟩ := st.sums
  obtain ⟨y, b1, b2⟩ := st'.sums
  have hxy : x = y := funext fun e => Option.some.inj ((a1 e).symm.trans (b1 e))
  subst hxy
  have := (a2 1 1).trans (b2 1 1).symm
  simp at this

/-- The upper triangle `[. 1; . 2]`, whose first diagonal entry is not given. -/
def missingPat : Pat 2 2 := ⟨2, ![0, 1], ![1, 1]⟩

/-- **C74 is false**: an instance of `c74_uninitialised`. -/
theorem c74_diagonal_counterexample (hs : SortsByRow sort) (ord : Equiv.Perm (Fin (fullNnz missingPat))) : ∃ (M M1 : SymMat 2 2 (fullNnz missingPat) ℚ) (e : _),
    initP sort missingPat ![1, 2] ord = some M ∧ Stores M.row M.col M.val (!![0, 1; 1, 2] : Matrix (Fin 2) (Fin 2) ℚ) ∧ updateWholeP M ![1, 2] = some M1 ∧ M1.row e = 0 ∧ M1.col e = 0 ∧ M1.val e = none := by
  have once : DiagOnce missingPat := by unfold DiagOnce missingPat; decide
  have h0 := initP_some (sort := sort) missingPat (![1, 2] : Fin 2 → ℚ) ord
  have hist : HistP sort missingPat _ _ _ _ _ := .init h0
  obtain ⟨M1, e, h1, h2, h3, h4⟩ := c74_uninitialised hs once hist (j := 0) (by unfold missingPat; decide) ![1, 2]
  refine ⟨_, M1, e, h0, ?_, h1, h2, h3, h4⟩
  have st := (c74_P_partial hs once hist).1
  have hd : (Matrix.of fun i j => (1 : ℚ) * (1 * denseSym missingPat ![1, 2] i j * 1)) = (!![0, 1; 1, 2] : Matrix (Fin 2) (Fin 2) ℚ) := by
    ext i j; fin_cases i <;> fin_cases j <;> decide +kernel
  rw [← hd]; exact st

/-- One diagonal entry given twice. -/
def twicePat : Pat 1 1 := ⟨2, ![0, 0], ![0, 0]⟩

/-- **C74 is false** when a diagonal entry is given twice, which the built-in back end adds up: only one of the two is kept. -/
theorem c74_twice_counterexample (ord : Equiv.Perm (Fin (fullNnz twicePat))) : ∃ M : SymMat 1 2 (fullNnz twicePat) ℚ,
    initP sort twicePat (fun _ => 1) ord = some M ∧ ¬ Stores M.row M.col M.val (denseSym twicePat fun _ => 1) := by
  refine ⟨_, initP_some (sort := sort) twicePat _ ord, fun st => ?_⟩
  obtain ⟨x, h1, h2⟩ := st.sums
  have hN : fullNnz twicePat = 1 := by decide
  have h3 := h2 0 0
  have hd : denseSym twicePat (fun _ => (1 : ℚ)) 0 0 = 2 := by decide +kernel
  rw [hd] at h3
  have hx : ∀ e, x e ≤ 1 := by
    intro e
    have := h1 e
    simp only [withCell] at this
    split at this
    · have := Option.some.inj this; rw [← this]
    · have := Option.some.inj this; rw [← this]; norm_num
  have : (∑ e : Fin (fullNnz twicePat), if fullRow twicePat (posOf sort twicePat e) = (0 : Fin 1).val ∧ fullCol twicePat (posOf sort twicePat e) = (0 : Fin 1).val then x e else 0) ≤ ∑ _e : Fin (fullNnz twicePat), 1 :=
    Finset.sum_le_sum fun e _ => by
      split
      · exact hx e
      · norm_num
  rw [← h3] at this
  simp [hN] at this

/-- The hypotheses are met: an upper triangle with a missing diagonal entry, scaled and unscaled, then updated. -/
example : ∃ M : SymMat 2 2 (fullNnz missingPat) ℚ, HistP (fun _ row _ => Tuple.sort row) missingPat M ![4, 2] true 1 (fun _ => 1) := by
  have once : DiagOnce missingPat := by unfold DiagOnce missingPat; decide
  have h0 : HistP (fun _ row _ => Tuple.sort row) missingPat _ _ _ _ _ := .init (initP_some missingPat (![1, 2] : Fin 2 → ℚ) 1)
  have h1 := h0.both ![3, 5] |>.both ![1 / 3, 1 / 5]
  have hD : (fun j => (![1 / 3, 1 / 5] : Fin 2 → ℚ) j * ((![3, 5] : Fin 2 → ℚ) j * 1)) = fun _ => 1 := by funext j; fin_cases j <;> norm_num
  rw [hD] at h1
  have new : Overwritten (![1, 2] : Fin 2 → ℚ) ![0] ![4] ![4, 2] :=
    ⟨fun a b _ => Subsingleton.elim a b, by intro e; fin_cases e; decide, by intro e; fin_cases e; rfl, by
      intro k hk; fin_cases k
      · exact absurd rfl (hk 0)
      · rfl⟩
  obtain ⟨M', h2⟩ := (c74_P_safe (D := fun _ => 1) (c := 1) (b := true) sorter_ok once).2.2 h1 1 new
  exact ⟨M', .part h1 new h2⟩

example : ∃ M : GenMat 2 ℚ, HistA (fun _ row _ => Tuple.sort row) (⟨2, ![1, 0], ![0, 1]⟩ : Pat 2 2) M ![6, 14] := by
  have h := HistA.init (sort := fun _ row _ => Tuple.sort row) (p := (⟨2, ![1, 0], ![0, 1]⟩ : Pat 2 2)) (![3, 7] : Fin 2 → ℚ) |>.scalar 2
  have : (fun k => 2 * (![3, 7] : Fin 2 → ℚ) k) = ![6, 14] := by funext k; fin_cases k <;> norm_num
  rw [this] at h
  exact ⟨_, h⟩

end Osqp.Cuda
