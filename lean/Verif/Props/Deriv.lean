import Verif.Csc.DerivDemo

/-!
# C55, C57: adjoint derivatives

`Csc/DerivSpec.lean` has the specification: the problem `Prob`, the differentiated optimality conditions `Linearised`, the inner
product `pairing`, iterative refinement `refined` and `IndexList`.
-/

set_option linter.unusedSectionVars false
namespace Osqp.Csc
open Finset

variable {K : Type*} [Field K] [LinearOrder K]

/-! ## C55 -/

theorem IndexList.of_nth (q : ℕ → Prop) [DecidablePred q] {b : Buf ℤ} {count : ℤ} {m : ℕ} (hc : count = ((idx q m : ℕ) : ℤ))
    (hb : Holds b (idx q m) (fun t => ((nth q m t : ℕ) : ℤ))) : IndexList b count m q := by
  refine ⟨idx q m, nth q m, hc, hb, fun s t hst ht => ?_, fun r => ⟨?_, ?_⟩⟩
  · by_contra hn
    have h1 := (nth_spec q (k := s) (m := m) (by omega)).2.2
    have h2 := (nth_spec q (k := t) (m := m) ht).2.2
    have := idx_mono q (not_lt.1 hn)
    omega
  · rintro ⟨t, ht, rfl⟩
    have := nth_spec q (k := t) (m := m) ht
    exact ⟨this.1, this.2.1⟩
  · rintro ⟨hr, hq⟩
    exact ⟨idx q r, idx_lt q hr hq, nth_idx q hr hq⟩

/-- **C55** (index lists).  For every pair of bound vectors the loop that sorts the constraints stays inside its arrays, and
afterwards the three lists contain, in increasing order and without repetition, exactly the inequality rows with a finite lower
bound, exactly the inequality rows with a finite upper bound, and exactly the rows whose lower bound is not below the upper one. -/
theorem c55_lists {l u y : Buf K} {m : ℕ} {L U Y : ℕ → K} (hl : Holds l m L) (hu : Holds u m U) (hy : Holds y m Y) :
    ∃ s, classify l u y (m : ℤ) = some s ∧ IndexList s.lIdx s.nl m (fun r => L r < U r ∧ -Const.infval K < L r) ∧
      IndexList s.uIdx s.nu m (fun r => L r < U r ∧ U r < Const.infval K) ∧ IndexList s.eqIdx s.ne m (fun r => ¬ L r < U r) ∧
      s.nl + s.nu + s.ne ≤ 2 * m := by
  obtain ⟨s, e, h⟩ := classify_at hl hu hy
  refine ⟨s, e, .of_nth (LoRow L U) h.nl h.lIdx, .of_nth (UpRow L U) h.nu h.uIdx, .of_nth (EqRow L U) h.ne h.eqIdx, ?_⟩
  rw [h.nl, h.nu, h.ne]
  have := counts_le L U m
  omega

/-- A case with a two-sided row, an equality row, a row without bounds, a one-sided row and an equality row with a negative
multiplier. -/
def demoLists : Option Lists := classify (Demo.buf [(0 : ℚ), 1, -10 ^ 30, -10 ^ 30, 2]) (Demo.buf [1, 1, 10 ^ 30, 3, 2]) (Demo.buf [0, 1, 0, 0, -1]) (5 : ℕ)
example : ∃ s, demoLists = some s ∧ IndexList s.eqIdx s.ne 5 (fun r => ¬ [(0 : ℚ), 1, -10 ^ 30, -10 ^ 30, 2].getD r default < [(1 : ℚ), 1, 10 ^ 30, 3, 2].getD r default) := by
  obtain ⟨s, e, -, -, h, -⟩ := c55_lists (Demo.buf_holds [(0 : ℚ), 1, -10 ^ 30, -10 ^ 30, 2]) (Demo.buf_holds [(1 : ℚ), 1, 10 ^ 30, 3, 2]) (Demo.buf_holds [(0 : ℚ), 1, 0, 0, -1])
  exact ⟨s, e, h⟩
example : ∃ h : demoLists.isSome, (demoLists.get h).nl = 1 ∧ (demoLists.get h).nu = 2 ∧ (demoLists.get h).ne = 2 ∧ (demoLists.get h).lIdx.rd 0 = some 0 ∧
    (demoLists.get h).uIdx.rd 0 = some 0 ∧ (demoLists.get h).uIdx.rd 1 = some 3 ∧ (demoLists.get h).eqIdx.rd 0 = some 1 ∧ (demoLists.get h).eqIdx.rd 1 = some 4 := by
  decide +kernel

variable [IsStrictOrderedRing K]

theorem room_alloc (p : Prob K) : Room p (DerivData.alloc (p.n : ℤ) (p.m : ℤ)) := by
  refine ⟨fresh_size _, fresh_size _, fresh_size _, fresh_size _, ?_⟩
  show (Buf.fresh (2 * ((p.n : ℤ) + 2 * (p.m : ℤ))) : Buf K).size = _
  rw [show (2 * ((p.n : ℤ) + 2 * (p.m : ℤ))) = ((2 * (p.n + 2 * p.m) : ℕ) : ℤ) by push_cast; ring, fresh_size]

/-- A run of `osqp_adjoint_derivative_compute` and what it leaves. -/
theorem run_holds {p : Prob K} {env : AdjEnv K} {sv : Csc K → (ℕ → K) → ℕ → K} (hE : SolverOk env (2 * p.N) sv) {S : Stored K} (hS : StoredIs S p)
    {dx dyl dyu : Buf K} {DX DL DU : ℕ → K} (hx : Holds dx p.n DX) (hl : Holds dyl p.m DL) (hu : Holds dyu p.m DU) {D : DerivData K} (hD : Room p D) :
    ∃ (D' : DerivData K) (solve : (ℕ → K) → ℕ → K) (k : ℕ) (Z : ℕ → K), adjCompute (adjSolve env) S dx dyl dyu D = some D' ∧ Room p D' ∧ Done p Z D' ∧
      Refinement (2 * p.N) p.adj (p.rhsF DX DL DU) env.sqrt solve k Z ∧ (ExactSolver (2 * p.N) sv → SolvesPerturbed p solve) := by
  obtain ⟨Q, VP, VG, VE, VL, rhs, hQ, hR, hs, -, hgo⟩ := adjCompute_holds (adjSolve env) hS hx hl hu hD
  obtain ⟨rhs', solve, k, e, s', hZ, h1, h2, h3, h4⟩ := adjSolve_holds hQ hS.sym hE hR
  obtain ⟨D', e', hd, h5, h6, h7⟩ := hgo rhs' _ e hZ
  exact ⟨D', solve, k, _, e', ⟨h6, h7, hd.sl, hd.su, by rw [h5, s', hs]⟩, hd, ⟨rfl, h1, h2, h3⟩, h4⟩

/-- **C55** (bounds).  With the arrays that `osqp_setup` allocates, computing the adjoint derivative succeeds for every stored
problem, every solution and every loss gradient: no access is outside an array, no uninitialised cell is read, and the lists
use at most `2 m` unknowns, so that the `2 (n + n_l + n_u + n_e)` numbers of the right-hand side fit in the `2 (n + 2 m)`
allocated ones.  The arrays it leaves can be used for the next call. -/
theorem c55_bounds {p : Prob K} {env : AdjEnv K} {sv : Csc K → (ℕ → K) → ℕ → K} (hE : SolverOk env (2 * p.N) sv) {S : Stored K} (hS : StoredIs S p)
    {dx dyl dyu : Buf K} {DX DL DU : ℕ → K} (hx : Holds dx p.n DX) (hl : Holds dyl p.m DL) (hu : Holds dyu p.m DU) {D : DerivData K}
    (hD : D = DerivData.alloc (p.n : ℤ) (p.m : ℤ) ∨ Room p D) :
    ∃ D', adjCompute (adjSolve env) S dx dyl dyu D = some D' ∧ Room p D' ∧ D'.nl + D'.nu + D'.ne ≤ 2 * p.m ∧
      2 * ((p.n : ℤ) + D'.nl + D'.nu + D'.ne) ≤ D'.rhs.size := by
  have hR : Room p D := by
    rcases hD with rfl | h
    · exact room_alloc p
    · exact h
  obtain ⟨D', _, _, _, e, hr, hd, -⟩ := run_holds hE hS hx hl hu hR
  have hN := p.N_le
  have hNe : p.N = p.n + p.nl + p.nu + p.ne := rfl
  refine ⟨D', e, hr, ?_, ?_⟩
  · rw [hd.nl, hd.nu, hd.ne]; omega
  · rw [hd.nl, hd.nu, hd.ne, hr.rhs]; push_cast; omega

/-! ## C57 -/

/-- What the two getter functions return. -/
theorem getters_hold {p : Prob K} {S : Stored K} (hS : StoredIs S p) {Z : ℕ → K} {D : DerivData K} (hD : Done p Z D) (h0 : ∀ r < p.m, p.Eq r → p.y r ≠ 0)
    {dP dA : Csc K} {VP VA : View K} (hP : Pattern dP VP) (hA : Pattern dA VA) (hPm : VP.m = p.n) (hPn : VP.n = p.n) (hAm : VA.m = p.m) (hAn : VA.n = p.n)
    {dq : Buf K} {dl du : Buf (Option K)} (hq : p.n ≤ dq.size) (hl : p.m ≤ dl.size) (hu : p.m ≤ du.size) :
    ∃ bP bA q l u, getMat D S dP dA = some (bP, bA) ∧ getVec D (p.n : ℤ) dq dl du = some (q, l, u) ∧
      Holds bP VP.nnz (fun k => some ((p.grad VP VA Z).P k)) ∧ Holds bA VA.nnz (fun k => some ((p.grad VP VA Z).A k)) ∧
      Holds q p.n (p.grad VP VA Z).q ∧ Holds l p.m (fun r => some ((p.grad VP VA Z).l r)) ∧ Holds u p.m (fun r => some ((p.grad VP VA Z).u r)) := by
  obtain ⟨bP, bA, e1, h1, h2⟩ := getMat_holds hS hD hP hA hPm hPn hAm hAn
  obtain ⟨q, l, u, e2, h3, h4, h5⟩ := getVec_holds hD (dq := dq) (dl := dl) (du := du) hq hl hu
  refine ⟨bP, bA, q, l, u, e1, e2, h1, h2.congr fun k hk => ?_, h3, h4.congr fun r _ => dlF_some p Z r, h5.congr fun r hr => ?_⟩
  · have hr : VA.i k < p.m := by have := hA.valid.rows k hk; omega
    show p.dAF Z (VA.i k) (VA.col k) = some ((p.dAF Z (VA.i k) (VA.col k)).getD 0)
    rw [dAF_some p Z _ (h0 _ hr)]; rfl
  · show Option.map _ (p.ruF Z r) = some (-(p.ruF Z r).getD 0)
    rw [ruF_some p Z (h0 r hr)]; rfl

/-- The arrays in which the derivatives are returned have room: `dP` and `dA` have the sizes of `P` and `A` and the sparsity
patterns `VP` (upper triangular) and `VA`. -/
structure Outputs (p : Prob K) (dP dA : Csc K) (VP VA : View K) (dq : Buf K) (dl du : Buf (Option K)) : Prop where
  P : Pattern dP VP
  triu : VP.Triu
  Pm : VP.m = p.n
  Pn : VP.n = p.n
  A : Pattern dA VA
  Am : VA.m = p.m
  An : VA.n = p.n
  q : p.n ≤ dq.size
  l : p.m ≤ dl.size
  u : p.m ≤ du.size

/-- **C57** (adjoint derivatives, partial).  Take a problem whose differentiated optimality conditions determine the derivative
of the solution and in which no equality row has multiplier zero.  There is a constant `C` that depends on the problem only
such that, for every loss gradient, the computation succeeds, the getters return numbers `g`, and for every change of the data
`ds` (on an equality row both bounds change alike) and the change `t` of the solution it causes, the change of the loss
`<dx, x'> + <dy_l, y_l'> + <dy_u, y_u'>` differs from `<g, ds>` by at most `C * delta * |t|`, where `delta` is a bound for
the residual of the linear system at the computed solution.  The computed solution `Z` is the first iterate of the refinement
whose residual has norm below `1e-12`, in which case `delta = 1e-12`, or else the iterate number 200.

Missing for the full property: nothing bounds `delta` when the loop ends at its limit of 200 rounds, which is not reported
(`c57_counterexample`), and equality rows with multiplier zero (`c57_zero_multiplier_counterexample`). -/
theorem c57_adjoint_partial {p : Prob K} (hreg : p.Regular) (h0 : ∀ r < p.m, p.Eq r → p.y r ≠ 0) (hsym : ∀ i < p.n, ∀ j < p.n, p.P i j = p.P j i) :
    ∃ C : K, 0 ≤ C ∧ ∀ {env : AdjEnv K} {sv : Csc K → (ℕ → K) → ℕ → K}, SolverOk env (2 * p.N) sv → (∀ v, 0 ≤ v → 0 ≤ env.sqrt v ∧ v ≤ env.sqrt v * env.sqrt v) →
      ∀ {S : Stored K}, StoredIs S p → ∀ {dx dyl dyu : Buf K} {DX DL DU : ℕ → K}, Holds dx p.n DX → Holds dyl p.m DL → Holds dyu p.m DU →
      ∀ {D : DerivData K}, Room p D → ∀ {dP dA : Csc K} {VP VA : View K} {dq : Buf K} {dl du : Buf (Option K)}, Outputs p dP dA VP VA dq dl du →
      ∃ (D' : DerivData K) (solve : (ℕ → K) → ℕ → K) (k : ℕ) (Z : ℕ → K) (g : Data K) (bP bA : Buf (Option K)) (q : Buf K) (l u : Buf (Option K)),
        adjCompute (adjSolve env) S dx dyl dyu D = some D' ∧ getMat D' S dP dA = some (bP, bA) ∧ getVec D' (p.n : ℤ) dq dl du = some (q, l, u) ∧
        Holds bP VP.nnz (fun k => some (g.P k)) ∧ Holds bA VA.nnz (fun k => some (g.A k)) ∧ Holds q p.n g.q ∧
        Holds l p.m (fun r => some (g.l r)) ∧ Holds u p.m (fun r => some (g.u r)) ∧
        Holds D'.rhs (2 * p.N) Z ∧ Refinement (2 * p.N) p.adj (p.rhsF DX DL DU) env.sqrt solve k Z ∧ (ExactSolver (2 * p.N) sv → SolvesPerturbed p solve) ∧
        (k < 200 → ∀ j < 2 * p.N, |residual (2 * p.N) p.adj (p.rhsF DX DL DU) Z j| ≤ 1 / 10 ^ 12) ∧
        ∀ δ, 0 ≤ δ → (∀ j < 2 * p.N, |residual (2 * p.N) p.adj (p.rhsF DX DL DU) Z j| ≤ δ) →
        ∀ (ds : Data K) (t : Tan K), (∀ r < p.m, p.Eq r → ds.l r = ds.u r) → Linearised p (ds.dir VP VA) t →
          |p.lossDot DX DL DU t - pairing p.n p.m VP VA g ds| ≤ C * δ * p.tanSize t := by
  obtain ⟨C, hC, hmain⟩ := adjoint_inexact p hsym hreg
  refine ⟨C, hC, ?_⟩
  intro env sv hE hs S hS dx dyl dyu DX DL DU hx hl hu D hD dP dA VP VA dq dl du hO
  obtain ⟨D', solve, k, Z, e, hr, hd, hR, h1⟩ := run_holds hE hS hx hl hu hD
  obtain ⟨bP, bA, q, l, u, e1, e2, g1, g2, g3, g4, g5⟩ := getters_hold hS hd h0 hO.P hO.A hO.Pm hO.Pn hO.Am hO.An hO.q hO.l hO.u
  refine ⟨D', solve, k, Z, _, bP, bA, q, l, u, e, e1, e2, g1, g2, g3, g4, g5, hd.rhs, hR, h1, fun hk j hj => ?_, fun δ hδ hb ds t hlu ht => ?_⟩
  · exact (abs_le_norm hs _ _ hj).trans (le_of_lt (hR.stop hk))
  · rw [← pairing_eq p hO.P.valid hO.triu hO.Pm hO.Pn hO.A.valid hO.Am hO.An _ ds h0 hlu]
    exact hmain hδ hb ht

/-- **C57** (an equality row with multiplier zero).  Whenever an equality row has multiplier zero, the returned derivative with
respect to its upper bound is not a number: the code divides by the multiplier. -/
theorem c57_zero_multiplier {p : Prob K} {env : AdjEnv K} {sv : Csc K → (ℕ → K) → ℕ → K} (hE : SolverOk env (2 * p.N) sv) {S : Stored K} (hS : StoredIs S p)
    {dx dyl dyu : Buf K} {DX DL DU : ℕ → K} (hx : Holds dx p.n DX) (hl : Holds dyl p.m DL) (hu : Holds dyu p.m DU) {D : DerivData K} (hD : Room p D)
    {dq : Buf K} {dl du : Buf (Option K)} (hq : p.n ≤ dq.size) (hl' : p.m ≤ dl.size) (hu' : p.m ≤ du.size) {r : ℕ} (hr : r < p.m) (he : p.Eq r) (hy : p.y r = 0) :
    ∃ D' q l u, adjCompute (adjSolve env) S dx dyl dyu D = some D' ∧ getVec D' (p.n : ℤ) dq dl du = some (q, l, u) ∧ u.rd (r : ℤ) = some none := by
  obtain ⟨D', solve, k, Z, e, _, hd, -⟩ := run_holds hE hS hx hl hu hD
  obtain ⟨q, l, u, e2, h3, h4, h5⟩ := getVec_holds hd (dq := dq) (dl := dl) (du := du) hq hl' hu'
  refine ⟨D', q, l, u, e, e2, ?_⟩
  rw [h5.rd hr]
  unfold Prob.ruF
  rw [if_pos he, if_pos hy]; rfl

end Osqp.Csc
