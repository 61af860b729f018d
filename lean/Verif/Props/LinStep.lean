import Verif.Csc.LinLemmas
import Verif.Props.Csc
import Verif.Props.Kkt

/-!
# The linear-system step (C40, C48)

Matrices and vectors are C arrays in raw memory, as in `Props/Csc.lean`.  `kktFull` is the matrix `[P + sigma*I, A'; A, -diag(R)]`,
`redEntry` the matrix `P + sigma*I + A'*diag(rho)*A`, `cat n f g` the vector `(f, g)` (`Csc/KktSpec.lean`).
-/

set_option linter.unusedSectionVars false
namespace Osqp.Csc
open Finset

variable {K : Type*} [Field K] [LinearOrder K] [IsStrictOrderedRing K] {VP VA : View K} {P A : Csc K}

/-! ## Reduced system (C48) -/

/-- **C48** (operator): `reduced_kkt_mv_times` leaves `(P + sigma*I + A'*diag(rho)*A) x` in `v`. -/
theorem c48_mv (hP : Rep P VP) (hA : Rep A VA) (hsq : VP.m = VP.n) (hn : VA.n = VP.n) (ht : VP.Triu) (sigma : K) {rho x v work : Buf K} {R X : ℕ → K}
    (hr : Holds rho VA.m R) (hx : Holds x VP.n X) (hv : VP.n ≤ v.size) (hw : VA.m ≤ work.size) :
    ∃ v' work', mvTimes P A rho sigma x v work = some (v', work') ∧ Holds v' VP.n fun r => ∑ c ∈ range VP.n, redEntry VP VA sigma R r c * X c := by
  obtain ⟨w1, e1, h1⟩ := c36_axpy hA (Y := fun _ => 0) 1 0 (by rw [hn]; exact hx) hw (Or.inl rfl)
  obtain ⟨w2, e2, h2⟩ := ewProdIn_holds h1 hr
  obtain ⟨v1, e3, h3⟩ := copyVec_holds hv hx
  obtain ⟨v2, e4, h4⟩ := c36_axpy_sym hP hsq ht 1 sigma hx h3.1 (Or.inr h3)
  obtain ⟨v3, e5, h5⟩ := c36_atxpy hA 1 1 h2 (by rw [hn]; exact h4.1) (Or.inr (by rw [hn]; exact h4))
  refine ⟨v3, w2, ?_, ?_⟩
  · unfold mvTimes
    rw [e1]; simp only [Option.bind_some]
    rw [hA.m, e2]; simp only [Option.bind_some]
    rw [hP.n, e3]; simp only [Option.bind_some]
    rw [e4]; simp only [Option.bind_some]
    rw [e5]; rfl
  · rw [hn] at h5
    refine h5.congr fun r hr' => ?_
    rw [red_sum, sigma_sum hr']
    have : ∀ a b c : K, 1 * a + 1 * (1 * b + sigma * c) = b + sigma * c + a := fun a b c => by ring
    rw [this]
    congr 1
    exact sum_congr rfl fun k _ => by ring

/-- **C48** (diagonal): `reduced_kkt_diagonal` leaves the diagonal of that matrix and its inverse. -/
theorem c48_diag (hP : Rep P VP) (hA : Rep A VA) (hn : VA.n = VP.n) (hdP : VP.NoDup) (hdA : VA.NoDup) (sigma : K) {rho dg di : Buf K} {R : ℕ → K}
    (hr : Holds rho VA.m R) (h1 : VP.n ≤ dg.size) (h2 : VP.n ≤ di.size) :
    ∃ dg' di', reducedDiag P A rho sigma dg di = some (dg', di') ∧ Holds dg' VP.n (fun c => redEntry VP VA sigma R c c) ∧
      Holds di' VP.n (fun c => 1 / redEntry VP VA sigma R c c) := by
  obtain ⟨d1, e1, _, g1⟩ := vecSet_holds h1 sigma
  obtain ⟨i1, e2, g2⟩ := c37_extract_diag hP hdP h2
  obtain ⟨d2, e3, g3⟩ := plusIn_holds g1 g2
  obtain ⟨i2, e4, g4⟩ := c37_atda hA hdA hr (d := i1) (by rw [hn]; exact g2.1)
  rw [hn] at g4
  obtain ⟨d3, e5, g5⟩ := plusIn_holds g3 g4
  have key : ∀ c, sigma + VP.entry c c + ∑ r ∈ range VA.m, VA.entry r c * R r * VA.entry r c = redEntry VP VA sigma R c c := fun c => by
    unfold redEntry View.symEntry
    rw [if_pos (le_refl _), if_pos rfl]; ring
  have g5' := g5.congr (g := fun c => redEntry VP VA sigma R c c) fun c _ => key c
  obtain ⟨i3, e6, g6⟩ := ewRecip_holds g4.1 g5'
  refine ⟨d3, i3, ?_, g5', g6⟩
  unfold reducedDiag
  rw [hP.n, e1]; simp only [Option.bind_some]
  rw [e2]; simp only [Option.bind_some]
  rw [e3]; simp only [Option.bind_some]
  rw [e4]; simp only [Option.bind_some]
  rw [e5]; simp only [Option.bind_some]
  rw [e6]; rfl

/-- **C48** (the inverse diagonal exists): for a non-negative diagonal of `P`, `sigma > 0` and non-negative step sizes the diagonal is positive. -/
theorem c48_diag_pos {sigma : K} {R : ℕ → K} (hs : 0 < sigma) (hR : ∀ k < VA.m, 0 ≤ R k) {c : ℕ} (hd : 0 ≤ VP.entry c c) : 0 < redEntry VP VA sigma R c c := by
  unfold redEntry View.symEntry
  rw [if_pos (le_refl _), if_pos rfl]
  have : 0 ≤ ∑ k ∈ range VA.m, VA.entry k c * R k * VA.entry k c := sum_nonneg fun k hk => by
    have h := mul_nonneg (hR k (mem_range.1 hk)) (mul_self_nonneg (VA.entry k c))
    calc (0 : K) ≤ _ := h
      _ = _ := by ring
  linarith

/-- **C48** (right-hand side): `reduced_kkt_compute_rhs` leaves `b1 + A'*diag(rho)*b2` in `b1`. -/
theorem c48_rhs (hA : Rep A VA) {rho b1 b2 work : Buf K} {R B1 B2 : ℕ → K} (hr : Holds rho VA.m R) (h1 : Holds b1 VA.n B1) (h2 : Holds b2 VA.m B2) (hw : VA.m ≤ work.size) :
    ∃ b1' work', reducedRhs A rho b1 b2 work = some (b1', work') ∧ Holds b1' VA.n (fun c => B1 c + ∑ k ∈ range VA.m, VA.entry k c * (R k * B2 k)) := by
  obtain ⟨w1, e1, g1⟩ := ewProd_holds hw h2 hr
  obtain ⟨v1, e2, g2⟩ := c36_atxpy hA 1 1 g1 h1.1 (Or.inr h1)
  refine ⟨v1, w1, ?_, g2.congr fun c _ => ?_⟩
  · unfold reducedRhs
    rw [hA.m, e1]; simp only [Option.bind_some]
    rw [e2]; rfl
  · rw [one_mul, one_mul, add_comm]
    congr 1
    exact sum_congr rfl fun k _ => by ring

/-- **C48** (equivalence): for non-zero step sizes, `(x, w)` solves the full KKT system with right-hand side `(b1, b2)` exactly when `x` solves the
reduced system with right-hand side `b1 + A'*diag(rho)*b2` and `w = rho*(A x - b2)`. -/
theorem c48_equiv {sigma : K} {rho X W B1 B2 : ℕ → K} (hr : ∀ k < VA.m, rho k ≠ 0) :
    (∀ r < VP.n + VA.m, ∑ c ∈ range (VP.n + VA.m), kktFull VP VA sigma (fun k => 1 / rho k) r c * cat VP.n X W c = cat VP.n B1 B2 r) ↔
      (∀ r < VP.n, ∑ c ∈ range VP.n, redEntry VP VA sigma rho r c * X c = B1 r + ∑ k ∈ range VA.m, VA.entry k r * (rho k * B2 k)) ∧
      ∀ k < VA.m, W k = rho k * ((∑ c ∈ range VP.n, VA.entry k c * X c) - B2 k) := by
  rw [kkt_rows]
  have hw : (∀ k < VA.m, (∑ c ∈ range VP.n, VA.entry k c * X c) - 1 / rho k * W k = B2 k) ↔ ∀ k < VA.m, W k = rho k * ((∑ c ∈ range VP.n, VA.entry k c * X c) - B2 k) := by
    refine forall₂_congr fun k hk => ?_
    have h0 := hr k hk
    constructor
    · intro h
      rw [← h, sub_sub_cancel, ← mul_assoc, mul_one_div_cancel h0, one_mul]
    · intro h
      rw [h, ← mul_assoc, one_div_mul_cancel h0]; ring
  rw [hw]
  refine and_congr_left fun h => forall₂_congr fun r _ => ?_
  rw [red_sum]
  have : ∑ k ∈ range VA.m, VA.entry k r * W k = (∑ k ∈ range VA.m, VA.entry k r * (rho k * ∑ c ∈ range VP.n, VA.entry k c * X c)) - ∑ k ∈ range VA.m, VA.entry k r * (rho k * B2 k) := by
    rw [← sum_sub_distrib]
    refine sum_congr rfl fun k hk => ?_
    rw [h k (mem_range.1 hk)]; ring
  rw [this]
  constructor <;> intro h' <;> linarith

/-- **C48** (what the indirect solver returns).  If the conjugate-gradient loop solves the reduced system exactly, the call returns
`(x, w)` for polishing and `(x, A x)` otherwise, where `(x, w)` solves the full KKT system. -/
theorem c48_solve (hA : Rep A VA) (hn : VA.n = VP.n) (sigma : K) {cg : Buf K → Buf K} {rho r1 r2 ywork : Buf K} {R B1 B2 : ℕ → K} (polish : Bool)
    (hr : Holds rho VA.m R) (h0 : ∀ k < VA.m, R k ≠ 0) (h1 : Holds r1 VA.n B1) (h2 : Holds r2 VA.m B2) (hw : VA.m ≤ ywork.size)
    (hcg : ∀ (b : Buf K) (B : ℕ → K), Holds b VP.n B → ∃ X, Holds (cg b) VP.n X ∧ ∀ r < VP.n, ∑ c ∈ range VP.n, redEntry VP VA sigma R r c * X c = B r) :
    ∃ r1' r2' X W, mklSolve cg A rho polish r1 r2 ywork = some (r1', r2') ∧
      (∀ r < VP.n + VA.m, ∑ c ∈ range (VP.n + VA.m), kktFull VP VA sigma (fun k => 1 / R k) r c * cat VP.n X W c = cat VP.n B1 B2 r) ∧
      Holds r1' VP.n X ∧ Holds r2' VA.m (if polish then W else fun k => ∑ c ∈ range VP.n, VA.entry k c * X c) := by
  obtain ⟨b1, w1, e1, g1⟩ := c48_rhs hA hr h1 h2 hw
  rw [hn] at g1
  obtain ⟨X, g2, g3⟩ := hcg b1 _ g1
  obtain ⟨r1', e2, g4⟩ := copyVec_holds g1.1 g2
  refine ⟨r1', ?_⟩
  have hx : Holds (cg b1) VA.n X := by rw [hn]; exact g2
  have hk : ∀ r < VP.n + VA.m, ∑ c ∈ range (VP.n + VA.m), kktFull VP VA sigma (fun k => 1 / R k) r c * cat VP.n X (fun k => R k * ((∑ c ∈ range VP.n, VA.entry k c * X c) - B2 k)) c =
      cat VP.n B1 B2 r := (c48_equiv h0).2 ⟨g3, fun k _ => rfl⟩
  cases polish with
  | true =>
    obtain ⟨s1, e3, g5⟩ := c36_axpy hA 1 (-1) hx h2.1 (Or.inr h2)
    obtain ⟨s2, e4, g6⟩ := ewProdIn_holds g5 hr
    refine ⟨s2, X, _, ?_, hk, g4, g6.congr fun k _ => ?_⟩
    · unfold mklSolve
      rw [e1]; simp only [Option.bind_some]
      rw [hA.n, hn, e2]; simp only [Option.bind_some, if_true]
      rw [e3]; simp only [Option.bind_some]
      rw [hA.m, e4]; rfl
    · simp only [if_true, hn]; ring
  | false =>
    obtain ⟨s1, e3, g5⟩ := c36_axpy hA (Y := fun _ => 0) 1 0 hx h2.1 (Or.inl rfl)
    refine ⟨s1, X, _, ?_, hk, g4, g5.congr fun k _ => ?_⟩
    · unfold mklSolve
      rw [e1]; simp only [Option.bind_some]
      rw [hA.n, hn, e2]; simp only [Option.bind_some, Bool.false_eq_true, if_false]
      rw [e3]; rfl
    · simp only [Bool.false_eq_true, if_false, hn]; ring

/-! ## Direct solver (C40) -/

/-- The ADMM equations for `x~`, `z~`: `z~ = A x~` and `(P + sigma*I) x~ + A' diag(rho) (A x~ - bz) = bx`.  The iteration calls the solver with
`bx = sigma*x - q` and `bz = z - y/rho`. -/
def AdmmEqs (VP VA : View K) (sigma : K) (rho bx bz X Z : ℕ → K) : Prop :=
  (∀ k < VA.m, Z k = ∑ c ∈ range VP.n, VA.entry k c * X c) ∧
  ∀ r < VP.n, (∑ c ∈ range VP.n, VP.symEntry r c * X c) + sigma * X r + ∑ k ∈ range VA.m, VA.entry k r * (rho k * ((∑ c ∈ range VP.n, VA.entry k c * X c) - bz k)) = bx r

/-- The arguments of a solve that never change: the ordering and the work arrays are as `init` leaves them (arrays allocated, not necessarily
initialised). -/
structure SolveArgs (perm : Buf ℤ) (bp sol : Buf K) (N : ℕ) (p : ℕ → ℕ) : Prop where
  perm : PermIs perm N p
  bp : N ≤ bp.size
  sol : N ≤ sol.size

theorem solve_aux {E : ℕ → ℕ → K} {n m : ℕ} {perm : Buf ℤ} {p : ℕ → ℕ} {bp sol b : Buf K} {B : ℕ → K} {q : Option (Buf K)} {sc : K} {R : ℕ → K}
    (ha : SolveArgs perm bp sol (n + m) p) {qsolve : Buf K → Option (Buf K)} (hq : SolvesExactly qsolve (n + m) fun i j => E (p i) (p j)) (hb : Holds b (n + m) B)
    (hR : Param2Is q sc m R) :
    (∃ (b' : Buf K) (S : ℕ → K), solveLinsys qsolve n m true b perm bp sol q sc = some b' ∧ Holds b' (n + m) S ∧ ∀ r < n + m, ∑ c ∈ range (n + m), E r c * S c = B r) ∧
    ∃ (b' : Buf K) (S : ℕ → K), solveLinsys qsolve n m false b perm bp sol q sc = some b' ∧ Holds b' (n + m) (fun k => if k < n then S k else B k + R (k - n) * S k) ∧
      ∀ r < n + m, ∑ c ∈ range (n + m), E r c * S c = B r := by
  refine ⟨?_, ?_⟩
  · obtain ⟨x', bp', S, e, h1, h2⟩ := ldlSolve_holds ha.perm.1 ha.perm.2.1 ha.perm.2.2 hq hb hb.1 ha.bp
    refine ⟨x', S, ?_, h1, h2⟩
    unfold solveLinsys
    rw [if_pos rfl]
    push_cast at e
    rw [e]; rfl
  · obtain ⟨x', bp', S, e, h1, h2⟩ := ldlSolve_holds ha.perm.1 ha.perm.2.1 ha.perm.2.2 hq hb ha.sol ha.bp
    obtain ⟨b1, e1, g1⟩ := forI_zero (hi := n) (s := b) (f := fun j b => (x'.rd j).bind fun v => b.wr j v)
      (fun j c => Holds c (n + m) fun k => if k < j then S k else B k) (hb.congr (by simp)) (by
        intro j c hj h
        rw [h1.rd (by omega)]
        simp only [Option.bind_some]
        rw [h.wr (by omega)]
        refine ⟨_, rfl, (h.set j (S j)).congr fun k _ => ?_⟩
        rw [Function.update_apply]
        by_cases hkj : k = j
        · subst hkj; rw [if_pos rfl, if_pos (by omega)]
        · rw [if_neg hkj]
          exact if_congr (by omega) rfl rfl)
    have hst : ∀ k < m, stepRd q sc (k : ℤ) = some (R k) := fun k hk => by
      unfold stepRd
      unfold Param2Is at hR
      cases q with
      | none => simp only at hR ⊢; rw [hR k hk]
      | some b => exact Holds.rd hR hk
    obtain ⟨b2, e2, g2⟩ := forI_zero (hi := m) (s := b1)
      (f := fun j b => (b.rd (j + (n : ℤ))).bind fun o => (stepRd q sc j).bind fun r => (x'.rd (j + (n : ℤ))).bind fun v => b.wr (j + (n : ℤ)) (o + r * v))
      (fun j c => Holds c (n + m) fun k => if k < n then S k else if k < n + j then B k + R (k - n) * S k else B k)
      (g1.congr fun k _ => by by_cases hk : k < n <;> simp [hk]) (by
        intro j c hj h
        have hc : ((j : ℤ) + (n : ℤ)) = ((j + n : ℕ) : ℤ) := by push_cast; rfl
        have v1 : (if j + n < n then S (j + n) else if j + n < n + j then B (j + n) + R (j + n - n) * S (j + n) else B (j + n)) = B (j + n) := by
          rw [if_neg (by omega), if_neg (by omega)]
        rw [hc, h.rd (by omega), hst j hj, h1.rd (by omega), v1]
        simp only [Option.bind_some]
        rw [h.wr (by omega)]
        refine ⟨_, rfl, (h.set (j + n) _).congr fun k _ => ?_⟩
        rw [Function.update_apply]
        by_cases hk1 : k = j + n
        · subst hk1
          have c1 : ¬ j + n < n := by omega
          have c2 : j + n < n + (j + 1) := by omega
          rw [if_pos rfl, if_neg c1, if_pos c2, Nat.add_sub_cancel]
        · rw [if_neg hk1]
          by_cases hk2 : k < n
          · rw [if_pos hk2, if_pos hk2]
          · rw [if_neg hk2, if_neg hk2]
            exact if_congr (by omega) rfl rfl)
    refine ⟨b2, S, ?_, g2.congr fun k hk => ?_, h2⟩
    · unfold solveLinsys
      rw [if_neg (by decide)]
      push_cast at e
      rw [e]; simp only [Option.bind_some]
      rw [e1]; simp only [Option.bind_some]
      exact e2
    · by_cases hk2 : k < n
      · rw [if_pos hk2, if_pos hk2]
      · rw [if_neg hk2, if_neg hk2, if_pos (by omega)]

/-- **C40**.  Build the stored KKT matrix with any ordering, apply any list of in-place updates, and let the factorisation solve systems with
the stored matrix (`W`) exactly.  Then the linear-system step returns `x~` in the first `n` and `z~` in the last `m` elements of the
caller's vector, and they satisfy the ADMM equations for the current data. -/
theorem c40_step (hP : Rep P VP) (hA : Rep A VA) (hsq : VP.m = VP.n) (hn : VA.n = VP.n) (ht : VP.Triu) (sigma : K)
    {q0 : Option (Buf K)} {sc0 : K} {R : ℕ → K} (hR : Param2Is q0 sc0 VA.m R) {perm : Buf ℤ} {p : ℕ → ℕ} {bp sol : Buf K} (ha : SolveArgs perm bp sol (VP.n + VA.m) p)
    {us : List (Upd K)} {D : KData K} (hc : Chain ⟨VP, VA, R⟩ us D) {rho : ℕ → K} (h0 : ∀ k < VA.m, rho k ≠ 0 ∧ D.R k = 1 / rho k) :
    ∃ G0 G W, buildKKT P A sigma q0 sc0 perm = some G0 ∧ runAll sigma G0 us = some G ∧ Rep G.KKT W ∧ W.Triu ∧ W.n = VP.n + VA.m ∧
      (∀ i < VP.n + VA.m, ∀ j < VP.n + VA.m, W.symEntry i j = kktFull D.P D.A sigma D.R (p i) (p j)) ∧
      ∀ (qsolve : Buf K → Option (Buf K)), SolvesExactly qsolve (VP.n + VA.m) W.symEntry →
        ∀ (q : Option (Buf K)) (sc : K), Param2Is q sc VA.m D.R → ∀ (b : Buf K) (Bx Bz : ℕ → K), Holds b (VP.n + VA.m) (cat VP.n Bx Bz) →
          ∃ b' X Z, solveLinsys qsolve VP.n VA.m false b perm bp sol q sc = some b' ∧ Holds b' (VP.n + VA.m) (cat VP.n X Z) ∧ AdmmEqs D.P D.A sigma rho Bx Bz X Z := by
  obtain ⟨G0, G, W, e0, e1, hW, hT, hWn, hE⟩ := c35_denotes hP hA hsq hn ht sigma hR ha.perm hc
  refine ⟨G0, G, W, e0, e1, hW, hT, hWn, hE, fun qsolve hq q sc hR' b Bx Bz hb => ?_⟩
  have hdim : D.P.n = VP.n ∧ D.A.m = VA.m := by
    have gen : ∀ {D0 D1 : KData K} {us : List (Upd K)}, Chain D0 us D1 → D1.P.n = D0.P.n ∧ D1.A.m = D0.A.m := by
      intro D0 D1 us h
      induction h with
      | nil D => exact ⟨rfl, rfl⟩
      | cons hu _ ih => cases hu <;> exact ih
    exact gen hc
  have hq' : SolvesExactly qsolve (VP.n + VA.m) fun i j => kktFull D.P D.A sigma D.R (p i) (p j) := fun b B hb => by
    obtain ⟨b', S, e, h1, h2⟩ := hq b B hb
    refine ⟨b', S, e, h1, fun i hi => ?_⟩
    rw [← h2 i hi]
    exact sum_congr rfl fun j hj => by simp only; rw [hE i hi j (mem_range.1 hj)]
  obtain ⟨_, b', S, e, h1, h2⟩ := solve_aux (E := kktFull D.P D.A sigma D.R) ha hq' hb hR'
  have hcat : ∀ k < VP.n + VA.m, S k = cat VP.n S (fun k => S (VP.n + k)) k := fun k _ => by
    unfold cat
    by_cases hk : k < VP.n
    · rw [if_pos hk]
    · rw [if_neg hk]; show S k = S (VP.n + (k - VP.n)); rw [Nat.add_sub_cancel' (not_lt.1 hk)]
  have h3 : ∀ r < D.P.n + D.A.m, ∑ c ∈ range (D.P.n + D.A.m), kktFull D.P D.A sigma D.R r c * cat D.P.n S (fun k => S (VP.n + k)) c = cat D.P.n Bx Bz r := by
    rw [hdim.1, hdim.2]
    intro r hr
    rw [← h2 r hr]
    exact sum_congr rfl fun c hc => by rw [← hcat c (mem_range.1 hc)]
  rw [kkt_rows, hdim.1, hdim.2] at h3
  have hZ : ∀ k < VA.m, Bz k + D.R k * S (VP.n + k) = ∑ c ∈ range VP.n, D.A.entry k c * S c := fun k hk => by rw [← h3.2 k hk]; ring
  have hw : ∀ k < VA.m, S (VP.n + k) = rho k * ((∑ c ∈ range VP.n, D.A.entry k c * S c) - Bz k) := fun k hk => by
    rw [← hZ k hk, (h0 k hk).2, add_sub_cancel_left, ← mul_assoc, mul_one_div_cancel (h0 k hk).1, one_mul]
  refine ⟨b', S, fun k => Bz k + D.R k * S (VP.n + k), e, h1.congr fun k hk => ?_, ?_⟩
  · unfold cat
    by_cases hk2 : k < VP.n
    · rw [if_pos hk2, if_pos hk2]
    · rw [if_neg hk2, if_neg hk2, if_neg hk2]
      show _ = Bz (k - VP.n) + D.R (k - VP.n) * S (VP.n + (k - VP.n))
      rw [Nat.add_sub_cancel' (not_lt.1 hk2)]
  · unfold AdmmEqs
    rw [hdim.1, hdim.2]
    refine ⟨hZ, fun r hr => ?_⟩
    rw [← h3.1 r hr]
    have := sigma_sum (VP := D.P) (sigma := sigma) (X := S) (r := r) (by rw [hdim.1]; exact hr)
    rw [hdim.1] at this
    rw [this]
    congr 1
    exact sum_congr rfl fun k hk => by rw [hw k (mem_range.1 hk)]

/-- **C40** (polishing): with `polishing` set, the same solver object returns the solution of its KKT system in place. -/
theorem c40_polish (hP : Rep P VP) (hA : Rep A VA) (hsq : VP.m = VP.n) (hn : VA.n = VP.n) (ht : VP.Triu) (sigma : K)
    {q0 : Option (Buf K)} {sc0 : K} {R : ℕ → K} (hR : Param2Is q0 sc0 VA.m R) {perm : Buf ℤ} {p : ℕ → ℕ} {bp sol : Buf K} (ha : SolveArgs perm bp sol (VP.n + VA.m) p) :
    ∃ G W, buildKKT P A sigma q0 sc0 perm = some G ∧ Rep G.KKT W ∧ W.Triu ∧ W.n = VP.n + VA.m ∧
      (∀ i < VP.n + VA.m, ∀ j < VP.n + VA.m, W.symEntry i j = kktFull VP VA sigma R (p i) (p j)) ∧
      ∀ (qsolve : Buf K → Option (Buf K)), SolvesExactly qsolve (VP.n + VA.m) W.symEntry →
        ∀ (b : Buf K) (B : ℕ → K), Holds b (VP.n + VA.m) B →
          ∃ b' S, solveLinsys qsolve VP.n VA.m true b perm bp sol q0 sc0 = some b' ∧ Holds b' (VP.n + VA.m) S ∧
            ∀ r < VP.n + VA.m, ∑ c ∈ range (VP.n + VA.m), kktFull VP VA sigma R r c * S c = B r := by
  obtain ⟨G, W, e0, hW, _, hWn, hT, hE⟩ := c34_stored hP hA hsq hn ht sigma hR ha.perm
  refine ⟨G, W, e0, hW, hT, hWn, hE, fun qsolve hq b B hb => ?_⟩
  have hq' : SolvesExactly qsolve (VP.n + VA.m) fun i j => kktFull VP VA sigma R (p i) (p j) := fun b B hb => by
    obtain ⟨b', S, e, h1, h2⟩ := hq b B hb
    refine ⟨b', S, e, h1, fun i hi => ?_⟩
    rw [← h2 i hi]
    exact sum_congr rfl fun j hj => by simp only; rw [hE i hi j (mem_range.1 hj)]
  exact (solve_aux (E := kktFull VP VA sigma R) ha hq' hb hR).1

/-! ## The hypotheses are met -/

example : (∃ v' work', mvTimes Demo.triu Demo.rect Demo.v2 10 Demo.v3 (Buf.fresh 3) (Buf.fresh 2) = some (v', work') ∧
      Holds v' 3 fun r => ∑ c ∈ range 3, redEntry Demo.triuV Demo.rectV 10 Demo.f2 r c * Demo.f3 c) ∧
    ∃ b1' work', reducedRhs Demo.rect Demo.v2 Demo.v3 Demo.v2 (Buf.fresh 2) = some (b1', work') ∧
      Holds b1' 3 (fun c => Demo.f3 c + ∑ k ∈ range 2, Demo.rectV.entry k c * (Demo.f2 k * Demo.f2 k)) :=
  ⟨c48_mv Demo.triu_rep Demo.rect_rep rfl rfl Demo.triu_triu 10 Demo.v2_holds Demo.v3_holds (by decide) (by decide),
    c48_rhs Demo.rect_rep Demo.v2_holds Demo.v3_holds Demo.v2_holds (by decide)⟩

example : ∃ dg' di', reducedDiag Demo.triu Demo.rect Demo.v2 10 (Buf.fresh 3) (Buf.fresh 3) = some (dg', di') ∧ Holds dg' 3 (fun c => redEntry Demo.triuV Demo.rectV 10 Demo.f2 c c) ∧
      Holds di' 3 (fun c => 1 / redEntry Demo.triuV Demo.rectV 10 Demo.f2 c c) :=
  c48_diag Demo.triu_rep Demo.rect_rep rfl Demo.triu_nodup Demo.rect_nodup 10 Demo.v2_holds (by decide) (by decide)

/-- `P = [2]`, `A = [1]`, `sigma = 1`, `rho = 1`, ordering `1, 0`. -/
def oneP : Csc ℚ := Demo.csc 1 1 [0, 1] [0] [2]
def onePV : View ℚ := Demo.view 1 1 [0, 1] [0] [2]
def oneA : Csc ℚ := Demo.csc 1 1 [0, 1] [0] [1]
def oneAV : View ℚ := Demo.view 1 1 [0, 1] [0] [1]
def onePerm (k : ℕ) : ℕ := 1 - k

theorem oneP_rep : Rep oneP onePV := Demo.csc_rep ⟨by decide, by decide, by decide⟩ (by decide) (by decide) (by decide)
theorem oneA_rep : Rep oneA oneAV := Demo.csc_rep ⟨by decide, by decide, by decide⟩ (by decide) (by decide) (by decide)
theorem oneP_triu : onePV.Triu := Demo.bounded (by decide)
theorem one_args : SolveArgs (K := ℚ) (Demo.buf [1, 0]) (Buf.fresh 2) (Buf.fresh 2) (1 + 1) onePerm := ⟨⟨⟨by decide, by decide⟩, by decide, by decide⟩, by decide, by decide⟩

/-- An exact solver for the permuted matrix `[-1 1; 1 3]`. -/
def oneSolve (b : Buf ℚ) : Option (Buf ℚ) := (b.rd 0).bind fun u => (b.rd 1).bind fun v => some (Demo.buf [(-3 * u + v) / 4, (u + v) / 4])

theorem oneSolve_exact {M : ℕ → ℕ → ℚ} (hM : ∀ i < 2, ∀ j < 2, M i j = kktFull onePV oneAV 1 (fun _ => 1) (onePerm i) (onePerm j)) : SolvesExactly oneSolve (1 + 1) M := by
  intro b B hb
  have h0 : b.rd 0 = some (B 0) := hb.rd (k := 0) (by decide)
  have h1 : b.rd 1 = some (B 1) := hb.rd (k := 1) (by decide)
  refine ⟨Demo.buf [(-3 * B 0 + B 1) / 4, (B 0 + B 1) / 4], _, by unfold oneSolve; rw [h0, h1]; rfl, Demo.buf_holds _, fun i hi => ?_⟩
  have k00 : M 0 0 = -1 := by rw [hM 0 (by decide) 0 (by decide)]; decide +kernel
  have k01 : M 0 1 = 1 := by rw [hM 0 (by decide) 1 (by decide)]; decide +kernel
  have k10 : M 1 0 = 1 := by rw [hM 1 (by decide) 0 (by decide)]; decide +kernel
  have k11 : M 1 1 = 3 := by rw [hM 1 (by decide) 1 (by decide)]; decide +kernel
  have : i = 0 ∨ i = 1 := by omega
  rcases this with rfl | rfl
  · simp [sum_range_succ, k00, k01]; ring
  · simp [sum_range_succ, k10, k11]; ring

example : ∃ b' X Z, solveLinsys oneSolve 1 1 false (Demo.buf [5, 7]) (Demo.buf [1, 0]) (Buf.fresh 2) (Buf.fresh 2) none 1 = some b' ∧ Holds b' (1 + 1) (cat 1 X Z) ∧
    AdmmEqs onePV oneAV 1 (fun _ => 1) (fun _ => 5) (fun _ => 7) X Z := by
  obtain ⟨_, _, W, _, _, _, _, _, hE, h⟩ := c40_step oneP_rep oneA_rep rfl rfl oneP_triu 1 (q0 := none) (sc0 := 1) (R := fun _ => 1) (fun _ _ => rfl) one_args (.nil _)
    (rho := fun _ => 1) (fun _ _ => ⟨one_ne_zero, by norm_num⟩)
  exact h oneSolve (oneSolve_exact hE) none 1 (fun _ _ => rfl) (Demo.buf [5, 7]) (fun _ => 5) (fun _ => 7) ⟨by decide, by decide +kernel⟩

/-- A conjugate-gradient loop for the one-variable reduced system `4 x = b`. -/
def oneCg (b : Buf ℚ) : Buf ℚ := Demo.buf [((b.cell 0).getD 0) / 4]

theorem one_red : redEntry onePV oneAV 1 (fun _ => 1) 0 0 = 4 := by decide +kernel

example : ∃ r1' r2' X W, mklSolve oneCg oneA (Demo.buf [1]) false (Demo.buf [5]) (Demo.buf [7]) (Buf.fresh 1) = some (r1', r2') ∧
    (∀ r < 1 + 1, ∑ c ∈ range (1 + 1), kktFull onePV oneAV 1 (fun _ => 1 / 1) r c * cat 1 X W c = cat 1 (fun _ => 5) (fun _ => 7) r) ∧
    Holds r1' 1 X ∧ Holds r2' 1 (fun k => ∑ c ∈ range 1, oneAV.entry k c * X c) :=
  c48_solve (VP := onePV) oneA_rep rfl 1 (R := fun _ => 1) (B1 := fun _ => 5) (B2 := fun _ => 7) false
    ⟨by decide, by decide⟩ (fun _ _ => one_ne_zero) ⟨by decide, by decide⟩ ⟨by decide, by decide⟩ (by decide) (by
      intro b B hb
      have h0 := hb.2 0 (by decide)
      refine ⟨fun _ => B 0 / 4, ⟨le_refl 1, fun k hk => ?_⟩, fun r hr => ?_⟩
      · have : k = 0 := Nat.lt_one_iff.1 hk
        subst this
        simp [oneCg, Demo.buf, h0]
      · have : r = 0 := Nat.lt_one_iff.1 hr
        subst this
        have e : ∑ c ∈ range 1, redEntry onePV oneAV 1 (fun _ => 1) 0 c * (B 0 / 4) = B 0 := by
          rw [Finset.sum_range_one, one_red]; ring
        exact e)

end Osqp.Csc
