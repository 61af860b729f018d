import Verif.Props.Deriv

/-!
# C57: examples and counterexamples
-/

set_option linter.unusedSectionVars false
namespace Osqp.Csc.Demo
open Finset

/-- A problem with the matrices `VP`, `VA` and the vectors given as lists. -/
def prob (VP VA : View ℚ) (l u x y : List ℚ) : Prob ℚ :=
  ⟨VP.n, VA.m, VP.symEntry, VA.entry, fun k => l.getD k default, fun k => u.getD k default, fun k => x.getD k default, fun k => y.getD k default⟩

/-- The workspace that stores it, without scaling. -/
def stored (P A : Csc ℚ) (n m : ℕ) (l u x y : List ℚ) : Stored ℚ := ⟨n, m, P, A, buf l, buf u, buf x, buf y, none⟩

theorem stored_is {P A : Csc ℚ} {VP VA : View ℚ} (hP : Rep P VP) (hA : Rep A VA) (hsq : VP.m = VP.n) (hn : VA.n = VP.n) (ht : VP.Triu) {l u x y : List ℚ}
    (hl : l.length = VA.m) (hu : u.length = VA.m) (hx : x.length = VP.n) (hy : y.length = VA.m) :
    StoredIs (stored P A VP.n VA.m l u x y) (prob VP VA l u x y) :=
  ⟨VP, VA, _, _, ⟨rfl, rfl, hP, hA, hsq, rfl, rfl, hn, ht, (buf_holds l).mono (le_of_eq hl.symm), (buf_holds u).mono (le_of_eq hu.symm), hl, hu, (buf_holds x).mono (le_of_eq hx.symm), (buf_holds y).mono (le_of_eq hy.symm)⟩,
    fun _ _ _ _ => rfl, fun _ _ _ _ => rfl, fun _ _ => rfl, fun _ _ => rfl⟩

/-- A square root that is exact at 0 and otherwise too large. -/
def bigSqrt (v : ℚ) : ℚ := if v = 0 then 0 else v + 1
theorem bigSqrt_ok (v : ℚ) (h : 0 ≤ v) : 0 ≤ bigSqrt v ∧ v ≤ bigSqrt v * bigSqrt v := by
  unfold bigSqrt
  split_ifs with h0
  · rw [h0]; norm_num
  · exact ⟨by linarith, by nlinarith⟩

/-! ## A problem with an equality row and an active upper bound -/

def gP : Csc ℚ := csc 2 2 [0, 1, 3] [0, 0, 1] [2, 1, 2]
def gPV : View ℚ := view 2 2 [0, 1, 3] [0, 0, 1] [2, 1, 2]
def gA : Csc ℚ := csc 2 2 [0, 1, 2] [0, 1] [1, 1]
def gAV : View ℚ := view 2 2 [0, 1, 2] [0, 1] [1, 1]
theorem gP_rep : Rep gP gPV := csc_rep ⟨by decide, by decide, by decide⟩ (by decide) (by decide) (by decide)
theorem gA_rep : Rep gA gAV := csc_rep ⟨by decide, by decide, by decide⟩ (by decide) (by decide) (by decide)
theorem gP_triu : gPV.Triu := bounded (by decide)

/-- Minimise `x0^2 + x0 x1 + x1^2 - 5 x0 - 4 x1` subject to `x0 = 1`, `x1 <= 1`: the solution is `(1, 1)` with multipliers `(2, 1)`. -/
def gProb : Prob ℚ := prob gPV gAV [1, -10 ^ 30] [1, 1] [1, 1] [2, 1]
def gStored : Stored ℚ := stored gP gA 2 2 [1, -10 ^ 30] [1, 1] [1, 1] [2, 1]
theorem gStored_is : StoredIs gStored gProb := stored_is gP_rep gA_rep rfl rfl gP_triu rfl rfl rfl rfl

theorem g_P : gProb.P 0 0 = 2 ∧ gProb.P 0 1 = 1 ∧ gProb.P 1 0 = 1 ∧ gProb.P 1 1 = 2 := by decide +kernel
theorem g_A : gProb.A 0 0 = 1 ∧ gProb.A 0 1 = 0 ∧ gProb.A 1 0 = 0 ∧ gProb.A 1 1 = 1 := by decide +kernel
theorem g_y : gProb.y 0 = 2 ∧ gProb.y 1 = 1 ∧ gProb.x 0 = 1 ∧ gProb.x 1 = 1 := by decide +kernel
theorem g_rows : gProb.Eq 0 ∧ ¬ gProb.Eq 1 ∧ ¬ gProb.Lo 1 ∧ gProb.Up 1 ∧ gProb.yu 1 = 1 ∧ gProb.Ax 1 - gProb.u 1 = 0 := by decide +kernel

theorem gProb_regular : gProb.Regular := by
  intro t ht
  obtain ⟨a1, a2, a3, a4⟩ := g_P
  obtain ⟨b1, b2, b3, b4⟩ := g_A
  obtain ⟨r1, r2, r3, r4, r5, r6⟩ := g_rows
  have hn : gProb.n = 2 := rfl
  have hm : gProb.m = 2 := rfl
  have s0 := ht.stat 0 (by decide)
  have s1 := ht.stat 1 (by decide)
  have u1 := ht.upper 1 (by decide) r4
  have e0 := ht.eq 0 (by decide) r1
  have l1 := ht.noLower 1 (by decide) r2 r3
  have l0 := ht.eqPos 0 (by decide) r1 (by rw [g_y.1]; norm_num)
  rw [r5, r6] at u1
  simp only [hn, hm, sum_range_succ, sum_range_zero, Dir.zero, a1, a2, a3, a4, b1, b2, b3, b4, l0, l1] at s0 s1 u1 e0
  have x0 : t.x 0 = 0 := by linarith
  have x1 : t.x 1 = 0 := by linarith
  refine ⟨fun j hj => ?_, fun r hr => ?_⟩
  · have : j = 0 ∨ j = 1 := by rw [hn] at hj; omega
    rcases this with rfl | rfl
    · exact x0
    · exact x1
  · have : r = 0 ∨ r = 1 := by rw [hm] at hr; omega
    rcases this with rfl | rfl
    · exact ⟨l0, by linarith⟩
    · exact ⟨l1, by linarith⟩

theorem gProb_y : ∀ r < gProb.m, gProb.Eq r → gProb.y r ≠ 0 := by
  intro r hr _
  have : r = 0 ∨ r = 1 := by have : gProb.m = 2 := rfl; omega
  rcases this with rfl | rfl
  · rw [g_y.1]; norm_num
  · rw [g_y.2.1]; norm_num

theorem gProb_pattern : Outputs gProb gP gA gPV gAV (buf [(0 : ℚ), 0]) (buf [some (0 : ℚ), some 0]) (buf [some (0 : ℚ), some 0]) :=
  ⟨⟨gP_rep.valid, gP_rep.p, gP_rep.i, gP_rep.x.1⟩, gP_triu, rfl, rfl, ⟨gA_rep.valid, gA_rep.p, gA_rep.i, gA_rep.x.1⟩, rfl, rfl, le_refl _, le_refl _, le_refl _⟩

/-- The hypotheses of `c57_adjoint_partial` and `c55_bounds` are met by this problem and an exact linear solver. -/
example : gProb.Regular ∧ (∀ r < gProb.m, gProb.Eq r → gProb.y r ≠ 0) ∧ SolverOk (exactEnv (2 * gProb.N) bigSqrt) (2 * gProb.N) (exactSv (2 * gProb.N)) ∧
    ExactSolver (2 * gProb.N) (exactSv (K := ℚ) (2 * gProb.N)) ∧ StoredIs gStored gProb ∧ Room gProb (DerivData.alloc (gProb.n : ℤ) (gProb.m : ℤ)) ∧
    Outputs gProb gP gA gPV gAV (buf [(0 : ℚ), 0]) (buf [some (0 : ℚ), some 0]) (buf [some (0 : ℚ), some 0]) :=
  ⟨gProb_regular, gProb_y, exactEnv_ok _ _, exactEnv_exact _, gStored_is, room_alloc _, gProb_pattern⟩

/-- Moving the right-hand side of the equality row and the upper bound moves the solution. -/
example : ∃ t, Linearised gProb (Data.dir gPV gAV ⟨fun _ => 0, fun _ => 0, fun _ => 0, fun _ => 1, fun _ => 1⟩) t ∧ t.x 0 = 1 ∧ t.x 1 = 1 ∧ t.yu 0 = -3 := by
  have hn : gProb.n = 2 := rfl
  have hm : gProb.m = 2 := rfl
  have h2 : ∀ i < 2, i = 0 ∨ i = 1 := by omega
  refine ⟨⟨fun _ => 1, fun _ => 0, fun _ => -3⟩, ?_, rfl, rfl, rfl⟩
  refine ⟨fun i hi => ?_, fun r hr h => ?_, fun r hr h => ?_, fun r hr h => ?_, fun r hr h1 h2 => rfl, fun r hr h3 h4 => ?_, fun r hr h1 h2 => rfl, fun r hr h3 h4 => ?_⟩
  · rcases h2 i hi with rfl | rfl <;> decide +kernel
  · rcases h2 r hr with rfl | rfl
    · exact absurd h (by decide +kernel)
    · exact absurd h (by decide +kernel)
  · rcases h2 r hr with rfl | rfl
    · exact absurd h (by decide +kernel)
    · decide +kernel
  · rcases h2 r hr with rfl | rfl
    · decide +kernel
    · exact absurd h (by decide +kernel)
  · rcases h2 r hr with rfl | rfl
    · exact absurd (by decide +kernel) h3
    · exact absurd (by decide +kernel) h4
  · rcases h2 r hr with rfl | rfl
    · exact absurd h4 (by decide +kernel)
    · exact absurd h3 (by decide +kernel)

/-! ## An equality row with multiplier zero -/

def eP : Csc ℚ := csc 1 1 [0, 1] [0] [1]
def ePV : View ℚ := view 1 1 [0, 1] [0] [1]
theorem eP_rep : Rep eP ePV := csc_rep ⟨by decide, by decide, by decide⟩ (by decide) (by decide) (by decide)
theorem eP_triu : ePV.Triu := bounded (by decide)

/-- Minimise `x^2 / 2` subject to `x = 0`: the solution is 0 with multiplier 0. -/
def eProb : Prob ℚ := prob ePV ePV [0] [0] [0] [0]
def eStored : Stored ℚ := stored eP eP 1 1 [0] [0] [0] [0]
theorem eStored_is : StoredIs eStored eProb := stored_is eP_rep eP_rep rfl rfl eP_triu rfl rfl rfl rfl

theorem eProb_regular : eProb.Regular := by
  intro t ht
  have hn : eProb.n = 1 := rfl
  have hm : eProb.m = 1 := rfl
  have hP : eProb.P 0 0 = 1 ∧ eProb.A 0 0 = 1 := by decide +kernel
  have hE : eProb.Eq 0 := by decide +kernel
  have s0 := ht.stat 0 (by decide)
  have e0 := ht.eq 0 (by decide) hE
  have l0 := ht.eqPos 0 (by decide) hE (by decide +kernel)
  simp only [hn, hm, sum_range_succ, sum_range_zero, Dir.zero, hP.1, hP.2, l0] at s0 e0
  have x0 : t.x 0 = 0 := by linarith
  refine ⟨fun j hj => ?_, fun r hr => ?_⟩
  · have : j = 0 := by rw [hn] at hj; omega
    rw [this]; exact x0
  · have : r = 0 := by rw [hm] at hr; omega
    rw [this]; exact ⟨l0, by linarith⟩

/-- **C57, counterexample** (multiplier zero).  The solution of `min x^2/2, x = b` at `b = 0` is `x = b`, so that the derivative
exists, but the code returns a value for `du` that is not a number, for every linear solver. -/
theorem _root_.Osqp.Csc.c57_zero_multiplier_counterexample :
    eProb.Regular ∧ (∃ t, Linearised eProb (Data.dir ePV ePV ⟨fun _ => 0, fun _ => 0, fun _ => 0, fun _ => 1, fun _ => 1⟩) t ∧ t.x 0 = 1) ∧
    ∀ {env : AdjEnv ℚ} {sv : Csc ℚ → (ℕ → ℚ) → ℕ → ℚ}, SolverOk env (2 * eProb.N) sv →
      ∃ D' q l u, adjCompute (adjSolve env) eStored (buf [1]) (buf [0]) (buf [0]) (DerivData.alloc 1 1) = some D' ∧
        getVec D' 1 (buf [0]) (buf [some 0]) (buf [some 0]) = some (q, l, u) ∧ u.rd 0 = some none := by
  refine ⟨eProb_regular, ⟨⟨fun _ => 1, fun _ => 0, fun _ => -1⟩, ?_, rfl⟩, fun {env sv} hE => ?_⟩
  · have h2 : ∀ i < 1, i = 0 := by omega
    refine ⟨fun i hi => ?_, fun r hr h => ?_, fun r hr h => ?_, fun r hr h => ?_, fun r hr h1 h2 => rfl, fun r hr h3 h4 => ?_, fun r hr h1 h2 => rfl, fun r hr h3 h4 => ?_⟩
    · cases h2 i hi; decide +kernel
    · cases h2 r hr; exact absurd h (by decide +kernel)
    · cases h2 r hr; exact absurd h (by decide +kernel)
    · cases h2 r hr; decide +kernel
    · cases h2 r hr; exact absurd (by decide +kernel) h3
    · cases h2 r hr; exact absurd h4 (by decide +kernel)
  · exact c57_zero_multiplier hE eStored_is (buf_holds [(1 : ℚ)]) (buf_holds [(0 : ℚ)]) (buf_holds [(0 : ℚ)]) (room_alloc eProb) (dq := buf [0]) (dl := buf [some 0]) (du := buf [some 0])
      (le_refl _) (le_refl _) (le_refl _) (r := 0) (by decide) (by decide +kernel) (by decide +kernel)

/-! ## A problem with a small curvature -/

def sP : Csc ℚ := csc 1 1 [0, 1] [0] [1 / 10 ^ 6]
def sPV : View ℚ := view 1 1 [0, 1] [0] [1 / 10 ^ 6]
def sA : Csc ℚ := csc 0 1 [0, 0] [] []
def sAV : View ℚ := view 0 1 [0, 0] [] []
theorem sP_rep : Rep sP sPV := csc_rep ⟨by decide, by decide, by decide⟩ (by decide) (by decide) (by decide)
theorem sA_rep : Rep sA sAV := csc_rep ⟨by decide, by decide, by decide⟩ (by decide) (by decide) (by decide)
theorem sP_triu : sPV.Triu := bounded (by decide)

/-- Minimise `1e-6 x^2 / 2 - 1e-6 x` without constraints: the solution is 1, and in general `-1e6 q`. -/
def smallProb : Prob ℚ := prob sPV sAV [] [] [1] []
def smallStored : Stored ℚ := stored sP sA 1 0 [] [] [1] []
theorem smallStored_is : StoredIs smallStored smallProb := stored_is sP_rep sA_rep rfl rfl sP_triu rfl rfl rfl rfl

theorem small_N : smallProb.N = 1 := by decide +kernel
theorem small_adj : smallProb.adj 0 0 = 1 ∧ smallProb.adj 0 1 = 1 / 10 ^ 6 ∧ smallProb.adj 1 0 = 1 / 10 ^ 6 ∧ smallProb.adj 1 1 = 0 := by decide +kernel

theorem smallProb_regular : smallProb.Regular := by
  intro t ht
  have hn : smallProb.n = 1 := rfl
  have hm : smallProb.m = 0 := rfl
  have hP : smallProb.P 0 0 = 1 / 10 ^ 6 := by decide +kernel
  have s0 := ht.stat 0 (by decide)
  simp only [hn, hm, sum_range_succ, sum_range_zero, Dir.zero, hP] at s0
  refine ⟨fun j hj => ?_, fun r hr => by rw [hm] at hr; omega⟩
  have : j = 0 := by rw [hn] at hj; omega
  rw [this]; linarith

/-- The refinement moves the solution by about one per round. -/
theorem small_iterates {solve : (ℕ → ℚ) → ℕ → ℚ} (hs : SolvesPerturbed smallProb solve) {R : ℕ → ℚ} (h0 : R 0 = -1) (h1 : R 1 = 0) : ∀ k ≤ 200,
    -1 ≤ refined 2 smallProb.adj solve R k 0 ∧ refined 2 smallProb.adj solve R k 0 ≤ 0 ∧
    -((k : ℚ) + 1) ≤ refined 2 smallProb.adj solve R k 1 ∧ refined 2 smallProb.adj solve R k 1 ≤ 0 := by
  obtain ⟨a1, a2, a3, a4⟩ := small_adj
  have hs0 : ∀ B, (1 + 1 / 10 ^ 6) * solve B 0 + 1 / 10 ^ 6 * solve B 1 = B 0 := fun B => by
    have := hs B 0 (by rw [small_N]; norm_num)
    simp only [small_N, sum_range_succ, sum_range_zero] at this
    norm_num [a1, a2, sum_range_succ] at this
    linarith
  have hs1 : ∀ B, 1 / 10 ^ 6 * solve B 0 - 1 / 10 ^ 6 * solve B 1 = B 1 := fun B => by
    have := hs B 1 (by rw [small_N]; norm_num)
    simp only [small_N, sum_range_succ, sum_range_zero] at this
    norm_num [a3, a4, sum_range_succ] at this
    linarith
  intro k
  induction k with
  | zero =>
    intro _
    have e0 := hs0 R
    have e1 := hs1 R
    rw [h0] at e0
    rw [h1] at e1
    show -1 ≤ solve R 0 ∧ solve R 0 ≤ 0 ∧ -(((0 : ℕ) : ℚ) + 1) ≤ solve R 1 ∧ solve R 1 ≤ 0
    have : solve R 0 = solve R 1 := by linarith
    refine ⟨by linarith, by linarith, by push_cast; linarith, by linarith⟩
  | succ k ih =>
    intro hk
    obtain ⟨b1, b2, b3, b4⟩ := ih (by omega)
    set a := refined 2 smallProb.adj solve R k 0 with ha
    set b := refined 2 smallProb.adj solve R k 1 with hb
    set ρ := residual 2 smallProb.adj R (refined 2 smallProb.adj solve R k) with hρ
    have r0 : ρ 0 = a + 1 / 10 ^ 6 * b + 1 := by
      rw [hρ]; unfold residual
      simp only [sum_range_succ, sum_range_zero, a1, a2, h0]; ring
    have r1 : ρ 1 = 1 / 10 ^ 6 * a := by
      rw [hρ]; unfold residual
      simp only [sum_range_succ, sum_range_zero, a3, a4, h1]; ring
    have e0 := hs0 ρ
    have e1 := hs1 ρ
    rw [r0] at e0
    rw [r1] at e1
    have hk' : (k : ℚ) + 1 ≤ 200 := by exact_mod_cast hk
    show -1 ≤ a - solve ρ 0 ∧ a - solve ρ 0 ≤ 0 ∧ -(((k + 1 : ℕ) : ℚ) + 1) ≤ b - solve ρ 1 ∧ b - solve ρ 1 ≤ 0
    push_cast
    refine ⟨by linarith, by linarith, by linarith, by linarith⟩

/-- **C57, counterexample** (refinement).  The derivative of the solution of this problem with respect to `q` is `-1e6`.  With
an exact linear solver for the perturbed system, the 200 rounds of refinement end at a value between -201 and 0, which the
code returns without an error. -/
theorem _root_.Osqp.Csc.c57_counterexample :
    smallProb.Regular ∧ (∃ t, Linearised smallProb (Data.dir sPV sAV ⟨fun _ => 0, fun _ => 1, fun _ => 0, fun _ => 0, fun _ => 0⟩) t ∧ t.x 0 = -10 ^ 6) ∧
    ∀ {env : AdjEnv ℚ} {sv : Csc ℚ → (ℕ → ℚ) → ℕ → ℚ}, SolverOk env (2 * smallProb.N) sv → ExactSolver (2 * smallProb.N) sv →
      ∃ D' q l u v, adjCompute (adjSolve env) smallStored (buf [1]) (buf []) (buf []) (DerivData.alloc 1 0) = some D' ∧
        getVec D' 1 (buf [0]) (buf []) (buf []) = some (q, l, u) ∧ q.rd 0 = some v ∧ -201 ≤ v ∧ v ≤ 0 := by
  refine ⟨smallProb_regular, ⟨⟨fun _ => -10 ^ 6, fun _ => 0, fun _ => 0⟩, ?_, rfl⟩, fun {env sv} hE hX => ?_⟩
  · refine ⟨fun i hi => ?_, fun r hr => absurd hr (Nat.not_lt_zero r), fun r hr => absurd hr (Nat.not_lt_zero r), fun r hr => absurd hr (Nat.not_lt_zero r),
      fun r hr => absurd hr (Nat.not_lt_zero r), fun r hr => absurd hr (Nat.not_lt_zero r), fun r hr => absurd hr (Nat.not_lt_zero r), fun r hr => absurd hr (Nat.not_lt_zero r)⟩
    have : i = 0 := by have : smallProb.n = 1 := rfl; omega
    cases this; decide +kernel
  · obtain ⟨D', solve, k, Z, e, -, hd, hR, hS⟩ := run_holds hE smallStored_is (buf_holds [(1 : ℚ)]) (buf_holds ([] : List ℚ)) (buf_holds ([] : List ℚ)) (room_alloc smallProb)
    obtain ⟨q, l, u, e2, h3, -⟩ := getVec_holds hd (dq := buf [0]) (dl := buf []) (du := buf []) (le_refl _) (le_refl _) (le_refl _)
    obtain ⟨-, -, g1, g2⟩ := small_iterates (hS hX) (R := smallProb.rhsF (fun k => [(1 : ℚ)].getD k default) (fun k => ([] : List ℚ).getD k default) (fun k => ([] : List ℚ).getD k default))
      (by decide +kernel) (by decide +kernel) k hR.le
    have hk : (k : ℚ) ≤ 200 := by exact_mod_cast hR.le
    have hz : smallProb.zx Z 0 = refined 2 smallProb.adj solve (smallProb.rhsF (fun k => [(1 : ℚ)].getD k default) (fun k => ([] : List ℚ).getD k default) (fun k => ([] : List ℚ).getD k default)) k 1 := by
      unfold Prob.zx
      rw [hR.eq, small_N]
    exact ⟨D', q, l, u, _, e, e2, h3.rd (k := 0) (by decide), by rw [hz]; linarith, by rw [hz]; exact g2⟩

/-- The solver of the hypotheses exists. -/
example : SolverOk (exactEnv (2 * smallProb.N) bigSqrt) (2 * smallProb.N) (exactSv (2 * smallProb.N)) ∧ ExactSolver (2 * smallProb.N) (exactSv (K := ℚ) (2 * smallProb.N)) :=
  ⟨exactEnv_ok _ _, exactEnv_exact _⟩

end Osqp.Csc.Demo
