import Verif.Props.Pardiso
import Verif.Props.Mkl
import Verif.Vm.QdldlLemmas

/-!
# The step does not depend on the linear solver (C80)

`AdmmEqs` are the equations of a step (`Props/LinStep.lean`), `SolvesExactly` is the contract of a factorisation (QDLDL), `Pardiso.Exact` that of PARDISO, `Spec.Honest` that of MKL's
conjugate-gradient routine.  A history of the built-in direct solver is `buildKKT` followed by the updates `us`, one of the PARDISO interface is `Pardiso.Reach`, one of the
conjugate-gradient interface is `MklHist`.
-/

set_option linter.unusedSectionVars false
namespace Osqp.Backends
open Osqp.Csc Finset Spec

universe u
variable {K : Type u} [Field K] [LinearOrder K] [IsStrictOrderedRing K] {VP VA : View K} {P A : Csc K} {sigma : K}

/-- The stored upper triangle belongs to a positive semidefinite matrix. -/
def Convex (V : View K) : Prop := ∀ e : ℕ → K, 0 ≤ ∑ r ∈ range V.n, e r * ∑ c ∈ range V.n, V.symEntry r c * e c

/-- How far `X` is from satisfying row `r` of the equations of a step. -/
def stepDefect (VP VA : View K) (sigma : K) (rho bx bz X : ℕ → K) (r : ℕ) : K :=
  (∑ c ∈ range VP.n, VP.symEntry r c * X c) + sigma * X r + (∑ k ∈ range VA.m, VA.entry k r * (rho k * ((∑ c ∈ range VP.n, VA.entry k c * X c) - bz k))) - bx r

theorem defect_sub (rho bx bz X Y : ℕ → K) (r : ℕ) :
    stepDefect VP VA sigma rho bx bz Y r - stepDefect VP VA sigma rho bx bz X r =
      (∑ c ∈ range VP.n, VP.symEntry r c * (Y c - X c)) + sigma * (Y r - X r) + ∑ k ∈ range VA.m, VA.entry k r * (rho k * ∑ c ∈ range VP.n, VA.entry k c * (Y c - X c)) := by
  unfold stepDefect
  have h1 : ∑ c ∈ range VP.n, VP.symEntry r c * (Y c - X c) = (∑ c ∈ range VP.n, VP.symEntry r c * Y c) - ∑ c ∈ range VP.n, VP.symEntry r c * X c := by
    rw [← sum_sub_distrib]; exact sum_congr rfl fun _ _ => by ring
  have h2 : ∑ k ∈ range VA.m, VA.entry k r * (rho k * ∑ c ∈ range VP.n, VA.entry k c * (Y c - X c)) =
      (∑ k ∈ range VA.m, VA.entry k r * (rho k * ((∑ c ∈ range VP.n, VA.entry k c * Y c) - bz k))) -
        ∑ k ∈ range VA.m, VA.entry k r * (rho k * ((∑ c ∈ range VP.n, VA.entry k c * X c) - bz k)) := by
    rw [← sum_sub_distrib]
    refine sum_congr rfl fun k _ => ?_
    have : ∑ c ∈ range VP.n, VA.entry k c * (Y c - X c) = (∑ c ∈ range VP.n, VA.entry k c * Y c) - ∑ c ∈ range VP.n, VA.entry k c * X c := by
      rw [← sum_sub_distrib]; exact sum_congr rfl fun _ _ => by ring
    rw [this]; ring
  rw [h1, h2]; ring

/-- **C80** (stability of a step).  For a convex problem, with `sigma > 0` and step sizes that are not negative, the distance of any `Y` from the solution of the step is at most its
defect divided by `sigma` (in the Euclidean norm). -/
theorem c80_error (convex : Convex VP) (pos : 0 < sigma) {rho bx bz X Z Y : ℕ → K} (hr : ∀ k < VA.m, 0 ≤ rho k) (h : AdmmEqs VP VA sigma rho bx bz X Z) :
    sigma ^ 2 * ∑ r ∈ range VP.n, (Y r - X r) ^ 2 ≤ ∑ r ∈ range VP.n, stepDefect VP VA sigma rho bx bz Y r ^ 2 := by
  set e : ℕ → K := fun r => Y r - X r with he
  set q : ℕ → K := fun r => stepDefect VP VA sigma rho bx bz Y r with hq
  have h0 : ∀ r < VP.n, q r = (∑ c ∈ range VP.n, VP.symEntry r c * e c) + sigma * e r + ∑ k ∈ range VA.m, VA.entry k r * (rho k * ∑ c ∈ range VP.n, VA.entry k c * e c) := fun r hr' => by
    have := defect_sub (VP := VP) (VA := VA) (sigma := sigma) rho bx bz X Y r
    have z : stepDefect VP VA sigma rho bx bz X r = 0 := by unfold stepDefect; rw [h.2 r hr', sub_self]
    rw [z, sub_zero] at this
    exact this
  have h1 : ∑ r ∈ range VP.n, e r * q r = (∑ r ∈ range VP.n, e r * ∑ c ∈ range VP.n, VP.symEntry r c * e c) + sigma * (∑ r ∈ range VP.n, e r ^ 2) +
      ∑ k ∈ range VA.m, rho k * (∑ c ∈ range VP.n, VA.entry k c * e c) ^ 2 := by
    have s3 : ∑ k ∈ range VA.m, rho k * (∑ c ∈ range VP.n, VA.entry k c * e c) ^ 2 =
        ∑ r ∈ range VP.n, e r * ∑ k ∈ range VA.m, VA.entry k r * (rho k * ∑ c ∈ range VP.n, VA.entry k c * e c) := by
      simp_rw [mul_sum (s := range VA.m)]
      rw [sum_comm]
      refine sum_congr rfl fun k _ => ?_
      rw [pow_two, ← mul_assoc, mul_comm, sum_mul]
      exact sum_congr rfl fun r _ => by ring
    rw [s3, mul_sum, ← sum_add_distrib, ← sum_add_distrib]
    exact sum_congr rfl fun r hr' => by rw [h0 r (mem_range.1 hr')]; ring
  have h2 : sigma * (∑ r ∈ range VP.n, e r ^ 2) ≤ ∑ r ∈ range VP.n, e r * q r := by
    rw [h1]
    have a := convex e
    have b : 0 ≤ ∑ k ∈ range VA.m, rho k * (∑ c ∈ range VP.n, VA.entry k c * e c) ^ 2 := sum_nonneg fun k hk => mul_nonneg (hr k (mem_range.1 hk)) (sq_nonneg _)
    linarith
  have h3 : 2 * (sigma * ∑ r ∈ range VP.n, e r * q r) ≤ sigma ^ 2 * (∑ r ∈ range VP.n, e r ^ 2) + ∑ r ∈ range VP.n, q r ^ 2 := by
    rw [mul_sum, mul_sum, mul_sum, ← sum_add_distrib]
    exact sum_le_sum fun r _ => by nlinarith [sq_nonneg (sigma * e r - q r)]
  have h4 := mul_le_mul_of_nonneg_left h2 pos.le
  have h5 : sigma * (sigma * ∑ r ∈ range VP.n, e r ^ 2) = sigma ^ 2 * ∑ r ∈ range VP.n, e r ^ 2 := by ring
  show sigma ^ 2 * (∑ r ∈ range VP.n, e r ^ 2) ≤ ∑ r ∈ range VP.n, q r ^ 2
  linarith

/-- **C80** (uniqueness).  The equations of a step of a convex problem have at most one solution. -/
theorem c80_unique (convex : Convex VP) (pos : 0 < sigma) {rho bx bz X Z X' Z' : ℕ → K} (hr : ∀ k < VA.m, 0 ≤ rho k) (h : AdmmEqs VP VA sigma rho bx bz X Z)
    (h' : AdmmEqs VP VA sigma rho bx bz X' Z') : (∀ r < VP.n, X' r = X r) ∧ ∀ k < VA.m, Z' k = Z k := by
  have z : ∑ r ∈ range VP.n, stepDefect VP VA sigma rho bx bz X' r ^ 2 = 0 := sum_eq_zero fun r hr' => by
    unfold stepDefect; rw [h'.2 r (mem_range.1 hr'), sub_self]; ring
  have hb := c80_error (Y := X') convex pos hr h
  rw [z] at hb
  have hs : ∑ r ∈ range VP.n, (X' r - X r) ^ 2 = 0 := by
    refine le_antisymm ?_ (sum_nonneg fun _ _ => sq_nonneg _)
    by_contra hc
    exact absurd hb (not_le.2 (mul_pos (pow_pos pos 2) (not_le.1 hc)))
  have hx : ∀ r < VP.n, X' r = X r := fun r hr' => by
    have := (sum_eq_zero_iff_of_nonneg fun _ _ => sq_nonneg _).1 hs r (mem_range.2 hr')
    exact sub_eq_zero.1 (pow_eq_zero_iff (two_ne_zero) |>.1 this)
  refine ⟨hx, fun k hk => ?_⟩
  rw [h.1 k hk, h'.1 k hk]
  exact sum_congr rfl fun c hc => by rw [hx c (mem_range.1 hc)]

/-- **C80** (direct solvers).  If the built-in direct solver and the PARDISO interface, each after any history, hold the same data, they write the same numbers for the same right-hand
side whenever PARDISO reports success.  Missing: histories with the update that loses a diagonal term (`Pardiso.c77_lost`), which `Pardiso.Reach` leaves out. -/
theorem c80_direct_partial (hP : Rep P VP) (hA : Rep A VA) (hsq : VP.m = VP.n) (hn : VA.n = VP.n) (ht : VP.Triu) (pos : 0 < sigma)
    {q0 : Option (Buf K)} {sc0 : K} {R : ℕ → K} (hR : Param2Is q0 sc0 VA.m R) {perm : Buf ℤ} {p : ℕ → ℕ} {bp sol : Buf K} (ha : SolveArgs perm bp sol (VP.n + VA.m) p)
    {us : List (Upd K)} {D : KData K} (hc : Chain ⟨VP, VA, R⟩ us D) {rho : ℕ → K} (h0 : ∀ k < VA.m, 0 < rho k ∧ D.R k = 1 / rho k) (convex : Convex D.P)
    {lib : Pardiso.Lib K} (hs : Pardiso.Exact lib) {vec : Bool} {s : Pardiso.Solver K} (hist : Pardiso.Reach lib sigma vec s ⟨D.P, D.A, D.R⟩) :
    ∃ G0 G W, buildKKT P A sigma q0 sc0 perm = some G0 ∧ runAll sigma G0 us = some G ∧ Rep G.KKT W ∧
      (∀ i < VP.n + VA.m, ∀ j < VP.n + VA.m, W.symEntry i j = kktFull D.P D.A sigma D.R (p i) (p j)) ∧
      ∀ (qsolve : Buf K → Option (Buf K)), SolvesExactly qsolve (VP.n + VA.m) W.symEntry →
        ∀ (q : Option (Buf K)) (sc : K), Param2Is q sc VA.m D.R → ∀ (b : Buf K) (Bx Bz : ℕ → K), Holds b (VP.n + VA.m) (cat VP.n Bx Bz) →
          ∀ (b2 : Buf K) (s' : Pardiso.Solver K), Pardiso.solve lib s b = some (0, b2, s') →
            ∃ b1 S, solveLinsys qsolve VP.n VA.m false b perm bp sol q sc = some b1 ∧ Holds b1 (VP.n + VA.m) S ∧ Holds b2 (VP.n + VA.m) S := by
  have hdim : D.P.n = VP.n ∧ D.A.m = VA.m := by
    have gen : ∀ {D0 D1 : KData K} {us : List (Upd K)}, Chain D0 us D1 → D1.P.n = D0.P.n ∧ D1.A.m = D0.A.m := by
      intro D0 D1 us h
      induction h with
      | nil D => exact ⟨rfl, rfl⟩
      | cons hu _ ih => cases hu <;> exact ih
    exact gen hc
  obtain ⟨G0, G, W, e0, e1, hW, -, -, hE, hstep⟩ := c40_step hP hA hsq hn ht sigma hR ha hc (rho := rho) (fun k hk => ⟨(h0 k hk).1.ne', (h0 k hk).2⟩)
  refine ⟨G0, G, W, e0, e1, hW, hE, fun qsolve hq q sc hq2 b Bx Bz hb b2 s' e2 => ?_⟩
  obtain ⟨b1, X, Z, f1, f2, f3⟩ := hstep qsolve hq q sc hq2 b Bx Bz hb
  obtain ⟨code, b', s'', g1, g2⟩ := Pardiso.c77_step_partial hs hist (rho := rho) (fun k hk => ⟨(h0 k (hdim.2 ▸ hk)).1.ne', (h0 k (hdim.2 ▸ hk)).2⟩)
    (b := b) (Bx := Bx) (Bz := Bz) (by show Holds b (D.P.n + D.A.m) _; rw [hdim.1, hdim.2]; exact hb)
  rw [e2] at g1
  simp only [Option.some.injEq, Prod.mk.injEq] at g1
  obtain ⟨rfl, rfl, rfl⟩ := g1
  rcases g2 with ⟨c, _⟩ | ⟨_, X', Z', k1, k2⟩
  · cases c
  · obtain ⟨u1, u2⟩ := c80_unique convex pos (fun k hk => (h0 k (hdim.2 ▸ hk)).1.le) f3 k2
    refine ⟨b1, _, f1, f2, ?_⟩
    have k1 : Holds b2 (D.P.n + D.A.m) (cat D.P.n X' Z') := k1
    rw [hdim.1, hdim.2] at k1
    rw [hdim.1] at u1; rw [hdim.2] at u2
    refine k1.congr fun k hk => ?_
    unfold cat
    by_cases c : k < VP.n
    · rw [if_pos c, if_pos c]; exact u1 k c
    · rw [if_neg c, if_neg c]; exact u2 _ (by omega)

/-! ## The indirect solver -/

section
open Matrix
variable {n m : ℕ} {Pp : Pat n n} {Ap : Pat m n} {sqrt : K → K} {d : Mkl.Dcg n K}

theorem psd_convex {v : Vec K Pp.nnz} (hP : Vm.ViewOf VP Pp v) (ht : ∀ k, Pp.row k ≤ Pp.col k) (h : PSD (denseSym Pp v)) : Convex VP := by
  intro e
  have := h fun j => e j
  rw [hP.n]
  rw [← Fin.sum_univ_eq_sum_range (fun r => e r * ∑ c ∈ range n, VP.symEntry r c * e c)]
  refine le_of_le_of_eq this ?_
  unfold dotProduct mulVec dotProduct
  refine Finset.sum_congr rfl fun r _ => ?_
  rw [← Fin.sum_univ_eq_sum_range (fun c => VP.symEntry r c * e c)]
  exact congrArg _ (Finset.sum_congr rfl fun c _ => by rw [hP.symEntry ht])

theorem defect_link {g : Given Pp Ap K} (hP : Vm.ViewOf VP Pp g.Px) (hA : Vm.ViewOf VA Ap g.Ax) (ht : ∀ k, Pp.row k ≤ Pp.col k) (b1 : Vec K n) (b2 : Vec K m) (x : Vec K n) (j : Fin n) :
    stepDefect VP VA g.st.sigma (ext g.rho) (ext b1) (ext b2) (ext x) j = g.defect b1 b2 x j := by
  unfold stepDefect Given.defect
  rw [hP.n, hA.m]
  simp only [Pi.add_apply, Pi.sub_apply, Pi.smul_apply, smul_eq_mul, ext_val]
  have s1 : ∑ c ∈ range n, VP.symEntry j c * ext x c = (denseSym Pp g.Px *ᵥ x) j := by
    rw [← Fin.sum_univ_eq_sum_range (fun c => VP.symEntry j c * ext x c)]
    exact Finset.sum_congr rfl fun c _ => by rw [hP.symEntry ht, ext_val]
  have s2 : ∀ i : Fin m, ∑ c ∈ range n, VA.entry i c * ext x c = (dense Ap g.Ax *ᵥ x) i := fun i => by
    rw [← Fin.sum_univ_eq_sum_range (fun c => VA.entry i c * ext x c)]
    exact Finset.sum_congr rfl fun c _ => by rw [hA.entry, ext_val]
  have s3 : ∑ k ∈ range m, VA.entry k j * (ext g.rho k * ((∑ c ∈ range n, VA.entry k c * ext x c) - ext b2 k)) =
      ((dense Ap g.Ax)ᵀ *ᵥ (fun i => g.rho i * ((dense Ap g.Ax *ᵥ x) i - b2 i))) j := by
    rw [← Fin.sum_univ_eq_sum_range (fun k => VA.entry k j * (ext g.rho k * ((∑ c ∈ range n, VA.entry k c * ext x c) - ext b2 k)))]
    exact Finset.sum_congr rfl fun i _ => by rw [hA.entry, ext_val, ext_val, s2]; rfl
  rw [s1, s3]

/-- **C80** (indirect solver).  After any history, a solve of the MKL conjugate-gradient interface that reports success differs from the exact step of the same data, which the direct
solvers compute, by at most `sqrt n * eps / sigma`, where `eps` is a tolerance this solve may use.  Missing: success with code 0 (`Mkl.c76_form`), which MKL
reports without a bound on the residual. -/
theorem c80_indirect_partial (hd : Spec.Honest d) {g : Given Pp Ap K} {s s' : Mkl.Solver Pp Ap K} {b1 : Vec K n} {b2 : Vec K m} {a : Mkl.Args K} {r : Vec K n × Vec K m}
    (hist : MklHist sqrt d g s) (call : Mkl.Solves sqrt d s b1 b2 a 2 r s') (pol : g.polish = false)
    (hP : Vm.ViewOf VP Pp g.Px) (hA : Vm.ViewOf VA Ap g.Ax) (ht : ∀ k, Pp.row k ≤ Pp.col k) (psd : PSD (denseSym Pp g.Px)) (pos : 0 < g.st.sigma) (hr : ∀ i, 0 ≤ g.rho i)
    {X Z : ℕ → K} (exact : AdmmEqs VP VA g.st.sigma (ext g.rho) (ext b1) (ext b2) X Z) :
    ∃ eps, g.Tolerance sqrt b1 b2 a s'.tol.reduction_factor eps ∧ g.st.sigma ^ 2 * ∑ j : Fin n, (r.1 j - X j) ^ 2 ≤ n * eps ^ 2 ∧
      ∀ i : Fin m, r.2 i - Z i = ∑ j : Fin n, dense Ap g.Ax i j * (r.1 j - X j) := by
  obtain ⟨eps, h1, h2, h3, h4⟩ := Mkl.c76_solution_partial hd hist call
  refine ⟨eps, h1, ?_, fun i => ?_⟩
  · have key := c80_error (Y := ext r.1) (psd_convex hP ht psd) pos (fun k hk => by
      have hk' : k < m := hA.m ▸ hk
      have := hr ⟨k, hk'⟩
      rwa [← ext_val g.rho ⟨k, hk'⟩] at this) exact
    rw [hP.n, ← Fin.sum_univ_eq_sum_range (fun j => (ext r.1 j - X j) ^ 2), ← Fin.sum_univ_eq_sum_range (fun j => stepDefect VP VA g.st.sigma (ext g.rho) (ext b1) (ext b2) (ext r.1) j ^ 2)] at key
    simp only [ext_val] at key
    refine key.trans ?_
    have : (n : K) * eps ^ 2 = ∑ _j : Fin n, eps ^ 2 := by simp
    rw [this]
    refine Finset.sum_le_sum fun j _ => ?_
    rw [defect_link hP hA ht]
    exact sq_le_sq' (abs_lt.1 (h3 j)).1.le (abs_lt.1 (h3 j)).2.le
  · rw [h4, pol]
    simp only [Bool.false_eq_true, if_false]
    rw [exact.1 i (by rw [hA.m]; exact i.2), hP.n, ← Fin.sum_univ_eq_sum_range (fun c => VA.entry i c * X c)]
    unfold mulVec dotProduct
    rw [← Finset.sum_sub_distrib]
    exact Finset.sum_congr rfl fun j _ => by rw [hA.entry]; ring
end

/-! ## Concrete cases -/

theorem one_convex : Convex onePV := fun e => by
  have h : onePV.symEntry 0 0 = 2 := by decide +kernel
  simp only [show onePV.n = 1 from rfl, sum_range_one, h]
  nlinarith [sq_nonneg (e 0)]

/-- `P = [2]`, `A = [1]`, `sigma = rho = 1`: both direct solvers give `x = z = 3` for the right-hand side `(5, 7)`. -/
example : ∃ s b1 b2 s' S, solveLinsys oneSolve 1 1 false (Demo.buf [5, 7]) (Demo.buf [1, 0]) (Buf.fresh 2) (Buf.fresh 2) none 1 = some b1 ∧
    Pardiso.solve Pardiso.two s (Demo.buf [5, 7]) = some (0, b2, s') ∧ Holds b1 (1 + 1) S ∧ Holds b2 (1 + 1) S ∧ b1.rd 0 = some 3 := by
  obtain ⟨⟨s, b2, s'⟩, h⟩ := Option.isSome_iff_exists.1 (show ((Pardiso.created (Pardiso.init Pardiso.two oneP oneA none 1 1 false true)).bind fun s =>
    (Pardiso.solve Pardiso.two s (Demo.buf [5, 7])).bind fun r => if r.1 = 0 then some (s, r.2.1, r.2.2) else none).isSome = true by decide +kernel)
  simp only [Option.bind_eq_some_iff, Option.ite_none_right_eq_some, Option.some.injEq, Prod.mk.injEq] at h
  obtain ⟨s, e1, ⟨code, b', s''⟩, e2, rfl, rfl, rfl, rfl⟩ := h
  have r1 := Pardiso.Reach.init (vec := false) (rho_vec := none) (rho := 1) oneP_rep oneA_rep Pardiso.one_fits (r := fun _ => 1) (fun _ _ => rfl) rfl (Pardiso.created_some e1)
  have one : (fun _ : ℕ => (1 : ℚ) / 1) = fun _ => 1 := by funext; norm_num
  rw [one] at r1
  obtain ⟨G0, G, W, f0, f1, hW, hE, hS⟩ := c80_direct_partial (P := oneP) (A := oneA) (VP := onePV) (VA := oneAV) oneP_rep oneA_rep rfl rfl oneP_triu one_pos (q0 := none) (sc0 := 1)
    (R := fun _ => 1) (fun _ _ => rfl) one_args (.nil _) (rho := fun _ => 1) (fun _ _ => ⟨one_pos, by norm_num⟩) one_convex Pardiso.two_exact r1
  obtain ⟨b1, S, k1, k2, k3⟩ := hS oneSolve (oneSolve_exact hE) none 1 (fun _ _ => rfl) (Demo.buf [5, 7]) (fun _ => 5) (fun _ => 7) ⟨by decide, by decide +kernel⟩ _ _ e2
  refine ⟨s, b1, _, _, S, k1, e2, k2, k3, ?_⟩
  have : (solveLinsys oneSolve 1 1 false (Demo.buf [5, 7]) (Demo.buf [1, 0]) (Buf.fresh 2) (Buf.fresh 2) none 1).bind (·.rd 0) = some 3 := by decide +kernel
  rw [show solveLinsys oneSolve 1 1 false (Demo.buf [5, 7]) (Demo.buf [1, 0]) (Buf.fresh 2) (Buf.fresh 2) none 1 = some b1 from k1] at this
  exact this

/-- The views of the matrices of the example of C76. -/
def exPV : View ℚ := Demo.view 2 2 [0, 1, 2] [0, 1] [1, 3]
def exAV : View ℚ := Demo.view 1 2 [0, 1, 1] [0] [1]

theorem exP_view : Vm.ViewOf exPV Mkl.exP Mkl.exPx := ⟨⟨by decide, by decide, by decide⟩, rfl, rfl, rfl, by decide +kernel⟩
theorem exA_view : Vm.ViewOf exAV Mkl.exA Mkl.exAx := ⟨⟨by decide, by decide, by decide⟩, rfl, rfl, rfl, by decide +kernel⟩

example : ∃ s' r, Mkl.Solves id (Mkl.refDcg 2 ℚ) (Mkl.exSolver false 1 20) Mkl.exB1 Mkl.exB2 Mkl.exArgs 2 r s' ∧
    ∃ eps, (Mkl.exGiven 1 20).Tolerance id Mkl.exB1 Mkl.exB2 Mkl.exArgs s'.tol.reduction_factor eps ∧
      1 ^ 2 * ∑ j : Fin 2, (r.1 j - [(1 : ℚ) / 3, 1 / 4].getD j 0) ^ 2 ≤ (2 : ℕ) * eps ^ 2 ∧
      ∀ i : Fin 1, r.2 i - 1 / 3 = ∑ j : Fin 2, dense Mkl.exA Mkl.exAx i j * (r.1 j - [(1 : ℚ) / 3, 1 / 4].getD j 0) := by
  obtain ⟨s', h, -⟩ := Mkl.ex_solves Mkl.ex_ends.1
  refine ⟨s', _, h, c80_indirect_partial (X := fun j => [(1 : ℚ) / 3, 1 / 4].getD j 0) (Z := fun _ => 1 / 3) Mkl.refDcg_honest (Mkl.ex_hist 1 20) h rfl exP_view exA_view
    (fun k => le_refl _) (fun v => ?_) (by norm_num [Mkl.exSt]) (by decide +kernel) ⟨?_, ?_⟩⟩
  · have h : denseSym Mkl.exP Mkl.exPx = !![1, 0; 0, 3] := by decide +kernel
    show 0 ≤ v ⬝ᵥ (denseSym Mkl.exP Mkl.exPx).mulVec v
    rw [h]
    simp [Matrix.mulVec, dotProduct, Fin.sum_univ_two]
    nlinarith [sq_nonneg (v 0), sq_nonneg (v 1)]
  · intro k hk
    have : k = 0 := Nat.lt_one_iff.1 hk
    subst this
    decide +kernel
  · intro r hr
    have : r = 0 ∨ r = 1 := by have : r < 2 := hr; omega
    rcases this with rfl | rfl <;> decide +kernel

end Osqp.Backends
