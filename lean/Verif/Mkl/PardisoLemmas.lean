import Verif.Csc.KktRowDenote
import Verif.Props.LinStep
import Verif.Spec.Pardiso

/-!
# Lemmas on the direct solver of the MKL back end
-/

set_option linter.unusedSectionVars false
namespace Osqp.Pardiso
open Osqp.Csc Finset

variable {K : Type*} [Field K] [LinearOrder K] {VP VA V : View K} {P A : Csc K} {sigma : K} {φ R : ℕ → K} {M : Csc K} {pm am rm : Buf ℤ} {lib : Lib K}

theorem fill_loop {α : Type*} {f : ℤ → Buf α → Option (Buf α)} {g : ℕ → α} {N : ℕ} {b : Buf α} (hN : N ≤ b.size) (hf : ∀ j < N, ∀ d, f (j : ℤ) d = d.wr (j : ℤ) (g j)) :
    ∃ b', forI 0 (N : ℤ) f b = some b' ∧ Holds b' N g := by
  obtain ⟨b', e, h, _⟩ := forI_zero (hi := N) (s := b) (f := f) (fun j c => Holds c j g ∧ c.size = b.size) ⟨⟨Nat.zero_le _, fun k hk => absurd hk (Nat.not_lt_zero _)⟩, rfl⟩ (by
    rintro j c hj ⟨h, hs⟩
    rw [hf j hj, Buf.wr_eq (by omega)]
    exact ⟨_, rfl, h.extend (by omega) _ rfl, by rw [Buf.set_size, hs]⟩)
  exact ⟨b', e, h⟩

theorem oneBased_holds {src : Buf ℤ} {N : ℕ} {f : ℕ → ℕ} (h : Holds src N fun k => ((f k : ℕ) : ℤ)) :
    ∃ b', oneBased (N : ℤ) src (Buf.fresh (N : ℤ)) = some b' ∧ Holds b' N fun k => ((f k + 1 : ℕ) : ℤ) := by
  unfold oneBased
  refine fill_loop (by simp [Buf.fresh]) fun j hj d => ?_
  rw [h.rd hj]; simp

theorem invert_holds {rhov d : Buf K} {m : ℕ} {r : ℕ → K} (h : Holds rhov m r) (hd : m ≤ d.size) : ∃ b', invert (m : ℤ) rhov d = some b' ∧ Holds b' m fun k => 1 / r k := by
  unfold invert
  refine fill_loop hd fun j hj d => ?_
  rw [h.rd hj]; simp

/-! ## The matrix -/

theorem kktFull_symm (VP VA : View K) (sigma : K) (R : ℕ → K) (r c : ℕ) : kktFull VP VA sigma R r c = kktFull VP VA sigma R c r := by
  unfold kktFull View.symEntry
  by_cases h1 : r < VP.n <;> by_cases h2 : c < VP.n <;> simp only [h1, h2, if_true, if_false]
  · rcases lt_trichotomy r c with h | h | h
    · rw [if_pos h.le, if_neg (by omega), if_neg (by omega), if_neg (by omega)]
    · subst h; rfl
    · rw [if_neg (by omega), if_neg (by omega), if_pos h.le, if_neg (by omega)]
  · by_cases h : r = c
    · subst h; rfl
    · rw [if_neg h, if_neg (fun h' => h h'.symm)]

theorem kktFull_shift (VP VA : View K) (sigma : K) (R : ℕ → K) {r c : ℕ} (h : r ≤ c) :
    kktFull VP VA sigma R r c = kktFull VP VA 0 R r c + if c < VP.n then (if r = c then sigma else 0) else 0 := by
  unfold kktFull
  by_cases h1 : r < VP.n <;> by_cases h2 : c < VP.n <;> simp only [h1, h2, if_true, if_false]
  · by_cases h3 : r = c <;> simp [h3]
  · rw [add_zero]
  · omega
  · rw [add_zero]

/-- The matrix that the compressed rows denote, in general. -/
def held (VP VA : View K) (sigma : K) (φ R : ℕ → K) (r c : ℕ) : K :=
  kktFull VP VA 0 R (min r c) (max r c) + if max r c < VP.n then extra VP sigma φ (min r c) (max r c) else 0

theorem held_form (hF : Fits VP VA) (hφ : ∀ k < VP.nnz, φ k = formShift VP sigma k) (r c : ℕ) : held VP VA sigma φ R r c = kktFull VP VA sigma R r c := by
  unfold held
  rcases Nat.le_total r c with h | h
  · rw [min_eq_left h, max_eq_right h, kktFull_shift VP VA sigma R h]
    by_cases h1 : c < VP.n
    · rw [if_pos h1, if_pos h1, extra_form hF hφ (by omega)]
    · rw [if_neg h1, if_neg h1]
  · rw [min_eq_right h, max_eq_left h, kktFull_symm VP VA sigma R r c, kktFull_shift VP VA sigma R h]
    by_cases h1 : r < VP.n
    · rw [if_pos h1, if_pos h1, extra_form hF hφ (by omega)]
    · rw [if_neg h1, if_neg h1]

theorem kept_denotes (h : RowKept sigma VP VA φ R V M pm am rm) {ki kp : Buf ℤ} (hp : Holds kp (VP.n + VA.m + 1) fun r => ((V.p r + 1 : ℕ) : ℤ))
    (hi : Holds ki V.nnz fun k => ((V.i k + 1 : ℕ) : ℤ)) {N : ℤ} (hN : N = ((VP.n + VA.m : ℕ) : ℤ)) : Denotes ⟨N, kp, ki, M.x⟩ (VP.n + VA.m) (held VP VA sigma φ R) := by
  have hF := h.fits
  have hc := rowEnts_inCols (sigma := sigma) (φ := φ) (R := R) hF
  have hv := h.laid.valid hc (rowEnts_rows hF)
  have hVn : V.n = VP.n + VA.m := h.laid.vn
  have hVm : V.m = VP.n + VA.m := h.laid.vm
  have hnz : V.nnz = V.p (VP.n + VA.m) := by unfold View.nnz; rw [hVn]
  refine ⟨hN, ⟨fun r => V.p r + 1, fun k => V.i k + 1, V.x, hp, ?_, ?_, ?_, fun r hr => ?_, fun r hr k h1 h2 => ?_, fun r hr => ?_, fun r hr c hc' hrc => ?_⟩, fun r _ c _ => ?_⟩
  · simp only [Nat.add_sub_cancel]; rw [← hnz]; exact hi
  · simp only [Nat.add_sub_cancel]; rw [← hnz]; exact h.rep.x
  · simp only [hv.zero]
  · have := hv.mono r (by omega); simp only; omega
  · simp only at h1 h2 ⊢
    have hk : k < V.nnz := hv.lt_nnz (j := r) (by omega) (by omega)
    have h3 := h.upper k hk
    rw [hv.col_eq (j := r) (by omega) (by omega) (by omega)] at h3
    have h4 := hv.rows k hk
    omega
  · obtain ⟨t, t1, t2, t3⟩ := h.diag hr
    exact ⟨t, by simp only; omega, by simp only; omega, by simp only; omega⟩
  · simp only [Nat.add_sub_cancel]
    unfold held
    rw [min_eq_left hrc, max_eq_right hrc, ← h.entry hrc hc']
    unfold View.entry
    exact sum_congr rfl fun k _ => if_congr (by omega) rfl rfl
  · unfold held; rw [min_comm, max_comm]

theorem mapSet_holds {N : ℕ} {m' : Option (Buf ℤ)} {f : ℕ → ℕ} (h : MapSet (some (Buf.fresh (N : ℤ))) m' (· < N) f) : ∃ b, m' = some b ∧ Holds b N fun k => ((f k : ℕ) : ℤ) := by
  obtain ⟨b', e, h1, h2, _⟩ := h.2 _ rfl
  exact ⟨b', e, by rw [h1]; simp [Buf.fresh], h2⟩

theorem fits_fresh (N : ℕ) : MapFits (some (Buf.fresh (N : ℤ))) N := fun b hb => by obtain rfl := (Option.some.inj hb).symm; simp [Buf.fresh]
theorem fits_none (N : ℕ) : MapFits none N := fun b hb => by cases hb

/-- Forming the matrix in compressed rows, with the maps. -/
theorem form_kept (hP : Rep P VP) (hA : Rep A VA) (hF : Fits VP VA) (sigma : K) {q : Option (Buf K)} {sc : K} {R : ℕ → K} (hR : Param2Is q sc VA.m R) :
    ∃ F V pm am rm, formKKT P A 1 sigma q sc (some (Buf.fresh (VP.nnz : ℤ))) (some (Buf.fresh (VA.nnz : ℤ))) (some (Buf.fresh (VA.m : ℤ))) = some F ∧
      F.PtoKKT = some pm ∧ F.AtoKKT = some am ∧ F.rhotoKKT = some rm ∧ RowKept sigma VP VA (formShift VP sigma) R V F.KKT pm am rm := by
  have hc := entsCsr_inCols hF.hP hF.hA hF.sq hF.cols
  have h0 := layout_laid (VP.n + VA.m) (VP.n + VA.m) hc
  obtain ⟨F, e, h1, _, _, _, g1, g2, g3⟩ := form_csr hP hA hF.sq hF.cols sigma hR (fits_fresh VP.nnz) (fits_fresh VA.nnz) (fits_fresh VA.m) h0
  obtain ⟨pm, e1, p1⟩ := mapSet_holds g1
  obtain ⟨am, e2, p2⟩ := mapSet_holds g2
  obtain ⟨rm, e3, p3⟩ := mapSet_holds g3
  exact ⟨F, _, pm, am, rm, e, e1, e2, e3, hF, laid_rows hF.hP hF.hA hF.sq hF.cols sigma R h0, h1, p1, p2, p3⟩

/-- The same without maps. -/
theorem form_kept_none (hP : Rep P VP) (hA : Rep A VA) (hF : Fits VP VA) (sigma : K) {q : Option (Buf K)} {sc : K} {R : ℕ → K} (hR : Param2Is q sc VA.m R) :
    ∃ F V pm am rm, formKKT P A 1 sigma q sc none none none = some F ∧ RowKept sigma VP VA (formShift VP sigma) R V F.KKT pm am rm := by
  have hc := entsCsr_inCols hF.hP hF.hA hF.sq hF.cols
  have h0 := layout_laid (VP.n + VA.m) (VP.n + VA.m) hc
  obtain ⟨F, e, h1, _⟩ := form_csr hP hA hF.sq hF.cols sigma hR (fits_none VP.nnz) (fits_none VA.nnz) (fits_none VA.m) h0
  exact ⟨F, _, ⟨_, fun k => some _⟩, ⟨_, fun k => some _⟩, ⟨_, fun k => some _⟩, e, hF, laid_rows hF.hP hF.hA hF.sq hF.cols sigma R h0, h1,
    ⟨le_refl _, fun _ _ => rfl⟩, ⟨le_refl _, fun _ _ => rfl⟩, ⟨le_refl _, fun _ _ => rfl⟩⟩

/-! ## The solver object -/

/-- The object belongs to the data; `φ k` has been added to entry `k` of `P`. -/
structure Holding (sigma : K) (D : Data K) (φ : ℕ → K) (s : Solver K) : Prop where
  n : s.n = D.P.n
  m : s.m = D.A.m
  nKKT : s.nKKT = ((D.P.n + D.A.m : ℕ) : ℤ)
  sig : s.sigma = sigma
  sol : D.P.n + D.A.m ≤ s.sol.size
  kept : ∃ V pm am rm, RowKept sigma D.P D.A φ D.R V s.KKT pm am rm ∧ Holds s.KKT_p (D.P.n + D.A.m + 1) (fun r => ((V.p r + 1 : ℕ) : ℤ)) ∧
    Holds s.KKT_i V.nnz (fun k => ((V.i k + 1 : ℕ) : ℤ)) ∧
    (s.polishing = false → s.PtoKKT = some pm ∧ s.AtoKKT = some am ∧ s.rhotoKKT = some rm)
  steps : s.polishing = false → Param2Is s.rho_inv_vec s.rho_inv D.A.m D.R
  fac : s.fac = s.input

variable {D : Data K} {s : Solver K}

theorem Holding.fits (h : Holding sigma D φ s) : Fits D.P D.A := by obtain ⟨_, _, _, _, hk, _⟩ := h.kept; exact hk.fits

theorem Holding.denotes (h : Holding sigma D φ s) : Denotes s.fac (D.P.n + D.A.m) (held D.P D.A sigma φ D.R) := by
  obtain ⟨V, pm, am, rm, hk, h1, h2, _⟩ := h.kept
  rw [h.fac]
  exact kept_denotes hk h1 h2 h.nKKT

theorem finish_holding (hP : Rep P VP) (hA : Rep A VA) {F : Formed K} {q : Option (Buf K)} {sc : K} {R : ℕ → K} {pol : Bool}
    (hk : RowKept sigma VP VA φ R V F.KKT pm am rm) (hm : pol = false → F.PtoKKT = some pm ∧ F.AtoKKT = some am ∧ F.rhotoKKT = some rm) (hR : pol = false → Param2Is q sc VA.m R) :
    ∃ s, Holding sigma ⟨VP, VA, R⟩ φ s ∧ s.polishing = pol ∧ s.rho_inv_vec = q ∧ finish lib P A sigma pol (q, sc, F) = some (
      if lib.symbolic s.fac ≠ 0 then (initError, .null) else if (lib.numeric s.fac).1 ≠ 0 then (initError, .null)
      else if (lib.numeric s.fac).2 < (VP.n : ℤ) then (noncvxError, .live s) else (0, .live s)) := by
  have hVn : V.n = VP.n + VA.m := hk.laid.vn
  have hp : Holds F.KKT.p (VP.n + VA.m + 1) fun j => (V.p j : ℤ) := hVn ▸ hk.rep.p
  have hnz : V.nnz = V.p (VP.n + VA.m) := by unfold View.nnz; rw [hVn]
  obtain ⟨ki, e1, g1⟩ := oneBased_holds hk.rep.i
  obtain ⟨kp, e2, g2⟩ := oneBased_holds hp
  have en : P.n + A.m = ((VP.n + VA.m : ℕ) : ℤ) := by rw [hP.n, hA.m]; push_cast; rfl
  have e0 : F.KKT.p.rd (P.n + A.m) = some ((V.nnz : ℕ) : ℤ) := by rw [hnz]; exact hp.rd' en (by omega)
  have e2' : oneBased (P.n + A.m + 1) F.KKT.p (Buf.fresh (P.n + A.m + 1)) = some kp := by rw [en]; exact_mod_cast e2
  refine ⟨{ KKT := F.KKT, KKT_i := ki, KKT_p := kp, PtoKKT := F.PtoKKT, AtoKKT := F.AtoKKT, rhotoKKT := F.rhotoKKT,
            rho_inv_vec := q, rho_inv := sc, sol := Buf.fresh (P.n + A.m), n := P.n, m := A.m, nKKT := P.n + A.m, sigma := sigma, polishing := pol,
            fac := ⟨P.n + A.m, kp, ki, F.KKT.x⟩ }, ⟨hP.n, hA.m, en, rfl, ?_, ⟨V, pm, am, rm, hk, g2, g1, hm⟩, hR, rfl⟩, rfl, rfl, ?_⟩
  · show _ ≤ (P.n + A.m).toNat
    rw [en, Int.toNat_natCast]
  · unfold finish
    rw [← hP.n]
    simp only [e0, Option.bind_some, e1, e2', Solver.input]
    by_cases c1 : lib.symbolic { n := P.n + A.m, ia := kp, ja := ki, a := F.KKT.x } ≠ 0
    · exact (if_pos c1).trans (congrArg some (if_pos c1)).symm
    · refine ((if_neg c1).trans ?_).trans (congrArg some (if_neg c1)).symm
      by_cases c2 : (lib.numeric { n := P.n + A.m, ia := kp, ja := ki, a := F.KKT.x }).1 ≠ 0
      · exact (if_pos c2).trans (congrArg some (if_pos c2)).symm
      · refine ((if_neg c2).trans ?_).trans (congrArg some (if_neg c2)).symm
        by_cases c3 : (lib.numeric { n := P.n + A.m, ia := kp, ja := ki, a := F.KKT.x }).2 < P.n
        · exact (if_pos c3).trans (congrArg some (if_pos c3)).symm
        · exact (if_neg c3).trans (congrArg some (if_neg c3)).symm

/-- Creating the object for the iteration. -/
theorem init_holding (hP : Rep P VP) (hA : Rep A VA) (hF : Fits VP VA) (sigma : K) {q : Option (Buf K)} {sc : K} {r : ℕ → K} (hr : Param2Is q sc VA.m r) :
    ∃ s, Holding sigma ⟨VP, VA, fun k => 1 / r k⟩ (formShift VP sigma) s ∧ s.polishing = false ∧ s.rho_inv_vec.isSome = q.isSome ∧ init lib P A q sc sigma false true = some (
      if lib.symbolic s.fac ≠ 0 then (initError, .null) else if (lib.numeric s.fac).1 ≠ 0 then (initError, .null)
      else if (lib.numeric s.fac).2 < (VP.n : ℤ) then (noncvxError, .live s) else (0, .live s)) := by
  have hPz : P.p.rd P.n = some ((VP.nnz : ℕ) : ℤ) := hP.p.rd' hP.n (by omega)
  have hAz : A.p.rd P.n = some ((VA.nnz : ℕ) : ℤ) := hA.p.rd' (show P.n = ((VA.n : ℕ) : ℤ) by rw [hP.n, hF.cols]) (by omega)
  have key : ∃ (q' : Option (Buf K)) (sc' : K), Param2Is q' sc' VA.m (fun k => 1 / r k) ∧ q'.isSome = q.isSome ∧
      startSteps P.n A.m q sc = some (q', sc') := by
    unfold startSteps
    cases q with
    | none => exact ⟨none, 1 / sc, fun t ht => by show 1 / r t = _; rw [show r t = sc from hr t ht], rfl, rfl⟩
    | some rhov =>
      obtain ⟨b, e, g⟩ := invert_holds (d := Buf.fresh (P.n + A.m)) (show Holds rhov VA.m r from hr) (by
        show _ ≤ (P.n + A.m).toNat
        rw [hP.n, hA.m]; omega)
      refine ⟨some b, 0, g, rfl, ?_⟩
      simp only
      rw [hA.m] at e ⊢
      rw [e]; rfl
  obtain ⟨q', sc', hR, hs, e⟩ := key
  obtain ⟨F, V, pm, am, rm, ef, e1, e2, e3, hk⟩ := form_kept hP hA hF sigma hR
  obtain ⟨s, g1, g2, g3, g4⟩ := finish_holding (lib := lib) (pol := false) hP hA hk (fun _ => ⟨e1, e2, e3⟩) (fun _ => hR)
  refine ⟨s, g1, g2, by rw [g3]; exact hs, ?_⟩
  rw [← g4]
  unfold init formed
  simp only [Bool.false_eq_true, if_false, hPz, hAz, Option.bind_some]
  rw [e]
  simp only [Option.bind_some]
  rw [hA.m, ef]
  simp only [Option.bind_some, if_true]

/-- Creating the object for polishing. -/
theorem init_polish (hP : Rep P VP) (hA : Rep A VA) (hF : Fits VP VA) (sigma sc : K) :
    ∃ s, Holding sigma ⟨VP, VA, fun _ => sigma⟩ (formShift VP sigma) s ∧ s.polishing = true ∧ init lib P A none sc sigma true true = some (
      if lib.symbolic s.fac ≠ 0 then (initError, .null) else if (lib.numeric s.fac).1 ≠ 0 then (initError, .null)
      else if (lib.numeric s.fac).2 < (VP.n : ℤ) then (noncvxError, .live s) else (0, .live s)) := by
  obtain ⟨F, V, pm, am, rm, ef, hk⟩ := form_kept_none hP hA hF sigma (q := none) (sc := sigma) (R := fun _ => sigma) (fun _ _ => rfl)
  obtain ⟨s, g1, g2, _, g4⟩ := finish_holding (lib := lib) (pol := true) (q := none) (sc := 0) hP hA hk (fun h => by cases h) (fun h => by cases h)
  refine ⟨s, g1, g2, ?_⟩
  rw [← g4]
  unfold init formed
  simp only [if_true, Option.map_none]
  rw [ef]
  simp only [Option.bind_some]

/-- Updating the matrices. -/
theorem Holding.matrices (h : Holding sigma D φ s) (hpol : s.polishing = false) {P' A' : Csc K} {X Y ψ : ℕ → K} (hP' : Rep P' (D.P.withX X)) (hA' : Rep A' (D.A.withX Y))
    {pi ai : Option (Buf ℤ)} {pn an : ℕ} {ix jx : ℕ → ℕ} (hix : IdxIs pi pn ix) (hjx : IdxIs ai an jx) (hlt : ∀ j < pn, ix j < D.P.nnz) (hlt' : ∀ j < an, jx j < D.A.nnz)
    (hX : ∀ k < D.P.nnz, (∀ j < pn, ix j ≠ k) → X k = D.P.x k) (hY : ∀ k < D.A.nnz, (∀ j < an, jx j ≠ k) → Y k = D.A.x k)
    (hψ : ∀ j < pn, ψ (ix j) = if Begins D.P (ix j) then sigma else 0) (hψ' : ∀ k < D.P.nnz, (∀ j < pn, ix j ≠ k) → ψ k = φ k) :
    ∃ s', updateMatrices lib s P' pi pn A' ai an = some ((lib.numeric s'.fac).1, s') ∧ Holding sigma ⟨D.P.withX X, D.A.withX Y, D.R⟩ ψ s' ∧ s'.polishing = false ∧
      s'.rho_inv_vec = s.rho_inv_vec := by
  obtain ⟨V, pm, am, rm, hk, h1, h2, h3⟩ := h.kept
  obtain ⟨m1, m2, m3⟩ := h3 hpol
  obtain ⟨M1, Z1, e1, k1⟩ := hk.updP hP' hix hlt hX hψ hψ'
  obtain ⟨M2, Z2, e2, k2⟩ := k1.updA hA' hjx hlt' hY
  refine ⟨(refactor lib { s with KKT := M2 }).2, ?_, ⟨h.n, h.m, h.nKKT, h.sig, h.sol, ⟨_, pm, am, rm, k2, h1, h2, fun _ => ⟨m1, m2, m3⟩⟩, fun _ => h.steps hpol, rfl⟩, hpol, rfl⟩
  unfold updateMatrices
  rw [m1, m2]
  simp only [Option.bind_some]
  rw [h.sig, e1]
  simp only [Option.bind_some]
  rw [e2]; rfl

/-- Updating the step sizes. -/
theorem Holding.rho (h : Holding sigma D φ s) (hpol : s.polishing = false) {q : Option (Buf K)} {sc : K} {r : ℕ → K} (hr : Param2Is q sc D.A.m r) (hq : q.isSome = s.rho_inv_vec.isSome) :
    ∃ s', updateRho lib s q sc = some ((lib.numeric s'.fac).1, s') ∧ Holding sigma ⟨D.P, D.A, fun k => 1 / r k⟩ φ s' ∧ s'.polishing = false ∧
      s'.rho_inv_vec.isSome = s.rho_inv_vec.isSome := by
  obtain ⟨V, pm, am, rm, hk, h1, h2, h3⟩ := h.kept
  obtain ⟨m1, m2, m3⟩ := h3 hpol
  have hst := h.steps hpol
  have key : ∃ (q' : Option (Buf K)) (sc' : K), Param2Is q' sc' D.A.m (fun k => 1 / r k) ∧ q'.isSome = s.rho_inv_vec.isSome ∧ nextSteps s q sc = some (q', sc') := by
    unfold nextSteps
    cases hs : s.rho_inv_vec with
    | none =>
      rw [hs] at hq
      have : q = none := by simpa using hq
      subst this
      exact ⟨none, 1 / sc, fun t ht => by show 1 / r t = _; rw [show r t = sc from hr t ht], rfl, rfl⟩
    | some d =>
      rw [hs] at hq hst
      obtain ⟨rv, rfl⟩ := Option.isSome_iff_exists.1 (hq.trans rfl)
      obtain ⟨b, e, g⟩ := invert_holds (d := d) (show Holds rv D.A.m r from hr) (show Holds d D.A.m D.R from hst).1
      refine ⟨some b, s.rho_inv, g, rfl, ?_⟩
      simp only [Option.bind_some]
      rw [h.m, e]; rfl
  obtain ⟨q', sc', hR, hs, e⟩ := key
  obtain ⟨M', Z, e1, k1⟩ := hk.updR hR
  refine ⟨(refactor lib { s with KKT := M', rho_inv_vec := q', rho_inv := sc' }).2, ?_, ⟨h.n, h.m, h.nKKT, h.sig, h.sol, ⟨_, pm, am, rm, k1, h1, h2, fun _ => ⟨m1, m2, m3⟩⟩, fun _ => hR, rfl⟩, hpol, hs⟩
  unfold updateRho
  rw [e, m3]
  simp only [Option.bind_some]
  rw [h.m, e1]; rfl

/-- A solve keeps the object. -/
theorem Holding.solved (h : Holding sigma D φ s) {x : Buf K} (hx : x.size = s.sol.size) : Holding sigma D φ { s with sol := x } :=
  ⟨h.n, h.m, h.nKKT, h.sig, by have := h.sol; show _ ≤ x.size; omega, h.kept, h.steps, h.fac⟩

/-- The two loops after a successful solve. -/
theorem Holding.read (h : Holding sigma D φ s) (hpol : s.polishing = false) {b x : Buf K} {B X : ℕ → K} (hb : Holds b (D.P.n + D.A.m) B) (hx : Holds x (D.P.n + D.A.m) X) :
    ∃ b', ((forI 0 s.n (fun j b => (x.rd j).bind fun v => b.wr j v) b).bind fun b =>
      forI 0 s.m (fun j b => (b.rd (j + s.n)).bind fun o => (stepRd s.rho_inv_vec s.rho_inv j).bind fun r => (x.rd (j + s.n)).bind fun v => b.wr (j + s.n) (o + r * v)) b) = some b' ∧
      Holds b' (D.P.n + D.A.m) fun k => if k < D.P.n then X k else B k + D.R (k - D.P.n) * X k := by
  have hst : ∀ k < D.A.m, stepRd s.rho_inv_vec s.rho_inv (k : ℤ) = some (D.R k) := fun k hk => by
    have hR := h.steps hpol
    unfold stepRd
    unfold Param2Is at hR
    cases hq : s.rho_inv_vec with
    | none => rw [hq] at hR; simp only at hR ⊢; rw [hR k hk]
    | some b => rw [hq] at hR; exact Holds.rd hR hk
  rw [h.n, h.m]
  obtain ⟨b1, e1, g1⟩ := forI_zero (hi := D.P.n) (s := b) (f := fun j b => (x.rd j).bind fun v => b.wr j v)
    (fun j c => Holds c (D.P.n + D.A.m) fun k => if k < j then X k else B k) (hb.congr (by simp)) (by
      intro j c hj h
      rw [hx.rd (by omega)]
      simp only [Option.bind_some]
      rw [h.wr (by omega)]
      refine ⟨_, rfl, (h.set j (X j)).congr fun k _ => ?_⟩
      rw [Function.update_apply]
      by_cases hkj : k = j
      · subst hkj; rw [if_pos rfl, if_pos (by omega)]
      · rw [if_neg hkj]
        exact if_congr (by omega) rfl rfl)
  obtain ⟨b2, e2, g2⟩ := forI_zero (hi := D.A.m) (s := b1)
    (f := fun j b => (b.rd (j + (D.P.n : ℤ))).bind fun o => (stepRd s.rho_inv_vec s.rho_inv j).bind fun r => (x.rd (j + (D.P.n : ℤ))).bind fun v => b.wr (j + (D.P.n : ℤ)) (o + r * v))
    (fun j c => Holds c (D.P.n + D.A.m) fun k => if k < D.P.n then X k else if k < D.P.n + j then B k + D.R (k - D.P.n) * X k else B k)
    (g1.congr fun k _ => by by_cases hk : k < D.P.n <;> simp [hk]) (by
      intro j c hj h
      have hc : ((j : ℤ) + (D.P.n : ℤ)) = ((j + D.P.n : ℕ) : ℤ) := by push_cast; rfl
      have v1 : (if j + D.P.n < D.P.n then X (j + D.P.n) else if j + D.P.n < D.P.n + j then B (j + D.P.n) + D.R (j + D.P.n - D.P.n) * X (j + D.P.n) else B (j + D.P.n)) = B (j + D.P.n) := by
        rw [if_neg (by omega), if_neg (by omega)]
      rw [hc, h.rd (by omega), hst j hj, hx.rd (by omega), v1]
      simp only [Option.bind_some]
      rw [h.wr (by omega)]
      refine ⟨_, rfl, (h.set (j + D.P.n) _).congr fun k _ => ?_⟩
      rw [Function.update_apply]
      by_cases hk1 : k = j + D.P.n
      · subst hk1
        have c1 : ¬ j + D.P.n < D.P.n := by omega
        have c2 : j + D.P.n < D.P.n + (j + 1) := by omega
        rw [if_pos rfl, if_neg c1, if_pos c2, Nat.add_sub_cancel]
      · rw [if_neg hk1]
        by_cases hk2 : k < D.P.n
        · rw [if_pos hk2, if_pos hk2]
        · rw [if_neg hk2, if_neg hk2]
          exact if_congr (by omega) rfl rfl)
  refine ⟨b2, ?_, g2.congr fun k hk => ?_⟩
  · rw [e1]; exact e2
  · by_cases hk2 : k < D.P.n
    · rw [if_pos hk2, if_pos hk2]
    · rw [if_neg hk2, if_neg hk2, if_pos (by omega)]

end Osqp.Pardiso
