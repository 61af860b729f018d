import Verif.Csc.KktRun
import Verif.Csc.Demo

/-!
# Assembly and in-place update of the KKT matrix (C34, C35)

Matrices are C structs in raw memory, as in `Props/Csc.lean`; `some …` in a conclusion says that no uninitialised cell is
read and no array is overrun.

Specification vocabulary: `Rep`, `View.Triu`, `View.symEntry` (`Csc/Spec.lean`); `kktFull` (`Csc/KktSpec.lean`), the matrix
`[P + sigma*I, A'; A, -diag(R)]`; `MapFits`, `MapSet`, `Locates` (`Csc/Fill.lean`, explained in `Props/CscConv.lean`);
`Param2Is q sc m R`: the array `q`, or the scalar `sc` if `q` is `NULL`, gives the `m` numbers `R`; `IdxIs idx cnt ix`:
the index list, or `0, 1, …` if it is `NULL`, gives the `cnt` indices `ix`.
-/

set_option linter.unusedSectionVars false
namespace Osqp.Csc
open Finset

variable {K : Type*} [Field K] [LinearOrder K] {VP VA : View K} {P A : Csc K}

/-- **C34**.  For every well-formed upper triangle `P` (`n × n`) and every well-formed `A` (`m × n`), `form_KKT` returns a
well-formed upper triangle whose symmetric matrix is `[P + sigma*I, A'; A, -diag(R)]`.  The allocated arrays have exactly
as many cells as the matrix has entries.  The index maps send every entry of `P`, `A` and every step size to its own
stored entry, with the right row, column and value. -/
theorem c34_form (hP : Rep P VP) (hA : Rep A VA) (hsq : VP.m = VP.n) (hn : VA.n = VP.n) (ht : VP.Triu) (sigma : K)
    {q : Option (Buf K)} {sc : K} {R : ℕ → K} (hR : Param2Is q sc VA.m R)
    {pm am rm : Option (Buf ℤ)} (hmP : MapFits pm VP.nnz) (hmA : MapFits am VA.nnz) (hmR : MapFits rm VA.m) :
    ∃ F V fP fA fR, formKKT P A 0 sigma q sc pm am rm = some F ∧ Rep F.KKT V ∧ V.m = VP.n + VA.m ∧ V.n = VP.n + VA.m ∧ V.Triu ∧
      (∀ r < VP.n + VA.m, ∀ c < VP.n + VA.m, V.symEntry r c = kktFull VP VA sigma R r c) ∧
      F.KKT.i.size = V.nnz ∧ F.KKT.x.size = V.nnz ∧ F.KKT.nzmax = V.nnz ∧
      MapSet pm F.PtoKKT (· < VP.nnz) fP ∧ MapSet am F.AtoKKT (· < VA.nnz) fA ∧ MapSet rm F.rhotoKKT (· < VA.m) fR ∧
      Locates V VP.nnz fP VP.i VP.col (fun k => VP.x k + if VP.i k = VP.col k ∧ k + 1 = VP.p (VP.col k + 1) then sigma else 0) ∧
      Locates V VA.nnz fA VA.col (fun k => VA.i k + VP.n) VA.x ∧
      Locates V VA.m fR (fun t => t + VP.n) (fun t => t + VP.n) (fun t => -R t) := by
  obtain ⟨F, V, e, h1, h2, h3, h4, h5, h6, h7, h8⟩ := form_aux hP hA hsq hn sigma hR hmP hmA hmR
  obtain ⟨_, g2, g3⟩ := kkt_denote hP.valid hA.valid hsq hn ht h2
  have l1 := locates_P h2 hP.valid hA.valid hsq hn
  refine ⟨F, V, _, _, _, e, h1, h2.vm, h2.vn, g2, g3, h3, h4, h5, h6, h7, h8, ⟨l1.lt, l1.row, l1.col, fun k hk => ?_, l1.inj⟩,
    locates_A h2 hP.valid hA.valid hsq hn, locates_R h2 hP.valid hA.valid hsq hn⟩
  rw [l1.val k hk]
  congr 1
  refine if_congr ?_ rfl rfl
  rw [DiagLast_iff hP.valid hsq hk]
  obtain ⟨c1, c2, c3⟩ := hP.valid.col_spec hk
  constructor
  · rintro ⟨h, h'⟩
    refine ⟨?_, h⟩
    by_contra h9
    exact h' (Or.inr (by rw [← h]; simpa using h9))
  · rintro ⟨h, h'⟩
    refine ⟨h', ?_⟩
    rintro (h9 | h9)
    · omega
    · exact h9 (by rw [← h']; simpa using h)

/-- The array holds a permutation of `0, …, N-1`. -/
def PermIs (perm : Buf ℤ) (N : ℕ) (p : ℕ → ℕ) : Prop :=
  Holds perm N (fun k => ((p k : ℕ) : ℤ)) ∧ (∀ k < N, p k < N) ∧ ∀ a < N, ∀ b < N, p a = p b → a = b

/-- **C34** (as stored by the solver).  Whatever ordering `p` is used, building and permuting the matrix gives the upper
triangle of the permuted KKT matrix: entry `(i, j)` is entry `(p i, p j)` of `[P + sigma*I, A'; A, -diag(R)]`. -/
theorem c34_stored (hP : Rep P VP) (hA : Rep A VA) (hsq : VP.m = VP.n) (hn : VA.n = VP.n) (ht : VP.Triu) (sigma : K)
    {q : Option (Buf K)} {sc : K} {R : ℕ → K} (hR : Param2Is q sc VA.m R) {perm : Buf ℤ} {p : ℕ → ℕ} (hp : PermIs perm (VP.n + VA.m) p) :
    ∃ G W, buildKKT P A sigma q sc perm = some G ∧ Rep G.KKT W ∧ W.m = VP.n + VA.m ∧ W.n = VP.n + VA.m ∧ W.Triu ∧
      ∀ i < VP.n + VA.m, ∀ j < VP.n + VA.m, W.symEntry i j = kktFull VP VA sigma R (p i) (p j) := by
  obtain ⟨b, π, _, _, h1, h2, h3⟩ := pinv_aux hp.1 hp.2.1 hp.2.2
  obtain ⟨hS, hB⟩ := build_aux hP hA hsq hn ht hp.1 hp.2.1 hp.2.2 sigma hR (π := π) (fun k hk => ⟨h1 k hk, h3 k hk⟩)
  have hL := layout_laid (VP.n + VA.m) (VP.n + VA.m) (kktEnts_inCols (sigma := sigma) (R := R) hS.hP hS.hA hS.sq hS.cols)
  set V := layout (VP.n + VA.m) (VP.n + VA.m) (kktEnts_inCols (sigma := sigma) (R := R) hS.hP hS.hA hS.sq hS.cols)
  obtain ⟨_, hc, _⟩ := perm_props hS hL
  obtain ⟨G, pm, am, rm, e, _, _, _, hK⟩ := hB V _ hL (layout_laid V.n V.n hc)
  obtain ⟨hv, htr, hsqV, hVn, hπV, hinjV⟩ := laid_props hS hL
  obtain ⟨g1, g2, _⟩ := symOne_laid hv hsqV htr hπV hinjV hK.perm
  refine ⟨G, _, e, hK.rep, by rw [hK.perm.vm, hVn], by rw [hK.perm.vn, hVn], g1, fun i hi j hj => ?_⟩
  have := g2 (p i) (by rw [hVn]; exact hp.2.1 i hi) (p j) (by rw [hVn]; exact hp.2.1 j hj)
  rw [h2 i hi, h2 j hj] at this
  rw [this]
  exact (kkt_denote hS.hP hS.hA hS.sq hS.cols hS.triu hL).2.2 _ (hp.2.1 i hi) _ (hp.2.1 j hj)

/-- The data the stored matrix depends on. -/
structure KData (K : Type*) where
  P : View K
  A : View K
  R : ℕ → K

/-- What an update does to the data: the values of `P` (or `A`) at the listed indices are replaced (the caller's matrix `M`
already holds them), or all step sizes are.  Lists may be in any order, with repetitions. -/
inductive UpdOk : KData K → Upd K → KData K → Prop
  | P {D : KData K} {M : Csc K} {idx : Option (Buf ℤ)} {cnt : ℕ} {ix : ℕ → ℕ} {X : ℕ → K} : Rep M (D.P.withX X) → IdxIs idx cnt ix → (∀ j < cnt, ix j < D.P.nnz) →
      (∀ k < D.P.nnz, (∀ j < cnt, ix j ≠ k) → X k = D.P.x k) → UpdOk D (.P M idx cnt) { D with P := D.P.withX X }
  | A {D : KData K} {M : Csc K} {idx : Option (Buf ℤ)} {cnt : ℕ} {ix : ℕ → ℕ} {X : ℕ → K} : Rep M (D.A.withX X) → IdxIs idx cnt ix → (∀ j < cnt, ix j < D.A.nnz) →
      (∀ k < D.A.nnz, (∀ j < cnt, ix j ≠ k) → X k = D.A.x k) → UpdOk D (.A M idx cnt) { D with A := D.A.withX X }
  | rho {D : KData K} {q : Option (Buf K)} {sc : K} {R : ℕ → K} : Param2Is q sc D.A.m R → UpdOk D (.rho q sc D.A.m) { D with R := R }

/-- The data after a list of updates. -/
inductive Chain : KData K → List (Upd K) → KData K → Prop
  | nil (D : KData K) : Chain D [] D
  | cons {D D1 D2 : KData K} {u : Upd K} {us : List (Upd K)} : UpdOk D u D1 → Chain D1 us D2 → Chain D (u :: us) D2

theorem run_kept {N : ℕ} {π : ℕ → ℕ} {sigma : K} {us : List (Upd K)} {D D' : KData K} (hc : Chain D us D') :
    ∀ {V W : View K} {G : Formed K} {pm am rm : Buf ℤ}, Sized N π D.P D.A → G.PtoKKT = some pm → G.AtoKKT = some am → G.rhotoKKT = some rm →
      Kept π sigma D.P D.A D.R V W G.KKT pm am rm →
      ∃ V' W' G', runAll sigma G us = some G' ∧ Sized N π D'.P D'.A ∧ Kept π sigma D'.P D'.A D'.R V' W' G'.KKT pm am rm := by
  induction hc with
  | nil D => intro V W G pm am rm hS _ _ _ hK; exact ⟨V, W, G, rfl, hS, hK⟩
  | cons hu _ ih =>
    intro V W G pm am rm hS e1 e2 e3 hK
    cases hu with
    | @P M idx cnt ix X h1 h2 h3 h4 =>
      obtain ⟨M', V', W', e, hK'⟩ := hK.updP hS h1 h2 h3 (fun _ _ => rfl) h4
      obtain ⟨V2, W2, G2, e', r⟩ := ih (G := { G with KKT := M' }) (hS.withX X _) e1 e2 e3 hK'
      refine ⟨V2, W2, G2, ?_, r⟩
      unfold runAll
      simp only [e1] at e'
      simp only [Upd.run, e1, Option.bind_some, e, Option.map_some]
      exact e'
    | @A M idx cnt ix X h1 h2 h3 h4 =>
      obtain ⟨M', V', W', e, hK'⟩ := hK.updA hS h1 h2 h3 (fun _ _ => rfl) h4
      obtain ⟨V2, W2, G2, e', r⟩ := ih (G := { G with KKT := M' }) (hS.withX _ X) e1 e2 e3 hK'
      refine ⟨V2, W2, G2, ?_, r⟩
      unfold runAll
      simp only [e2] at e'
      simp only [Upd.run, e2, Option.bind_some, e, Option.map_some]
      exact e'
    | @rho q sc R h1 =>
      obtain ⟨M', V', W', e, hK'⟩ := hK.updR hS h1
      obtain ⟨V2, W2, G2, e', r⟩ := ih (G := { G with KKT := M' }) hS e1 e2 e3 hK'
      refine ⟨V2, W2, G2, ?_, r⟩
      unfold runAll
      simp only [e3] at e'
      simp only [Upd.run, e3, Option.bind_some, e, Option.map_some]
      exact e'

/-- **C35**.  Build the stored matrix, then apply any list of in-place updates of `P` values, `A` values and step sizes.
The result is, entry by entry and position by position, the matrix built from scratch from the final data. -/
theorem c35_updates (hP : Rep P VP) (hA : Rep A VA) (hsq : VP.m = VP.n) (hn : VA.n = VP.n) (ht : VP.Triu) (sigma : K)
    {q : Option (Buf K)} {sc : K} {R : ℕ → K} (hR : Param2Is q sc VA.m R) {perm : Buf ℤ} {p : ℕ → ℕ} (hp : PermIs perm (VP.n + VA.m) p)
    {us : List (Upd K)} {D : KData K} (hc : Chain ⟨VP, VA, R⟩ us D) :
    ∃ G0 G, buildKKT P A sigma q sc perm = some G0 ∧ runAll sigma G0 us = some G ∧
      ∀ (P2 A2 : Csc K) (q2 : Option (Buf K)) (sc2 : K), Rep P2 D.P → Rep A2 D.A → Param2Is q2 sc2 D.A.m D.R →
        ∃ G2 W, buildKKT P2 A2 sigma q2 sc2 perm = some G2 ∧ Rep G2.KKT W ∧ Rep G.KKT W := by
  obtain ⟨b, π, _, _, h1, h2, h3⟩ := pinv_aux hp.1 hp.2.1 hp.2.2
  obtain ⟨hS, hB⟩ := build_aux hP hA hsq hn ht hp.1 hp.2.1 hp.2.2 sigma hR (π := π) (fun k hk => ⟨h1 k hk, h3 k hk⟩)
  have hL := layout_laid (VP.n + VA.m) (VP.n + VA.m) (kktEnts_inCols (sigma := sigma) (R := R) hS.hP hS.hA hS.sq hS.cols)
  set V := layout (VP.n + VA.m) (VP.n + VA.m) (kktEnts_inCols (sigma := sigma) (R := R) hS.hP hS.hA hS.sq hS.cols)
  obtain ⟨_, hcc, _⟩ := perm_props hS hL
  obtain ⟨G, pm, am, rm, e, e1, e2, e3, hK⟩ := hB V _ hL (layout_laid V.n V.n hcc)
  obtain ⟨V', W', G', e', hS', hK'⟩ := run_kept hc hS e1 e2 e3 hK
  refine ⟨G, G', e, e', fun P2 A2 q2 sc2 hP2 hA2 hR2 => ?_⟩
  have hN := hS'.size
  obtain ⟨_, hB2⟩ := build_aux hP2 hA2 hS'.sq hS'.cols hS'.triu (p := p) (perm := perm) (by rw [hN]; exact hp.1) (by rw [hN]; exact hp.2.1) (by rw [hN]; exact hp.2.2) sigma hR2 (π := π)
    (by rw [hN]; exact fun k hk => ⟨h1 k hk, h3 k hk⟩)
  obtain ⟨G2, _, _, _, e4, _, _, _, hK2⟩ := hB2 V' W' hK'.laid hK'.perm
  exact ⟨G2, W', e4, hK2.rep, hK'.rep⟩

/-- **C35** (what the updated matrix is).  After any list of updates the stored matrix is the permuted
`[P + sigma*I, A'; A, -diag(R)]` of the final data. -/
theorem c35_denotes (hP : Rep P VP) (hA : Rep A VA) (hsq : VP.m = VP.n) (hn : VA.n = VP.n) (ht : VP.Triu) (sigma : K)
    {q : Option (Buf K)} {sc : K} {R : ℕ → K} (hR : Param2Is q sc VA.m R) {perm : Buf ℤ} {p : ℕ → ℕ} (hp : PermIs perm (VP.n + VA.m) p)
    {us : List (Upd K)} {D : KData K} (hc : Chain ⟨VP, VA, R⟩ us D) :
    ∃ G0 G W, buildKKT P A sigma q sc perm = some G0 ∧ runAll sigma G0 us = some G ∧ Rep G.KKT W ∧ W.Triu ∧ W.n = VP.n + VA.m ∧
      ∀ i < VP.n + VA.m, ∀ j < VP.n + VA.m, W.symEntry i j = kktFull D.P D.A sigma D.R (p i) (p j) := by
  obtain ⟨b, π, _, _, h1, h2, h3⟩ := pinv_aux hp.1 hp.2.1 hp.2.2
  obtain ⟨hS, hB⟩ := build_aux hP hA hsq hn ht hp.1 hp.2.1 hp.2.2 sigma hR (π := π) (fun k hk => ⟨h1 k hk, h3 k hk⟩)
  have hL := layout_laid (VP.n + VA.m) (VP.n + VA.m) (kktEnts_inCols (sigma := sigma) (R := R) hS.hP hS.hA hS.sq hS.cols)
  set V := layout (VP.n + VA.m) (VP.n + VA.m) (kktEnts_inCols (sigma := sigma) (R := R) hS.hP hS.hA hS.sq hS.cols)
  obtain ⟨_, hcc, _⟩ := perm_props hS hL
  obtain ⟨G, pm, am, rm, e, e1, e2, e3, hK⟩ := hB V _ hL (layout_laid V.n V.n hcc)
  obtain ⟨V', W', G', e', hS', hK'⟩ := run_kept hc hS e1 e2 e3 hK
  obtain ⟨hv, htr, hsqV, hVn, hπV, hinjV⟩ := laid_props hS' hK'.laid
  obtain ⟨g1, g2, _⟩ := symOne_laid hv hsqV htr hπV hinjV hK'.perm
  refine ⟨G, G', W', e, e', hK'.rep, g1, by rw [hK'.perm.vn, hVn], fun i hi j hj => ?_⟩
  have := g2 (p i) (by rw [hVn]; exact hp.2.1 i hi) (p j) (by rw [hVn]; exact hp.2.1 j hj)
  rw [h2 i hi, h2 j hj] at this
  rw [this]
  exact (kkt_denote hS'.hP hS'.hA hS'.sq hS'.cols hS'.triu hK'.laid).2.2 _ (by rw [hS'.size]; exact hp.2.1 i hi) _ (by rw [hS'.size]; exact hp.2.1 j hj)

/-! ## The hypotheses are met

`P` is the 3 × 3 upper triangle of `Csc/Demo.lean`, whose last diagonal entry is not stored; `A` is 2 × 3. -/

/-- The reversal of five indices. -/
def demoPerm : Buf ℤ := Demo.buf [4, 3, 2, 1, 0]
def demoP (k : ℕ) : ℕ := [4, 3, 2, 1, 0].getD k 0

theorem demoPerm_is : PermIs demoPerm (3 + 2) demoP := ⟨⟨le_refl _, by decide⟩, by decide, by decide⟩

theorem demo_fits (N : ℕ) : MapFits (some (Buf.fresh (N : ℤ))) N := fun b hb => by obtain rfl := (Option.some.inj hb).symm; simp

example : ∃ F V fP fA fR, formKKT Demo.triu Demo.rect 0 10 (some Demo.v2) 0 (some (Buf.fresh ((4 : ℕ) : ℤ))) (some (Buf.fresh ((2 : ℕ) : ℤ))) (some (Buf.fresh ((2 : ℕ) : ℤ))) = some F ∧
      Rep F.KKT V ∧ V.m = 3 + 2 ∧ V.n = 3 + 2 ∧ V.Triu ∧ (∀ r < 3 + 2, ∀ c < 3 + 2, V.symEntry r c = kktFull Demo.triuV Demo.rectV 10 Demo.f2 r c) ∧
      F.KKT.i.size = V.nnz ∧ F.KKT.x.size = V.nnz ∧ F.KKT.nzmax = V.nnz ∧
      MapSet (some (Buf.fresh ((4 : ℕ) : ℤ))) F.PtoKKT (· < 4) fP ∧ MapSet (some (Buf.fresh ((2 : ℕ) : ℤ))) F.AtoKKT (· < 2) fA ∧ MapSet (some (Buf.fresh ((2 : ℕ) : ℤ))) F.rhotoKKT (· < 2) fR ∧
      Locates V 4 fP Demo.triuV.i Demo.triuV.col (fun k => Demo.triuV.x k + if Demo.triuV.i k = Demo.triuV.col k ∧ k + 1 = Demo.triuV.p (Demo.triuV.col k + 1) then 10 else 0) ∧
      Locates V 2 fA Demo.rectV.col (fun k => Demo.rectV.i k + 3) Demo.rectV.x ∧ Locates V 2 fR (fun t => t + 3) (fun t => t + 3) (fun t => -Demo.f2 t) :=
  c34_form Demo.triu_rep Demo.rect_rep rfl rfl Demo.triu_triu 10 (q := some Demo.v2) Demo.v2_holds (demo_fits 4) (demo_fits 2) (demo_fits 2)

/-- The matrix of the example is what one expects: the missing diagonal entry becomes `sigma`, the step sizes are negated. -/
example : kktFull Demo.triuV Demo.rectV 10 Demo.f2 2 2 = 10 ∧ kktFull Demo.triuV Demo.rectV 10 Demo.f2 1 1 = 12 ∧ kktFull Demo.triuV Demo.rectV 10 Demo.f2 4 2 = 7 ∧
    kktFull Demo.triuV Demo.rectV 10 Demo.f2 2 4 = 7 ∧ kktFull Demo.triuV Demo.rectV 10 Demo.f2 4 4 = -2 ∧ kktFull Demo.triuV Demo.rectV 10 Demo.f2 1 0 = 1 := by
  refine ⟨?_, ?_, ?_, ?_, ?_, ?_⟩ <;> decide +kernel

example : ∃ G W, buildKKT Demo.triu Demo.rect 10 (some Demo.v2) 0 demoPerm = some G ∧ Rep G.KKT W ∧ W.m = 3 + 2 ∧ W.n = 3 + 2 ∧ W.Triu ∧
      ∀ i < 3 + 2, ∀ j < 3 + 2, W.symEntry i j = kktFull Demo.triuV Demo.rectV 10 Demo.f2 (demoP i) (demoP j) :=
  c34_stored Demo.triu_rep Demo.rect_rep rfl rfl Demo.triu_triu 10 (q := some Demo.v2) Demo.v2_holds demoPerm_is

/-- `P` with its entry 2 replaced by 9: `diag` entry of column 1. -/
def newTriu : Csc ℚ := Demo.csc 3 3 [0, 1, 3, 4] [0, 0, 1, 1] [4, 1, 9, -1]
def newX (k : ℕ) : ℚ := [(4 : ℚ), 1, 9, -1].getD k default
theorem newTriu_rep : Rep newTriu (Demo.triuV.withX newX) := Demo.csc_rep (x := [(4 : ℚ), 1, 9, -1]) ⟨by decide, by decide, by decide⟩ (by decide) (by decide) (by decide)

/-- Three updates: one diagonal value of `P` through a list that names it twice, all of `A` (unchanged values, `NULL` list), and the
step sizes by a scalar. -/
def demoUpds : List (Upd ℚ) := [.P newTriu (some (Demo.buf [2, 2])) ((2 : ℕ) : ℤ), .A Demo.rect none ((2 : ℕ) : ℤ), .rho none 5 ((2 : ℕ) : ℤ)]

theorem demo_chain : Chain ⟨Demo.triuV, Demo.rectV, Demo.f2⟩ demoUpds ⟨Demo.triuV.withX newX, Demo.rectV, fun _ => 5⟩ :=
  .cons (.P (cnt := 2) (ix := fun _ => 2) (X := newX) newTriu_rep ⟨le_refl _, by decide⟩ (by decide) (by decide))
    (.cons (.A (D := ⟨Demo.triuV.withX newX, Demo.rectV, Demo.f2⟩) (cnt := 2) (ix := id) (X := Demo.rectV.x) Demo.rect_rep (fun _ _ => rfl) (by decide) (fun _ _ _ => rfl))
      (.cons (.rho (D := ⟨Demo.triuV.withX newX, Demo.rectV, Demo.f2⟩) (R := fun _ => 5) (fun _ _ => rfl)) (.nil _)))

example : ∃ G0 G, buildKKT Demo.triu Demo.rect 10 (some Demo.v2) 0 demoPerm = some G0 ∧ runAll 10 G0 demoUpds = some G ∧
      ∀ (P2 A2 : Csc ℚ) (q2 : Option (Buf ℚ)) (sc2 : ℚ), Rep P2 (Demo.triuV.withX newX) → Rep A2 Demo.rectV → Param2Is q2 sc2 2 (fun _ => 5) →
        ∃ G2 W, buildKKT P2 A2 10 q2 sc2 demoPerm = some G2 ∧ Rep G2.KKT W ∧ Rep G.KKT W :=
  c35_updates Demo.triu_rep Demo.rect_rep rfl rfl Demo.triu_triu 10 (q := some Demo.v2) Demo.v2_holds demoPerm_is demo_chain

example : ∃ G0 G W, buildKKT Demo.triu Demo.rect 10 (some Demo.v2) 0 demoPerm = some G0 ∧ runAll 10 G0 demoUpds = some G ∧ Rep G.KKT W ∧ W.Triu ∧ W.n = 3 + 2 ∧
      ∀ i < 3 + 2, ∀ j < 3 + 2, W.symEntry i j = kktFull (Demo.triuV.withX newX) Demo.rectV 10 (fun _ => 5) (demoP i) (demoP j) :=
  c35_denotes Demo.triu_rep Demo.rect_rep rfl rfl Demo.triu_triu 10 (q := some Demo.v2) Demo.v2_holds demoPerm_is demo_chain

/-! ## The compressed-row variant is not safe

With format 1 (compressed rows, used by the MKL Pardiso interface: pardiso_interface.c:312) `update_KKT_P` looks for the diagonal entry at the
start of the *column* of the caller's upper triangle, where it is only if the column has no other entry. -/

/-- `[4 1; . 2]` and an empty constraint matrix. -/
def csrP : Csc ℚ := Demo.csc 2 2 [0, 1, 3] [0, 0, 1] [4, 1, 2]
def csrA : Csc ℚ := Demo.csc 0 2 [0, 0, 0] [] []

/-- The values after forming the matrix in format 1 and after "updating" it with the same, unchanged `P`. -/
def csrRun : Option (List (Option ℚ) × List (Option ℚ)) :=
  (formKKT csrP csrA 1 10 none 0 (some (Buf.fresh 3)) none none).bind fun F => F.PtoKKT.bind fun map =>
  (updateKktP F.KKT csrP none 3 map 10 1).bind fun M =>
  some ((List.range 3).map fun k => F.KKT.x.rd k, (List.range 3).map fun k => M.x.rd k)

/-- **C35, compressed rows: false.**  Updating with unchanged values removes `sigma` from a diagonal entry. -/
theorem c35_csr_counterexample : csrRun = some ([some 14, some 1, some 12], [some 14, some 1, some 2]) := by decide +kernel

end Osqp.Csc
