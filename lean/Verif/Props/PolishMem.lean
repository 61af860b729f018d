import Verif.Vm.PolishRun
import Verif.Vm.PolishQ
import Verif.Props.ApiMem

/-!
# C67: polishing on memory

The specification is `Vm/PolishSpec.lean`; the program is `Vm/Polish.lean`. Statement of what polishing does to a state: `Model/Polish.lean`, whose
properties are in `Props/Polish.lean`.
-/

set_option linter.unusedSectionVars false
namespace Osqp
open Vm Csc Spec
variable {L L' K : Type*} [Field K] [LinearOrder K] [IsStrictOrderedRing K] {d : Dims}
variable {cfg : Cfg} {env : Env d K} {E : Lib L K} {G : PolLib L' K} {T : Data d K → (Fin d.m → ℤ) → K → L' → Prop} {R : LinSys d K → L → Prop}
  {s s' : Solver d K} {o o' : Obj L K}

/-- **C67**.  `polish`, called on memory that shows a solver state, runs without undefined behaviour, returns what the solver layer says, leaves memory
that shows the state the solver layer computes, and writes only to vectors a solve may write to. -/
theorem c67_polish (hG : PolImpl env G T) {F : Fix L K} (hF : FixIs cfg env F) {M : Mach L K} (h : Shows F R s M) :
    ∃ M', polishMem G (d.n : ℤ) F M = some (M', (polish cfg env s).2) ∧ Shows F R (polish cfg env s).1 M' ∧ Kept F.xz M M' :=
  polish_ok hG hF h

/-- **C67** (solve).  The hypothesis on polishing of C62 and C66 is met. -/
theorem c67_is (hG : PolImpl env G T) (hE : LibIs cfg env E R) (hn : o.n = d.n) (hm : o.m = d.m) : PolishIs cfg env ((E.withPolish G).fix o) R := by
  intro s M h
  have hF : FixIs cfg env (E.fix { o with M := M }) := ⟨hE.cfg, hm, hE.sqrt, hE.clk, hE.intr⟩
  obtain ⟨M', e, h', hk⟩ := polish_ok hG hF (R := R) (s := s) (M := M) ⟨h.lay, h.mem, h.types, h.lin, h.own, h.g, h.P, h.A, h.sol, h.room⟩
  refine ⟨M', ?_, ⟨h'.lay, h'.mem, h'.types, h'.lin, h'.own, h'.g, h'.P, h'.A, h'.sol, h'.room⟩, hk⟩
  have e2 : polishMem G o.n (E.fix { o with M := M }) M = polishMem G (d.n : ℤ) (E.fix { o with M := M }) M := congrArg (fun n => polishMem G n (E.fix { o with M := M }) M) hn
  exact e2.trans e

/-- **C67** (library).  The library with this `polish` meets the assumptions of C66 if the one without does. -/
theorem c67_lib (hE : LibIs cfg env E R) (G : PolLib L' K) : LibIs cfg env (E.withPolish G) R where
  cfg := hE.cfg
  sqrt := hE.sqrt
  clk := hE.clk
  intr := hE.intr
  calls o := ⟨(hE.calls o).solve, (hE.calls o).update⟩
  init := hE.init
  updMat := hE.updMat

/-- **C67** (calls).  After any history, a call whose arguments the solver layer accepts as defined, a solve with polishing included, runs without
undefined behaviour, returns the value the solver layer returns, and leaves an object that shows the state the solver layer computes. It writes to the
solver's arrays and to the arrays it was asked to write to, and to nothing else. -/
theorem c67_call (hG : PolImpl env G T) (hE : LibIs cfg env E R) (hs : SqrtPos env) (h : Lives cfg env (E.withPolish G) R s o) {c : MOp K} {op : Op d K} (hr : Reads o c op) {code : ℤ}
    (e : apiStep cfg env s op = some (s', code)) :
    ∃ o', run (E.withPolish G) o c = some (o', code) ∧ Lives cfg env (E.withPolish G) R s' o' ∧ Stands (E.withPolish G) R s' o' ∧ Alone c.target o o' := by
  have hE' := c67_lib hE G
  have st := (c66_history hE' hs h).1
  obtain ⟨o', e1, h1, h2⟩ := c66_call hE' hs h hr (fun _ => .inr (c67_is hG hE st.n st.m)) e
  exact ⟨o', e1, h1, (c66_history hE' hs h1).1, h2⟩

/-- **C67** (QDLDL).  If AMD leaves a permutation and QDLDL factors and solves, the linear-system interface of QDLDL, which forms, orders and factors the
reduced matrix, meets the assumptions. -/
theorem c67_qdldl {amd : Csc K → Buf ℤ} {Q : Qdldl K} (hQ : QdldlPolIs env amd Q) (ht : ∀ k, d.P.row k ≤ d.P.col k) : PolImpl env (qdldlPol Q amd) (QPolIs env) :=
  qdldlPol_impl hQ ht

/-! ## The hypotheses are met

An exact factorisation, which refuses singular matrices and solves by the inverse; the ordering is the identity. -/

section Exists
open Matrix

/-- Like `exactQ`, for matrices of any size. -/
noncomputable def exactPolQ (d : Dims) : Qdldl K where
  etree _ := 0
  factor G := (if (cellMatrix G.n.toNat G).det = 0 then -1 else d.n, fun c =>
    some ⟨G.n.toNat, fun j => if h : j < G.n.toNat then some (((cellMatrix G.n.toNat G)⁻¹ *ᵥ fun i => (c.cell i).getD 0) ⟨j, h⟩) else none⟩)

def idAmd (G : Csc K) : Buf ℤ := ⟨G.n.toNat, fun j => some (j : ℤ)⟩

noncomputable def exactPolEnv (d : Dims) (sqrt : K → K) (clk : ℕ → K) (intr : ℕ → Bool) : Env d K :=
  { exactEnv d sqrt clk intr with
    polFactor := fun D flags sigma => if (redMatrix D flags sigma).det = 0 then -1 else d.n
    polSolve := fun D flags sigma bx bz =>
      let v := (redMatrix D flags sigma)⁻¹ *ᵥ Sum.elim bx fun i => bz (rank flags i)
      (fun j => v (.inl j), fun r => ∑ i : {i // flags i ≠ 0}, if rank flags i = r then v (.inr i) else 0) }

theorem exactPol_is (sqrt : K → K) (clk : ℕ → K) (intr : ℕ → Bool) : QdldlPolIs (exactPolEnv d sqrt clk intr) idAmd (exactPolQ d) := by
  have hbij : ∀ flags : Fin d.m → ℤ, Function.Bijective fun a => (⟨flatRed flags a, flatRed_lt a⟩ : Fin (d.n + picked flags)) := by
    intro flags
    constructor
    · intro a b h
      have h : flatRed flags a = flatRed flags b := congrArg Fin.val h
      rcases a with a | a <;> rcases b with b | b
      · have : (a : ℕ) = b := h
        rw [Fin.ext this]
      · have : (a : ℕ) = d.n + rank flags b.1 := h
        omega
      · have : d.n + rank flags a.1 = (b : ℕ) := h
        omega
      · have : d.n + rank flags a.1 = d.n + rank flags b.1 := h
        rw [Subtype.ext (rank_inj a.2 b.2 (by omega))]
    · rintro ⟨r, hr⟩
      by_cases c : r < d.n
      · exact ⟨.inl ⟨r, c⟩, rfl⟩
      · obtain ⟨i, hi, e⟩ := rank_surj (flags := flags) (r := r - d.n) (by omega)
        exact ⟨.inr ⟨i, hi⟩, Fin.ext (show d.n + rank flags i = r by omega)⟩
  have equ : ∀ (flags : Fin d.m → ℤ) (p : ℕ → ℕ), (∀ k < d.n + picked flags, p k < d.n + picked flags) →
      (∀ a < d.n + picked flags, ∀ b < d.n + picked flags, p a = p b → a = b) → ∃ e : Fin (d.n + picked flags) ≃ Fin d.n ⊕ {i // flags i ≠ 0}, ∀ i, flatRed flags (e i) = p i := by
    intro flags p h1 h2
    have hb : Function.Bijective fun i : Fin (d.n + picked flags) => (⟨p i, h1 i i.2⟩ : Fin (d.n + picked flags)) :=
      Finite.injective_iff_bijective.1 fun a b e => Fin.ext (h2 a a.2 b b.2 (congrArg Fin.val e))
    refine ⟨(Equiv.ofBijective _ hb).trans (Equiv.ofBijective _ (hbij flags)).symm, fun i => ?_⟩
    have := (Equiv.ofBijective _ (hbij flags)).apply_symm_apply ⟨p i, h1 i i.2⟩
    exact congrArg Fin.val this
  have hm : ∀ D flags sigma p (e : Fin (d.n + picked flags) ≃ Fin d.n ⊕ {i // flags i ≠ 0}), (∀ i, flatRed flags (e i) = p i) → ∀ G : Csc K, RedKkt D flags sigma p G →
      cellMatrix (d.n + picked flags) G = (redMatrix D flags sigma).submatrix e e := by
    rintro D flags sigma p e he G ⟨-, -, W, hR, _, _, hn, hE⟩
    ext i j
    rw [cellMatrix_eq hR hn, hE i i.2 j j.2 (e i) (e j) (he i).symm (he j).symm]
    rfl
  have hsz : ∀ (D : Data d K) (flags : Fin d.m → ℤ) (sigma : K) (p : ℕ → ℕ) (G : Csc K), RedKkt D flags sigma p G → G.n.toNat = d.n + picked flags := by
    rintro D flags sigma p G ⟨-, -, W, hR, _, _, hn, _⟩
    rw [hR.n, hn, Int.toNat_natCast]
  refine ⟨fun D flags sigma G h => ⟨id, ?_⟩, fun _ _ _ _ _ _ => le_rfl, fun D flags sigma p G h => ?_, fun D flags sigma p perm G hp h bx bz c h0 hc' => ?_⟩
  · unfold idAmd
    rw [hsz _ _ _ _ _ h]
    exact ⟨⟨le_rfl, fun _ _ => rfl⟩, fun _ h => h, fun _ _ _ _ h => h⟩
  · obtain ⟨e, he⟩ := equ flags p h.1 h.2.1
    show (if _ then (-1 : ℤ) else _) = if _ then _ else _
    rw [hsz _ _ _ _ _ h, hm D flags sigma p e he G h, det_submatrix_equiv_self]
  · obtain ⟨e, he⟩ := equ flags p h.1 h.2.1
    have hc : ∀ (f : Fin d.n → K) (g : ℕ → K) (i : Fin (d.n + picked flags)), cat d.n (Csc.ext f) g (p i) = Sum.elim f (fun i : {i // flags i ≠ 0} => g (rank flags i)) (e i) := fun f g i => by
      rw [← he i]
      rcases e i with a | a
      · simp [flatRed, cat]
      · simp [flatRed, cat]
    refine ⟨_, rfl, (hsz _ _ _ _ _ h).ge, fun j hj => ?_⟩
    show (if h : j < G.n.toNat then some (((cellMatrix G.n.toNat G)⁻¹ *ᵥ fun i => (c.cell i).getD 0) ⟨j, h⟩) else none) = _
    rw [hsz _ _ _ _ _ h, dif_pos hj]
    congr 1
    have e1 : (fun i : Fin (d.n + picked flags) => (c.cell i).getD 0) = Sum.elim bx (fun i : {i // flags i ≠ 0} => bz (rank flags i)) ∘ e := by
      funext i
      rw [hc'.2 i i.2]
      exact hc bx bz i
    have e2 := hc ((exactPolEnv d sqrt clk intr).polSolve D flags sigma bx bz).1 ((exactPolEnv d sqrt clk intr).polSolve D flags sigma bx bz).2 ⟨j, hj⟩
    rw [e1, hm D flags sigma p e he G h, inv_submatrix_equiv, submatrix_mulVec_equiv]
    simp only at e2 ⊢
    rw [e2]
    have : (Sum.elim bx (fun i : {i // flags i ≠ 0} => bz (rank flags i)) ∘ ⇑e) ∘ ⇑e.symm = Sum.elim bx (fun i : {i // flags i ≠ 0} => bz (rank flags i)) := by funext a; simp
    rw [this]
    simp only [Function.comp_apply]
    generalize e ⟨j, hj⟩ = a
    rcases a with a | a
    · rfl
    · show _ = ∑ i : {i // flags i ≠ 0}, if rank flags i = rank flags a then _ else 0
      rw [Finset.sum_eq_single a]
      · rw [if_pos rfl]
      · intro b _ hb
        exact if_neg fun e => hb (Subtype.ext (rank_inj b.2 a.2 e))
      · intro h; exact absurd (Finset.mem_univ a) h

end Exists

namespace Demo
open Vm

noncomputable def envP : Env dims ℚ := exactPolEnv dims rsqrt (fun _ => 0) fun _ => false
noncomputable def baseP : Lib (QMem ℚ) ℚ := qdldlLib Demo.cfg envP.sqrt envP.clk envP.intr (exactQ dims) ⟨2, fun j => some (j : ℤ)⟩ fun _ => none
noncomputable def polP : PolLib (QPol ℚ) ℚ := qdldlPol (exactPolQ dims) idAmd

theorem baseP_is : LibIs Demo.cfg envP baseP (QIs envP id) := by
  have hp : PermIs ⟨2, fun j => some (j : ℤ)⟩ (dims.n + dims.m) id := ⟨⟨le_rfl, fun _ _ => rfl⟩, fun _ h => h, fun _ _ _ _ h => h⟩
  have h := exact_is hp rsqrt (fun _ => 0) fun _ => false
  have h' : QdldlIs envP id (exactQ dims) := ⟨h.etree, h.count, h.solve⟩
  exact c66_qdldl h' hp _

theorem polP_is : PolImpl envP polP (QPolIs envP) := c67_qdldl (exactPol_is _ _ _) fun _ => le_rfl

theorem envP_sqrt : SqrtPos envP := fun x hx => Demo.sqrtPos (fun _ => 0) (fun _ => false) false x hx

noncomputable def madeP : Option (Solver dims ℚ) := got (osqpSetup Demo.cfg envP sPolish.data sPolish.st)
noncomputable def warmP (s : Solver dims ℚ) : Solver dims ℚ × ℤ := osqpWarmStart s (some fun _ => 51 / 100) (some fun _ => 1 / 2)

/-- The warm-started state: polishing is on; one constraint is selected and the reduced system is not singular, so that the polished point is computed. -/
theorem madeP_ok : madeP.isSome = true ∧ madeP.map (fun s => (warmP s).1.settings.polishing) = some 1 ∧
    madeP.map (fun s => decide (nActive (activeFlags (warmP s).1.work.data.l (warmP s).1.work.data.u (warmP s).1.work.z (warmP s).1.work.y) ≠ 0 ∧
      (redMatrix (warmP s).1.work.data (activeFlags (warmP s).1.work.data.l (warmP s).1.work.data.u (warmP s).1.work.z (warmP s).1.work.y)
        (warmP s).1.settings.sigma).det ≠ 0)) = some true := by
  refine ⟨by decide +kernel, by decide +kernel, by decide +kernel⟩

/-- In that state polishing computes a point and judges it. -/
theorem warmP_polishes {s : Solver dims ℚ} (hs : madeP = some s) : (polish Demo.cfg envP (warmP s).1).2 = 0 ∧
    ((polish Demo.cfg envP (warmP s).1).1.info.status_polish = Pol.success ∨ (polish Demo.cfg envP (warmP s).1).1.info.status_polish = Pol.failed) := by
  have h := madeP_ok.2.2
  rw [hs] at h
  obtain ⟨h1, h2⟩ := of_decide_eq_true (Option.some.inj h)
  unfold polish
  dsimp only
  rw [if_neg h1, if_neg]
  · split_ifs
    any_goals exact ⟨rfl, .inl rfl⟩
    all_goals exact ⟨rfl, .inr rfl⟩
  · show ¬ (if _ then (-1 : ℤ) else _) < _
    rw [if_neg h2]
    exact lt_irrefl _

/-- A solver is set up with QDLDL and with polishing on. The caller writes a starting point to arrays of their own, passes it to `osqp_warm_start` and
solves the problem: every call of this history meets the hypotheses of the theorems above. On the memory after the warm start, `polish` itself
computes and judges a point. -/
example : ∃ s o o', madeP = some s ∧ Lives Demo.cfg envP (baseP.withPolish polP) (QIs envP id) (warmP s).1 o ∧ (warmP s).1.settings.polishing = 1 ∧
    run (baseP.withPolish polP) o .solve = some (o', (osqpSolve Demo.cfg envP (warmP s).1).2) ∧
    Stands (baseP.withPolish polP) (QIs envP id) (osqpSolve Demo.cfg envP (warmP s).1).1 o' ∧
    ∃ M', polishMem polP 1 (baseP.fix o) o.M = some (M', 0) ∧ Shows (baseP.fix o) (QIs envP id) (polish Demo.cfg envP (warmP s).1).1 M' ∧
      ((polish Demo.cfg envP (warmP s).1).1.info.status_polish = Pol.success ∨ (polish Demo.cfg envP (warmP s).1).1.info.status_polish = Pol.failed) := by
  obtain ⟨h1, h2, -⟩ := madeP_ok
  obtain ⟨s, hs⟩ := Option.isSome_iff_exists.1 h1
  rw [hs] at h2
  have h2 : (warmP s).1.settings.polishing = 1 := Option.some.inj h2
  have hok : osqpSetup Demo.cfg envP sPolish.data sPolish.st = .ok s := by
    have := got_ok h1
    rw [show (got (osqpSetup Demo.cfg envP sPolish.data sPolish.st)).get h1 = s from Option.get_of_eq_some h1 hs] at this
    exact this
  have hW : Allocated dims (anyPtrs 1 1) ⟨34, 7, 0, 2⟩ := ⟨any_layout 1 1, fun _ => rfl⟩
  obtain ⟨P, hP⟩ := stores_any stores_one sPolish.data.P
  obtain ⟨A, hA⟩ := stores_any stores_one sPolish.data.A
  have ha : ArgsAre (d := dims) ⟨some P, some ⟨1, fun _ => some (sPolish.data.q 0)⟩, some A, some ⟨1, fun _ => some (sPolish.data.l 0)⟩,
      some ⟨1, fun _ => some (sPolish.data.u 0)⟩, 1, 1, some sPolish.st⟩ sPolish.data sPolish.st :=
    ⟨⟨_, rfl, hP⟩, ⟨_, rfl, le_rfl, fun _ => rfl⟩, ⟨_, rfl, hA⟩, ⟨_, rfl, le_rfl, fun _ => rfl⟩, ⟨_, rfl, le_rfl, fun _ => rfl⟩, rfl, rfl, rfl⟩
  obtain ⟨r, e1, g1⟩ := c66_setup (c67_lib baseP_is polP) envP_sqrt hW ha fun _ => ⟨1, fun _ => none⟩
  rw [hok] at g1
  rcases r with _ | _ | o
  any_goals first | exact False.elim g1 | skip
  obtain ⟨-, eW, hσ⟩ := g1
  have l1 : Lives Demo.cfg envP (baseP.withPolish polP) (QIs envP id) s o := Lives.setup hW ha hok e1
  have hout : ∀ b, 50 ≤ b → ¬ Owned o.M b := by
    rintro b hb ⟨k, rfl⟩
    rw [eW] at hb
    revert hb
    cases k <;> decide
  have l2 := l1.user (σ := Function.update (Function.update o.M.σ 100 ⟨1, fun _ => some (51 / 100)⟩) 101 ⟨1, fun _ => some (1 / 2)⟩)
    fun b hb => by rw [Function.update_of_ne (fun e => hout b (by omega) hb), Function.update_of_ne (fun e => hout b (by omega) hb)]
  obtain ⟨o2, -, l3, st, -⟩ := c67_call polP_is baseP_is envP_sqrt l2 (c := .warmStart (some (mine 100)) (some (mine 101)))
    (op := .warmStart (some fun _ => 51 / 100) (some fun _ => 1 / 2))
    ⟨⟨⟨rfl, by simp [mine], fun i => by simp [mine]⟩, fun k _ e => hout 100 (by omega) ⟨k, e⟩⟩,
      ⟨rfl, by simp [mine], fun i => by simp [mine]⟩, fun k _ e => hout 101 (by omega) ⟨k, e⟩⟩ rfl
  obtain ⟨o3, e3, -, l4, -⟩ := c67_call polP_is baseP_is envP_sqrt l3 (c := .solve) (op := .solve) trivial rfl
  have hsh : Shows (baseP.fix o2) (QIs envP id) (warmP s).1 o2.M :=
    ⟨st.shows.lay, st.shows.mem, st.shows.types, st.shows.lin, st.shows.own, st.shows.g, st.shows.P, st.shows.A, st.shows.sol, st.shows.room⟩
  obtain ⟨M', p1, p2, -⟩ := c67_polish polP_is (cfg := Demo.cfg) (F := baseP.fix o2) ⟨baseP_is.cfg, st.m, baseP_is.sqrt, baseP_is.clk, baseP_is.intr⟩ hsh
  rw [(warmP_polishes hs).1] at p1
  exact ⟨s, o2, o3, hs, l3, h2, e3, l4, M', p1, p2, (warmP_polishes hs).2⟩

end Demo
end Osqp
