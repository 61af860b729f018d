import Verif.Vm.QdldlAmd
import Verif.Props.PolishMem
import Verif.Csc.DerivDemo

/-!
# C69: the ordering inside the solver

The theorems on the linear systems (`Props/Kkt.lean`, `Props/ApiMem.lean`, `Props/PolishMem.lean`, `Props/Deriv.lean`) speak of the ordering as a
given permutation. Here the ordering is the one the program computes, so that nothing is assumed of it. `PermIs` (`Props/Kkt.lean`): the array
holds a permutation; `Rep`, `kktFull`: as in `Props/Kkt.lean`; `qInitAmd` (`Vm/QdldlAmd.lean`): the set-up of the linear-system object with
the ordering inside; `Amd.Machine`: what the ordering takes from the machine.
-/

set_option linter.unusedSectionVars false
namespace Osqp
open Csc Vm Amd Spec
variable {K : Type*} [Field K] [LinearOrder K] {V V' VP VA : View K} {M M' P A : Csc K}

/-- **C69** (a stored matrix). The ordering of a stored square matrix is defined, reports success and leaves a permutation. -/
theorem c69_stored (h : Rep M V) (sq : V.m = V.n) (c : Machine) : ∃ st perm p, orderCsc c M = some (st, perm) ∧ (st = 0 ∨ st = 1) ∧ PermIs perm V.n p :=
  stored_ok h sq c

/-- **C69** (only the pattern matters). Two stored square matrices with the same pattern are ordered alike, whatever their values are and whatever is
behind the parts of the arrays that are used. -/
theorem c69_pattern (h : Rep M V) (h' : Rep M' V') (sq : V.m = V.n) (sq' : V'.m = V'.n) (hn : V'.n = V.n) (hp : ∀ j ≤ V.n, V'.p j = V.p j) (hi : ∀ k < V.nnz, V'.i k = V.i k) (c : Machine) :
    orderCsc c M' = orderCsc c M :=
  pattern_ok h h' sq sq' hn hp hi c

/-- **C69** (the KKT matrix). For every well-formed upper triangle `P` and every well-formed `A` with as many columns, the assembled matrix is ordered,
and the matrix then stored is the upper triangle of `[P + sigma*I, A'; A, -diag(R)]` with rows and columns in that order. -/
theorem c69_kkt (hP : Rep P VP) (hA : Rep A VA) (hsq : VP.m = VP.n) (hn : VA.n = VP.n) (ht : VP.Triu) (sigma : K)
    {q : Option (Buf K)} {sc : K} {R : ℕ → K} (hR : Param2Is q sc VA.m R) (c : Machine) :
    ∃ F st perm p G W, formKKT P A 0 sigma q sc (some (Buf.fresh VP.nnz)) (some (Buf.fresh VA.nnz)) (some (Buf.fresh VA.m)) = some F ∧
      orderCsc c F.KKT = some (st, perm) ∧ 0 ≤ st ∧ PermIs perm (VP.n + VA.m) p ∧ permuteKKT F perm VP.nnz VA.nnz VA.m = some G ∧
      Rep G.KKT W ∧ W.m = VP.n + VA.m ∧ W.n = VP.n + VA.m ∧ W.Triu ∧
      ∀ i < VP.n + VA.m, ∀ j < VP.n + VA.m, W.symEntry i j = kktFull VP VA sigma R (p i) (p j) := by
  obtain ⟨F, V, _, _, _, e, hF, hm, hnn, -⟩ := c34_form hP hA hsq hn ht sigma hR (pm := some (Buf.fresh VP.nnz)) (am := some (Buf.fresh VA.nnz)) (rm := some (Buf.fresh VA.m))
    (fun b hb => by obtain rfl := (Option.some.inj hb).symm; exact le_new _) (fun b hb => by obtain rfl := (Option.some.inj hb).symm; exact le_new _)
    (fun b hb => by obtain rfl := (Option.some.inj hb).symm; exact le_new _)
  obtain ⟨st, perm, p, eo, hst, hp⟩ := stored_ok hF (hm.trans hnn.symm) c
  rw [hnn] at hp
  obtain ⟨G, W, eb, h1, h2, h3, h4, h5⟩ := c34_stored hP hA hsq hn ht sigma hR hp
  refine ⟨F, st, perm, p, G, W, e, eo, by omega, hp, ?_, h1, h2, h3, h4, h5⟩
  have en : A.p.rd P.n = some ((VA.nnz : ℕ) : ℤ) := by rw [hP.n, ← hn, ← hA.n]; exact hA.rdNnz
  unfold buildKKT at eb
  rw [hP.rdNnz, en] at eb
  simp only [Option.bind_some] at eb
  rw [hA.m, e] at eb
  exact eb

/-- **C69** (derivatives). With this ordering, what C55 to C57 assume of AMD and QDLDL is an assumption on QDLDL only. -/
theorem c69_deriv (c : Machine) (qsolve : Csc K → Buf K → Buf K) (sqrt : K → K) {dim : ℕ} {sv : Csc K → (ℕ → K) → ℕ → K}
    (size : ∀ M w f, w.size = dim → Holds w dim f → (qsolve M w).size = dim)
    (solve : ∀ M w f, w.size = dim → Holds w dim f → Holds (qsolve M w) dim (sv M f)) : SolverOk ⟨amdOf c, qsolve, sqrt⟩ dim sv where
  perm M V h hm hn := by
    obtain ⟨p, hp⟩ := amdOf_perm h (hm.trans hn.symm) c
    rw [hn] at hp
    exact ⟨p, hp.1, hp.2.1, hp.2.2⟩
  size := size
  solve := solve

section
variable [IsStrictOrderedRing K] {d : Dims} {cfg : Cfg} {env : Env d K}

/-- **C69** (set-up). For every pattern of the two matrices there is one permutation such that, for all values of the matrices and all step sizes, the
set-up of the linear-system object, with its ordering inside, is the set-up with that permutation given. -/
theorem c69_init (d : Dims) (c : Machine) : ∃ perm p, PermIs perm (d.n + d.m) p ∧ ∀ (Q : Qdldl K) (P A : Csc K) (b : Option (Buf K)) (sigma rho : K),
    InitArgs d P A b → qInitAmd Q c P A b sigma rho = qInit Q perm P A b sigma rho :=
  one_order d c

/-- The library with AMD and QDLDL. -/
def amdLib (cfg : Cfg) (sqrt : K → K) (clk : ℕ → K) (intr : ℕ → Bool) (Q : Qdldl K) (c : Machine)
    (pol : Obj (QMem K) K → Option (Mach (QMem K) K × ℤ)) : Lib (QMem K) K where
  cfg := cfg
  sqrt := sqrt
  clk := clk
  intr := intr
  solve := fun q => q.lin.solve
  updRho := qUpdateRho Q
  init := qInitAmd Q c
  updMat := qUpdateMat Q
  polish := pol

/-- **C69** (the library). For every pattern there is one permutation such that the library with AMD and QDLDL meets the assumptions of C66, if QDLDL
factors and solves matrices in that order. -/
theorem c69_lib (d : Dims) (c : Machine) : ∃ p : ℕ → ℕ, (∃ perm, PermIs perm (d.n + d.m) p) ∧
    ∀ (cfg : Cfg) (env : Env d K) (Q : Qdldl K) (_ : QdldlIs env p Q) (pol : Obj (QMem K) K → Option (Mach (QMem K) K × ℤ)),
      LibIs cfg env (amdLib cfg env.sqrt env.clk env.intr Q c pol) (QIs env p) := by
  obtain ⟨perm, p, hp, he⟩ := one_order (K := K) d c
  refine ⟨p, ⟨perm, hp⟩, fun cfg env Q hQ pol => ?_⟩
  have h := c66_qdldl (cfg := cfg) hQ hp pol
  refine ⟨rfl, rfl, rfl, rfl, fun o => ⟨(h.calls o).solve, (h.calls o).update⟩, ?_, h.updMat⟩
  intro P A vP vA sigma rho v b hP hA ht hb
  have ha : InitArgs d P A b := ⟨⟨_, hP⟩, ⟨_, hA⟩, fun c hc => by
    subst hc
    cases v with
    | none => exact hb.elim
    | some v => exact ⟨v, hb⟩⟩
  have := h.init hP hA ht hb (sigma := sigma) (rho := rho)
  show _ ∧ _
  simp only [amdLib]
  rw [he Q P A b sigma rho ha]
  exact this

/-- What is assumed of QDLDL when polishing: on a stored reduced matrix, in any order, it counts the positive pivots and solves as `env` says. -/
structure PolFactors (env : Env d K) (Q : Qdldl K) : Prop where
  etree : ∀ (D : Data d K) flags sigma p G, RedKkt D flags sigma p G → 0 ≤ Q.etree G
  count : ∀ (D : Data d K) flags sigma p G, RedKkt D flags sigma p G → (Q.factor G).1 = env.polFactor D flags sigma
  solve : ∀ (D : Data d K) flags sigma p perm G, PermIs perm (d.n + picked flags) p → RedKkt D flags sigma p G →
    ∀ (bx : Vec K d.n) (bz : ℕ → K) (c : Buf K), (∀ k, picked flags ≤ k → bz k = 0) → Holds c (d.n + picked flags) (fun j => cat d.n (ext bx) bz (p j)) →
    ∃ c', (Q.factor G).2 c = some c' ∧
      Holds c' (d.n + picked flags) fun j => cat d.n (ext (env.polSolve D flags sigma bx bz).1) (env.polSolve D flags sigma bx bz).2 (p j)

/-- **C69** (polishing). The linear-system interface, which forms, orders and factors the reduced matrix, meets the assumptions of C67 if QDLDL factors
and solves. -/
theorem c69_polish {Q : Qdldl K} (hQ : PolFactors env Q) (ht : ∀ k, d.P.row k ≤ d.P.col k) (c : Machine) : PolImpl env (qdldlPol Q (amdOf c)) (QPolIs env) := by
  refine c67_qdldl ⟨fun D flags sigma G h => ?_, hQ.etree, hQ.count, hQ.solve⟩ ht
  obtain ⟨-, -, W, hG, -, hm, hn, -⟩ := h
  obtain ⟨p, hp⟩ := amdOf_perm hG (hm.trans hn.symm) c
  exact ⟨p, hn ▸ hp⟩

/-- **C69** (calls). The library with AMD and QDLDL, in the set-up and in polishing: for every pattern there is one permutation such that, if QDLDL factors and
solves matrices in that order, and reduced matrices in any order, then after any history every call whose arguments the solver layer accepts as
defined runs without undefined behaviour, returns what the solver layer returns and leaves an object that shows the state the solver layer computes. -/
theorem c69_call (ht : ∀ k, d.P.row k ≤ d.P.col k) (c : Machine) : ∃ p : ℕ → ℕ, (∃ perm, PermIs perm (d.n + d.m) p) ∧
    ∀ (cfg : Cfg) (env : Env d K) (Q : Qdldl K), QdldlIs env p Q → PolFactors env Q → SqrtPos env →
      let E := (amdLib cfg env.sqrt env.clk env.intr Q c fun _ => none).withPolish (qdldlPol Q (amdOf c))
      ∀ (s s' : Solver d K) (o : Obj (QMem K) K), Lives cfg env E (QIs env p) s o → ∀ (cl : MOp K) (op : Op d K), Reads o cl op → ∀ code : ℤ, apiStep cfg env s op = some (s', code) →
        ∃ o', run E o cl = some (o', code) ∧ Lives cfg env E (QIs env p) s' o' ∧ Stands E (QIs env p) s' o' ∧ Alone cl.target o o' := by
  obtain ⟨p, hp, h⟩ := c69_lib (K := K) d c
  refine ⟨p, hp, fun cfg env Q hQ hQ' hs s s' o hl cl op hr code e => ?_⟩
  exact c67_call (c69_polish hQ' ht c) (h cfg env Q hQ _) hs hl hr e

/-! ## The hypotheses are met -/

/-- The exact factorisation of `Props/SolveMem.lean` meets the assumption of `c69_lib` for every permutation. -/
example (c : Machine) (sqrt : K → K) (clk : ℕ → K) (intr : ℕ → Bool) (cfg : Cfg) (pol : Obj (QMem K) K → Option (Mach (QMem K) K × ℤ)) :
    ∃ p, LibIs cfg (exactEnv d sqrt clk intr) (amdLib cfg sqrt clk intr (exactQ d) c pol) (QIs (exactEnv d sqrt clk intr) p) := by
  obtain ⟨p, ⟨perm, hp⟩, h⟩ := c69_lib (K := K) d c
  exact ⟨p, h cfg _ _ (exact_is hp sqrt clk intr) pol⟩

/-- … and that of `Props/PolishMem.lean` the assumption of `c69_polish`. -/
example (c : Machine) (sqrt : K → K) (clk : ℕ → K) (intr : ℕ → Bool) (ht : ∀ k, d.P.row k ≤ d.P.col k) :
    PolImpl (exactPolEnv d sqrt clk intr) (qdldlPol (exactPolQ d) (amdOf c)) (QPolIs (exactPolEnv d sqrt clk intr)) :=
  c69_polish ⟨(exactPol_is sqrt clk intr).etree, (exactPol_is sqrt clk intr).count, (exactPol_is sqrt clk intr).solve⟩ ht c

/-- One factorisation that meets both assumptions of `c69_call`. -/
theorem exactPol_both {p : ℕ → ℕ} {perm : Buf ℤ} (hp : PermIs perm (d.n + d.m) p) (sqrt : K → K) (clk : ℕ → K) (intr : ℕ → Bool) :
    QdldlIs (exactPolEnv d sqrt clk intr) p (exactPolQ d) ∧ PolFactors (exactPolEnv d sqrt clk intr) (exactPolQ d) := by
  have h := exact_is hp sqrt clk intr
  have hf : ∀ (ls : LinSys d K) G, KktOf ls p G → (exactPolQ d).factor G = (exactQ d).factor G := by
    rintro ls G ⟨W, hG, -, -, hn, -⟩
    have : G.n.toNat = d.n + d.m := by rw [hG.n, hn, Int.toNat_natCast]
    show ((_, fun c => _) : ℤ × (Buf K → Option (Buf K))) = (_, fun c => _)
    rw [this]
  exact ⟨⟨fun _ _ _ => le_rfl, fun ls G hk => by rw [hf ls G hk]; exact h.count ls G hk, fun ls G hk => by rw [hf ls G hk]; exact h.solve ls G hk⟩,
    (exactPol_is sqrt clk intr).etree, (exactPol_is sqrt clk intr).count, (exactPol_is sqrt clk intr).solve⟩

namespace Demo

/-- A solver set up, with AMD in the set-up and in polishing, for the problem of `Props/PolishMem.lean`; the hypotheses of `c69_call` are met by it. -/
example (c : Machine) : ∃ p s o, LibIs Demo.cfg envP ((amdLib Demo.cfg envP.sqrt envP.clk envP.intr (exactPolQ dims) c fun _ => none).withPolish (qdldlPol (exactPolQ dims) (amdOf c))) (QIs envP p) ∧
    madeP = some s ∧ Lives Demo.cfg envP ((amdLib Demo.cfg envP.sqrt envP.clk envP.intr (exactPolQ dims) c fun _ => none).withPolish (qdldlPol (exactPolQ dims) (amdOf c))) (QIs envP p) s o := by
  obtain ⟨p, ⟨perm, hp⟩, h⟩ := c69_lib (K := ℚ) dims c
  obtain ⟨h1, h2⟩ := exactPol_both hp rsqrt (fun _ => 0) fun _ => false
  have hL := c67_lib (h Demo.cfg envP (exactPolQ dims) h1 fun _ => none) (qdldlPol (exactPolQ dims) (amdOf c))
  obtain ⟨s, hs⟩ := Option.isSome_iff_exists.1 madeP_ok.1
  have hok : osqpSetup Demo.cfg envP sPolish.data sPolish.st = .ok s := by
    have := got_ok madeP_ok.1
    rw [show (got (osqpSetup Demo.cfg envP sPolish.data sPolish.st)).get madeP_ok.1 = s from Option.get_of_eq_some madeP_ok.1 hs] at this
    exact this
  have hW : Allocated dims (anyPtrs 1 1) ⟨34, 7, 0, 2⟩ := ⟨any_layout 1 1, fun _ => rfl⟩
  obtain ⟨P, hP⟩ := stores_any stores_one sPolish.data.P
  obtain ⟨A, hA⟩ := stores_any stores_one sPolish.data.A
  have ha : ArgsAre (d := dims) ⟨some P, some ⟨1, fun _ => some (sPolish.data.q 0)⟩, some A, some ⟨1, fun _ => some (sPolish.data.l 0)⟩,
      some ⟨1, fun _ => some (sPolish.data.u 0)⟩, 1, 1, some sPolish.st⟩ sPolish.data sPolish.st :=
    ⟨⟨_, rfl, hP⟩, ⟨_, rfl, le_rfl, fun _ => rfl⟩, ⟨_, rfl, hA⟩, ⟨_, rfl, le_rfl, fun _ => rfl⟩, ⟨_, rfl, le_rfl, fun _ => rfl⟩, rfl, rfl, rfl⟩
  obtain ⟨r, e1, g1⟩ := c66_setup hL envP_sqrt hW ha fun _ => ⟨1, fun _ => none⟩
  rw [hok] at g1
  rcases r with _ | _ | o
  any_goals first | exact False.elim g1 | skip
  exact ⟨p, s, o, hL, hs, Lives.setup hW ha hok e1⟩

end Demo
end
end Osqp
