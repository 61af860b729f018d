import Verif.Vm.SolveRun
import Verif.Vm.QdldlLemmas
import Verif.Props.Vec
import Verif.Demo.Runs
import Mathlib.LinearAlgebra.Matrix.NonsingularInverse

/-!
# A whole solve in memory (C62), the linear-system object in memory (C63)

The specification is in `Vm/SolveSpec.lean` and `Vm/QdldlSpec.lean`: `Shows F R s M` says that the memory `M` holds the solver state `s` of
the solver layer, `Kept` that two memories differ only where a solve may write, `Impl env F R` that the linear-system object behind
its function pointers does what the solver layer assumes.
-/

set_option linter.unusedSectionVars false
namespace Osqp.Vm
open Csc Spec
variable {L K : Type*} [Field K] [LinearOrder K] [IsStrictOrderedRing K] {d : Dims}
variable {cfg : Cfg} {env : Env d K} {F : Fix L K} {R : LinSys d K → L → Prop}

/-! ## C63 -/

theorem runAll_ok {p : ℕ → ℕ} {Q : Qdldl K} (hQ : QdldlIs env p Q) {ops : List (LsOp d K)} {mops : List (MemOp K)} {vec : Bool} (hs : List.Forall₂ (SameOp vec) ops mops) :
    ∀ {ls ls' : LinSys d K} {q : QMem K} {efs : List ℤ}, ls.rho_inv_vec.isSome = vec → QIs env p ls q → specAll env ls ops = some (ls', efs) →
      ∃ q', runAll Q q mops = some (q', efs) ∧ QIs env p ls' q' := by
  induction hs with
  | nil =>
    intro ls ls' q efs _ h hr
    simp only [specAll, Option.some.injEq, Prod.mk.injEq] at hr
    obtain ⟨rfl, rfl⟩ := hr
    exact ⟨q, rfl, h⟩
  | @cons o mo os mos ho _ ih =>
    intro ls ls' q efs hv h hr
    simp only [specAll] at hr
    obtain ⟨⟨ls1, ef⟩, e1, hr⟩ := Option.bind_eq_some_iff.1 hr
    obtain ⟨⟨ls2, efs2⟩, e2, hr⟩ := Option.map_eq_some_iff.1 hr
    simp only [Prod.mk.injEq] at hr
    obtain ⟨rfl, rfl⟩ := hr
    obtain ⟨q1, r1, h1, hv1⟩ : ∃ q1, mo.run Q q = some (q1, ef) ∧ QIs env p ls1 q1 ∧ ls1.rho_inv_vec.isSome = vec := by
      cases o with
      | rho v sc =>
        cases mo with
        | mat => exact ho.elim
        | rho b sc' =>
          obtain ⟨rfl, hb⟩ := ho
          simp only [LsOp.spec, Option.some.injEq] at e1
          obtain ⟨q1, r1, h1⟩ := h.updateRho hQ (b := b) (v := v) (rho := sc') (by rw [hv]; exact hb)
          rw [e1] at r1 h1
          refine ⟨q1, r1, h1, ?_⟩
          have e3 : ls1 = (linsysUpdateRho env ls v sc').1 := by rw [e1]
          rw [← hv, e3]
          obtain ⟨_, _, _, riv, _⟩ := ls
          cases riv <;> rfl
      | mat D pi pn ai an =>
        cases mo with
        | rho => exact ho.elim
        | mat P pi' pn' A ai' an' =>
          obtain ⟨hP, hA, rfl, rfl, hpi, hai⟩ := ho
          obtain ⟨q1, r1, h1⟩ := h.updateMat hQ (show linsysUpdateMat env ls D pi pn ai an = some (ls1, ef) from e1) hP hA hpi hai
          refine ⟨q1, r1, h1, ?_⟩
          have e3 : linsysUpdateMat env ls D pi pn ai an = some (ls1, ef) := e1
          unfold linsysUpdateMat at e3
          split at e3
          · simp only [Option.some.injEq, Prod.mk.injEq] at e3
            rw [← e3.1]; exact hv
          · simp at e3
    obtain ⟨q', r2, h2⟩ := ih hv1 h1 e2
    refine ⟨q', ?_, h2⟩
    simp only [runAll]
    rw [r1]
    simp only [Option.bind_some]
    rw [r2]
    rfl

/-- **C63** (start).  Setting up the linear-system object with any ordering: if the factorisation has fewer positive pivots than there are
variables, no object is created and the exit flag says that the problem is not convex. -/
theorem c63_refused {p : ℕ → ℕ} {Q : Qdldl K} (hQ : QdldlIs env p Q) {perm : Buf ℤ} (hp : PermIs perm (d.n + d.m) p) {P A : Csc K}
    {vP : Vec K d.P.nnz} {vA : Vec K d.A.nnz} (hP : Stores P d.P vP) (hA : Stores A d.A vA) (ht : ∀ k, d.P.row k ≤ d.P.col k) (sigma rho : K) {b : Option (Buf K)}
    {v : Option (Vec K d.m)} (hb : match v, b with | none, none => True | some v, some c => Arr c v | _, _ => False)
    (hf : env.factor ⟨vP, vA, sigma, v.map fun v i => 1 / v i, 1 / rho⟩ < d.n) : qInit Q perm P A b sigma rho = some (none, Err.nonCvx) :=
  (init_ok hQ hp hP hA ht sigma rho hb).1 hf

/-- **C63**.  Otherwise the object is created, and after any list of calls with new step sizes or new matrix values every exit flag is
the one of the solver layer, and the object solves the linear system of the current data.  Nothing is read or written outside its
arrays. -/
theorem c63_object {p : ℕ → ℕ} {Q : Qdldl K} (hQ : QdldlIs env p Q) {perm : Buf ℤ} (hp : PermIs perm (d.n + d.m) p) {P A : Csc K}
    {vP : Vec K d.P.nnz} {vA : Vec K d.A.nnz} (hP : Stores P d.P vP) (hA : Stores A d.A vA) (ht : ∀ k, d.P.row k ≤ d.P.col k) (sigma rho : K) {b : Option (Buf K)}
    {v : Option (Vec K d.m)} (hb : match v, b with | none, none => True | some v, some c => Arr c v | _, _ => False)
    (hf : ¬ env.factor ⟨vP, vA, sigma, v.map fun v i => 1 / v i, 1 / rho⟩ < d.n) {ops : List (LsOp d K)} {mops : List (MemOp K)}
    (hs : List.Forall₂ (SameOp v.isSome) ops mops) {ls' : LinSys d K} {efs : List ℤ}
    (hr : specAll env ⟨vP, vA, sigma, v.map fun v i => 1 / v i, 1 / rho⟩ ops = some (ls', efs)) :
    ∃ q q', qInit Q perm P A b sigma rho = some (some q, 0) ∧ runAll Q q mops = some (q', efs) ∧ Solves env ls' q'.lin.solve := by
  obtain ⟨q, e, h⟩ := (init_ok hQ hp hP hA ht sigma rho hb).2 hf
  obtain ⟨q', e', h'⟩ := runAll_ok hQ hs (by cases v <;> rfl) h hr
  exact ⟨q, q', e, e', h'.solverIs.solves⟩

/-! ## C62 -/

/-- The relation between linear systems and objects of C63 is one that `c62_solve` can use. -/
theorem c62_qdldl {p : ℕ → ℕ} {Q : Qdldl K} (hQ : QdldlIs env p Q) {F : Fix (QMem K) K} (h1 : F.solve = fun q => q.lin.solve) (h2 : F.updRho = qUpdateRho Q) :
    Impl env F (QIs env p) :=
  ⟨fun ls lin h => by rw [h1]; exact h.solverIs.solves, fun ls lin b v rho h _ hb => by
    rw [h2]; exact h.updateRho hQ fun hs => (hb hs).2⟩

/-- Polishing is off, or done as the solver layer says. -/
def PolishOk (cfg : Cfg) (env : Env d K) (F : Fix L K) (R : LinSys d K → L → Prop) (s : Solver d K) : Prop :=
  s.settings.polishing = 0 ∨ PolishIs cfg env F R

theorem polish_sx {M0 : Mach L K} (hP : PolishIs cfg env F R) (s : Solver d K) (M : Mach L K) (h : Sx F R M0 s M) :
    Ok (F.polish M) fun r => Sx F R M0 (polish cfg env s).1 r.1 ∧ r.2 = (polish cfg env s).2 := by
  obtain ⟨c, h⟩ := h
  obtain ⟨M', e, g1, g2⟩ := hP s M h.shows.1
  refine ⟨(M', _), e, ?_, rfl⟩
  obtain ⟨hs, c', hm⟩ := g1.mem
  have e2 : M'.W = M.W ∨ M'.W = fun k => M.W (mate k) := by
    refine g2.ptrs.imp id fun ⟨a1, a2, a3, a4, a5⟩ => funext fun k => ?_
    cases k <;> first | exact a1 | exact a2 | exact a3 | exact a4 | exact a5 _ (by simp) (by simp) (by simp) (by simp)
  have mm : ∀ k, mate (mate k) = k := fun k => by cases k <;> rfl
  refine ⟨c', g1.lay, hs, hm, g1.types, g1.lin, g1.own, g1.g, g1.P, g1.A, g1.sol, g1.room, ?_, g2.ct.trans h.ct, fun b hb hk => ?_⟩
  · rcases h.ptrs with e1 | e1 <;> rcases e2 with e2 | e2
    · left; rw [e2, e1]
    · right; rw [e2, e1]
    · right; rw [e2, e1]
    · left; rw [e2, e1]; funext k; show M0.W (mate (mate k)) = _; rw [mm]
  · rw [g2.mem b hb fun k hk' => ?_, h.kept b hb hk]
    rcases h.ptrs with e1 | e1
    · rw [e1]; exact hk k hk'
    · rw [e1]; exact hk _ (by rw [mut_mate, pol_mate]; exact hk')

/-- **C62**.  A call to `osqp_solve` on any memory that holds a solver state finishes without undefined behaviour, returns the exit flag the
solver layer computes and leaves the state it computes; of the memory it changes only the work vectors, the iterates and the solution. -/
theorem c62_solve (hF : FixIs cfg env F) (hI : Impl env F R) {s : Solver d K} (hp : PolishOk cfg env F R s) {M : Mach L K} (h : Shows F R s M) :
    ∃ M', solve F M = some (M', (osqpSolve cfg env s).2) ∧ Shows F R (osqpSolve cfg env s).1 M' ∧ Kept F.xz M M' := by
  obtain ⟨c, hs⟩ := h.sh
  obtain ⟨⟨M', ef⟩, e, ⟨c', h1⟩, h2⟩ := solve_ok hF hI (fun hne s' M' => polish_sx (hp.resolve_left hne) s' M') hs
  exact ⟨M', by rw [e, ← h2], h1.shows⟩

theorem Kept.trans {xz : Ref} {M1 M2 M3 : Mach L K} (h : Kept xz M1 M2) (g : Kept xz M2 M3) : Kept xz M1 M3 := by
  obtain ⟨p1, c1, m1⟩ := h
  obtain ⟨p2, c2, m2⟩ := g
  refine ⟨?_, c2.trans c1, fun b hb hk => ?_⟩
  · rcases p1 with e1 | ⟨a1, a2, a3, a4, a5⟩ <;> rcases p2 with e2 | ⟨b1, b2, b3, b4, b5⟩
    · left; rw [e2, e1]
    · right; rw [e1] at b1 b2 b3 b4 b5; exact ⟨b1, b2, b3, b4, b5⟩
    · right; rw [e2]; exact ⟨a1, a2, a3, a4, a5⟩
    · left; funext k
      cases k <;> first | rw [b1, a2] | rw [b2, a1] | rw [b3, a4] | rw [b4, a3] |
        rw [b5 _ (by simp) (by simp) (by simp) (by simp), a5 _ (by simp) (by simp) (by simp) (by simp)]
  · rw [m2 b hb fun k hk' => ?_, m1 b hb hk]
    rcases p1 with e1 | ⟨a1, a2, a3, a4, a5⟩
    · rw [e1]; exact hk k hk'
    · cases k <;> first | (rw [a1]; exact hk _ (.inl rfl)) | (rw [a2]; exact hk _ (.inl rfl)) | (rw [a3]; exact hk _ (.inl rfl)) | (rw [a4]; exact hk _ (.inl rfl)) |
        (rw [a5 _ (by simp) (by simp) (by simp) (by simp)]; exact hk _ hk')

/-- **C62** (any number of solves in a row). -/
theorem c62_repeated (hF : FixIs cfg env F) (hI : Impl env F R) (hp : PolishIs cfg env F R) (k : ℕ) : ∀ {s : Solver d K} {M : Mach L K}, Shows F R s M →
    ∃ M', solveTimes F k M = some (M', (specTimes cfg env k s).2) ∧ Shows F R (specTimes cfg env k s).1 M' ∧ Kept F.xz M M' := by
  induction k with
  | zero => exact fun h => ⟨_, rfl, h, .inl rfl, rfl, fun _ _ _ => rfl⟩
  | succ k ih =>
    intro s M h
    obtain ⟨M1, e1, h1, k1⟩ := c62_solve hF hI (.inr hp) h
    obtain ⟨M2, e2, h2, k2⟩ := ih h1
    refine ⟨M2, ?_, h2, k1.trans k2⟩
    simp only [solveTimes]
    rw [e1]
    simp only [Option.bind_some]
    rw [e2]
    rfl

/-! ## The hypotheses are met

An exact factorisation: it refuses singular matrices and solves by the inverse. -/

section Exists
open Matrix

/-- The entry of a stored upper triangle, as read from its arrays. -/
def cellSum (G : Csc K) (r c : ℕ) : K :=
  ∑ k ∈ Finset.Ico ((G.p.cell c).getD 0).toNat ((G.p.cell (c + 1)).getD 0).toNat, if (G.i.cell k).getD 0 = r then (G.x.cell k).getD 0 else 0

def cellMatrix (N : ℕ) (G : Csc K) : Matrix (Fin N) (Fin N) K := fun r c => if (r : ℕ) ≤ c then cellSum G r c else cellSum G c r

theorem cellMatrix_eq {G : Csc K} {W : View K} (h : Rep G W) {N : ℕ} (hN : W.n = N) (r c : Fin N) : cellMatrix N G r c = W.symEntry r c := by
  have key : ∀ r c : ℕ, c < N → cellSum G r c = W.entry r c := by
    intro r c hc
    unfold cellSum View.entry
    rw [h.p.2 c (by omega), h.p.2 (c + 1) (by omega)]
    simp only [Option.getD_some, Int.toNat_natCast]
    refine Finset.sum_congr rfl fun k hk => ?_
    have hk' : k < W.nnz := h.valid.lt_nnz (by omega) (Finset.mem_Ico.1 hk).2
    rw [h.i.2 k hk', h.x.2 k hk']
    simp
  unfold cellMatrix View.symEntry
  split_ifs
  · exact key _ _ c.2
  · exact key _ _ r.2

noncomputable def exactQ (d : Dims) : Qdldl K where
  etree _ := 0
  factor G := (if (cellMatrix (d.n + d.m) G).det = 0 then -1 else d.n, fun c =>
    some ⟨d.n + d.m, fun j => if h : j < d.n + d.m then some (((cellMatrix (d.n + d.m) G)⁻¹ *ᵥ fun i => (c.cell i).getD 0) ⟨j, h⟩) else none⟩)

noncomputable def exactEnv (d : Dims) (sqrt : K → K) (clk : ℕ → K) (intr : ℕ → Bool) : Env d K where
  sqrt := sqrt
  clk := clk
  intr := intr
  factor ls := if (heldMatrix ls).det = 0 then -1 else d.n
  kktSolve ls bx bz := let v := (heldMatrix ls)⁻¹ *ᵥ Sum.elim bx bz
    (fun j => v (.inl j), fun i => v (.inr i))
  polFactor _ _ _ := 0
  polSolve _ _ _ bx bz := (bx, bz)

theorem exact_is {p : ℕ → ℕ} {perm : Buf ℤ} (hp : PermIs perm (d.n + d.m) p) (sqrt : K → K) (clk : ℕ → K) (intr : ℕ → Bool) :
    QdldlIs (exactEnv d sqrt clk intr) p (exactQ d) := by
  have hb : Function.Bijective fun i : Fin (d.n + d.m) => (⟨p i, hp.2.1 i i.2⟩ : Fin (d.n + d.m)) :=
    Finite.injective_iff_bijective.1 fun a b e => Fin.ext (hp.2.2 a a.2 b b.2 (congrArg Fin.val e))
  let e : Fin (d.n + d.m) ≃ Fin d.n ⊕ Fin d.m := (Equiv.ofBijective _ hb).trans finSumFinEquiv.symm
  have he : ∀ i, flat (e i) = p i := fun i => by
    have h1 : finSumFinEquiv (e i) = ⟨p i, hp.2.1 i i.2⟩ := by simp [e]
    have h2 : ∀ a : Fin d.n ⊕ Fin d.m, ((finSumFinEquiv a : Fin (d.n + d.m)) : ℕ) = flat a := by
      rintro (a | a) <;> simp [flat]
    rw [← h2, h1]
  have hm : ∀ (ls : LinSys d K) G, KktOf ls p G → cellMatrix (d.n + d.m) G = (heldMatrix ls).submatrix e e := by
    rintro ls G ⟨W, hR, _, _, hn, hE⟩
    ext i j
    rw [cellMatrix_eq hR hn, hE i i.2 j j.2 (e i) (e j) (he i).symm (he j).symm]
    rfl
  have hc : ∀ (f : Fin d.n → K) (g : Fin d.m → K) (i : Fin (d.n + d.m)), cat d.n (ext f) (ext g) (p i) = Sum.elim f g (e i) := fun f g i => by
    rw [← he i]
    rcases e i with a | a
    · simp [flat, cat]
    · simp [flat, cat]
  refine ⟨fun _ _ _ => le_rfl, fun ls G h => ?_, fun ls G h bx bz c hc' => ?_⟩
  · show (if _ then (-1 : ℤ) else _) = if _ then _ else _
    rw [hm ls G h, det_submatrix_equiv_self]
  · refine ⟨_, rfl, le_rfl, fun j hj => ?_⟩
    simp only [dif_pos hj]
    congr 1
    have e1 : (fun i : Fin (d.n + d.m) => (c.cell i).getD 0) = Sum.elim bx bz ∘ e := by
      funext i
      rw [hc'.2 i i.2]
      exact hc bx bz i
    have e2 := hc ((exactEnv d sqrt clk intr).kktSolve ls bx bz).1 ((exactEnv d sqrt clk intr).kktSolve ls bx bz).2 ⟨j, hj⟩
    rw [e1, hm ls G h, inv_submatrix_equiv, submatrix_mulVec_equiv]
    simp only at e2 ⊢
    rw [e2]
    have : Sum.elim bx bz ∘ ⇑e ∘ ⇑e.symm = Sum.elim bx bz := by funext a; simp
    simp only [Function.comp_apply, Function.comp_assoc, this]
    generalize e ⟨j, hj⟩ = a
    rcases a with a | a <;> rfl

/-- A pattern that can be stored can be stored with any values. -/
theorem stores_any {m n : ℕ} {M : Csc K} {p : Pat m n} {v : Vec K p.nnz} (h : Stores M p v) (v' : Vec K p.nnz) : ∃ M', Stores M' p v' := by
  obtain ⟨V, hR, h1, h2, h3, h4⟩ := h
  exact ⟨{ M with x := ⟨p.nnz, fun k => some (Csc.ext v' k)⟩ }, Stores.withX hR h1 h2 h3 h4 ⟨h3.le, fun k hk => rfl⟩ fun k => by simp⟩

/-- Every solver state whose matrices are stored in compressed columns, whose own step sizes are a vector only if the workspace has one, and
whose linear system is solvable, can be laid out in memory and meets the hypotheses of `c62_solve`. -/
theorem any_shows (cfg : Cfg) {sqrt : K → K} {clk : ℕ → K} {intr : ℕ → Bool} {P A : Csc K} {vP : Vec K d.P.nnz} {vA : Vec K d.A.nnz} (hP : Stores P d.P vP)
    (hA : Stores A d.A vA) (ht : ∀ k, d.P.row k ≤ d.P.col k) (s : Solver d K) (ho : s.work.linsys.rho_inv_vec.isSome → s.settings.rho_is_vec ≠ 0)
    (hd : (heldMatrix s.work.linsys).det ≠ 0) :
    ∃ (F : Fix (QMem K) K) (M : Mach (QMem K) K), FixIs cfg (exactEnv d sqrt clk intr) F ∧ Impl (exactEnv d sqrt clk intr) F (QIs (exactEnv d sqrt clk intr) id) ∧
      Shows F (QIs (exactEnv d sqrt clk intr) id) s M := by
  have hp : PermIs ⟨d.n + d.m, fun j => some (j : ℤ)⟩ (d.n + d.m) id := ⟨⟨le_rfl, fun _ _ => rfl⟩, fun _ h => h, fun _ _ _ _ h => h⟩
  have hQ := exact_is hp sqrt clk intr
  obtain ⟨P1, hP1⟩ := stores_any hP s.work.data.P
  obtain ⟨A1, hA1⟩ := stores_any hA s.work.data.A
  obtain ⟨P2, hP2⟩ := stores_any hP s.work.linsys.P
  obtain ⟨A2, hA2⟩ := stores_any hA s.work.linsys.A
  have hb : match s.work.linsys.rho_inv_vec.map fun w i => 1 / w i, s.work.linsys.rho_inv_vec.map fun w => (⟨d.m, fun k => some (Csc.ext (fun i => 1 / w i) k)⟩ : Buf K) with
      | none, none => True | some v, some c => Arr c v | _, _ => False := by
    cases s.work.linsys.rho_inv_vec with
    | none => trivial
    | some w => exact ⟨le_rfl, fun k => by simp⟩
  obtain ⟨q, -, hq⟩ := (init_ok hQ hp hP2 hA2 ht s.work.linsys.sigma (1 / s.work.linsys.rho_inv) hb).2 (by
    show ¬ (if (heldMatrix _).det = 0 then (-1 : ℤ) else d.n) < d.n
    rw [if_neg]
    · exact lt_irrefl _
    · convert hd using 4
      generalize s.work.linsys = ls
      obtain ⟨_, _, _, w, _⟩ := ls
      cases w <;> simp)
  have e : (⟨s.work.linsys.P, s.work.linsys.A, s.work.linsys.sigma, (s.work.linsys.rho_inv_vec.map fun w i => 1 / w i).map fun v i => 1 / v i,
      1 / (1 / s.work.linsys.rho_inv)⟩ : LinSys d K) = s.work.linsys := by
    generalize s.work.linsys = ls
    obtain ⟨_, _, _, w, _⟩ := ls
    cases w <;> simp
  rw [e] at hq
  exact ⟨⟨cfg, P1, A1, d.m, ⟨34, 7, 0, d.n + d.m⟩, s.solution.isSome, sqrt, clk, intr, fun q => q.lin.solve, qUpdateRho (exactQ d), fun M => some (M, 0)⟩,
    ⟨anyPtrs d.n d.m, anyMem s, ⟨d.m, fun k => if h : k < d.m then some (s.work.constr_type ⟨k, h⟩) else none⟩, q, scal s⟩,
    ⟨rfl, rfl, rfl, rfl, rfl⟩, c62_qdldl hQ rfl rfl,
    ⟨any_layout _ _, any_holding s, fun _ => ⟨le_rfl, fun i => by simp⟩, hq, ho, rfl, hP1, hA1, rfl, fun k _ => any_room s k⟩⟩

/-- A 1×1 matrix in compressed columns. -/
theorem stores_one : Stores (Csc.Demo.csc 1 1 [0, 1] [0] [(1 : ℚ)]) Demo.pat1 (fun _ => 1) := by
  have hv : (Csc.Demo.view 1 1 [0, 1] [0] [(1 : ℚ)]).Valid := ⟨by decide, by decide, by decide⟩
  refine ⟨_, Csc.Demo.csc_rep hv (by decide) (by decide) (by decide), rfl, rfl, rfl, fun k => ?_⟩
  have : k = 0 := Subsingleton.elim _ _
  subst this
  exact ⟨rfl, by decide, rfl⟩

/-- All of them are met after the set-up and warm start of a concrete problem, with polishing off. -/
example : ∃ h : Demo.sSolved.Ok, ∃ (F : Fix (QMem ℚ) ℚ) (M : Mach (QMem ℚ) ℚ), let env := exactEnv Demo.dims Demo.rsqrt (fun _ => 0) (fun _ => false)
    FixIs Demo.cfg env F ∧ Impl env F (QIs env id) ∧ PolishOk Demo.cfg env F (QIs env id) (Demo.sSolved.start h) ∧ Shows F (QIs env id) (Demo.sSolved.start h) M := by
  have hok : Demo.sSolved.Ok := by decide +kernel
  have hpol : (Demo.sSolved.start hok).settings.polishing = 0 := by revert hok; decide +kernel
  refine ⟨hok, ?_⟩
  obtain ⟨F, M, h1, h2, h3⟩ := any_shows Demo.cfg (sqrt := Demo.rsqrt) (clk := fun _ => 0) (intr := fun _ => false) stores_one stores_one (fun k => le_rfl)
    (Demo.sSolved.start hok) (by revert hok; decide +kernel) (by revert hok; decide +kernel)
  exact ⟨F, M, h1, h2, .inl hpol, h3⟩

/-- The hypotheses of `c63_object` are met by an object with step sizes of its own that gets new step sizes and then new values of both matrices, one of
them by index. -/
example : ∃ (Q : Qdldl ℚ) (perm : Buf ℤ) (P A P' A' : Csc ℚ) (b c : Buf ℚ) (i : Buf ℤ) (ls' : LinSys Demo.dims ℚ), let env := exactEnv Demo.dims Demo.rsqrt (fun _ => 0) (fun _ => false)
    let v : Option (Vec ℚ 1) := some fun _ => 1 / 10
    let ls : LinSys Demo.dims ℚ := ⟨fun _ => 2, fun _ => 3, 1 / 10 ^ 6, v.map fun v i => 1 / v i, 1 / (1 / 10)⟩
    let ops : List (LsOp Demo.dims ℚ) := [.rho (fun _ => 5) 5, .mat ⟨fun _ => 7, fun _ => 8, 0, 0, 0⟩ none 1 (some [0]) 1]
    QdldlIs env id Q ∧ PermIs perm 2 id ∧ Stores P Demo.pat1 (fun _ => 2) ∧ Stores A Demo.pat1 (fun _ => 3) ∧ Arr b (fun _ : Fin 1 => (1 / 10 : ℚ)) ∧
      ¬ env.factor ls < 1 ∧ List.Forall₂ (SameOp v.isSome) ops [.rho (some c) 5, .mat P' none 1 A' (some i) 1] ∧
      specAll env ls ops = some (ls', [0, 0]) ∧ (ls'.P 0, ls'.A 0) = (7, 8) := by
  have hp : PermIs ⟨2, fun j => some (j : ℤ)⟩ 2 id := ⟨⟨le_rfl, fun _ _ => rfl⟩, fun _ h => h, fun _ _ _ _ h => h⟩
  obtain ⟨P, hP⟩ := stores_any stores_one fun _ => 2
  obtain ⟨A, hA⟩ := stores_any stores_one fun _ => 3
  obtain ⟨P', hP'⟩ := stores_any stores_one fun _ => 7
  obtain ⟨A', hA'⟩ := stores_any stores_one fun _ => 8
  obtain ⟨⟨ls', efs⟩, hl, hv⟩ : ∃ r : LinSys Demo.dims ℚ × List ℤ, specAll (exactEnv Demo.dims Demo.rsqrt (fun _ => 0) fun _ => false)
      ⟨fun _ => 2, fun _ => 3, 1 / 10 ^ 6, some fun _ => 1 / (1 / 10), 1 / (1 / 10)⟩ [.rho (fun _ => 5) 5, .mat ⟨fun _ => 7, fun _ => 8, 0, 0, 0⟩ none 1 (some [0]) 1] = some r ∧
      (r.2, r.1.P 0, r.1.A 0) = ([0, 0], 7, 8) := by
    rw [← Option.map_eq_some_iff]
    decide +kernel
  simp only [Prod.mk.injEq] at hv
  obtain ⟨rfl, hv⟩ := hv
  exact ⟨exactQ Demo.dims, _, P, A, P', A', ⟨1, fun _ => some (1 / 10)⟩, ⟨1, fun _ => some 5⟩, ⟨1, fun _ => some 0⟩,
    ls', exact_is (d := Demo.dims) hp _ _ _, hp, hP, hA, ⟨le_rfl, fun _ => rfl⟩, by decide +kernel,
    .cons ⟨rfl, fun _ => ⟨_, rfl, le_rfl, fun _ => rfl⟩⟩ (.cons ⟨hP', hA', rfl, rfl, trivial, le_rfl, fun k hk => by
      obtain rfl : k = 0 := by simpa using hk
      rfl⟩ .nil), hl, by rw [hv.1, hv.2]⟩

end Exists

end Osqp.Vm
