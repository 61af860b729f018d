import Mathlib.Tactic.Ring
import Mathlib.Tactic.Linarith
import Mathlib.Tactic.NormNum
import Verif.Spec.Mkl
import Verif.Lemmas.Num

/-!
# Lemmas about the conjugate-gradient interface of the MKL back end
-/

set_option linter.unusedSectionVars false

namespace Osqp.Mkl
open Matrix Spec
universe u
variable {K : Type u} [Field K] [LinearOrder K] [IsStrictOrderedRing K] {n m : ℕ} {P : Pat n n} {A : Pat m n}

/-- The matrix that `mvTimes` multiplies with. -/
def system (s : Solver P A K) : Matrix (Fin n) (Fin n) K :=
  denseSym P s.Px + diagonal (fun _ => s.sigma) + (dense A s.Ax)ᵀ * diagonal s.rho_vec * dense A s.Ax

theorem mvTimes_eq (s : Solver P A K) (x : Vec K n) : mvTimes s x = system s *ᵥ x := by
  have e : (fun i => (dense A s.Ax *ᵥ x) i * s.rho_vec i) = diagonal s.rho_vec *ᵥ (dense A s.Ax *ᵥ x) := by
    funext i; rw [mulVec_diagonal, mul_comm]
  funext j
  unfold mvTimes system
  simp only [spMul_eq, spMulT_eq, symMul_eq]
  rw [e, add_mulVec, add_mulVec, ← mulVec_mulVec, ← mulVec_mulVec]
  simp [mulVec_diagonal]

theorem computeRhs_eq (s : Solver P A K) (b1 : Vec K n) (b2 : Vec K m) :
    computeRhs s b1 b2 = (dense A s.Ax)ᵀ *ᵥ (fun i => s.rho_vec i * b2 i) + b1 := by
  funext j
  unfold computeRhs
  rw [spMulT_eq]
  have : (fun i => b2 i * s.rho_vec i) = fun i => s.rho_vec i * b2 i := by funext i; ring
  rw [this]; rfl

/-! ## The preconditioner update changes nothing else -/

theorem updatePrecond_eq (s : Solver P A K) : updatePrecond s = { s with precond_inv := (updatePrecond s).precond_inv } := by
  unfold updatePrecond; split <;> rfl

@[simp] theorem up_Px (s : Solver P A K) : (updatePrecond s).Px = s.Px := by rw [updatePrecond_eq]
@[simp] theorem up_Ax (s : Solver P A K) : (updatePrecond s).Ax = s.Ax := by rw [updatePrecond_eq]
@[simp] theorem up_rho (s : Solver P A K) : (updatePrecond s).rho_vec = s.rho_vec := by rw [updatePrecond_eq]
@[simp] theorem up_sigma (s : Solver P A K) : (updatePrecond s).sigma = s.sigma := by rw [updatePrecond_eq]
@[simp] theorem up_type (s : Solver P A K) : (updatePrecond s).precond_type = s.precond_type := by rw [updatePrecond_eq]
@[simp] theorem up_max (s : Solver P A K) : (updatePrecond s).max_iter = s.max_iter := by rw [updatePrecond_eq]
@[simp] theorem up_tol (s : Solver P A K) : (updatePrecond s).tol = s.tol := by rw [updatePrecond_eq]
@[simp] theorem up_sh (s : Solver P A K) : (updatePrecond s).sh = s.sh := by rw [updatePrecond_eq]
@[simp] theorem up_diag (s : Solver P A K) : diagonalInv (updatePrecond s) = diagonalInv s := by
  rw [updatePrecond_eq]; rfl

theorem up_inv {s : Solver P A K} (h : s.precond_type = 1) : (updatePrecond s).precond_inv = some (diagonalInv (updatePrecond s)) := by
  rw [up_diag]; unfold updatePrecond; rw [if_pos h]

/-! ## The tolerance rule -/

theorem tol_solve {sqrt : K → K} {s s' : Cg.State K} {c : Cg.Call K} {eps : K} (h : Cg.solve sqrt s c = some (s', eps)) :
    s'.polish = s.polish ∧ s'.tol_fraction = s.tol_fraction ∧ (s.polish = false → s'.eps_prev = some eps) := by
  unfold Cg.solve at h
  by_cases hp : s.polish = true
  · simp only [hp, if_true, Option.bind_some, Option.some.injEq, Prod.mk.injEq] at h
    obtain ⟨h, -⟩ := h
    subst h
    refine ⟨?_, ?_, by simp [hp]⟩ <;> (split <;> [split; skip]) <;> simp [hp]
  · simp only [hp, Bool.false_eq_true, if_false, Option.bind_eq_some_iff] at h
    obtain ⟨q, ⟨e, -, h1⟩, h2⟩ := h
    simp only [Option.some.injEq, Prod.mk.injEq] at h1 h2
    obtain ⟨h2, h3⟩ := h2
    subst h1
    simp only at h2 h3
    subst h3 h2
    refine ⟨?_, ?_, ?_⟩ <;> split_ifs <;> simp [Bool.eq_false_iff.2 hp]

theorem tol_defined (sqrt : K → K) {s : Cg.State K} {c : Cg.Call K} (h : s.polish = true ∨ c.admm_iter = 1 ∨ s.eps_prev.isSome) :
    ∃ r, Cg.solve sqrt s c = some r := by
  unfold Cg.solve Cg.computeTolerance
  by_cases hp : s.polish = true
  · simp [hp]
  · simp only [hp, Bool.false_eq_true, if_false]
    by_cases h1 : c.admm_iter = 1
    · simp only [h1, if_true]; split <;> exact ⟨_, rfl⟩
    · obtain ⟨e, he⟩ := Option.isSome_iff_exists.1 ((h.resolve_left hp).resolve_left h1)
      simp only [h1, if_false]
      split <;> rw [he] <;> exact ⟨_, rfl⟩

/-! ## Histories -/

/-- What every history keeps. -/
structure Kept (g : Given P A K) (s : Solver P A K) : Prop where
  Px : s.Px = g.Px
  Ax : s.Ax = g.Ax
  rho : s.rho_vec = g.rho
  sigma : s.sigma = g.st.sigma
  type : s.precond_type = g.st.cg_precond
  limit : s.max_iter = g.st.cg_max_iter
  polish : s.tol.polish = g.polish
  fraction : s.tol.tol_fraction = g.st.cg_tol_fraction
  inv : g.st.cg_precond = 1 → s.precond_inv = some (diagonalInv s)
  prev : g.solved = true → g.polish = false → s.tol.eps_prev.isSome

theorem init_kept {Px : Vec K P.nnz} {Ax : Vec K A.nnz} {rho0 : Option (Vec K m)} {rho : Vec K m} {st : Settings K} {polish : Bool} {junk : Shared n K}
    {s : Solver P A K} (call : init Px Ax rho0 st polish junk = some s) (h : (if polish then some (fun _ => 1 / st.sigma) else rho0) = some rho) :
    Kept ⟨Px, Ax, rho, st, polish, false⟩ s := by
  unfold init at call
  rw [h] at call
  simp only [Option.bind_some, Option.some.injEq] at call
  subst call
  refine ⟨?_, ?_, ?_, ?_, ?_, ?_, ?_, ?_, fun h => up_inv h, by simp⟩ <;> simp [Cg.init]

theorem hist_kept {sqrt : K → K} {d : Dcg n K} {g : Given P A K} {s : Solver P A K} (h : MklHist sqrt d g s) : Kept g s := by
  induction h with
  | create call => exact init_kept call (by simp)
  | polish call => exact init_kept call (by simp)
  | solve before call ih =>
    obtain ⟨htol, loop, hst⟩ := call
    obtain ⟨a, b, c⟩ := tol_solve hst
    exact ⟨ih.Px, ih.Ax, ih.rho, ih.sigma, ih.type, ih.limit, a.trans ih.polish, b.trans ih.fraction, fun h => ih.inv h,
      fun _ h => by rw [c (ih.polish.trans h)]; rfl⟩
  | warmStart x before ih => exact ih
  | settings st before ih =>
    rename_i g s
    unfold updateSettings
    by_cases hc : s.precond_type = st.cg_precond
    · simp only [ne_eq, not_true, if_neg (not_not.2 hc)]
      exact ⟨ih.Px, ih.Ax, ih.rho, ih.sigma, hc, rfl, ih.polish, rfl, fun h => ih.inv (by rw [← ih.type, hc]; exact h), ih.prev⟩
    · simp only [ne_eq, hc, not_false_eq_true, if_true]
      refine ⟨?_, ?_, ?_, ?_, ?_, rfl, ?_, rfl, fun h => ?_, ?_⟩
      · simpa using ih.Px
      · simpa using ih.Ax
      · simpa using ih.rho
      · simpa using ih.sigma
      · simp
      · simpa [Cg.updateSettings] using ih.polish
      · exact up_inv (s := { s with precond_type := st.cg_precond }) h
      · simpa [Cg.updateSettings] using ih.prev
  | matrices Px Ax before ih =>
    unfold updateMatrices
    refine ⟨?_, ?_, ?_, ?_, ?_, ?_, ?_, ?_, fun h => up_inv (ih.type.trans h), ?_⟩
    · simp
    · simp
    · simpa using ih.rho
    · simpa using ih.sigma
    · simpa using ih.type
    · simpa using ih.limit
    · simpa using ih.polish
    · simpa using ih.fraction
    · simpa using ih.prev
  | rho before call ih =>
    unfold updateRho at call
    simp only [Option.bind_some, Option.some.injEq] at call
    subst call
    refine ⟨?_, ?_, ?_, ?_, ?_, ?_, ?_, ?_, fun h => up_inv (ih.type.trans h), ?_⟩
    · simpa using ih.Px
    · simpa using ih.Ax
    · simp
    · simpa using ih.sigma
    · simpa using ih.type
    · simpa using ih.limit
    · simpa using ih.polish
    · simpa using ih.fraction
    · simpa using ih.prev

/-! ## The loop -/

/-- How the interface answers a request 3. -/
def answer3 (s : Solver P A K) (v : Fin n → K) : Fin n → K := fun j => s.precond_inv.getD 0 j * v j

/-- What a turn does, by the request. -/
theorem turn_cases (d : Dcg n K) (s : Solver P A K) (rhs : Vec K n) (eps : K) (mem : d.Mem) (sh : Shared n K) :
    ∃ req mem' sh', d.call mem sh rhs = (req, mem', sh') ∧
      ((req = 1 ∧ turn d s rhs eps mem sh = .again mem' { sh' with mvmPost := system s *ᵥ sh'.mvmPre }) ∨
       (req = 2 ∧ normInf sh'.precPre < eps ∧ turn d s rhs eps mem sh = .leave 2 mem' sh') ∨
       (req = 2 ∧ ¬ normInf sh'.precPre < eps ∧ turn d s rhs eps mem sh = .again mem' sh') ∨
       (req = 3 ∧ s.precond_inv.isSome ∧ turn d s rhs eps mem sh = .again mem' { sh' with precPost := answer3 s sh'.precPre }) ∨
       (req = 3 ∧ s.precond_inv = none ∧ turn d s rhs eps mem sh = .undefined) ∨
       (req ≠ 1 ∧ req ≠ 2 ∧ req ≠ 3 ∧ turn d s rhs eps mem sh = .leave req mem' sh')) := by
  refine ⟨(d.call mem sh rhs).1, (d.call mem sh rhs).2.1, (d.call mem sh rhs).2.2, rfl, ?_⟩
  unfold turn
  by_cases h1 : (d.call mem sh rhs).1 = 1
  · left; exact ⟨h1, by simp [h1, mvTimes_eq]⟩
  · by_cases h2 : (d.call mem sh rhs).1 = 2
    · right
      rw [← vNormInf_eq]
      by_cases h : vNormInf (d.call mem sh rhs).2.2.precPre < eps
      · left; exact ⟨h2, h, by simp [h2, h]⟩
      · right; left; exact ⟨h2, h, by simp [h2, h]⟩
    · by_cases h3 : (d.call mem sh rhs).1 = 3
      · right; right; right
        cases hp : s.precond_inv with
        | none => right; left; exact ⟨h3, rfl, by simp [h3]⟩
        | some pinv => left; exact ⟨h3, rfl, by simp only [h3]; simp; unfold answer3; rw [hp]; rfl⟩
      · right; right; right; right; right
        exact ⟨h1, h2, h3, by simp [h1, h2, h3]⟩

/-- The loop answers the requests as the contract wants: if it leaves with code 2, the residual is below the tolerance; if it reads unwritten memory, the
preconditioner is switched on but was never computed. -/
theorem loop_ends {d : Dcg n K} (hd : Honest d) {s : Solver P A K} {rhs : Vec K n} {eps : K} {limit : ℤ} {pre : Bool} {mem : d.Mem} {sh : Shared n K} {t : Turn d}
    (loop : Loop d s rhs eps mem sh t) (hs : Session d limit pre (system s) (answer3 s) rhs mem sh) :
    (∀ mem' sh', t = .leave 2 mem' sh' → normInf (rhs - system s *ᵥ sh'.x) < eps) ∧ (t = .undefined → s.precond_inv = none ∧ pre = true) := by
  induction loop with
  | @leave mem sh code mem' sh' h =>
    refine ⟨fun mem'' sh'' e => ?_, by simp⟩
    simp only [Turn.leave.injEq] at e
    obtain ⟨rfl, rfl, rfl⟩ := e
    obtain ⟨req, m1, s1, hc, hcase⟩ := turn_cases d s rhs eps mem sh
    rcases hcase with ⟨-, e⟩ | ⟨hr, hn, e⟩ | ⟨-, -, e⟩ | ⟨-, -, e⟩ | ⟨-, -, e⟩ | ⟨-, h2, -, e⟩ <;> rw [h] at e <;> simp only [reduceCtorEq, Turn.leave.injEq] at e
    · obtain ⟨-, rfl, rfl⟩ := e
      subst hr
      rw [← hd.residual hs hc]; exact hn
    · exact absurd e.1.symm h2
  | @undefined mem sh h =>
    refine ⟨by simp, fun _ => ?_⟩
    obtain ⟨req, m1, s1, hc, hcase⟩ := turn_cases d s rhs eps mem sh
    rcases hcase with ⟨-, e⟩ | ⟨-, -, e⟩ | ⟨-, -, e⟩ | ⟨-, -, e⟩ | ⟨hr, hp, e⟩ | ⟨-, -, -, e⟩ <;> rw [h] at e <;> simp only [reduceCtorEq] at e
    refine ⟨hp, ?_⟩
    cases pre with
    | true => rfl
    | false => subst hr; exact absurd hc (hd.quiet hs)
  | @again mem sh mem' sh' t h rest ih =>
    refine ih ?_
    obtain ⟨req, m1, s1, hc, hcase⟩ := turn_cases d s rhs eps mem sh
    rcases hcase with ⟨hr, e⟩ | ⟨-, -, e⟩ | ⟨hr, -, e⟩ | ⟨hr, -, e⟩ | ⟨-, -, e⟩ | ⟨-, -, -, e⟩ <;> rw [h] at e <;> simp only [reduceCtorEq, Turn.again.injEq] at e <;>
      obtain ⟨rfl, rfl⟩ := e <;> subst hr
    · exact .multiply hs hc
    · exact .test hs hc
    · exact .precondition hs hc

/-! ## The equations -/

theorem defect_eq {g : Given P A K} {s : Solver P A K} (k : Kept g s) (b1 : Fin n → K) (b2 : Fin m → K) (x : Fin n → K) :
    g.defect b1 b2 x = -(computeRhs s b1 b2 - system s *ᵥ x) := by
  have e : (fun i => g.rho i * ((dense A g.Ax *ᵥ x) i - b2 i)) = diagonal g.rho *ᵥ (dense A g.Ax *ᵥ x) - fun i => g.rho i * b2 i := by
    funext i; simp only [Pi.sub_apply, mulVec_diagonal]; ring
  rw [computeRhs_eq]
  unfold Given.defect system
  rw [e, mulVec_sub, add_mulVec, add_mulVec, ← mulVec_mulVec, ← mulVec_mulVec, k.Px, k.Ax, k.rho, k.sigma]
  funext j
  simp only [Pi.add_apply, Pi.sub_apply, Pi.neg_apply, Pi.smul_apply, smul_eq_mul, mulVec_diagonal]
  ring

theorem tolerance_eq {sqrt : K → K} {g : Given P A K} {s : Solver P A K} {b1 : Fin n → K} {b2 : Fin m → K} {a : Args K} {tol' : Cg.State K} {eps : K} {f i : Bool}
    (k : Kept g s) (h : Cg.solve sqrt s.tol ⟨a.admm_iter, vNormInf (computeRhs s b1 b2), a.prim, a.dual, f, i⟩ = some (tol', eps)) :
    g.Tolerance sqrt b1 b2 a tol'.reduction_factor eps := by
  have hr : vNormInf (computeRhs s b1 b2) = g.rhsNorm b1 b2 := by
    unfold Given.rhsNorm; rw [vNormInf_eq, computeRhs_eq, k.Ax, k.rho]
  have ht : (Cg.tolMin : K) = 1 / 10 ^ 7 := by norm_num [Cg.tolMin]
  rw [hr] at h
  unfold Given.Tolerance
  unfold Cg.solve Cg.computeTolerance at h
  by_cases hp : g.polish = true
  · rw [if_pos hp]
    simp only [k.polish, hp, if_true, Option.bind_some, Option.some.injEq, Prod.mk.injEq] at h
    rw [← h.2, cMax_eq, ht]
    norm_num [Cg.polishTol]
  · rw [if_neg hp]
    have hp' : s.tol.polish = false := k.polish.trans (Bool.eq_false_iff.2 hp)
    simp only [hp', Bool.false_eq_true, if_false] at h
    by_cases h1 : a.admm_iter = 1
    · rw [if_pos h1]
      simp only [h1, if_true] at h
      rw [← k.fraction]
      rw [← ht]
      by_cases h2 : g.rhsNorm b1 b2 < Cg.tolMin
      · simp only [h2, if_true, Option.bind_some, Option.some.injEq, Prod.mk.injEq] at h ⊢
        exact h.2.symm
      · simp only [h2, if_false, Option.bind_some, Option.some.injEq, Prod.mk.injEq] at h ⊢
        exact h.2.symm
    · rw [if_neg h1]
      simp only [h1, if_false, Option.bind_eq_some_iff] at h
      obtain ⟨q, ⟨e, ⟨e0, he0, h3⟩, h4⟩, h5⟩ := h
      simp only [Option.some.injEq, Prod.mk.injEq] at h3 h4 h5
      obtain ⟨h5, h6⟩ := h5
      have hf : tol'.reduction_factor = q.1.reduction_factor := by rw [← h5]; split_ifs <;> rfl
      rw [hf, ← h6, ← h4]
      simp only
      rw [← h3, cMax_eq, cMin_eq, ht]
      refine ⟨le_max_right _ _, ?_⟩
      rw [max_comm]
      exact max_le_max le_rfl (min_le_left _ _)

/-! ## The diagonal -/

theorem foldl_pick {q : ℕ} (p : Fin q → Prop) [DecidablePred p] (v : Fin q → K) (one : ∀ k l, p k → p l → k = l) : ∀ (l : List (Fin q)), l.Nodup → ∀ e : K,
    l.foldl (fun e k => if p k then v k else e) e = if ∃ k ∈ l, p k then (l.map fun k => if p k then v k else 0).sum else e
  | [], _, e => by simp
  | k :: l, h, e => by
    rw [List.foldl_cons, foldl_pick p v one l (List.nodup_cons.1 h).2]
    by_cases hk : p k
    · have hn : ¬ ∃ x ∈ l, p x := fun ⟨x, hx, px⟩ => (List.nodup_cons.1 h).1 (one k x hk px ▸ hx)
      have hz : (l.map fun k => if p k then v k else 0).sum = 0 := List.sum_eq_zero (by
        intro y hy
        obtain ⟨x, hx, rfl⟩ := List.mem_map.1 hy
        rw [if_neg fun px => hn ⟨x, hx, px⟩])
      have hk' : ∃ x ∈ k :: l, p x := ⟨k, List.mem_cons_self, hk⟩
      rw [if_neg hn, if_pos hk', if_pos hk, List.map_cons, List.sum_cons, if_pos hk, hz, add_zero]
    · by_cases he : ∃ x ∈ l, p x
      · have he' : ∃ x ∈ k :: l, p x := by obtain ⟨x, hx, px⟩ := he; exact ⟨x, List.mem_cons_of_mem _ hx, px⟩
        rw [if_pos he, if_pos he', List.map_cons, List.sum_cons, if_neg hk, zero_add]
      · have he' : ¬ ∃ x ∈ k :: l, p x := by
          rintro ⟨x, hx, px⟩
          rcases List.mem_cons.1 hx with rfl | hx
          · exact hk px
          · exact he ⟨x, hx, px⟩
        rw [if_neg he, if_neg he', if_neg hk]

theorem foldl_sumIf {q : ℕ} (p : Fin q → Prop) [DecidablePred p] (v : Fin q → K) : ∀ (l : List (Fin q)) (e : K),
    l.foldl (fun e k => if p k then e + v k else e) e = e + (l.map fun k => if p k then v k else 0).sum
  | [], e => by simp
  | k :: l, e => by
    rw [List.foldl_cons, foldl_sumIf p v l, List.map_cons, List.sum_cons]
    by_cases hk : p k
    · rw [if_pos hk, if_pos hk, add_assoc]
    · rw [if_neg hk, if_neg hk, zero_add]

theorem sum_finRange {q : ℕ} (f : Fin q → K) : ((List.finRange q).map f).sum = ∑ k, f k := by
  rw [← List.ofFn_eq_map, List.sum_ofFn]

theorem extractDiag_eq (h : Once P) (v : Vec K P.nnz) (j : Fin n) : extractDiag P v j = denseSym P v j j := by
  unfold extractDiag denseSym
  rw [foldl_pick (fun k => P.col k = j ∧ P.row k = j) v (fun k l a b => h k l (a.2.trans b.2.symm) (a.1.trans b.1.symm)) _ (List.nodup_finRange _), sum_finRange]
  have e : ∀ k, (P.row k = j ∧ P.col k = j ∨ P.row k = j ∧ P.col k = j) ↔ (P.col k = j ∧ P.row k = j) := fun k => by tauto
  simp only [e]
  split_ifs with hx
  · rfl
  · symm
    refine Finset.sum_eq_zero fun k _ => if_neg fun hk => hx ⟨k, List.mem_finRange k, hk⟩

theorem atdaDiag_eq (h : Once A) (v : Vec K A.nnz) (D : Vec K m) (j : Fin n) : atdaDiag A v D j = ((dense A v)ᵀ * diagonal D * dense A v) j j := by
  unfold atdaDiag
  rw [foldl_sumIf (fun k => A.col k = j) (fun k => v k * v k * D (A.row k)), sum_finRange, zero_add, Matrix.mul_apply]
  have e : ∀ i, ((dense A v)ᵀ * diagonal D) j i * dense A v i j = ∑ k, if A.row k = i ∧ A.col k = j then v k * v k * D i else 0 := by
    intro i
    rw [mul_diagonal, transpose_apply]
    unfold dense
    by_cases hx : ∃ k, A.row k = i ∧ A.col k = j
    · obtain ⟨k0, hk0⟩ := hx
      have u : ∀ (c : Fin A.nnz → K), (∑ k, if A.row k = i ∧ A.col k = j then c k else 0) = c k0 := fun c => by
        rw [Finset.sum_eq_single k0 (fun k _ hk => if_neg fun h' => hk (h k k0 (h'.1.trans hk0.1.symm) (h'.2.trans hk0.2.symm))) (by simp), if_pos hk0]
      rw [u, u]; ring
    · have u : ∀ (c : Fin A.nnz → K), (∑ k, if A.row k = i ∧ A.col k = j then c k else 0) = 0 := fun c =>
        Finset.sum_eq_zero fun k _ => if_neg fun hk => hx ⟨k, hk⟩
      rw [u, u]; ring
  rw [Finset.sum_congr rfl fun i _ => e i, Finset.sum_comm]
  refine Finset.sum_congr rfl fun k _ => ?_
  by_cases hk : A.col k = j
  · simp [hk]
  · simp [hk]

theorem diagonalInv_eq {g : Given P A K} {s : Solver P A K} (k : Kept g s) (hP : Once P) (hA : Once A) : diagonalInv s = fun j => 1 / g.matrix j j := by
  funext j
  unfold diagonalInv Given.matrix
  rw [extractDiag_eq hP, atdaDiag_eq hA, k.Px, k.Ax, k.rho, k.sigma]
  simp only [Matrix.add_apply, diagonal_apply_eq]
  rw [add_comm g.st.sigma]

end Osqp.Mkl
