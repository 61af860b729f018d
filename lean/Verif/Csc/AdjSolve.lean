import Verif.Csc.AdjForm
import Verif.Csc.DerivErr
import Verif.Props.CscConv

/-!
# Solving the adjoint system
-/

set_option linter.unusedSectionVars false
namespace Osqp.Csc
open Finset

variable {K : Type*} [Field K] [LinearOrder K]

/-! ## Sizes -/

theorem wr_size {α : Type*} {b b' : Buf α} {i : ℤ} {v : α} (e : b.wr i v = some b') : b'.size = b.size := by
  unfold Buf.wr at e
  split_ifs at e
  cases e; rfl

theorem forGo_keep {σ : Type*} {τ : Type*} (g : σ → τ) {f : ℤ → σ → Option σ} (hf : ∀ i s s', f i s = some s' → g s' = g s) :
    ∀ k i s s', forGo f k i s = some s' → g s' = g s := by
  intro k
  induction k with
  | zero => intro i s s' e; cases e; rfl
  | succ k ih =>
    intro i s s' e
    obtain ⟨t, e1, e2⟩ := Option.bind_eq_some_iff.1 (show (f i s).bind (forGo f k (i + 1)) = some s' from e)
    rw [ih _ _ _ e2, hf _ _ _ e1]

theorem forI_keep {σ : Type*} {τ : Type*} (g : σ → τ) {f : ℤ → σ → Option σ} (hf : ∀ i s s', f i s = some s' → g s' = g s) {lo hi : ℤ} {s s' : σ}
    (e : forI lo hi f s = some s') : g s' = g s := forGo_keep g hf _ _ _ _ e

theorem forCols_keep {σ : Type*} {τ : Type*} (g : σ → τ) {p : Buf ℤ} {n : ℤ} {body : ℤ → ℤ → σ → Option σ} (hf : ∀ j i s s', body j i s = some s' → g s' = g s) {s s' : σ}
    (e : forCols p n body s = some s') : g s' = g s := by
  refine forI_keep g (fun j s s' e => ?_) e
  obtain ⟨a, -, e⟩ := Option.bind_eq_some_iff.1 e
  obtain ⟨b, -, e⟩ := Option.bind_eq_some_iff.1 e
  exact forI_keep g (hf j) e

theorem addTo_size {y y' : Buf K} {r : ℤ} {v : K} (e : addTo y r v = some y') : y'.size = y.size := by
  obtain ⟨a, -, e⟩ := Option.bind_eq_some_iff.1 e
  exact wr_size e

theorem axpySymTriu_size {M : Csc K} {x y y' : Buf K} (e : axpySymTriu M x y 1 (-1) = some y') (h1 : (1 : K) ≠ -1) : y'.size = y.size := by
  obtain ⟨y1, e1, e⟩ := Option.bind_eq_some_iff.1 e
  obtain ⟨z, -, e⟩ := Option.bind_eq_some_iff.1 e
  have hb : y1.size = y.size := by
    unfold betaPart at e1
    rw [if_neg (by simp), if_neg (fun h => h1 h.symm), if_pos rfl] at e1
    refine forI_keep (fun b : Buf K => b.size) (fun i s s' e => ?_) e1
    obtain ⟨a, -, e⟩ := Option.bind_eq_some_iff.1 e
    exact wr_size e
  rw [← hb]
  by_cases hc : z = 0 ∨ (1 : K) = 0
  · rw [if_pos hc] at e; cases e; rfl
  rw [if_neg hc, if_neg h1, if_pos rfl] at e
  refine forCols_keep (fun b : Buf K => b.size) (fun j i s s' e => ?_) e
  obtain ⟨r, -, e⟩ := Option.bind_eq_some_iff.1 e
  obtain ⟨a, -, e⟩ := Option.bind_eq_some_iff.1 e
  obtain ⟨v, -, e⟩ := Option.bind_eq_some_iff.1 e
  obtain ⟨y2, e2, e⟩ := Option.bind_eq_some_iff.1 e
  have h2 := addTo_size e2
  by_cases hj : r ≠ j
  · rw [if_pos hj] at e
    obtain ⟨w, -, e⟩ := Option.bind_eq_some_iff.1 e
    show s'.size = s.size
    rw [addTo_size e, h2]
  · rw [if_neg hj] at e; cases e; exact h2

/-! ## The solve with a permutation and the refinement loop -/

/-- What is assumed of AMD and QDLDL on systems with `dim` unknowns: AMD returns a permutation for every stored matrix (this is proved in
`Props/AmdLink.lean`), and QDLDL replaces a vector of
numbers by a vector of numbers that depends only on the matrix and that vector. -/
structure SolverOk (env : AdjEnv K) (dim : ℕ) (sv : Csc K → (ℕ → K) → ℕ → K) : Prop where
  perm : ∀ M V, Rep M V → V.m = dim → V.n = dim → ∃ π : ℕ → ℕ, Holds (env.perm M) dim (fun k => (π k : ℤ)) ∧ (∀ k < dim, π k < dim) ∧ ∀ a < dim, ∀ b < dim, π a = π b → a = b
  size : ∀ M w f, w.size = dim → Holds w dim f → (env.qsolve M w).size = dim
  solve : ∀ M w f, w.size = dim → Holds w dim f → Holds (env.qsolve M w) dim (sv M f)

theorem permSolve_holds {env : AdjEnv K} {dim : ℕ} {sv : Csc K → (ℕ → K) → ℕ → K} (hE : SolverOk env dim sv) {perm : Buf ℤ} {P Q : ℕ → ℕ}
    (hp : Holds perm dim (fun k => (P k : ℤ))) (hlt : ∀ k < dim, P k < dim) (hPQ : ∀ k < dim, P (Q k) = k) (hQP : ∀ k < dim, Q (P k) = k) (hQ : ∀ k < dim, Q k < dim)
    (M : Csc K) {b w o : Buf K} {B : ℕ → K} (hb : Holds b dim B) (hw : w.size = dim) (ho : dim ≤ o.size) :
    ∃ r, permSolve env perm M (dim : ℤ) b w o = some r ∧ r.1.size = dim ∧ r.2.size = o.size ∧ Holds r.2 dim (fun t => sv M (fun i => B (P i)) (Q t)) := by
  unfold permSolve
  obtain ⟨w1, e1, s1, h1⟩ := writeLoop0 (b := w) (len := dim) (by omega) (fun i => B (P i)) (f := fun i w => (perm.rd i).bind fun t => (b.rd t).bind fun v => w.wr i v)
    (fun k c hk _ _ => bindEq (hp.rd hk) <| bindEq (hb.rd (hlt k hk)) rfl)
  have hs := hE.solve M w1 _ (by omega) h1
  have hsz := hE.size M w1 _ (by omega) h1
  obtain ⟨o1, e2, s2, h2⟩ := forI_zero (hi := dim) (s := o) (f := fun i o => (perm.rd i).bind fun t => ((env.qsolve M w1).rd i).bind fun v => o.wr t v)
    (fun k o' => o'.size = o.size ∧ ∀ i < k, o'.cell (P i) = some (sv M (fun i => B (P i)) i)) ⟨rfl, fun i hi => absurd hi (Nat.not_lt_zero i)⟩ (by
      intro k o' hk ⟨h2, h3⟩
      rw [hp.rd hk]
      simp only [Option.bind_some]
      rw [hs.rd hk]
      simp only [Option.bind_some]
      have := hlt k hk
      rw [Buf.wr_eq (by omega)]
      refine ⟨_, rfl, h2, fun i hi => ?_⟩
      rw [Buf.set_cell]
      by_cases e : P i = P k
      · rw [if_pos e]
        have : i = k := by rw [← hQP i (by omega), ← hQP k hk, e]
        rw [this]
      · rw [if_neg e]
        exact h3 i (by have : i ≠ k := fun h => e (by rw [h]); omega))
  refine ⟨(env.qsolve M w1, o1), bindEq e1 <| bindEq e2 rfl, hsz, s2, ⟨by rw [s2]; exact ho, fun t ht => ?_⟩⟩
  have := h2 (Q t) (hQ t ht)
  rw [hPQ t ht] at this
  exact this

theorem sumSq_holds {v : Buf K} {n : ℕ} {f : ℕ → K} (h : Holds v n f) (hn : v.size = n) : sumSq v = some (sqNorm n f) := by
  unfold sumSq sqNorm
  rw [hn]
  obtain ⟨t, e, ht⟩ := forI_zero (hi := n) (s := (0 : K)) (f := fun i (t : K) => (v.rd i).bind fun a => some (t + a * a)) (fun k t => t = ∑ r ∈ range k, f r * f r) (by simp)
    (fun k t hk ht => ⟨_, bindEq (h.rd hk) rfl, by rw [sum_range_succ, ht]⟩)
  rw [e, ht]

theorem residual_congr {dim : ℕ} {A B : ℕ → ℕ → K} (h : ∀ r < dim, ∀ c < dim, A r c = B r c) {R z : ℕ → K} {r : ℕ} (hr : r < dim) : residual dim A R z r = residual dim B R z r := by
  unfold residual
  congr 1
  exact sum_congr rfl fun c hc => by rw [h r hr c (mem_range.1 hc)]

section
variable (h11 : (1 : K) ≠ -1)
include h11

/-- The result of the refinement loop: an iterate with at most `fuel` corrections, the first whose residual is small, or the last. -/
theorem adjRefine_holds {env : AdjEnv K} {dim : ℕ} {sv : Csc K → (ℕ → K) → ℕ → K} (hE : SolverOk env dim sv) {perm : Buf ℤ} {P Q : ℕ → ℕ}
    (hp : Holds perm dim (fun k => (P k : ℤ))) (hlt : ∀ k < dim, P k < dim) (hPQ : ∀ k < dim, P (Q k) = k) (hQP : ∀ k < dim, Q (P k) = k) (hQ : ∀ k < dim, Q k < dim)
    (M : Csc K) {adjM : Csc K} {V : View K} (hM : Rep adjM V) (hVm : V.m = dim) (hVn : V.n = dim) (ht : V.Triu) {A : ℕ → ℕ → K} (hA : ∀ r < dim, ∀ c < dim, V.symEntry r c = A r c)
    {rhs : Buf K} {R : ℕ → K} (hR : Holds rhs dim R) (solve : (ℕ → K) → ℕ → K) (hsv : ∀ B t, solve B t = sv M (fun i => B (P i)) (Q t)) :
    ∀ fuel k (sol res w : Buf K), sol.size = dim → res.size = dim → w.size = dim → Holds sol dim (refined dim A solve R k) →
    ∃ sol' k', adjRefine env perm adjM M (dim : ℤ) rhs fuel sol res w = some sol' ∧ sol'.size = dim ∧ Holds sol' dim (refined dim A solve R k') ∧ k ≤ k' ∧ k' ≤ k + fuel ∧
      (k' < k + fuel → env.sqrt (sqNorm dim (residual dim A R (refined dim A solve R k'))) < adjTol) ∧
      ∀ j, k ≤ j → j < k' → ¬ env.sqrt (sqNorm dim (residual dim A R (refined dim A solve R j))) < adjTol := by
  intro fuel
  induction fuel with
  | zero =>
    intro k sol res w h1 h2 h3 h4
    exact ⟨sol, k, rfl, h1, h4, le_refl _, le_refl _, fun h => absurd h (lt_irrefl _), fun j h5 h6 => by omega⟩
  | succ fuel ih =>
    intro k sol res w h1 h2 h3 h4
    obtain ⟨r1, e1, s1, g1⟩ := fromRaw_holds (b := res) (av := rhs) (by rw [h2]; exact hR)
    obtain ⟨r2, e2, g2⟩ := c36_axpy_sym hM (by rw [hVm, hVn]) ht 1 (-1) (x := sol) (y := r1) (X := refined dim A solve R k) (Y := R) (by rw [hVn]; exact h4) (by rw [hVn, s1, h2])
      (.inr (by rw [hVn, ← h2]; exact g1))
    rw [hVn] at g2
    have s2 : r2.size = dim := by rw [axpySymTriu_size e2 h11, s1, h2]
    have g3 : Holds r2 dim (residual dim A R (refined dim A solve R k)) := g2.congr fun r hr => by
      unfold residual
      rw [sum_congr rfl fun c hc => by rw [hA r hr c (mem_range.1 hc)]]; ring
    have e3 := sumSq_holds g3 s2
    have hstep : adjRefine env perm adjM M (dim : ℤ) rhs (fuel + 1) sol res w =
        if env.sqrt (sqNorm dim (residual dim A R (refined dim A solve R k))) < adjTol then some sol else
        (permSolve env perm M (dim : ℤ) r2 w r2).bind fun r =>
        (forI 0 sol.size (fun i s => (s.rd i).bind fun a => (r.2.rd i).bind fun b => s.wr i (a - b)) sol).bind fun sol =>
        adjRefine env perm adjM M (dim : ℤ) rhs fuel sol r.2 r.1 := by
      conv_lhs => unfold adjRefine
      exact bindEq e1 <| bindEq e2 <| bindEq e3 rfl
    by_cases hc : env.sqrt (sqNorm dim (residual dim A R (refined dim A solve R k))) < adjTol
    · rw [if_pos hc] at hstep
      exact ⟨sol, k, hstep, h1, h4, le_refl _, by omega, fun _ => hc, fun j h5 h6 => by omega⟩
    · rw [if_neg hc] at hstep
      obtain ⟨r, e4, s4, s5, g4⟩ := permSolve_holds hE hp hlt hPQ hQP hQ M g3 h3 (o := r2) (by omega)
      obtain ⟨sol1, e5, s6, g5⟩ := writeLoop0 (b := sol) (len := dim) (by omega) (refined dim A solve R (k + 1))
        (f := fun i s => (s.rd i).bind fun a => (r.2.rd i).bind fun b => s.wr i (a - b)) (fun t c ht h5 h6 => by
          have : c.rd (t : ℤ) = some (refined dim A solve R k t) := by
            unfold Buf.rd; rw [if_pos ⟨by omega, by omega⟩, Int.toNat_natCast, h6 t (le_refl _), h4.2 t ht]
          refine bindEq this <| bindEq (g4.rd ht) ?_
          rw [show refined dim A solve R (k + 1) t = refined dim A solve R k t - solve (residual dim A R (refined dim A solve R k)) t from rfl, hsv])
      obtain ⟨sol', k', e6, a1, a2, a3, a4, a5, a6⟩ := ih (k + 1) sol1 r.2 r.1 (by omega) (by omega) s4 g5
      refine ⟨sol', k', ?_, a1, a2, by omega, by omega, fun h => a5 (by omega), fun j h5 h6 => ?_⟩
      · rw [hstep, h1]
        exact bindEq e4 <| bindEq e5 e6
      · by_cases h7 : j = k
        · rw [h7]; exact hc
        · exact a6 j (by omega) h6

end

/-- QDLDL's solution of a nonsingular system is exact. -/
def ExactSolver (dim : ℕ) (sv : Csc K → (ℕ → K) → ℕ → K) : Prop :=
  ∀ M W, Rep M W → W.m = dim → W.n = dim → W.Triu → Nonsing dim W.symEntry → ∀ f, ∀ r < dim, ∑ c ∈ range dim, W.symEntry r c * sv M f c = f r

variable [IsStrictOrderedRing K]

/-- The perturbed matrix is nonsingular, whatever the problem. -/
theorem perturb_nonsing (p : Prob K) {eps : K} (h0 : 0 < eps) : Nonsing (2 * p.N) (fun r c => p.adj r c + if r = c then (if r < p.N then eps else -eps) else 0) := by
  intro z hz
  have hd : ∀ r < 2 * p.N, ∑ c ∈ range (2 * p.N), (p.adj r c + if r = c then (if r < p.N then eps else -eps) else 0) * z c =
      (∑ c ∈ range (2 * p.N), p.adj r c * z c) + (if r < p.N then eps else -eps) * z r := fun r hr => by
    simp only [add_mul]
    rw [sum_add_distrib]
    congr 1
    simp only [ite_mul, zero_mul]
    rw [sum_ite_eq, if_pos (mem_range.2 hr)]
  have h1 : ∀ k < p.N, (1 + eps) * z k + ∑ c ∈ range p.N, p.M k c * z (p.N + c) = 0 := fun k hk => by
    have := hz k (by omega)
    rw [hd k (by omega), adj_top p z hk, if_pos hk] at this
    linear_combination this
  have h2 : ∀ k < p.N, (∑ c ∈ range p.N, p.M c k * z c) - eps * z (p.N + k) = 0 := fun k hk => by
    have := hz (p.N + k) (by omega)
    rw [hd (p.N + k) (by omega), adj_bot, if_neg (by omega)] at this
    linear_combination this
  have e1 : ∑ k ∈ range p.N, z k * ((1 + eps) * z k + ∑ c ∈ range p.N, p.M k c * z (p.N + c)) = 0 := sum_eq_zero fun k hk => by rw [h1 k (mem_range.1 hk), mul_zero]
  have e2 : ∑ k ∈ range p.N, z (p.N + k) * ((∑ c ∈ range p.N, p.M c k * z c) - eps * z (p.N + k)) = 0 := sum_eq_zero fun k hk => by rw [h2 k (mem_range.1 hk), mul_zero]
  have e3 : ∑ k ∈ range p.N, z k * ∑ c ∈ range p.N, p.M k c * z (p.N + c) = ∑ k ∈ range p.N, z (p.N + k) * ∑ c ∈ range p.N, p.M c k * z c := by
    simp only [mul_sum]
    rw [sum_comm]
    exact sum_congr rfl fun r _ => sum_congr rfl fun j _ => by ring
  simp only [mul_add, mul_sub, sum_add_distrib, sum_sub_distrib] at e1 e2
  have e4 : (∑ k ∈ range p.N, z k * ((1 + eps) * z k)) + ∑ k ∈ range p.N, z (p.N + k) * (eps * z (p.N + k)) = 0 := by linear_combination e1 - e2 - e3
  have n1 : ∀ k ∈ range p.N, 0 ≤ z k * ((1 + eps) * z k) := fun k _ => by nlinarith [mul_self_nonneg (z k)]
  have n2 : ∀ k ∈ range p.N, 0 ≤ z (p.N + k) * (eps * z (p.N + k)) := fun k _ => by nlinarith [mul_self_nonneg (z (p.N + k))]
  have s1 := sum_nonneg n1
  have s2 := sum_nonneg n2
  have z1 := (sum_eq_zero_iff_of_nonneg n1).1 (by linarith)
  have z2 := (sum_eq_zero_iff_of_nonneg n2).1 (by linarith)
  intro c hc
  by_cases hcN : c < p.N
  · have := z1 c (mem_range.2 hcN)
    rcases mul_eq_zero.1 this with h | h
    · exact h
    · exact (mul_eq_zero.1 h).resolve_left (by linarith)
  · have := z2 (c - p.N) (mem_range.2 (by omega))
    rw [show p.N + (c - p.N) = c by omega] at this
    rcases mul_eq_zero.1 this with h | h
    · exact h
    · exact (mul_eq_zero.1 h).resolve_left (by linarith)

theorem adjSolve_holds {env : AdjEnv K} {p : Prob K} {Q : AdjSys K} {VP VG VE VL : View K} (hs : SysRep p Q VP VG VE VL) (hsym : ∀ i < p.n, ∀ j < p.n, p.P i j = p.P j i)
    {sv : Csc K → (ℕ → K) → ℕ → K} (hE : SolverOk env (2 * p.N) sv) {rhs : Buf K} {R : ℕ → K} (hR : Holds rhs (2 * p.N) R) :
    ∃ (rhs' : Buf K) (solve : (ℕ → K) → ℕ → K) (k : ℕ), adjSolve env Q rhs = some rhs' ∧ rhs'.size = rhs.size ∧ Holds rhs' (2 * p.N) (refined (2 * p.N) p.adj solve R k) ∧ k ≤ 200 ∧
      (k < 200 → env.sqrt (sqNorm (2 * p.N) (residual (2 * p.N) p.adj R (refined (2 * p.N) p.adj solve R k))) < adjTol) ∧
      (∀ j < k, ¬ env.sqrt (sqNorm (2 * p.N) (residual (2 * p.N) p.adj R (refined (2 * p.N) p.adj solve R j))) < adjTol) ∧
      (ExactSolver (2 * p.N) sv → ∀ B, ∀ r < 2 * p.N,
        ∑ c ∈ range (2 * p.N), (p.adj r c + if r = c then (if r < p.N then adjEps else -adjEps) else 0) * solve B c = B r) := by
  have hb : Blocks p.n (p.nl + p.nu) p.ne VP VG VE VL := blocks_of hs.P hs.G hs.E hs.L hs.Pm hs.Pn hs.Gm hs.Gn hs.Em hs.En hs.Lm hs.Ln
  have hN : p.n + (p.nl + p.nu) + p.ne = p.N := by unfold Prob.N; omega
  have zP : Q.Pfull.p.rd Q.Pfull.n = some (VP.nnz : ℤ) := hs.P.rdNnz
  have zG : Q.G.p.rd Q.G.n = some (VG.nnz : ℤ) := hs.G.rdNnz
  have zE : Q.Aeq.p.rd Q.Aeq.n = some (VE.nnz : ℤ) := hs.E.rdNnz
  have q1 : Q.Pfull.m = (p.n : ℤ) := by rw [hs.P.m, hs.Pm]
  have q2 : Q.G.m = ((p.nl + p.nu : ℕ) : ℤ) := by rw [hs.G.m, hs.Gm]
  have q3 : Q.Aeq.m = (p.ne : ℤ) := by rw [hs.E.m, hs.Em]
  set L := adjEnts p.n (p.nl + p.nu) p.ne VP VG VE VL p.gS 1 0 with hL
  set dim := 2 * p.N with hdim
  have hlen : L.length = p.n + (p.nl + p.nu) + p.ne + VP.nnz + VG.nnz + VE.nnz + VG.nnz + (p.nl + p.nu) + VE.nnz + p.n + (p.nl + p.nu) + p.ne := by
    rw [hL, adjEnts_length]
    have := hs.Lz
    omega
  obtain ⟨z1, z2, z3, z4⟩ := spalloc_nat (K := K) dim dim L.length
  set C : Csc K := spalloc (dim : ℤ) (dim : ℤ) (L.length : ℤ) with hC
  obtain ⟨s, es, hsp, ⟨sp, hsf⟩, hsi, hsx⟩ := adjAssemble_holds hs.P hs.G hs.E hs.L hs.S hb (D := ⟨C.p, C.i, C.x⟩) (by show C.p.size = _; rw [z1, hN]) (by show _ ≤ C.i.size; rw [z2]) (by show _ ≤ C.x.size; rw [z3])
  rw [hN, ← hdim] at hsp hsf
  have hcols := adjEnts_inCols (S := p.gS) hb 1 0
  have hrows := adjEnts_rows (S := p.gS) hb 1 0
  rw [hN, ← hdim] at hcols hrows
  have hlaid := layout_laid dim dim hcols
  set V := layout dim dim hcols with hV
  have hM : Rep ({ C with p := s.p, i := s.i, x := s.x } : Csc K) V := bucket_done hsp hsf hcols hrows hlaid rfl rfl rfl rfl rfl
  set adj : Csc K := { C with p := s.p, i := s.i, x := s.x } with hadj
  obtain ⟨adjM, ec, hMc, -⟩ := copy_aux hM
  have hlaid' := hlaid
  rw [hdim, ← hN] at hlaid'
  obtain ⟨M', V', ep, hM', hlaid2, -, -⟩ := adjPerturb_holds hb hM hlaid' adjEps
  obtain ⟨-, ht, -, -⟩ := adj_denote hb 1 0 hlaid'
  obtain ⟨-, ht', -, -⟩ := adj_denote hb (1 + adjEps) (0 + -adjEps) hlaid2
  rw [hN, ← hdim] at hlaid2
  obtain ⟨P, hp, hlt, hinj⟩ := hE.perm M' V' hM' hlaid2.vm hlaid2.vn
  obtain ⟨pv, Q', epv, hpv, hQ, hQP, hPQ⟩ := c38_pinv hp hlt hinj
  have hVn' : V'.n = dim := hlaid2.vn
  have hQinj : ∀ i < dim, ∀ j < dim, Q' i = Q' j → i = j := fun i hi j hj e => by rw [← hPQ i hi, ← hPQ j hj, e]
  obtain ⟨B, map', W, -, er, hB, hWm, hWn, hWt, -, -, -, hWs, -, -⟩ := c38_symperm hM' (by rw [hlaid2.vm, hVn']) ht' (pv := some pv) (π := Q') (by rw [hVn']; exact hpv)
    (by rw [hVn']; exact hQ) (by rw [hVn']; exact hQinj) (map := none) (fun b h => by cases h)
  rw [hVn'] at hWm hWn hWs
  let solve : (ℕ → K) → ℕ → K := fun B' t => sv B (fun i => B' (P i)) (Q' t)
  obtain ⟨xs, e1, s1, s2, g1⟩ := permSolve_holds hE hp hlt hPQ hQP hQ B hR (w := Buf.fresh (dim : ℤ)) (o := Buf.fresh (dim : ℤ)) (fresh_size _) (le_of_eq (fresh_size _).symm)
  obtain ⟨sol, e2, s3, g2⟩ := newFrom_holds (n := dim) g1
  have hA : ∀ r < dim, ∀ c < dim, V.symEntry r c = p.adj r c := fun r hr c hc => by
    rw [adj_sym hs hsym 1 0 hlaid hr hc]
    by_cases e : r = c
    · rw [if_pos e]; split_ifs <;> ring
    · rw [if_neg e]; ring
  obtain ⟨sol', k, e3, s4, g3, -, hk, a1, a2⟩ := adjRefine_holds (by intro h; have : (0 : K) < 1 := one_pos; linarith) hE hp hlt hPQ hQP hQ B hMc hlaid.vm hlaid.vn ht hA hR solve (fun _ _ => rfl)
    200 0 sol (Buf.fresh (dim : ℤ)) xs.1 s3 (fresh_size _) s1 g2
  obtain ⟨rhs', e4, s5, g4⟩ := subAssign_holds (A := rhs) (st := 0) (len := dim) g3 (by have := hR.1; omega) 1
  refine ⟨rhs', solve, k, ?_, s5, ⟨by rw [s5]; exact hR.1, fun t ht => ?_⟩, by omega, fun h => a1 (by omega), fun j hj => a2 j (by omega) hj, fun hX B' r hr => ?_⟩
  · unfold adjSolve
    rw [q1, q2, q3]
    refine bindEq zP <| bindEq zG <| bindEq zE ?_
    have d1 : (2 * ((p.n : ℤ) + ((p.nl + p.nu : ℕ) : ℤ) + (p.ne : ℤ))) = (dim : ℤ) := by rw [hdim, ← hN]; push_cast; ring
    have d2 : ((p.n : ℤ) + ((p.nl + p.nu : ℕ) : ℤ) + (p.ne : ℤ) + (VP.nnz : ℤ) + (VG.nnz : ℤ) + (VE.nnz : ℤ) + (VG.nnz : ℤ) + ((p.nl + p.nu : ℕ) : ℤ) + (VE.nnz : ℤ) + (p.n : ℤ) +
        ((p.nl + p.nu : ℕ) : ℤ) + (p.ne : ℤ)) = (L.length : ℤ) := by rw [hlen]; push_cast; ring
    dsimp only
    rw [d1, d2, ← hC]
    have e4' : subAssign rhs sol' 0 sol'.size 1 = some rhs' := by rw [s4]; exact_mod_cast e4
    exact bindEq es <| bindEq ec <| bindEq ep <| bindEq epv <| bindEq er <| bindEq e1 <| bindEq e2 <| bindEq e3 e4'
  · rw [g4 t, if_pos ⟨by omega, by omega⟩, one_mul, Nat.sub_zero]
  · have hkey : ∀ r < dim, ∀ c < dim, p.adj r c + (if r = c then (if r < p.N then adjEps else -adjEps) else 0) = W.symEntry (Q' r) (Q' c) := fun r hr c hc => by
      rw [hWs r hr c hc, adj_sym hs hsym _ _ hlaid2 hr hc]
      congr 1
      split_ifs <;> ring
    rw [sum_congr rfl fun c hc => by rw [hkey r hr c (mem_range.1 hc)]]
    show ∑ c ∈ range dim, W.symEntry (Q' r) (Q' c) * sv B (fun i => B' (P i)) (Q' c) = B' r
    have hns : Nonsing dim W.symEntry := by
      intro z hz
      have hz' : ∀ r < dim, ∑ c ∈ range dim, (p.adj r c + if r = c then (if r < p.N then adjEps else -adjEps) else 0) * z (Q' c) = 0 := fun r hr => by
        refine Eq.trans ?_ (hz (Q' r) (hQ r hr))
        refine sum_bij (fun c _ => Q' c) (fun c hc => mem_range.2 (hQ c (mem_range.1 hc))) (fun a ha b hb h => hQinj a (mem_range.1 ha) b (mem_range.1 hb) h)
          (fun c hc => ⟨P c, mem_range.2 (hlt c (mem_range.1 hc)), hQP c (mem_range.1 hc)⟩) (fun c hc => ?_)
        rw [hkey r hr c (mem_range.1 hc)]
      intro c hc
      have := perturb_nonsing p (eps := adjEps) (by unfold adjEps; positivity) (fun c => z (Q' c)) hz' (P c) (hlt c hc)
      simp only [hQP c hc] at this
      exact this
    have hx := hX B W hB hWm hWn hWt hns (fun i => B' (P i)) (Q' r) (hQ r hr)
    simp only [hPQ r hr] at hx
    refine Eq.trans ?_ hx
    exact sum_bij (fun c _ => Q' c) (fun c hc => mem_range.2 (hQ c (mem_range.1 hc))) (fun a ha b hb h => hQinj a (mem_range.1 ha) b (mem_range.1 hb) h)
      (fun c hc => ⟨P c, mem_range.2 (hlt c (mem_range.1 hc)), hQP c (mem_range.1 hc)⟩) (fun c _ => rfl)

end Osqp.Csc
