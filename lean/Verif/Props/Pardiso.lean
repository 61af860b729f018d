import Verif.Mkl.PardisoDemo
import Verif.Props.LinStep
import Verif.Mkl.PardisoLemmas

/-!
# The direct solver of the MKL back end (C77)

Arrays are C arrays in raw memory (`none` is undefined behaviour).  `kktFull` is the matrix `[P + sigma*I, A'; A, -diag(R)]`
(`Csc/KktSpec.lean`), `Denotes` says what PARDISO reads in the arrays it is given, `Exact` that PARDISO solves correctly
(`Spec/Pardiso.lean`), `AdmmEqs` are the equations of the ADMM step (`Props/LinStep.lean`).
-/

set_option linter.unusedSectionVars false
namespace Osqp.Pardiso
open Osqp.Csc Finset

variable {K : Type*} [Field K] [LinearOrder K] {VP VA : View K} {P A : Csc K} {sigma : K} {lib : Lib K} {D : Data K} {s s' : Solver K} {vec : Bool}

/-- New values for some stored entries: the struct `M` holds `V` with the values `X`, the call lists the entries `ix 0, ..., ix (cnt-1)`, and the
values of entries that are not listed are the old ones. -/
structure Change (V : View K) (M : Csc K) (X : ℕ → K) (idx : Option (Buf ℤ)) (cnt : ℕ) (ix : ℕ → ℕ) : Prop where
  rep : Rep M (V.withX X)
  idx : IdxIs idx cnt ix
  lt : ∀ j < cnt, ix j < V.nnz
  same : ∀ k < V.nnz, (∀ j < cnt, ix j ≠ k) → X k = V.x k

/-- The life of a solver object of the iteration, with the data it should hold.  `vec` says whether the step sizes are a vector.  Every diagonal entry
of `P` that an update lists is the only stored entry of its column. -/
inductive Reach (lib : Lib K) (sigma : K) (vec : Bool) : Solver K → Data K → Prop
  | init {P A : Csc K} {VP VA : View K} {rho_vec : Option (Buf K)} {rho : K} {r : ℕ → K} {s : Solver K} : Rep P VP → Rep A VA → Fits VP VA → Param2Is rho_vec rho VA.m r →
      rho_vec.isSome = vec → init lib P A rho_vec rho sigma false true = some (0, .live s) → Reach lib sigma vec s ⟨VP, VA, fun k => 1 / r k⟩
  | matrices {s s' : Solver K} {D : Data K} {P' A' : Csc K} {X Y : ℕ → K} {pi ai : Option (Buf ℤ)} {pn an : ℕ} {ix jx : ℕ → ℕ} : Reach lib sigma vec s D →
      Change D.P P' X pi pn ix → Change D.A A' Y ai an jx → (∀ j < pn, Spared D.P (ix j)) →
      updateMatrices lib s P' pi pn A' ai an = some (0, s') → Reach lib sigma vec s' ⟨D.P.withX X, D.A.withX Y, D.R⟩
  | rho {s s' : Solver K} {D : Data K} {rho_vec : Option (Buf K)} {rho_sc : K} {r : ℕ → K} : Reach lib sigma vec s D → Param2Is rho_vec rho_sc D.A.m r → rho_vec.isSome = vec →
      updateRho lib s rho_vec rho_sc = some (0, s') → Reach lib sigma vec s' ⟨D.P, D.A, fun k => 1 / r k⟩
  | solve {s s' : Solver K} {D : Data K} {b b' : Buf K} {code : ℤ} : Reach lib sigma vec s D → solve lib s b = some (code, b', s') → Reach lib sigma vec s' D

theorem solve_sol {b b' : Buf K} {code : ℤ} (h : solve lib s b = some (code, b', s')) : s' = { s with sol := (lib.solve s.fac s.polishing b s.sol).2.2 } := by
  unfold solve at h
  simp only at h
  split_ifs at h
  · simp only [Option.some.injEq, Prod.mk.injEq] at h; exact h.2.2.symm
  · simp only [Option.some.injEq, Prod.mk.injEq] at h; exact h.2.2.symm
  · simp only [Option.bind_eq_some_iff, Option.some.injEq, Prod.mk.injEq] at h
    obtain ⟨_, _, _, _, _, _, h⟩ := h; exact h.symm

theorem reach_holding (hs : ∀ inp inB b x, (lib.solve inp inB b x).2.2.size = x.size) (h : Reach lib sigma vec s D) :
    Holding sigma D (formShift D.P sigma) s ∧ s.polishing = false ∧ s.rho_inv_vec.isSome = vec ∧ (lib.numeric s.fac).1 = 0 := by
  induction h with
  | init hP hA hF hr hv e =>
    obtain ⟨s1, g1, g2, g3, g4⟩ := init_holding (lib := lib) hP hA hF sigma hr
    rw [g4] at e
    have e := Option.some.inj e
    split_ifs at e with c1 c2 c3
    all_goals simp only [Prod.mk.injEq, initError, noncvxError, reduceCtorEq, and_false, Handle.live.injEq, OfNat.ofNat_ne_zero, false_and] at e
    obtain rfl := e.2
    exact ⟨g1, g2, g3.trans hv, by simpa using c2⟩
  | matrices _ cP cA hsp e ih =>
    obtain ⟨h1, h2, h3, _⟩ := ih
    obtain ⟨s2, e2, g1, g2, g3⟩ := h1.matrices (lib := lib) h2 cP.rep cA.rep cP.idx cA.idx cP.lt cA.lt cP.same cA.same (ψ := formShift _ sigma)
      (fun j hj => (spared_shift h1.fits (cP.lt j hj) (hsp j hj)).symm) (fun _ _ _ => rfl)
    rw [e2] at e
    simp only [Option.some.injEq, Prod.mk.injEq] at e
    obtain ⟨e3, rfl⟩ := e
    exact ⟨g1, g2, g3 ▸ h3, e3⟩
  | rho _ hr hv e ih =>
    obtain ⟨h1, h2, h3, _⟩ := ih
    obtain ⟨s2, e2, g1, g2, g3⟩ := h1.rho (lib := lib) h2 hr (hv.trans h3.symm)
    rw [e2] at e
    simp only [Option.some.injEq, Prod.mk.injEq] at e
    obtain ⟨e3, rfl⟩ := e
    exact ⟨g1, g2, g3.trans h3, e3⟩
  | solve _ e ih =>
    obtain ⟨h1, h2, h3, h4⟩ := ih
    rw [solve_sol e]
    exact ⟨h1.solved (hs _ _ _ _), h2, h3, h4⟩

/-! ## The matrix given to PARDISO -/

/-- **C77** (creation).  For every problem with a well-formed upper triangle `P` and matrix `A`, creating the object touches no memory outside the arrays; PARDISO
is given exactly the matrix `[P + sigma*I, A'; A, -diag(1/rho)]`, in the format its manual asks for; the exit code is 0 exactly when both phases
succeed and the number of positive eigenvalues is at least `n`. -/
theorem c77_init (hP : Rep P VP) (hA : Rep A VA) (hF : Fits VP VA) (sigma : K) {rho_vec : Option (Buf K)} {rho : K} {r : ℕ → K} (hr : Param2Is rho_vec rho VA.m r) :
    ∃ s, Denotes s.fac (VP.n + VA.m) (kktFull VP VA sigma fun k => 1 / r k) ∧ init lib P A rho_vec rho sigma false true = some (
      if lib.symbolic s.fac ≠ 0 then (initError, .null) else if (lib.numeric s.fac).1 ≠ 0 then (initError, .null)
      else if (lib.numeric s.fac).2 < (VP.n : ℤ) then (noncvxError, .live s) else (0, .live s)) := by
  obtain ⟨s, g1, _, _, g4⟩ := init_holding (lib := lib) hP hA hF sigma hr
  refine ⟨s, ?_, g4⟩
  have := g1.denotes
  rwa [show held VP VA sigma (formShift VP sigma) (fun k => 1 / r k) = kktFull VP VA sigma (fun k => 1 / r k) from
    funext fun r => funext fun c => held_form hF (fun _ _ => rfl) r c] at this

/-- **C77** (the factorised matrix, partial).  After any sequence of solves and successful updates the matrix that PARDISO has factorised is that of the current
data.  Missing: updates of a diagonal entry of `P` whose column has other entries, for which it is false (`c77_lost`). -/
theorem c77_matrix_partial (hs : Exact lib) (h : Reach lib sigma vec s D) : Denotes s.fac (D.P.n + D.A.m) (kktFull D.P D.A sigma D.R) ∧ (lib.numeric s.fac).1 = 0 := by
  obtain ⟨h1, _, _, h4⟩ := reach_holding hs.size h
  refine ⟨?_, h4⟩
  have := h1.denotes
  rwa [show held D.P D.A sigma (formShift D.P sigma) D.R = kktFull D.P D.A sigma D.R from
    funext fun r => funext fun c => held_form h1.fits (fun _ _ => rfl) r c] at this

/-- **C77** (memory).  On every reachable object every update with valid arguments, also of diagonal entries, and every solve is defined. -/
theorem c77_defined (hs : Exact lib) (h : Reach lib sigma vec s D) :
    (∀ {P' A' : Csc K} {X Y : ℕ → K} {pi ai : Option (Buf ℤ)} {pn an : ℕ} {ix jx : ℕ → ℕ}, Change D.P P' X pi pn ix → Change D.A A' Y ai an jx →
      updateMatrices lib s P' pi pn A' ai an ≠ none) ∧
    (∀ {rho_vec : Option (Buf K)} {rho_sc : K} {r : ℕ → K}, Param2Is rho_vec rho_sc D.A.m r → rho_vec.isSome = vec → updateRho lib s rho_vec rho_sc ≠ none) ∧
    ∀ {b : Buf K} {B : ℕ → K}, Holds b (D.P.n + D.A.m) B → solve lib s b ≠ none := by
  obtain ⟨h1, h2, h3, h4⟩ := reach_holding hs.size h
  refine ⟨fun {P' A' X Y pi ai pn an ix jx} cP cA => ?_, fun {q sc r} hr hv => ?_, fun {b B} hb => ?_⟩
  · classical
    obtain ⟨s2, e2, _⟩ := h1.matrices (lib := lib) h2 cP.rep cA.rep cP.idx cA.idx cP.lt cA.lt cP.same cA.same
      (ψ := fun k => if ∃ j < pn, ix j = k then (if Begins D.P k then sigma else 0) else formShift D.P sigma k)
      (fun j hj => if_pos ⟨j, hj, rfl⟩) (fun k _ hk => if_neg (by rintro ⟨j, hj, e⟩; exact hk j hj e))
    rw [e2]; simp
  · obtain ⟨s2, e2, _⟩ := h1.rho (lib := lib) h2 hr (hv.trans h3.symm)
    rw [e2]; simp
  · unfold solve
    simp only
    split_ifs with c1 c2
    · simp
    · simp
    · rw [h2] at c1 ⊢
      obtain ⟨X, hX, _⟩ := hs.apart _ _ _ h1.denotes h4 b s.sol B hb h1.sol (by simpa using c1)
      obtain ⟨b', e, _⟩ := h1.read h2 (b := (lib.solve s.fac false b s.sol).2.1) (by rw [hs.kept]; exact hb) hX
      rw [Option.bind_eq_some_iff] at e
      obtain ⟨b1, e1, e2⟩ := e
      rw [e1]
      simp only [Option.bind_some]
      rw [e2]; simp

/-! ## Solves -/

/-- **C77** (the step, partial).  On every reachable object a solve either returns 1 and leaves the caller's vector as it was, or returns 0 and leaves `x~` and `z~` there,
which satisfy the ADMM equations of the current data.  Missing: the same histories as in `c77_matrix_partial`. -/
theorem c77_step_partial (hs : Exact lib) (h : Reach lib sigma vec s D) {rho : ℕ → K} (h0 : ∀ k < D.A.m, rho k ≠ 0 ∧ D.R k = 1 / rho k)
    {b : Buf K} {Bx Bz : ℕ → K} (hb : Holds b (D.P.n + D.A.m) (cat D.P.n Bx Bz)) :
    ∃ code b' s', solve lib s b = some (code, b', s') ∧
      ((code = 1 ∧ b' = b) ∨ (code = 0 ∧ ∃ X Z, Holds b' (D.P.n + D.A.m) (cat D.P.n X Z) ∧ AdmmEqs D.P D.A sigma rho Bx Bz X Z)) := by
  obtain ⟨h1, h2, h3, h4⟩ := reach_holding hs.size h
  obtain ⟨hd, _⟩ := c77_matrix_partial hs h
  unfold solve
  simp only [h2]
  by_cases c1 : (lib.solve s.fac false b s.sol).1 = 0
  · obtain ⟨S, hX, hS⟩ := hs.apart _ _ _ hd h4 b s.sol _ hb h1.sol c1
    obtain ⟨b', e, hb'⟩ := h1.read h2 (b := (lib.solve s.fac false b s.sol).2.1) (by rw [hs.kept]; exact hb) hX
    rw [Option.bind_eq_some_iff] at e
    obtain ⟨b1, e1, e2⟩ := e
    have hcat : ∀ k < D.P.n + D.A.m, S k = cat D.P.n S (fun k => S (D.P.n + k)) k := fun k _ => by
      unfold cat
      by_cases hk : k < D.P.n
      · rw [if_pos hk]
      · rw [if_neg hk]; show S k = S (D.P.n + (k - D.P.n)); rw [Nat.add_sub_cancel' (not_lt.1 hk)]
    have hS' : ∀ r < D.P.n + D.A.m, ∑ c ∈ range (D.P.n + D.A.m), kktFull D.P D.A sigma D.R r c * cat D.P.n S (fun k => S (D.P.n + k)) c = cat D.P.n Bx Bz r := by
      intro r hr
      rw [← hS r hr]
      exact sum_congr rfl fun c hc => by rw [← hcat c (mem_range.1 hc)]
    rw [kkt_rows] at hS'
    have hZ : ∀ k < D.A.m, Bz k + D.R k * S (D.P.n + k) = ∑ c ∈ range D.P.n, D.A.entry k c * S c := fun k hk => by rw [← hS'.2 k hk]; ring
    have hw : ∀ k < D.A.m, S (D.P.n + k) = rho k * ((∑ c ∈ range D.P.n, D.A.entry k c * S c) - Bz k) := fun k hk => by
      rw [← hZ k hk, (h0 k hk).2, add_sub_cancel_left, ← mul_assoc, mul_one_div_cancel (h0 k hk).1, one_mul]
    refine ⟨0, b', { s with sol := (lib.solve s.fac false b s.sol).2.2, polishing := false }, ?_, Or.inr ⟨rfl, S, fun k => Bz k + D.R k * S (D.P.n + k), hb'.congr fun k hk => ?_, hZ, fun r hr => ?_⟩⟩
    · rw [if_neg (by simpa using c1), if_neg (by simp), e1]
      simp only [Option.bind_some]
      rw [e2]; rfl
    · unfold cat
      by_cases hk2 : k < D.P.n
      · rw [if_pos hk2, if_pos hk2]
      · rw [if_neg hk2, if_neg hk2, if_neg hk2]
        show _ = Bz (k - D.P.n) + D.R (k - D.P.n) * S (D.P.n + (k - D.P.n))
        rw [Nat.add_sub_cancel' (not_lt.1 hk2)]
    · rw [← hS'.1 r hr, sigma_sum hr]
      congr 1
      exact sum_congr rfl fun k hk => by rw [hw k (mem_range.1 hk)]
  · refine ⟨1, (lib.solve s.fac false b s.sol).2.1, _, by rw [if_pos c1], Or.inl ⟨rfl, hs.kept _ _ _⟩⟩

/-- **C77** (polishing).  An object created for polishing returns, when it returns 0, the solution of the system with the matrix `[P + delta*I, A'; A, -delta*I]`, in place. -/
theorem c77_polish (hs : Exact lib) (hP : Rep P VP) (hA : Rep A VA) (hF : Fits VP VA) (delta rho : K) {s : Solver K} (hi : init lib P A none rho delta true true = some (0, .live s))
    {b : Buf K} {B : ℕ → K} (hb : Holds b (VP.n + VA.m) B) :
    ∃ code b' s', solve lib s b = some (code, b', s') ∧
      (code = 1 ∨ (code = 0 ∧ ∃ X, Holds b' (VP.n + VA.m) X ∧ ∀ r < VP.n + VA.m, ∑ c ∈ range (VP.n + VA.m), kktFull VP VA delta (fun _ => delta) r c * X c = B r)) := by
  obtain ⟨s1, g1, g2, g4⟩ := init_polish (lib := lib) hP hA hF delta rho
  rw [g4] at hi
  have e := Option.some.inj hi
  split_ifs at e with c1 c2 c3
  all_goals simp only [Prod.mk.injEq, initError, noncvxError, reduceCtorEq, and_false, Handle.live.injEq, OfNat.ofNat_ne_zero, false_and] at e
  obtain rfl := e.2
  have hd := g1.denotes
  rw [show held VP VA delta (formShift VP delta) (fun _ => delta) = kktFull VP VA delta (fun _ => delta) from
    funext fun r => funext fun c => held_form hF (fun _ _ => rfl) r c] at hd
  unfold solve
  simp only [g2]
  by_cases c1 : (lib.solve s1.fac true b s1.sol).1 = 0
  · refine ⟨0, _, _, by rw [if_neg (by simpa using c1)]; exact if_pos trivial, Or.inr ⟨rfl, hs.inPlace _ _ _ hd (by simpa using c2) b s1.sol B hb g1.sol c1⟩⟩
  · exact ⟨1, _, _, by rw [if_pos c1], Or.inl rfl⟩

/-! ## What is wrong -/

/-- **C77, false in general.**  On every reachable object, take a column `c` of `P` whose last stored entry `k` is its diagonal entry and which has other entries, none of them
on the diagonal.  Every update that lists entry `k` leaves PARDISO with a matrix that differs from that of the new data: at `(c, c)` the term `sigma` is gone. -/
theorem c77_lost (hs : Exact lib) (h : Reach lib sigma vec s D) {k c : ℕ} (hc : c < D.P.n) (hk : k + 1 = D.P.p (c + 1)) (hd : D.P.i k = c) (hlt : D.P.p c < k)
    (hone : ∀ k', D.P.p c ≤ k' → k' < k → D.P.i k' ≠ c)
    {P' A' : Csc K} {X Y : ℕ → K} {pi ai : Option (Buf ℤ)} {pn an : ℕ} {ix jx : ℕ → ℕ} (cP : Change D.P P' X pi pn ix) (cA : Change D.A A' Y ai an jx) (hl : ∃ j < pn, ix j = k) :
    ∃ s' M, updateMatrices lib s P' pi pn A' ai an = some ((lib.numeric s'.fac).1, s') ∧ Denotes s'.fac (D.P.n + D.A.m) M ∧
      M c c = kktFull (D.P.withX X) (D.A.withX Y) sigma D.R c c - sigma := by
  obtain ⟨h1, h2, h3, _⟩ := reach_holding hs.size h
  classical
  obtain ⟨s2, e2, g, _⟩ := h1.matrices (lib := lib) h2 cP.rep cA.rep cP.idx cA.idx cP.lt cA.lt cP.same cA.same
    (ψ := fun k => if ∃ j < pn, ix j = k then (if Begins D.P k then sigma else 0) else formShift D.P sigma k)
    (fun j hj => if_pos ⟨j, hj, rfl⟩) (fun k _ hk => if_neg (by rintro ⟨j, hj, e⟩; exact hk j hj e))
  refine ⟨s2, _, e2, g.denotes, ?_⟩
  have hF := h1.fits
  have hkn : k < D.P.nnz := hF.hP.lt_nnz hc (by omega)
  have hcol : D.P.col k = c := hF.hP.col_eq hc (by omega) (by omega)
  unfold held
  simp only
  rw [min_self, max_self, if_pos (show c < (D.P.withX X).n from hc), kktFull_shift (D.P.withX X) (D.A.withX Y) sigma D.R (le_refl c), if_pos (show c < (D.P.withX X).n from hc), if_pos rfl, add_sub_cancel_right]
  have hx : extra (D.P.withX X) sigma (fun k => if ∃ j < pn, ix j = k then (if Begins D.P k then sigma else 0) else formShift D.P sigma k) c c = 0 := by
    show (∑ k ∈ range D.P.nnz, if D.P.i k = c ∧ D.P.col k = c then (if ∃ j < pn, ix j = k then (if Begins D.P k then sigma else 0) else formShift D.P sigma k) else 0) +
      (if c = c ∧ Missing D.P c then sigma else 0) = 0
    rw [if_neg, add_zero, sum_eq_single k]
    · rw [if_pos ⟨hd, hcol⟩, if_pos hl, if_neg]
      rintro ⟨_, hb⟩
      rw [hd] at hb; omega
    · intro k' hk' hne
      rw [if_neg]
      rintro ⟨e1, e4⟩
      obtain ⟨_, d2, d3⟩ := hF.hP.col_spec (mem_range.1 hk')
      rw [e4] at d2 d3
      exact hone k' d2 (by omega) e1
    · intro hn; exact absurd (mem_range.2 hkn) hn
    · rintro ⟨_, hm | hm⟩
      · omega
      · exact hm (by rw [← hk, Nat.add_sub_cancel]; exact hd)
  rw [hx, add_zero]

/-- **C77, unchecked updates.**  Suppose that for the new data the factorisation succeeds and reports fewer than `n` positive eigenvalues (the data are not convex).  Creating an object
for these data is refused with the code of a non-convex problem; updating a reachable object to the same data returns 0. -/
theorem c77_unchecked (hs : Exact lib) (h : Reach lib sigma vec s D)
    {P' A' : Csc K} {X Y : ℕ → K} {pi ai : Option (Buf ℤ)} {pn an : ℕ} {ix jx : ℕ → ℕ} (cP : Change D.P P' X pi pn ix) (cA : Change D.A A' Y ai an jx) (hsp : ∀ j < pn, Spared D.P (ix j))
    (hnew : ∀ inp, Denotes inp (D.P.n + D.A.m) (kktFull (D.P.withX X) (D.A.withX Y) sigma D.R) →
      lib.symbolic inp = 0 ∧ (lib.numeric inp).1 = 0 ∧ (lib.numeric inp).2 < (D.P.n : ℤ)) :
    (∃ s', updateMatrices lib s P' pi pn A' ai an = some (0, s')) ∧
    ∀ {rho_vec : Option (Buf K)} {rho : K} {r : ℕ → K}, Param2Is rho_vec rho D.A.m r → (fun k => 1 / r k) = D.R →
      ∃ s', init lib P' A' rho_vec rho sigma false true = some (noncvxError, .live s') := by
  obtain ⟨h1, h2, h3, _⟩ := reach_holding hs.size h
  have hF := h1.fits
  constructor
  · obtain ⟨s2, e2, g1, _⟩ := h1.matrices (lib := lib) h2 cP.rep cA.rep cP.idx cA.idx cP.lt cA.lt cP.same cA.same (ψ := formShift _ sigma)
      (fun j hj => (spared_shift h1.fits (cP.lt j hj) (hsp j hj)).symm) (fun _ _ _ => rfl)
    have := g1.denotes
    rw [show held (D.P.withX X) (D.A.withX Y) sigma (formShift D.P sigma) D.R = kktFull (D.P.withX X) (D.A.withX Y) sigma D.R from
      funext fun r => funext fun c => held_form (hF.withX X Y) (fun _ _ => rfl) r c] at this
    exact ⟨s2, by rw [e2, (hnew _ this).2.1]⟩
  · intro q rho r hr hR
    obtain ⟨s2, hd, e⟩ := c77_init (lib := lib) cP.rep cA.rep (hF.withX X Y) sigma hr
    rw [hR] at hd
    obtain ⟨a1, a2, a3⟩ := hnew _ hd
    rw [if_neg (by simpa using a1), if_neg (by simpa using a2), if_pos (show (lib.numeric s2.fac).2 < ((D.P.withX X).n : ℤ) from a3)] at e
    exact ⟨s2, e⟩

/-- **C77, false when the matrix cannot be allocated.**  Creation returns its error code and leaves the caller with a pointer to freed memory; cleaning up is undefined. -/
theorem c77_dangling (hP : Rep P VP) (hA : Rep A VA) (hF : Fits VP VA) (sigma : K) {rho_vec : Option (Buf K)} {rho : K} {r : ℕ → K} (hr : Param2Is rho_vec rho VA.m r) :
    ∃ h, init lib P A rho_vec rho sigma false false = some (initError, h) ∧ cleanup h = none := by
  obtain ⟨s, _, _, _, g⟩ := init_holding (lib := lib) hP hA hF sigma hr
  unfold init at g ⊢
  rw [Option.bind_eq_some_iff] at g
  obtain ⟨x, e, _⟩ := g
  exact ⟨.freed, by rw [e]; rfl, rfl⟩

/-! ## Concrete cases -/

/-- The object after a successful creation, update or solve. -/
def created : Option (ℤ × Handle K) → Option (Solver K)
  | some (code, .live s) => if code = 0 then some s else none
  | _ => none
def updated : Option (ℤ × Solver K) → Option (Solver K)
  | some (code, s) => if code = 0 then some s else none
  | none => none

theorem created_some {x : Option (ℤ × Handle K)} (h : created x = some s) : x = some (0, .live s) := by
  unfold created at h
  split at h
  · split_ifs at h with e
    rw [e, Option.some.inj h]
  · cases h
theorem updated_some {x : Option (ℤ × Solver K)} (h : updated x = some s) : x = some (0, s) := by
  unfold updated at h
  split at h
  · split_ifs at h with e
    rw [e, Option.some.inj h]
  · cases h

/-- `P = [2]`, `A = [1]`. -/
theorem one_fits : Fits onePV oneAV := ⟨oneP_rep.valid, oneA_rep.valid, rfl, rfl, oneP_triu⟩
def oneP3 : Csc ℚ := Demo.csc 1 1 [0, 1] [0] [3]
def oneX3 (k : ℕ) : ℚ := [(3 : ℚ)].getD k default
theorem oneP3_rep : Rep oneP3 (onePV.withX oneX3) := Demo.csc_rep (x := [(3 : ℚ)]) ⟨by decide, by decide, by decide⟩ (by decide) (by decide) (by decide)
theorem oneP3_change : Change onePV oneP3 oneX3 (some (Demo.buf [0])) 1 (fun _ => 0) :=
  ⟨oneP3_rep, ⟨le_refl _, by decide⟩, by decide, by decide⟩
theorem oneA_change : Change oneAV oneA oneAV.x none 1 id := ⟨oneA_rep, fun _ _ => rfl, by decide, fun _ _ _ => rfl⟩

/-- A life: creation with step size 2, `P = [3]`, step size 4, a solve. -/
def oneLife : Option (Solver ℚ) :=
  (created (init two oneP oneA none 2 1 false true)).bind fun s => (updated (updateMatrices two s oneP3 (some (Demo.buf [0])) (1 : ℕ) oneA none (1 : ℕ))).bind fun s =>
  (updated (updateRho two s none 4)).bind fun s => (solve two s (Demo.buf [5, 7])).bind fun r => some r.2.2

theorem one_reach : ∃ s, Reach two 1 false s ⟨onePV.withX oneX3, oneAV.withX oneAV.x, fun _ => 1 / 4⟩ := by
  obtain ⟨s4, h⟩ := Option.isSome_iff_exists.1 (show oneLife.isSome = true by decide +kernel)
  unfold oneLife at h
  simp only [Option.bind_eq_some_iff, Option.some.injEq] at h
  obtain ⟨s1, e1, s2, e2, s3, e3, ⟨code, b', s4'⟩, e4, rfl⟩ := h
  have r1 := Reach.init (vec := false) (rho_vec := none) (rho := 2) oneP_rep oneA_rep one_fits (r := fun _ => 2) (fun _ _ => rfl) rfl (created_some e1)
  have r2 := Reach.matrices r1 oneP3_change oneA_change (fun _ _ => Or.inr rfl) (updated_some e2)
  have r3 := Reach.rho r2 (rho_vec := none) (rho_sc := 4) (r := fun _ => 4) (fun _ _ => rfl) rfl (updated_some e3)
  exact ⟨_, Reach.solve r3 e4⟩

/-- What the solve in that life gives: the numbers satisfy `(3+1) x + 4 (x - 7) = 5`, `z = x`. -/
example : ((created (init two oneP oneA none 2 1 false true)).bind fun s => (updated (updateMatrices two s oneP3 (some (Demo.buf [0])) (1 : ℕ) oneA none (1 : ℕ))).bind fun s =>
    (updated (updateRho two s none 4)).bind fun s => (solve two s (Demo.buf [5, 7])).bind fun r => some (r.1, r.2.1.rd 0, r.2.1.rd 1)) = some (0, some (33 / 8), some (33 / 8)) := by decide +kernel

example : ∃ s : Solver ℚ, Denotes s.fac (1 + 1) (kktFull (onePV.withX oneX3) (oneAV.withX oneAV.x) 1 fun _ => 1 / 4) ∧ (two.numeric s.fac).1 = 0 := by
  obtain ⟨s, h⟩ := one_reach
  exact ⟨s, c77_matrix_partial two_exact h⟩

example : ∃ s : Solver ℚ, solve two s (Demo.buf [5, 7]) ≠ none ∧ updateRho two s none 3 ≠ none := by
  obtain ⟨s, h⟩ := one_reach
  exact ⟨s, (c77_defined two_exact h).2.2 (B := fun k => [(5 : ℚ), 7].getD k default) (Demo.buf_holds _), (c77_defined two_exact h).2.1 (r := fun _ => 3) (fun _ _ => rfl) rfl⟩

example : ∃ s code b' s', solve two s (Demo.buf [5, 7]) = some (code, b', s') ∧
    ((code = 1 ∧ b' = Demo.buf [5, 7]) ∨
      (code = 0 ∧ ∃ X Z, Holds b' (1 + 1) (cat 1 X Z) ∧ AdmmEqs (onePV.withX oneX3) (oneAV.withX oneAV.x) 1 (fun _ => 4) (fun _ => 5) (fun _ => 7) X Z)) := by
  obtain ⟨s, h⟩ := one_reach
  exact ⟨s, c77_step_partial two_exact h (rho := fun _ => 4) (fun _ _ => ⟨by decide, rfl⟩) (Bx := fun _ => 5) (Bz := fun _ => 7) ⟨by decide, by decide⟩⟩

/-- Creation, with a vector of step sizes and a diagonal entry that is not stored. -/
example : ∃ s, Denotes s.fac (3 + 2) (kktFull Demo.triuV Demo.rectV 10 fun k => 1 / Demo.f2 k) ∧ init two Demo.triu Demo.rect (some Demo.v2) 0 10 false true = some (
      if two.symbolic s.fac ≠ 0 then (initError, .null) else if (two.numeric s.fac).1 ≠ 0 then (initError, .null)
      else if (two.numeric s.fac).2 < ((3 : ℕ) : ℤ) then (noncvxError, .live s) else (0, .live s)) :=
  c77_init Demo.triu_rep Demo.rect_rep ⟨Demo.triu_valid, Demo.rect_valid, rfl, rfl, Demo.triu_triu⟩ 10 (rho_vec := some Demo.v2) Demo.v2_holds

/-- Polishing with `delta = 1/2`. -/
theorem one_polish : ∃ s, init two oneP oneA none 0 (1 / 2) true true = some (0, .live s) := by
  obtain ⟨s, h⟩ := Option.isSome_iff_exists.1 (show (created (init two oneP oneA none 0 (1 / 2) true true)).isSome = true by decide +kernel)
  exact ⟨s, created_some h⟩

example : ∃ s code b' s', solve two s (Demo.buf [5, 7]) = some (code, b', s') ∧
    (code = 1 ∨ (code = 0 ∧ ∃ X, Holds b' (1 + 1) X ∧
      ∀ r < 1 + 1, ∑ c ∈ range (1 + 1), kktFull onePV oneAV (1 / 2) (fun _ => 1 / 2) r c * X c = [(5 : ℚ), 7].getD r default)) := by
  obtain ⟨s, h⟩ := one_polish
  exact ⟨s, c77_polish two_exact oneP_rep oneA_rep one_fits (1 / 2) 0 h (Demo.buf_holds _)⟩

/-! `P = [4 1; . 2]` without constraints: an update with the same values. -/

def csrPV : View ℚ := Demo.view 2 2 [0, 1, 3] [0, 0, 1] [4, 1, 2]
def csrAV : View ℚ := Demo.view 0 2 [0, 0, 0] [] []
theorem csrP_rep : Rep csrP csrPV := Demo.csc_rep ⟨by decide, by decide, by decide⟩ (by decide) (by decide) (by decide)
theorem csrA_rep : Rep csrA csrAV := Demo.csc_rep ⟨by decide, by decide, by decide⟩ (by decide) (by decide) (by decide)
theorem csr_fits : Fits csrPV csrAV := ⟨csrP_rep.valid, csrA_rep.valid, rfl, rfl, Demo.bounded (by decide)⟩

theorem csr_reach : ∃ s, Reach two 10 false s ⟨csrPV, csrAV, fun _ => 1 / 2⟩ := by
  obtain ⟨s, h⟩ := Option.isSome_iff_exists.1 (show (created (init two csrP csrA none 2 10 false true)).isSome = true by decide +kernel)
  exact ⟨s, Reach.init (vec := false) (rho_vec := none) (rho := 2) csrP_rep csrA_rep csr_fits (r := fun _ => 2) (fun _ _ => rfl) rfl (created_some h)⟩

example : ∃ s s' M, updateMatrices two s csrP none (3 : ℕ) csrA none (0 : ℕ) = some ((two.numeric s'.fac).1, s') ∧ Denotes s'.fac (2 + 0) M ∧
    M 1 1 = kktFull (csrPV.withX csrPV.x) (csrAV.withX csrAV.x) 10 (fun _ => 1 / 2) 1 1 - 10 := by
  obtain ⟨s, h⟩ := csr_reach
  exact ⟨s, c77_lost two_exact h (k := 2) (c := 1) (by decide) rfl rfl (by decide)
    (fun k' h1 h2 => by have h1 : 1 ≤ k' := h1; obtain rfl : k' = 1 := by omega
                        decide)
    (ix := id) ⟨csrP_rep, fun _ _ => rfl, by decide, fun _ _ _ => rfl⟩ (jx := id) ⟨csrA_rep, fun _ _ => rfl, by decide, fun _ _ _ => rfl⟩ ⟨2, by decide, rfl⟩⟩

/-! `P = [-5]`: refused at creation, accepted as an update of `P = [2]`. -/

def oneN : Csc ℚ := Demo.csc 1 1 [0, 1] [0] [-5]
def oneXN (k : ℕ) : ℚ := [(-5 : ℚ)].getD k default
theorem oneN_change : Change onePV oneN oneXN none 1 id :=
  ⟨Demo.csc_rep (x := [(-5 : ℚ)]) ⟨by decide, by decide, by decide⟩ (by decide) (by decide) (by decide), fun _ _ => rfl, by decide, by decide⟩

example : ∃ s s' s'', updateMatrices two s oneN none (1 : ℕ) oneA none (1 : ℕ) = some (0, s') ∧ init two oneN oneA none 1 1 false true = some (noncvxError, .live s'') := by
  obtain ⟨s, h⟩ := Option.isSome_iff_exists.1 (show (created (init two oneP oneA none 1 1 false true)).isSome = true by decide +kernel)
  have hr := Reach.init (vec := false) (rho_vec := none) (rho := 1) oneP_rep oneA_rep one_fits (r := fun _ => 1) (fun _ _ => rfl) rfl (created_some h)
  obtain ⟨⟨s', h1⟩, h2⟩ := c77_unchecked two_exact hr oneN_change oneA_change (show ∀ j < 1, Spared onePV (id j) from fun j hj => by rw [Nat.lt_one_iff.1 hj]; exact Or.inr rfl) (fun inp hd => by
    have m00 := (hd.at (r := 0) (c := 0) (by decide) (by decide)).symm.trans (show _ = (-4 : ℚ) by decide +kernel)
    have m01 := (hd.at (r := 0) (c := 1) (by decide) (by decide)).symm.trans (show _ = (1 : ℚ) by decide +kernel)
    have m11 := (hd.at (r := 1) (c := 1) (by decide) (by decide)).symm.trans (show _ = (-1 : ℚ) by decide +kernel)
    have hn : inp.n = 2 := hd.n
    have hdet : inp.det = 3 := by unfold Input.det; rw [m00, m01, m11]; norm_num
    simp only [two, hn, hdet, m00]
    decide +kernel)
  obtain ⟨s'', h2⟩ := h2 (rho_vec := none) (rho := 1) (r := fun _ => 1) (fun _ _ => rfl) rfl
  exact ⟨s, s', s'', h1, h2⟩

example : ∃ h, init two oneP oneA none 1 1 false false = some (initError, h) ∧ cleanup h = none :=
  c77_dangling oneP_rep oneA_rep one_fits 1 (r := fun _ => 1) (fun _ _ => rfl)

end Osqp.Pardiso
