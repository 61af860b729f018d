import Verif.Mkl.Mat
import Verif.Props.LinStep
import Verif.Props.CscConv

/-!
# Matrix objects of the MKL back end (C78)

Arrays are C arrays in raw memory (`none` is undefined behaviour); `V.entry r c` is an entry of the denoted matrix, `V.symEntry r c` one of the symmetric matrix of which
the upper triangle is stored (`Csc/Spec.lean`); `redEntry` is `P + sigma*I + A'*diag(rho)*A` (`Csc/KktSpec.lean`).
-/

set_option linter.unusedSectionVars false
namespace Osqp.MklMat
open Osqp.Csc Finset Spec

variable {K : Type*} [Field K] [LinearOrder K] [IsStrictOrderedRing K] {lib : Lib K} {V VP VA : View K} {M M' P A : Mat K}

/-- The product routine of MKL does what its manual says.  With `beta = 0` the old `y` need not be initialised. -/
structure Honest (lib : Lib K) : Prop where
  plain : ∀ (C : Csc K) (V : View K), Rep C V → ∀ (x y : Buf K) (X Y : ℕ → K) (alpha beta : K), Holds x V.n X → V.m ≤ y.size → (beta = 0 ∨ Holds y V.m Y) →
    ∃ y', lib.mv false false alpha C x beta y = some y' ∧ Holds y' V.m fun r => alpha * (∑ c ∈ range V.n, V.entry r c * X c) + beta * Y r
  trans : ∀ (C : Csc K) (V : View K), Rep C V → ∀ (x y : Buf K) (X Y : ℕ → K) (alpha beta : K), Holds x V.m X → V.n ≤ y.size → (beta = 0 ∨ Holds y V.n Y) →
    ∃ y', lib.mv true false alpha C x beta y = some y' ∧ Holds y' V.n fun c => alpha * (∑ r ∈ range V.m, V.entry r c * X r) + beta * Y c
  sym : ∀ (C : Csc K) (V : View K) (t : Bool), Rep C V → V.m = V.n → V.Triu → ∀ (x y : Buf K) (X Y : ℕ → K) (alpha beta : K), Holds x V.n X → V.n ≤ y.size →
    (beta = 0 ∨ Holds y V.n Y) → ∃ y', lib.mv t true alpha C x beta y = some y' ∧ Holds y' V.n fun r => alpha * (∑ c ∈ range V.n, V.symEntry r c * X c) + beta * Y r

/-- The values after writing `w 0` at `ix 0`, then `w 1` at `ix 1`, and so on, `cnt` times. -/
def written (x : ℕ → K) (ix : ℕ → ℕ) (w : ℕ → K) : ℕ → ℕ → K
  | 0 => x
  | k + 1 => Function.update (written x ix w k) (ix k) (w k)

/-- The life of a matrix object, with the matrix it should stand for (after a row selection any description of the selected matrix: `c78_select` says that there is one, and which). -/
inductive Made (lib : Lib K) : Mat K → View K → Prop
  | new {A : Csc K} {V : View K} {N : ℕ} {I : ℕ → ℤ} {X : ℕ → K} {triu : Bool} {M : Mat K} : Rep A V → A.nzmax = N → V.nnz ≤ N → Holds A.i N I → Holds A.x N X →
      (triu = true → V.m = V.n ∧ V.Triu) → newFromCsc lib A triu = some (some M) → Made lib M V
  | update {M M' : Mat K} {V : View K} {new : Buf K} {idx : Option (Buf ℤ)} {cnt : ℕ} {ix : ℕ → ℕ} {w : ℕ → K} : Made lib M V → IdxIs idx cnt ix → Holds new cnt w →
      (∀ j < cnt, ix j < V.nnz) → update M new idx cnt = some M' → Made lib M' (V.withX (written V.x ix w cnt))
  | multScalar {M M' : Mat K} {V : View K} {sc : K} : Made lib M V → multScalar M sc = some M' → Made lib M' (V.withX fun k => V.x k * sc)
  | lmult {M M' : Mat K} {V : View K} {L : Buf K} {D : ℕ → K} : Made lib M V → Holds L V.m D → lmult M L = some M' → Made lib M' (V.withX fun k => V.x k * D (V.i k))
  | rmult {M M' : Mat K} {V : View K} {R : Buf K} {D : ℕ → K} : Made lib M V → Holds R V.n D → rmult M R = some M' → Made lib M' (V.withX fun k => V.x k * D (V.col k))
  | select {M M' : Mat K} {V W : View K} {rows : Buf ℤ} {F : ℕ → ℤ} : Made lib M V → Holds rows V.m F → select lib M rows = some (some M') → Rep M'.csc W → Made lib M' W

/-! ## Creation and changes -/

theorem pair_loop {ai i0 : Buf ℤ} {ax x0 : Buf K} {N : ℕ} {I : ℕ → ℤ} {X : ℕ → K} (hi : Holds ai N I) (hx : Holds ax N X) (h1 : N ≤ i0.size) (h2 : N ≤ x0.size) :
    ∃ s, forI 0 (N : ℤ) (fun k (s : Buf ℤ × Buf K) => (ai.rd k).bind fun v => (s.1.wr k v).bind fun i => (ax.rd k).bind fun w => (s.2.wr k w).bind fun x => some (i, x)) (i0, x0) = some s ∧
      Holds s.1 N I ∧ Holds s.2 N X := by
  obtain ⟨s, e, _, _, g1, g2⟩ := forI_zero (hi := N) (s := (i0, x0))
    (f := fun k (s : Buf ℤ × Buf K) => (ai.rd k).bind fun v => (s.1.wr k v).bind fun i => (ax.rd k).bind fun w => (s.2.wr k w).bind fun x => some (i, x))
    (fun k s => s.1.size = i0.size ∧ s.2.size = x0.size ∧ Holds s.1 k I ∧ Holds s.2 k X) ⟨rfl, rfl, Holds.zero, Holds.zero⟩ (by
      rintro k s hk ⟨a1, a2, a3, a4⟩
      refine ⟨(s.1.set k (I k), s.2.set k (X k)), ?_, a1, a2, a3.extend (by omega) _ rfl, a4.extend (by omega) _ rfl⟩
      rw [hi.rd hk]; simp only [Option.bind_some]
      rw [Buf.wr_eq (by omega)]; simp only [Option.bind_some]
      rw [hx.rd hk]; simp only [Option.bind_some]
      rw [Buf.wr_eq (by omega)]; rfl)
  exact ⟨s, e, g1, g2⟩

/-- **C78** (creation).  From a well-formed matrix whose `nzmax` cells are all written, creation touches no memory outside the arrays; the object holds the same matrix in its own
arrays; NULL is returned exactly when MKL reports an error other than "not initialised"; the object has a handle exactly when MKL reports success. -/
theorem c78_new {A : Csc K} (h : Rep A V) {N : ℕ} (hN : A.nzmax = N) (hle : V.nnz ≤ N) {I : ℕ → ℤ} {X : ℕ → K} (hi : Holds A.i N I) (hx : Holds A.x N X) (triu : Bool) :
    ∃ C, Rep C V ∧ newFromCsc lib A triu = some (if lib.create C ≠ 0 ∧ lib.create C ≠ 1 then none else some ⟨C, lib.create C = 0, triu⟩) := by
  obtain ⟨p, ep, _, hp⟩ := copyLoop (b := (Buf.fresh ((V.n : ℤ) + 1) : Buf ℤ)) h.p (by show V.n + 1 ≤ ((V.n : ℤ) + 1).toNat; omega)
  obtain ⟨s, es, g1, g2⟩ := pair_loop (i0 := Buf.fresh (N : ℤ)) (x0 := Buf.fresh (N : ℤ)) hi hx (by show N ≤ (N : ℤ).toNat; omega) (by show N ≤ (N : ℤ).toNat; omega)
  refine ⟨{ (mklSpalloc A.m A.n A.nzmax : Csc K) with p := p, i := s.1, x := s.2 }, ⟨h.m, h.n, h.valid, hp, ?_, ?_⟩, ?_⟩
  · exact (g1.mono hle).congr fun k hk => (hi.mono hle).uniq h.i hk
  · exact (g2.mono hle).congr fun k hk => (hx.mono hle).uniq h.x hk
  · unfold newFromCsc mklSpalloc withHandle
    simp only [h.n, hN]
    push_cast at ep
    rw [ep]
    simp only [Option.bind_some]
    rw [es]
    rfl

theorem update_rep (h : Rep M.csc V) {new : Buf K} {idx : Option (Buf ℤ)} {cnt : ℕ} {ix : ℕ → ℕ} {w : ℕ → K} (hx : IdxIs idx cnt ix) (hn : Holds new cnt w) (hl : ∀ j < cnt, ix j < V.nnz) :
    ∃ C, update M new idx cnt = some { M with csc := C } ∧ Rep C (V.withX (written V.x ix w cnt)) := by
  have key : ∃ x', Csc.updateValues M.csc.x new idx cnt = some x' ∧ Holds x' V.nnz (written V.x ix w cnt) := by
    unfold Csc.updateValues
    cases idx with
    | some b =>
      have hb : Holds b cnt fun j => ((ix j : ℕ) : ℤ) := hx
      exact forI_zero (hi := cnt) (s := M.csc.x) (fun k x => Holds x V.nnz (written V.x ix w k)) h.x (fun k x hk hh => by
        refine ⟨x.set (ix k) (w k), ?_, hh.set (ix k) (w k)⟩
        rw [hb.rd hk]; simp only [Option.bind_some]
        rw [hn.rd hk]; simp only [Option.bind_some]
        exact hh.wr (hl k hk) _)
    | none =>
      have hb : ∀ j < cnt, ix j = j := hx
      exact forI_zero (hi := cnt) (s := M.csc.x) (fun k x => Holds x V.nnz (written V.x ix w k)) h.x (fun k x hk hh => by
        refine ⟨x.set (ix k) (w k), ?_, hh.set (ix k) (w k)⟩
        rw [hn.rd hk]; simp only [Option.bind_some]
        rw [hb k hk]
        exact hh.wr (by have := hl k hk; rwa [hb k hk] at this) _)
  obtain ⟨x', e, hx'⟩ := key
  exact ⟨{ M.csc with x := x' }, by unfold update; rw [e]; rfl, h.withX hx'⟩

theorem multScalar_rep (h : Rep M.csc V) (sc : K) : ∃ C, multScalar M sc = some { M with csc := C } ∧ Rep C (V.withX fun k => V.x k * sc) := by
  obtain ⟨x', e, h'⟩ := map_holds (n := V.nnz) h.x (fun _ v => v * sc) (f := fun i x => (x.rd i).bind fun a => x.wr i (a * sc))
    (fun k b v _ e _ => by rw [e]; rfl)
  refine ⟨{ M.csc with x := x' }, ?_, h.withX h'⟩
  unfold multScalar scale
  rw [h.rdNnz]; simp only [Option.bind_some]
  rw [e]; rfl

theorem lmult_rep (h : Rep M.csc V) {L : Buf K} {D : ℕ → K} (hd : Holds L V.m D) : ∃ C, lmult M L = some { M with csc := C } ∧ Rep C (V.withX fun k => V.x k * D (V.i k)) := by
  obtain ⟨x', e, h'⟩ := h.mulEach (body := fun _ i x => (x.rd i).bind fun a => (M.csc.i.rd i).bind fun r => (L.rd r).bind fun v => x.wr i (a * v))
    (fun _ k => D (V.i k)) (fun j k x v hj hk e => by
      rw [e, h.rdI hk]; simp only [Option.bind_some]; rw [hd.rd (h.valid.rows k hk)]; rfl)
  refine ⟨{ M.csc with x := x' }, ?_, h.withX h'⟩
  unfold lmult lmultDiag
  rw [e]; rfl

theorem rmult_rep (h : Rep M.csc V) {R : Buf K} {D : ℕ → K} (hd : Holds R V.n D) : ∃ C, rmult M R = some { M with csc := C } ∧ Rep C (V.withX fun k => V.x k * D (V.col k)) := by
  obtain ⟨x', e, h'⟩ := h.mulEach (body := fun j i x => (x.rd i).bind fun a => (R.rd j).bind fun v => x.wr i (a * v))
    (fun j _ => D j) (fun j k x v hj hk e => by
      rw [e, hd.rd hj]; rfl)
  refine ⟨{ M.csc with x := x' }, ?_, h.withX h'⟩
  unfold rmult rmultDiag
  rw [e]; rfl

/-- After any sequence of creation, row selection, scalings and changes of values the arrays of the object denote the current matrix. -/
theorem made_rep (h : Made lib M V) : Rep M.csc V ∧ (M.triu = true → V.m = V.n ∧ V.Triu) := by
  induction h with
  | new hA hN hle hi hx ht e =>
    obtain ⟨C, hC, e2⟩ := c78_new (lib := lib) hA hN hle hi hx _
    rw [e2] at e
    have e := Option.some.inj e
    split_ifs at e with c
    have e := Option.some.inj e
    subst e
    exact ⟨hC, ht⟩
  | update _ hx hn hl e ih =>
    obtain ⟨C, e2, hC⟩ := update_rep ih.1 hx hn hl
    obtain rfl := Option.some.inj (e2.symm.trans e)
    exact ⟨hC, ih.2⟩
  | multScalar _ e ih =>
    obtain ⟨C, e2, hC⟩ := multScalar_rep ih.1 _
    obtain rfl := Option.some.inj (e2.symm.trans e)
    exact ⟨hC, ih.2⟩
  | lmult _ hd e ih =>
    obtain ⟨C, e2, hC⟩ := lmult_rep ih.1 hd
    obtain rfl := Option.some.inj (e2.symm.trans e)
    exact ⟨hC, ih.2⟩
  | rmult _ hd e ih =>
    obtain ⟨C, e2, hC⟩ := rmult_rep ih.1 hd
    obtain rfl := Option.some.inj (e2.symm.trans e)
    exact ⟨hC, ih.2⟩
  | select _ hF e hR ih =>
    unfold select at e
    split_ifs at e with c
    · cases e
    rw [Option.bind_eq_some_iff] at e
    obtain ⟨R, _, e⟩ := e
    unfold withHandle at e
    split_ifs at e
    · cases e
    have e := Option.some.inj (Option.some.inj e)
    subst e
    exact ⟨hR, fun h => absurd h (by simp)⟩

/-- **C78** (changes).  On every object every change of values and every scaling with valid arguments is defined, and the object then stands for the changed matrix. -/
theorem c78_changes (h : Made lib M V) :
    (∀ {new : Buf K} {idx : Option (Buf ℤ)} {cnt : ℕ} {ix : ℕ → ℕ} {w : ℕ → K}, IdxIs idx cnt ix → Holds new cnt w → (∀ j < cnt, ix j < V.nnz) →
      ∃ M', update M new idx cnt = some M' ∧ Rep M'.csc (V.withX (written V.x ix w cnt)) ∧ M'.handle = M.handle) ∧
    (∀ sc, ∃ M' W, multScalar M sc = some M' ∧ Rep M'.csc W ∧ M'.handle = M.handle ∧ ∀ r c, c < V.n → W.entry r c = sc * V.entry r c) ∧
    (∀ {L : Buf K} {D : ℕ → K}, Holds L V.m D → ∃ M' W, lmult M L = some M' ∧ Rep M'.csc W ∧ M'.handle = M.handle ∧ ∀ r c, c < V.n → W.entry r c = D r * V.entry r c) ∧
    ∀ {R : Buf K} {D : ℕ → K}, Holds R V.n D → ∃ M' W, rmult M R = some M' ∧ Rep M'.csc W ∧ M'.handle = M.handle ∧ ∀ r c, c < V.n → W.entry r c = D c * V.entry r c := by
  have h1 := (made_rep h).1
  refine ⟨fun {new idx cnt ix w} hx hn hl => ?_, fun sc => ?_, fun {L D} hd => ?_, fun {R D} hd => ?_⟩
  · obtain ⟨C, e, hC⟩ := update_rep h1 hx hn hl
    exact ⟨_, e, hC, rfl⟩
  · obtain ⟨C, e, hC⟩ := multScalar_rep h1 sc
    exact ⟨_, _, e, hC, rfl, fun r c hc => by rw [entry_withX h1.valid (fun _ _ => sc) hc, mul_comm]⟩
  · obtain ⟨C, e, hC⟩ := lmult_rep h1 hd
    exact ⟨_, _, e, hC, rfl, fun r c hc => by rw [entry_withX h1.valid (fun _ r => D r) hc, mul_comm]⟩
  · obtain ⟨C, e, hC⟩ := rmult_rep h1 hd
    exact ⟨_, _, e, hC, rfl, fun r c hc => by rw [entry_withX h1.valid (fun c _ => D c) hc, mul_comm]⟩

/-- **C78** (row selection).  The selected object stands for the rows whose flag is not zero, in their order. -/
theorem c78_select (h : Made lib M V) (ht : M.triu = false) {rows : Buf ℤ} {F : ℕ → ℤ} (hF : Holds rows V.m F) :
    ∃ R W, select lib M rows = some (if lib.create R ≠ 0 ∧ lib.create R ≠ 1 then none else some ⟨R, lib.create R = 0, false⟩) ∧ Rep R W ∧
      W.m = ((range V.m).filter fun t => F t ≠ 0).card ∧ W.n = V.n ∧
      ∀ r < V.m, F r ≠ 0 → ∀ c < V.n, W.entry (((range r).filter fun t => F t ≠ 0).card) c = V.entry r c := by
  obtain ⟨R, W, e, h1, h2, h3, _, _, _, h4⟩ := c39_rows (made_rep h).1 hF
  refine ⟨R, W, ?_, h1, h2, h3, h4⟩
  unfold select
  rw [if_neg (by simp [ht]), e]
  rfl

/-! ## Products and norms -/

/-- **C78** (products, partial).  On every object with a handle the products are those of the current matrix.  Missing: objects without a handle, for which it is false (`c78_empty`). -/
theorem c78_product_partial (hl : Honest lib) (h : Made lib M V) (hh : M.handle = true) {x y : Buf K} {X Y : ℕ → K} (alpha beta : K) :
    (M.triu = false → Holds x V.n X → V.m ≤ y.size → (beta = 0 ∨ Holds y V.m Y) →
      ∃ y', axpy lib M x y alpha beta = some y' ∧ Holds y' V.m fun r => alpha * (∑ c ∈ range V.n, V.entry r c * X c) + beta * Y r) ∧
    (M.triu = false → Holds x V.m X → V.n ≤ y.size → (beta = 0 ∨ Holds y V.n Y) →
      ∃ y', atxpy lib M x y alpha beta = some y' ∧ Holds y' V.n fun c => alpha * (∑ r ∈ range V.m, V.entry r c * X r) + beta * Y c) ∧
    (M.triu = true → Holds x V.n X → V.n ≤ y.size → (beta = 0 ∨ Holds y V.n Y) →
      ∃ y', axpy lib M x y alpha beta = some y' ∧ Holds y' V.n fun r => alpha * (∑ c ∈ range V.n, V.symEntry r c * X c) + beta * Y r) := by
  obtain ⟨h1, h2⟩ := made_rep h
  refine ⟨fun ht hx hs hy => ?_, fun ht hx hs hy => ?_, fun ht hx hs hy => ?_⟩
  · unfold axpy mv; rw [if_pos hh, ht]; exact hl.plain _ _ h1 _ _ _ _ _ _ hx hs hy
  · unfold atxpy mv; rw [if_pos hh, ht]; exact hl.trans _ _ h1 _ _ _ _ _ _ hx hs hy
  · unfold axpy mv; rw [if_pos hh, ht]; exact hl.sym _ _ _ h1 (h2 ht).1 (h2 ht).2 _ _ _ _ _ _ hx hs hy

/-- **C78** (the operator of the indirect solver, partial).  With handles for both matrices it is `P + sigma*I + A'*diag(rho)*A`. -/
theorem c78_operator_partial (hl : Honest lib) (hP : Made lib P VP) (hA : Made lib A VA) (tP : P.triu = true) (tA : A.triu = false) (hhP : P.handle = true) (hhA : A.handle = true)
    (hn : VA.n = VP.n) (sigma : K) {rho x v work : Buf K} {R X : ℕ → K} (hr : Holds rho VA.m R) (hx : Holds x VP.n X) (hv : VP.n ≤ v.size) (hw : VA.m ≤ work.size) :
    ∃ v' work', reducedMv lib P A rho sigma x v work = some (v', work') ∧ Holds v' VP.n fun r => ∑ c ∈ range VP.n, redEntry VP VA sigma R r c * X c := by
  have rP := (made_rep hP).1
  have rA := (made_rep hA).1
  obtain ⟨w1, e1, h1⟩ := (c78_product_partial hl hA hhA (y := work) (Y := fun _ => 0) 1 0).1 tA (by rw [hn]; exact hx) hw (Or.inl rfl)
  obtain ⟨w2, e2, h2⟩ := ewProdIn_holds h1 hr
  obtain ⟨v1, e3, h3⟩ := copyVec_holds hv hx
  obtain ⟨v2, e4, h4⟩ := (c78_product_partial hl hP hhP 1 sigma).2.2 tP hx h3.1 (Or.inr h3)
  obtain ⟨v3, e5, h5⟩ := (c78_product_partial hl hA hhA 1 1).2.1 tA h2 (by rw [hn]; exact h4.1) (Or.inr (by rw [hn]; exact h4))
  refine ⟨v3, w2, ?_, ?_⟩
  · unfold reducedMv
    rw [e1]; simp only [Option.bind_some]
    rw [rA.m, e2]; simp only [Option.bind_some]
    rw [rP.n, e3]; simp only [Option.bind_some]
    rw [e4]; simp only [Option.bind_some]
    rw [e5]; rfl
  · rw [hn] at h5
    refine h5.congr fun r hr' => ?_
    rw [red_sum, sigma_sum hr']
    have : ∀ a b c : K, 1 * a + 1 * (1 * b + sigma * c) = b + sigma * c + a := fun a b c => by ring
    rw [this]
    congr 1
    exact sum_congr rfl fun k _ => by ring

/-! ## What is wrong -/

/-- **C78, false without a handle.**  A product with an object for which MKL made no handle (it reports "not initialised", which creation treats as success: expected for a matrix
without entries, matrix.c:103-105) leaves `y` as it was, for all `alpha` and `beta`. -/
theorem c78_empty (hh : M.handle = false) (x y : Buf K) (alpha beta : K) : axpy lib M x y alpha beta = some y ∧ atxpy lib M x y alpha beta = some y := by
  unfold axpy atxpy mv
  rw [hh]
  exact ⟨rfl, rfl⟩

/-- **C78, the operator without a handle for `P`.**  If `P` has no entries (a linear program) and no handle, the indirect solver's operator is `I + A'*diag(rho)*A`, whatever
`sigma` is. -/
theorem c78_operator_lp (hl : Honest lib) (hP : Made lib P VP) (hA : Made lib A VA) (h0 : VP.nnz = 0) (tA : A.triu = false) (hhP : P.handle = false) (hhA : A.handle = true)
    (hn : VA.n = VP.n) (sigma : K) {rho x v work : Buf K} {R X : ℕ → K} (hr : Holds rho VA.m R) (hx : Holds x VP.n X) (hv : VP.n ≤ v.size) (hw : VA.m ≤ work.size) :
    ∃ v' work', reducedMv lib P A rho sigma x v work = some (v', work') ∧ Holds v' VP.n fun r => ∑ c ∈ range VP.n, redEntry VP VA 1 R r c * X c := by
  have rP := (made_rep hP).1
  have rA := (made_rep hA).1
  have hent : ∀ r c, c < VP.n → VP.entry r c = 0 := fun r c hc => by
    unfold View.entry
    refine sum_eq_zero fun k hk => ?_
    have := rP.valid.lt_nnz hc (mem_Ico.1 hk).2
    omega
  have hsym : ∀ r < VP.n, ∀ c < VP.n, VP.symEntry r c = 0 := fun r hr c hc => by
    unfold View.symEntry
    split_ifs
    · exact hent _ _ hc
    · exact hent _ _ hr
  obtain ⟨w1, e1, h1⟩ := (c78_product_partial hl hA hhA (y := work) (Y := fun _ => 0) 1 0).1 tA (by rw [hn]; exact hx) hw (Or.inl rfl)
  obtain ⟨w2, e2, h2⟩ := ewProdIn_holds h1 hr
  obtain ⟨v1, e3, h3⟩ := copyVec_holds hv hx
  have e4 := (c78_empty (lib := lib) hhP x v1 1 sigma).1
  obtain ⟨v3, e5, h5⟩ := (c78_product_partial hl hA hhA 1 1).2.1 tA h2 (by rw [hn]; exact h3.1) (Or.inr (by rw [hn]; exact h3))
  refine ⟨v3, w2, ?_, ?_⟩
  · unfold reducedMv
    rw [e1]; simp only [Option.bind_some]
    rw [rA.m, e2]; simp only [Option.bind_some]
    rw [rP.n, e3]; simp only [Option.bind_some]
    rw [e4]; simp only [Option.bind_some]
    rw [e5]; rfl
  · rw [hn] at h5
    refine h5.congr fun r hr' => ?_
    rw [red_sum, sigma_sum hr', sum_eq_zero (s := range VP.n) (f := fun c => VP.symEntry r c * X c) (fun c hc => by rw [hsym r hr' c (mem_range.1 hc), zero_mul])]
    have : ∀ a c : K, 1 * a + 1 * c = 0 + 1 * c + a := fun a c => by ring
    rw [this]
    congr 1
    exact sum_congr rfl fun k _ => by ring

theorem forGo_none {σ : Type*} {f : ℤ → σ → Option σ} {j : ℤ} (hf : ∀ s, f j s = none) : ∀ (k : ℕ) (i : ℤ) (s : σ), i ≤ j → j < i + k → forGo f k i s = none
  | 0, i, s, h1, h2 => by omega
  | k + 1, i, s, h1, h2 => by
    show (f i s).bind _ = none
    by_cases hi : i = j
    · rw [hi, hf]; rfl
    · cases f i s with
      | none => rfl
      | some s' => exact forGo_none hf k (i + 1) s' (by omega) (by push_cast at h2; omega)

theorem forI_none {σ : Type*} {f : ℤ → σ → Option σ} {lo hi j : ℤ} (hf : ∀ s, f j s = none) (h1 : lo ≤ j) (h2 : j < hi) (s : σ) : forI lo hi f s = none :=
  forGo_none hf _ _ _ h1 (by omega)

/-- **C78, spare cells.**  If the caller's arrays have room for more entries than there are (`nzmax` above the number of entries) and one of these row indices was never written,
creation reads it; the copy made by the built-in back end (`csc_copy`) does not. -/
theorem c78_spare {A : Csc K} (h : Rep A V) {k : ℕ} (hk : (k : ℤ) < A.nzmax) (hu : A.i.rd k = none) (triu : Bool) :
    newFromCsc lib A triu = none ∧ ∃ B, copy A = some B ∧ Rep B V := by
  obtain ⟨B, e, hB, _⟩ := c38_copy h
  refine ⟨?_, B, e, hB⟩
  obtain ⟨p, ep, _, hp⟩ := copyLoop (b := (Buf.fresh ((V.n : ℤ) + 1) : Buf ℤ)) h.p (by show V.n + 1 ≤ ((V.n : ℤ) + 1).toNat; omega)
  unfold newFromCsc mklSpalloc
  simp only [h.n]
  push_cast at ep
  rw [ep]
  simp only [Option.bind_some]
  rw [forI_none (j := k) (fun s => by rw [hu]; rfl) (by omega) hk]
  rfl

/-- **C78, reading a matrix back.**  `OSQPMatrix_get_csc` reads past the end of the array of row indices, for every matrix stored in arrays without spare cells. -/
theorem c78_get (h : Rep M.csc V) (hs : M.csc.i.size = V.nnz) : getCsc M = none := by
  unfold getCsc
  simp only
  by_cases c : M.csc.n ≤ 0
  · rw [if_pos c]
  rw [if_neg c, h.rdNnz]
  simp only [Option.bind_some]
  have hu : M.csc.i.rd (V.nnz : ℤ) = none := by unfold Buf.rd; rw [if_neg (by rw [hs]; omega)]
  cases forI 0 M.csc.n (fun i b => (M.csc.p.rd i).bind fun v => b.wr i v) (spalloc M.csc.n M.csc.m ((V.nnz : ℤ) + 1) : Csc K).p with
  | none => rfl
  | some p =>
    simp only [Option.bind_some]
    cases p.wr M.csc.n ((V.nnz : ℤ) + 1) with
    | none => rfl
    | some p =>
      simp only [Option.bind_some]
      rw [forI_none (j := (V.nnz : ℤ)) (fun s => by rw [hu]; rfl) (by omega) (by omega)]
      rfl

/-- **C78** (norms).  On every object, with or without a handle, the norms of columns and rows are those of the current matrix. -/
theorem c78_norms (h : Made lib M V) (hd : V.NoDup) {E : Buf K} :
    (V.n ≤ E.size → ∃ E', colNorm M E = some E' ∧ Holds E' V.n (fun c => normInf fun r : Fin V.m => V.entry r c)) ∧
    (M.triu = false → V.m ≤ E.size → ∃ E', rowNorm M E = some E' ∧ Holds E' V.m (fun r => normInf fun c : Fin V.n => V.entry r c)) ∧
    (M.triu = true → V.n ≤ E.size → ∃ E', rowNorm M E = some E' ∧ Holds E' V.n (fun r => normInf fun c : Fin V.n => V.symEntry r c)) := by
  obtain ⟨h1, h2⟩ := made_rep h
  refine ⟨fun hs => c37_col_norm h1 hd hs, fun ht hs => ?_, fun ht hs => ?_⟩
  · unfold rowNorm; rw [if_neg (by simp [ht])]; exact c37_row_norm h1 hd hs
  · unfold rowNorm; rw [if_pos ht]; exact c37_row_norm_sym h1 hd (h2 ht).1 (h2 ht).2 hs

/-! ## Cases that meet the hypotheses -/

/-- A library meeting the contract: the built-in products (C36); no handle for a matrix without entries. -/
def ref : Lib K where
  create := fun C => if C.p.rd C.n = some 0 then 1 else 0
  mv := fun t sym alpha C x beta y => if sym then axpySymTriu C x y alpha beta else if t then Csc.atxpy C x y alpha beta else Csc.axpy C x y alpha beta

theorem ref_honest : Honest (ref : Lib K) where
  plain := fun _ _ h _ _ _ _ alpha beta hx hs hy => c36_axpy h alpha beta hx hs hy
  trans := fun _ _ h _ _ _ _ alpha beta hx hs hy => c36_atxpy h alpha beta hx hs hy
  sym := fun _ _ _ h h1 h2 _ _ _ _ alpha beta hx hs hy => c36_axpy_sym h h1 h2 alpha beta hx hs hy

theorem ref_made {A : Csc K} (h : Rep A V) (hN : A.nzmax = (V.nnz : ℤ)) (triu : Bool) (ht : triu = true → V.m = V.n ∧ V.Triu) :
    ∃ M, newFromCsc ref A triu = some (some M) ∧ M.triu = triu ∧ (M.handle = true ↔ V.nnz ≠ 0) ∧ Made ref M V := by
  obtain ⟨C, hC, e⟩ := c78_new (lib := (ref : Lib K)) h hN (le_refl _) h.i h.x triu
  have hc : (ref : Lib K).create C = if V.nnz = 0 then 1 else 0 := by
    show (if C.p.rd C.n = some 0 then (1 : ℤ) else 0) = _
    rw [hC.rdNnz]
    by_cases c : V.nnz = 0
    · rw [if_pos c, if_pos (by rw [c]; rfl)]
    · rw [if_neg c, if_neg (by intro hh; exact c (by exact_mod_cast Option.some.inj hh))]
  rw [if_neg (by rw [hc]; split_ifs <;> simp)] at e
  refine ⟨_, e, rfl, ?_, Made.new h hN (le_refl _) h.i h.x ht e⟩
  rw [hc]
  by_cases c : V.nnz = 0 <;> simp [c]

/-- A symmetric and a rectangular matrix have objects with handles; both are scaled, then the operator is the one of the scaled matrices. -/
example : ∃ P A P' A' VP VA, newFromCsc ref Demo.triu true = some (some P) ∧ newFromCsc ref Demo.rect false = some (some A) ∧ multScalar P 2 = some P' ∧ lmult A Demo.v2 = some A' ∧
    (∀ r c, c < 3 → VP.entry r c = 2 * Demo.triuV.entry r c) ∧ (∀ r c, c < 3 → VA.entry r c = Demo.f2 r * Demo.rectV.entry r c) ∧
    ∃ v' work', reducedMv ref P' A' Demo.v2 10 Demo.v3 (Buf.fresh 3) (Buf.fresh 2) = some (v', work') ∧ Holds v' 3 fun r => ∑ c ∈ range 3, redEntry VP VA 10 Demo.f2 r c * Demo.f3 c := by
  obtain ⟨P, e1, t1, g1, m1⟩ := ref_made Demo.triu_rep rfl true fun _ => ⟨rfl, Demo.triu_triu⟩
  obtain ⟨A, e2, t2, g2, m2⟩ := ref_made Demo.rect_rep rfl false fun h => by cases h
  obtain ⟨C1, e3, h3⟩ := multScalar_rep (made_rep m1).1 2
  obtain ⟨C2, e4, h4⟩ := lmult_rep (made_rep m2).1 Demo.v2_holds
  refine ⟨P, A, _, _, _, _, e1, e2, e3, e4, fun r c hc => (entry_withX Demo.triu_valid (fun _ _ => 2) hc).trans (mul_comm _ _),
    fun r c hc => (entry_withX Demo.rect_valid (fun _ r => Demo.f2 r) hc).trans (mul_comm _ _), ?_⟩
  exact c78_operator_partial ref_honest (Made.multScalar m1 e3) (Made.lmult m2 Demo.v2_holds e4) t1 t2 (g1.2 (by decide)) (g2.2 (by decide)) rfl 10 Demo.v2_holds Demo.v3_holds
    (by decide) (by decide)

/-- `P` without entries (what `OSQPCscMatrix_zeros` gives): its object has no handle, and the operator is the one with `sigma = 1` although `sigma` is 10. -/
example : ∃ P A, newFromCsc ref (Demo.csc 3 3 [0, 0, 0, 0] [] [] : Csc ℚ) true = some (some P) ∧ newFromCsc ref Demo.rect false = some (some A) ∧
    axpy ref P Demo.v3 Demo.v3 1 10 = some Demo.v3 ∧
    ∃ v' work', reducedMv ref P A Demo.v2 10 Demo.v3 (Buf.fresh 3) (Buf.fresh 2) = some (v', work') ∧
      Holds v' 3 fun r => ∑ c ∈ range 3, redEntry (Demo.view 3 3 [0, 0, 0, 0] [] []) Demo.rectV 1 Demo.f2 r c * Demo.f3 c := by
  have hz : Rep (Demo.csc 3 3 [0, 0, 0, 0] [] [] : Csc ℚ) (Demo.view 3 3 [0, 0, 0, 0] [] []) := Demo.csc_rep ⟨by decide, by decide, by decide⟩ (by decide) (by decide) (by decide)
  obtain ⟨P, e1, t1, g1, m1⟩ := ref_made hz rfl true fun _ => ⟨rfl, Demo.bounded (by decide)⟩
  obtain ⟨A, e2, t2, g2, m2⟩ := ref_made Demo.rect_rep rfl false fun h => by cases h
  have hP : P.handle = false := by
    cases c : P.handle with
    | false => rfl
    | true => exact absurd (by decide) (g1.1 c)
  exact ⟨P, A, e1, e2, (c78_empty hP _ _ _ _).1, c78_operator_lp ref_honest m1 m2 (by decide) t2 hP (g2.2 (by decide)) rfl 10 Demo.v2_holds Demo.v3_holds (by decide) (by decide)⟩

/-- The rectangular matrix in arrays with one spare cell that was never written. -/
def roomy : Csc ℚ := ⟨2, 3, Demo.rect.p, ⟨3, Demo.rect.i.cell⟩, ⟨3, Demo.rect.x.cell⟩, 3, -1⟩

theorem roomy_rep : Rep roomy Demo.rectV where
  m := rfl
  n := rfl
  valid := Demo.rect_valid
  p := Demo.rect_rep.p
  i := ⟨by decide, Demo.rect_rep.i.2⟩
  x := ⟨by decide, Demo.rect_rep.x.2⟩

example : newFromCsc ref roomy false = none := (c78_spare (k := 2) roomy_rep (by decide) (by decide) false).1

example : getCsc (⟨Demo.rect, true, false⟩ : Mat ℚ) = none := c78_get Demo.rect_rep (by decide)

example : ∃ A E R, newFromCsc ref Demo.rect false = some (some A) ∧ colNorm A (Buf.fresh 3) = some E ∧ select ref A (Demo.buf [0, 1]) = some R := by
  obtain ⟨A, e, t, g, m⟩ := ref_made Demo.rect_rep rfl false fun h => by cases h
  obtain ⟨E, e1, _⟩ := (c78_norms m Demo.rect_nodup (E := Buf.fresh 3)).1 (by decide)
  obtain ⟨R, W, e2, _⟩ := c78_select m t (rows := Demo.buf [0, 1]) (Demo.buf_holds _)
  exact ⟨A, E, _, e, e1, e2⟩

end Osqp.MklMat
