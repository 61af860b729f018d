import Verif.Csc.DerivAdj

/-!
# Reading the derivatives out
-/

set_option linter.unusedSectionVars false
namespace Osqp.Csc
open Finset

variable {K : Type*} [Field K] [LinearOrder K] [IsStrictOrderedRing K]

/-- A result matrix supplied by the caller: the pattern `V` (its values do not matter), with room for the values. -/
structure Pattern (M : Csc K) (V : View K) : Prop where
  valid : V.Valid
  p : Holds M.p (V.n + 1) fun j => (V.p j : ℤ)
  i : Holds M.i V.nnz fun k => (V.i k : ℤ)
  x : V.nnz ≤ M.x.size

theorem Pattern.loop {M : Csc K} {V : View K} (h : Pattern M V) {body : ℤ → ℤ → Buf (Option K) → Option (Buf (Option K))} {b : Buf (Option K)} (hb : b.size = M.x.size) (g : ℕ → Option K)
    (hs : ∀ k (c : Buf (Option K)), k < V.nnz → V.col k < V.n → body (V.col k : ℤ) (k : ℤ) c = c.wr (k : ℤ) (g k)) :
    ∃ c, forCols M.p (V.n : ℤ) body b = some c ∧ c.size = M.x.size ∧ Holds c V.nnz g := by
  obtain ⟨c, e, h1, h2⟩ := forCols_nat h.p h.valid.mono (body := body) (s := b) (fun k c => c.size = M.x.size ∧ Holds c k g)
    (by rw [h.valid.zero]; exact ⟨hb, by rw [hb]; have := h.x; omega, fun k hk => absurd hk (Nat.not_lt_zero k)⟩)
    (fun j k c hj h1 h2 ⟨h3, h4⟩ => by
      have hk := h.valid.lt_nnz hj h2
      have hc := h.valid.col_eq hj h1 h2
      have := hs k c hk (by omega)
      rw [hc] at this
      have hx := h.x
      rw [this, Buf.wr_eq (by omega)]
      refine ⟨_, rfl, h3, h4.extend (by omega) _ rfl⟩)
  exact ⟨c, e, h1, h2⟩

/-- The value stored for an entry of the derivative with respect to `P`. -/
def Prob.dPF (p : Prob K) (Z : ℕ → K) (i c : ℕ) : K := 1 / 2 * (p.zx Z i * p.x c + p.zx Z c * p.x i)
/-- The value stored for an entry of the derivative with respect to `A`. -/
def Prob.dAF (p : Prob K) (Z : ℕ → K) (r c : ℕ) : Option K :=
  (p.ruF Z r).bind fun ru => (p.dlF Z r).bind fun rl => some ((p.yu r - p.yl r) * p.zx Z c + (ru - rl) * p.x c)

theorem getMat_holds {S : Stored K} {p : Prob K} (h : StoredIs S p) {Z : ℕ → K} {D : DerivData K} (hD : Done p Z D) {dP dA : Csc K} {VP VA : View K}
    (hP : Pattern dP VP) (hA : Pattern dA VA) (hPm : VP.m = p.n) (hPn : VP.n = p.n) (hAm : VA.m = p.m) (hAn : VA.n = p.n) :
    ∃ bP bA, getMat D S dP dA = some (bP, bA) ∧ Holds bP VP.nnz (fun k => some (p.dPF Z (VP.i k) (VP.col k))) ∧ Holds bA VA.nnz (fun k => p.dAF Z (VA.i k) (VA.col k)) := by
  obtain ⟨VP0, VA0, L, U, hr, _⟩ := h
  obtain ⟨x, e1, _, hx⟩ := newFrom_holds hr.x
  have hpos : D.pos S.n = (p.N : ℤ) := by
    unfold DerivData.pos Prob.N; rw [hr.nn, hD.nl, hD.nu, hD.ne]; push_cast; ring
  have hNe : p.N = p.n + p.nl + p.nu + p.ne := rfl
  have hz : ∀ j < p.n, D.rhs.rd ((p.N : ℤ) + (j : ℤ)) = some (p.zx Z j) := fun j hj => hD.rhs.rd' (k := p.N + j) (by push_cast; ring) (by omega)
  obtain ⟨bP, e2, _, h2⟩ := hP.loop (b := ⟨dP.x.size, fun k => (dP.x.cell k).map some⟩) rfl (fun k => some (p.dPF Z (VP.i k) (VP.col k)))
    (body := fun col q (b : Buf (Option K)) => (dP.i.rd q).bind fun i =>
    (D.rhs.rd ((p.N : ℤ) + i)).bind fun ri => (x.rd col).bind fun xc => (D.rhs.rd ((p.N : ℤ) + col)).bind fun rc => (x.rd i).bind fun xi =>
    b.wr q (some (1 / 2 * (ri * xc + rc * xi)))) (fun k c hk hc => by
      have hi := hP.valid.rows k hk
      exact bindEq (hP.i.rd hk) <| bindEq (hz _ (by omega)) <| bindEq (hx.rd (by omega)) <| bindEq (hz _ (by omega)) <| bindEq (hx.rd (by omega)) rfl)
  obtain ⟨bA, e3, _, h3⟩ := hA.loop (b := ⟨dA.x.size, fun k => (dA.x.cell k).map some⟩) rfl (fun k => p.dAF Z (VA.i k) (VA.col k))
    (body := fun col q (b : Buf (Option K)) => (dA.i.rd q).bind fun i =>
    (D.yu.rd i).bind fun yu => (D.yl.rd i).bind fun yl => (D.rhs.rd ((p.N : ℤ) + col)).bind fun rc =>
    (D.ryu.rd i).bind fun ryu => (D.ryl.rd i).bind fun ryl => (x.rd col).bind fun xc =>
    b.wr q (ryu.bind fun ru => ryl.bind fun rl => some ((yu - yl) * rc + (ru - rl) * xc))) (fun k c hk hc => by
      have hi := hA.valid.rows k hk
      rw [hAm] at hi
      exact bindEq (hA.i.rd hk) <| bindEq (hD.yu.rd hi) <| bindEq (hD.yl.rd hi) <| bindEq (hz _ (by omega)) <| bindEq (hD.ryu.rd hi) <| bindEq (hD.ryl.rd hi) <|
        bindEq (hx.rd (by omega)) rfl)
  rw [hPn] at e2
  rw [hAn] at e3
  refine ⟨bP, bA, ?_, h2, h3⟩
  unfold getMat
  rw [hpos, hr.nn]
  exact bindEq e1 <| bindEq e2 <| bindEq e3 rfl

theorem getVec_holds {p : Prob K} {Z : ℕ → K} {D : DerivData K} (hD : Done p Z D) {dq : Buf K} {dl du : Buf (Option K)}
    (hq : p.n ≤ dq.size) (hl : p.m ≤ dl.size) (hu : p.m ≤ du.size) :
    ∃ q l u, getVec D (p.n : ℤ) dq dl du = some (q, l, u) ∧ Holds q p.n (p.zx Z) ∧ Holds l p.m (p.dlF Z) ∧ Holds u p.m (fun r => (p.ruF Z r).map fun v => -v) := by
  have hpos : D.pos (p.n : ℤ) = (p.N : ℤ) := by
    unfold DerivData.pos Prob.N; rw [hD.nl, hD.nu, hD.ne]; push_cast; ring
  have hNe : p.N = p.n + p.nl + p.nu + p.ne := rfl
  obtain ⟨q, e1, _, h1⟩ := writeLoop0 (b := dq) (len := p.n) hq (p.zx Z) (f := fun i b => (D.rhs.rd ((p.N : ℤ) + i)).bind fun v => b.wr i v)
    (fun k c hk _ _ => bindEq (hD.rhs.rd' (k := p.N + k) (by push_cast; ring) (by omega)) rfl)
  obtain ⟨l, e2, _, h2⟩ := writeLoop0 (b := dl) (len := p.m) hl (p.dlF Z) (f := fun i b => (D.ryl.rd i).bind fun v => b.wr i v)
    (fun k c hk _ _ => bindEq (hD.ryl.rd hk) rfl)
  obtain ⟨u, e3, s3, h3⟩ := writeLoop0 (b := du) (len := p.m) hu (p.ruF Z) (f := fun i b => (D.ryu.rd i).bind fun v => b.wr i v)
    (fun k c hk _ _ => bindEq (hD.ryu.rd hk) rfl)
  obtain ⟨w, e4, _, h4⟩ := writeLoop0 (b := u) (len := p.m) (by omega) (fun r => (p.ruF Z r).map fun v => -v)
    (f := fun i (b : Buf (Option K)) => (b.rd i).bind fun v => b.wr i (v.map fun v => -v)) (fun k c hk h5 h6 => by
      have : c.rd (k : ℤ) = some (p.ruF Z k) := by
        unfold Buf.rd; rw [if_pos ⟨by omega, by omega⟩, Int.toNat_natCast, h6 k (le_refl _), h3.2 k hk]
      exact bindEq this rfl)
  refine ⟨q, l, w, ?_, h1, h2, h4⟩
  unfold getVec
  rw [hpos, hD.sl, hD.su]
  exact bindEq e1 <| bindEq e2 <| bindEq e3 <| bindEq e4 rfl

/-! ## Sums over the entries of a pattern -/

theorem View.Valid.withVals {V : View K} (h : V.Valid) (v : ℕ → K) : (V.withVals v).Valid := ⟨h.zero, h.mono, h.rows⟩
theorem View.Triu.withVals {V : View K} (h : V.Triu) (v : ℕ → K) : (V.withVals v).Triu := h

/-- A bilinear form over the entries of a matrix. -/
theorem sum_bilin {V : View K} (h : V.Valid) (F : ℕ → ℕ → K) : ∑ k ∈ range V.nnz, V.x k * F (V.i k) (V.col k) = ∑ c ∈ range V.n, ∑ r ∈ range V.m, V.entry r c * F r c := by
  rw [h.sum_cols (fun c k => V.x k * F (V.i k) c)]
  exact sum_congr rfl fun c hc => sum_rows V h (mem_range.1 hc) (fun r => F r c)

/-- A bilinear form with the symmetric matrix whose upper triangle is stored. -/
theorem sum_bilin_sym {V : View K} (h : V.Valid) (ht : V.Triu) (hsq : V.m = V.n) (F : ℕ → ℕ → K) :
    ∑ i ∈ range V.n, ∑ j ∈ range V.n, V.symEntry i j * F i j = ∑ k ∈ range V.nnz, V.x k * (if V.i k = V.col k then F (V.i k) (V.col k) else F (V.i k) (V.col k) + F (V.col k) (V.i k)) := by
  rw [sum_bilin h (fun r c => if r = c then F r c else F r c + F c r), hsq]
  have e1 : ∀ i ∈ range V.n, ∑ j ∈ range V.n, V.symEntry i j * F i j = (∑ j ∈ range V.n, V.entry i j * F i j) + ∑ j ∈ range V.n, V.entry j i * (if j = i then 0 else F i j) := by
    intro i hi
    rw [← sum_add_distrib]
    refine sum_congr rfl fun j hj => ?_
    rw [ht.symEntry_eq (mem_range.1 hi) (mem_range.1 hj)]
    by_cases hij : j = i
    · rw [if_pos hij, if_pos hij]; ring
    · rw [if_neg hij, if_neg hij]; ring
  rw [sum_congr rfl e1, sum_add_distrib, sum_comm, ← sum_add_distrib]
  refine sum_congr rfl fun c _ => ?_
  rw [← sum_add_distrib]
  refine sum_congr rfl fun r _ => ?_
  by_cases hij : r = c
  · rw [if_pos hij, if_pos hij]; ring
  · rw [if_neg hij, if_neg hij]; ring

end Osqp.Csc
