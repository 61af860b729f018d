import Verif.Csc.DerivSys

/-!
# The right-hand side and the results of the adjoint computation
-/

set_option linter.unusedSectionVars false
namespace Osqp.Csc
open Finset

variable {K : Type*} [Field K] [LinearOrder K] [IsStrictOrderedRing K]

theorem Prob.N_le (p : Prob K) : 2 * p.N ≤ 2 * (p.n + 2 * p.m) := by
  have := counts_le p.l p.u p.m
  have h1 : p.nl = idx (LoRow p.l p.u) p.m := rfl
  have h2 : p.nu = idx (UpRow p.l p.u) p.m := rfl
  have h3 : p.ne = idx (EqRow p.l p.u) p.m := rfl
  unfold Prob.N; omega

theorem dNu_holds {p : Prob K} {s : Lists} (hs : ClassAt p.m p.l p.u p.y p.m s) {dyl dyu : Buf K} {DL DU : ℕ → K} (hl : Holds dyl p.m DL) (hu : Holds dyu p.m DU) :
    ∃ d, dNu s dyl dyu = some d ∧ Holds d p.ne (fun k => p.dNu DL DU (p.eq k)) := by
  unfold dNu
  rw [hs.ne]
  have hne : idx (EqRow p.l p.u) p.m = p.ne := rfl
  rw [hne]
  obtain ⟨c, e, _, h⟩ := writeLoop0 (b := (Buf.fresh (p.ne : ℤ) : Buf K)) (len := p.ne) (by rw [fresh_size]) (fun k => p.dNu DL DU (p.eq k))
    (f := fun j b => (s.nuSign.rd j).bind fun sg =>
      if sg = 1 then (s.eqIdx.rd j).bind fun i => (dyu.rd i).bind fun v => b.wr j v
      else if sg = -1 then (s.eqIdx.rd j).bind fun i => (dyl.rd i).bind fun v => b.wr j (-v)
      else some b) (fun k c hk _ _ => by
        have hlt : p.eq k < p.m := (nth_spec (EqRow p.l p.u) (m := p.m) hk).1
        rw [hs.nuSign.rd (by rw [hne]; exact hk), hs.eqIdx.rd (by rw [hne]; exact hk)]
        simp only [Option.bind_some]
        have hr1 : dyu.rd ((nth (EqRow p.l p.u) p.m k : ℕ) : ℤ) = some (DU (p.eq k)) := hu.rd hlt
        have hr2 : dyl.rd ((nth (EqRow p.l p.u) p.m k : ℕ) : ℤ) = some (DL (p.eq k)) := hl.rd hlt
        rw [hr1, hr2]
        simp only [Option.bind_some]
        unfold signOf Prob.dNu
        by_cases h0 : p.y (p.eq k) ≥ 0
        · have h0' : p.y (nth (EqRow p.l p.u) p.m k) ≥ 0 := h0
          rw [if_pos h0', if_pos rfl, if_pos h0]
        · have h0' : ¬ p.y (nth (EqRow p.l p.u) p.m k) ≥ 0 := h0
          rw [if_neg h0', if_neg (by decide), if_pos rfl, if_neg h0])
  exact ⟨c, e, h⟩

theorem buildRhs_holds {p : Prob K} {s : Lists} (hs : ClassAt p.m p.l p.u p.y p.m s) {dx dyl dyu rhs : Buf K} {DX DL DU : ℕ → K} (hx : Holds dx p.n DX)
    (hl : Holds dyl p.m DL) (hu : Holds dyu p.m DU) (hr : rhs.size = 2 * (p.n + 2 * p.m)) :
    ∃ rhs', buildRhs s (p.n : ℤ) (p.m : ℤ) dx dyl dyu rhs = some rhs' ∧ rhs'.size = rhs.size ∧ Holds rhs' (2 * p.N) (p.rhsF DX DL DU) := by
  have hN := p.N_le
  have hNe : p.N = p.n + p.nl + p.nu + p.ne := rfl
  have hnl : idx (LoRow p.l p.u) p.m = p.nl := rfl
  have hnu : idx (UpRow p.l p.u) p.m = p.nu := rfl
  have hne : idx (EqRow p.l p.u) p.m = p.ne := rfl
  unfold buildRhs
  obtain ⟨lv, e1, _, h1⟩ := newFrom_holds hl
  obtain ⟨uv, e2, _, h2⟩ := newFrom_holds hu
  obtain ⟨il, e3, s3, h3⟩ := newFrom_holds hs.ineqL
  obtain ⟨iu, e4, s4, h4⟩ := newFrom_holds hs.ineqU
  obtain ⟨li, e5, _, h5⟩ := subByRows_holds (LoRow p.l p.u) h3 s3 h1
  obtain ⟨ui, e6, _, h6⟩ := subByRows_holds (UpRow p.l p.u) h4 s4 h2
  rw [hnl] at h5
  rw [hnu] at h6
  obtain ⟨b1, e7, s7, c7⟩ := subAssign_holds (A := rhs) (st := 0) hx (by omega) (-1)
  obtain ⟨b2, e8, s8, c8⟩ := subAssign_holds (A := b1) (st := p.n) h5 (by omega) (-1)
  obtain ⟨b3, e9, s9, c9⟩ := subAssign_holds (A := b2) (st := p.n + p.nl) h6 (by omega) (-1)
  obtain ⟨d, e10, h10⟩ := dNu_holds hs hl hu
  obtain ⟨b4, e11, s11, c11⟩ := subAssign_holds (A := b3) (st := p.n + p.nl + p.nu) h10 (by omega) (-1)
  obtain ⟨b5, e12, s12, c12⟩ := subAssignScalar_holds (A := b4) (st := p.N) (len := p.N) (by omega) (0 : K)
  refine ⟨b5, ?_, by omega, by omega, fun k hk => ?_⟩
  · rw [hs.nl, hs.nu, hs.ne, hnl, hnu, hne]
    refine bindEq e1 <| bindEq e2 <| bindEq e3 <| bindEq e4 <| bindEq e5 <| bindEq e6 <| bindEq (by simpa using e7) <| bindEq e8 <| bindEq (by push_cast at e9; exact e9) <|
      bindEq e10 <| bindEq (by push_cast at e11; exact e11) ?_
    rw [hNe] at e12
    push_cast at e12
    exact e12
  · rw [c12 k, c11 k, c9 k, c8 k, c7 k]
    unfold Prob.rhsF
    by_cases k5 : p.N ≤ k
    · rw [if_pos ⟨k5, by omega⟩, if_neg (by omega), if_neg (by omega), if_neg (by omega), if_neg (by omega)]
    · rw [if_neg (by omega)]
      by_cases k4 : p.n + p.nl + p.nu ≤ k
      · rw [if_pos ⟨k4, by omega⟩, if_neg (by omega), if_neg (by omega), if_neg (by omega), if_pos (by omega), neg_one_mul]
      · rw [if_neg (by omega)]
        by_cases k3 : p.n + p.nl ≤ k
        · rw [if_pos ⟨k3, by omega⟩, if_neg (by omega), if_neg (by omega), if_pos (by omega), neg_one_mul]; rfl
        · rw [if_neg (by omega)]
          by_cases k2 : p.n ≤ k
          · rw [if_pos ⟨k2, by omega⟩, if_neg (by omega), if_pos (by omega), neg_one_mul]; rfl
          · rw [if_neg (by omega), if_pos ⟨by omega, by omega⟩, if_pos (by omega), neg_one_mul]; rfl

/-! ## Reading the solution back -/

/-- A loop over the selected rows that writes `g r` in cell `r`. -/
theorem scatter {α : Type*} (q : ℕ → Prop) [DecidablePred q] {m : ℕ} {b : Buf α} {F : ℕ → α} (hb : Holds b m F) (g : ℕ → α) {f : ℤ → Buf α → Option (Buf α)}
    (hf : ∀ k (c : Buf α), k < idx q m → f (k : ℤ) c = c.wr ((nth q m k : ℕ) : ℤ) (g (nth q m k))) :
    ∃ c, forI 0 ((idx q m : ℕ) : ℤ) f b = some c ∧ c.size = b.size ∧ Holds c m (fun r => if q r then g r else F r) := by
  obtain ⟨c, e, h1, h2⟩ := forI_zero (hi := idx q m) (s := b) (f := f)
    (fun k c => c.size = b.size ∧ Holds c m (fun r => if q r ∧ idx q r < k then g r else F r))
    ⟨rfl, hb.congr fun r _ => by rw [if_neg (by omega)]⟩ (by
      intro k c hk ⟨h1, h2⟩
      obtain ⟨g1, g2, g3⟩ := nth_spec q hk
      rw [hf k c hk, h2.wr g1]
      refine ⟨_, rfl, h1, (h2.set _ _).congr fun r hr => ?_⟩
      rw [Function.update_apply]
      by_cases e : r = nth q m k
      · rw [if_pos e, if_pos ⟨by rw [e]; exact g2, by rw [e, g3]; omega⟩, e]
      · rw [if_neg e]
        by_cases e2 : q r ∧ idx q r < k
        · rw [if_pos e2, if_pos ⟨e2.1, by omega⟩]
        · rw [if_neg e2, if_neg]
          rintro ⟨h3, h4⟩
          have : idx q r = k := by
            have : ¬ idx q r < k := fun h => e2 ⟨h3, h⟩
            omega
          exact e (by rw [← this, nth_idx q hr h3]))
  refine ⟨c, e, h1, h2.congr fun r hr => ?_⟩
  by_cases h3 : q r
  · rw [if_pos ⟨h3, idx_lt q hr h3⟩, if_pos h3]
  · rw [if_neg (fun h => h3 h.1), if_neg h3]

/-- The components of the solution `Z` of the linear system. -/
def Prob.zx (p : Prob K) (Z : ℕ → K) (j : ℕ) : K := Z (p.N + j)
def Prob.zl (p : Prob K) (Z : ℕ → K) (r : ℕ) : K := Z (p.N + p.n + idx p.Lo r)
def Prob.zu (p : Prob K) (Z : ℕ → K) (r : ℕ) : K := Z (p.N + p.n + p.nl + idx p.Up r)
def Prob.ze (p : Prob K) (Z : ℕ → K) (r : ℕ) : K := Z (p.N + p.n + p.nl + p.nu + idx p.Eq r)

def Prob.rl (p : Prob K) (Z : ℕ → K) (r : ℕ) : Option K :=
  if p.Eq r then (if p.y r ≥ 0 then some 0 else cDiv (-p.ze Z r) (p.y r)) else if p.Lo r then some (-p.zl Z r) else some 0
def Prob.ru (p : Prob K) (Z : ℕ → K) (r : ℕ) : Option K :=
  if p.Eq r then (if p.y r ≥ 0 then cDiv (p.ze Z r) (p.y r) else some 0) else if p.Up r then some (p.zu Z r) else some 0

theorem readBack_holds {p : Prob K} {s : Lists} (hs : ClassAt p.m p.l p.u p.y p.m s) {y rhs : Buf K} {Z : ℕ → K} (hy : Holds y p.m p.y) (hz : Holds rhs (2 * p.N) Z) :
    ∃ r, readBack s (p.n : ℤ) (p.m : ℤ) y rhs = some r ∧ Holds r.1 p.m (p.rl Z) ∧ Holds r.2 p.m (p.ru Z) := by
  have hNe : p.N = p.n + p.nl + p.nu + p.ne := rfl
  have hnl : idx (LoRow p.l p.u) p.m = p.nl := rfl
  have hnu : idx (UpRow p.l p.u) p.m = p.nu := rfl
  have hne : idx (EqRow p.l p.u) p.m = p.ne := rfl
  unfold readBack
  obtain ⟨z, e0, _, h0⟩ := writeLoop0 (b := (Buf.fresh (p.m : ℤ) : Buf (Option K))) (len := p.m) (by rw [fresh_size]) (fun _ => some (0 : K))
    (f := fun j (b : Buf (Option K)) => b.wr j (some 0)) (fun k c hk _ _ => rfl)
  rw [e0]
  simp only [Option.bind_some]
  obtain ⟨b1, e1, _, h1⟩ := scatter (LoRow p.l p.u) h0 (fun r => some (-p.zl Z r))
    (f := fun j (b : Buf (Option K)) => (s.lIdx.rd j).bind fun i => (rhs.rd ((p.n : ℤ) + s.nl + s.nu + s.ne + p.n + j)).bind fun v => b.wr i (some (-v)))
    (fun k c hk => by
      rw [hs.lIdx.rd hk]
      simp only [Option.bind_some]
      obtain ⟨g1, g2, g3⟩ := nth_spec (LoRow p.l p.u) hk
      rw [hz.rd' (k := p.N + p.n + k) (by rw [hs.nl, hs.nu, hs.ne, hnl, hnu, hne, hNe]; push_cast; ring) (by omega)]
      simp only [Option.bind_some]
      unfold Prob.zl
      rw [show idx p.Lo (nth (LoRow p.l p.u) p.m k) = k from g3])
  obtain ⟨b2, e2, _, h2⟩ := scatter (UpRow p.l p.u) h0 (fun r => some (p.zu Z r))
    (f := fun j (b : Buf (Option K)) => (s.uIdx.rd j).bind fun i => (rhs.rd ((p.n : ℤ) + s.nl + s.nu + s.ne + p.n + s.nl + j)).bind fun v => b.wr i (some v))
    (fun k c hk => by
      rw [hs.uIdx.rd hk]
      simp only [Option.bind_some]
      obtain ⟨g1, g2, g3⟩ := nth_spec (UpRow p.l p.u) hk
      rw [hz.rd' (k := p.N + p.n + p.nl + k) (by rw [hs.nl, hs.nu, hs.ne, hnl, hnu, hne, hNe]; push_cast; ring) (by omega)]
      simp only [Option.bind_some]
      unfold Prob.zu
      rw [show idx p.Up (nth (UpRow p.l p.u) p.m k) = k from g3])
  rw [show s.nl = ((idx (LoRow p.l p.u) p.m : ℕ) : ℤ) from hs.nl, show s.nu = ((idx (UpRow p.l p.u) p.m : ℕ) : ℤ) from hs.nu,
    show s.ne = ((idx (EqRow p.l p.u) p.m : ℕ) : ℤ) from hs.ne] at e1 e2 ⊢
  rw [e1]
  simp only [Option.bind_some]
  rw [e2]
  simp only [Option.bind_some]
  obtain ⟨r, e3, h3, h4⟩ := forI_zero (hi := idx (EqRow p.l p.u) p.m) (s := (b1, b2))
    (f := fun j (b : Buf (Option K) × Buf (Option K)) => (s.nuSign.rd j).bind fun sg => (s.eqIdx.rd j).bind fun i =>
    (rhs.rd ((p.n : ℤ) + ((idx (LoRow p.l p.u) p.m : ℕ) : ℤ) + ((idx (UpRow p.l p.u) p.m : ℕ) : ℤ) + ((idx (EqRow p.l p.u) p.m : ℕ) : ℤ) + p.n +
      ((idx (LoRow p.l p.u) p.m : ℕ) : ℤ) + ((idx (UpRow p.l p.u) p.m : ℕ) : ℤ) + j)).bind fun v => (y.rd i).bind fun w =>
    if sg = 1 then (b.1.wr i (some 0)).bind fun rl => (b.2.wr i (cDiv v w)).bind fun ru => some (rl, ru)
    else (b.1.wr i (cDiv (-v) w)).bind fun rl => (b.2.wr i (some 0)).bind fun ru => some (rl, ru))
    (fun k b => Holds b.1 p.m (fun r => if EqRow p.l p.u r ∧ idx (EqRow p.l p.u) r < k then p.rl Z r else if LoRow p.l p.u r then some (-p.zl Z r) else some 0) ∧
      Holds b.2 p.m (fun r => if EqRow p.l p.u r ∧ idx (EqRow p.l p.u) r < k then p.ru Z r else if UpRow p.l p.u r then some (p.zu Z r) else some 0))
    ⟨h1.congr fun r _ => (if_neg fun h => Nat.not_lt_zero _ h.2).symm, h2.congr fun r _ => (if_neg fun h => Nat.not_lt_zero _ h.2).symm⟩ (by
      intro k b hk ⟨h3, h4⟩
      obtain ⟨g1, g2, g3⟩ := nth_spec (EqRow p.l p.u) hk
      have hkey : ∀ r < p.m, ∀ (f g : ℕ → Option K),
          Function.update (fun r => if EqRow p.l p.u r ∧ idx (EqRow p.l p.u) r < k then f r else g r) (nth (EqRow p.l p.u) p.m k) (f (nth (EqRow p.l p.u) p.m k)) r =
          if EqRow p.l p.u r ∧ idx (EqRow p.l p.u) r < k + 1 then f r else g r := by
        intro r hr f g
        rw [Function.update_apply]
        by_cases e : r = nth (EqRow p.l p.u) p.m k
        · rw [if_pos e, if_pos ⟨by rw [e]; exact g2, by rw [e, g3]; omega⟩, e]
        · rw [if_neg e]
          by_cases e2 : EqRow p.l p.u r ∧ idx (EqRow p.l p.u) r < k
          · rw [if_pos e2, if_pos ⟨e2.1, by omega⟩]
          · rw [if_neg e2, if_neg]
            rintro ⟨h5, h6⟩
            have : idx (EqRow p.l p.u) r = k := by
              have : ¬ idx (EqRow p.l p.u) r < k := fun h => e2 ⟨h5, h⟩
              omega
            exact e (by rw [← this, nth_idx _ hr h5])
      have hze : Z (p.N + p.n + p.nl + p.nu + k) = p.ze Z (nth (EqRow p.l p.u) p.m k) := by
        unfold Prob.ze
        rw [show idx p.Eq (nth (EqRow p.l p.u) p.m k) = k from g3]
      rw [hs.nuSign.rd hk, hs.eqIdx.rd hk]
      simp only [Option.bind_some]
      rw [hz.rd' (k := p.N + p.n + p.nl + p.nu + k) (by rw [hnl, hnu, hne, hNe]; push_cast; ring) (by omega), hy.rd g1, hze]
      simp only [Option.bind_some]
      have hE : p.Eq (nth (EqRow p.l p.u) p.m k) := g2
      unfold signOf
      by_cases h0 : p.y (nth (EqRow p.l p.u) p.m k) ≥ 0
      · rw [if_pos h0, if_pos rfl, h3.wr g1, h4.wr g1]
        refine ⟨_, rfl, ?_, ?_⟩
        · have hv : p.rl Z (nth (EqRow p.l p.u) p.m k) = some 0 := by unfold Prob.rl; rw [if_pos hE, if_pos h0]
          refine (h3.set _ _).congr fun r hr => ?_
          have := hkey r hr (p.rl Z) (fun r => if LoRow p.l p.u r then some (-p.zl Z r) else some 0)
          rw [hv] at this
          exact this
        · have hv : p.ru Z (nth (EqRow p.l p.u) p.m k) = cDiv (p.ze Z (nth (EqRow p.l p.u) p.m k)) (p.y (nth (EqRow p.l p.u) p.m k)) := by unfold Prob.ru; rw [if_pos hE, if_pos h0]
          refine (h4.set _ _).congr fun r hr => ?_
          have := hkey r hr (p.ru Z) (fun r => if UpRow p.l p.u r then some (p.zu Z r) else some 0)
          rw [hv] at this
          exact this
      · rw [if_neg h0, if_neg (by decide), h3.wr g1, h4.wr g1]
        refine ⟨_, rfl, ?_, ?_⟩
        · have hv : p.rl Z (nth (EqRow p.l p.u) p.m k) = cDiv (-p.ze Z (nth (EqRow p.l p.u) p.m k)) (p.y (nth (EqRow p.l p.u) p.m k)) := by unfold Prob.rl; rw [if_pos hE, if_neg h0]
          refine (h3.set _ _).congr fun r hr => ?_
          have := hkey r hr (p.rl Z) (fun r => if LoRow p.l p.u r then some (-p.zl Z r) else some 0)
          rw [hv] at this
          exact this
        · have hv : p.ru Z (nth (EqRow p.l p.u) p.m k) = some 0 := by unfold Prob.ru; rw [if_pos hE, if_neg h0]
          refine (h4.set _ _).congr fun r hr => ?_
          have := hkey r hr (p.ru Z) (fun r => if UpRow p.l p.u r then some (p.zu Z r) else some 0)
          rw [hv] at this
          exact this)
  refine ⟨r, e3, h3.congr fun r hr => ?_, h4.congr fun r hr => ?_⟩
  · by_cases h5 : EqRow p.l p.u r
    · rw [if_pos ⟨h5, idx_lt _ hr h5⟩]
    · rw [if_neg (fun h => h5 h.1)]
      unfold Prob.rl
      rw [if_neg (show ¬ p.Eq r from h5)]; rfl
  · by_cases h5 : EqRow p.l p.u r
    · rw [if_pos ⟨h5, idx_lt _ hr h5⟩]
    · rw [if_neg (fun h => h5 h.1)]
      unfold Prob.ru
      rw [if_neg (show ¬ p.Eq r from h5)]; rfl

/-- The results for the lower and the upper bounds. -/
def Prob.dlF (p : Prob K) (Z : ℕ → K) (r : ℕ) : Option K :=
  if p.Eq r then (if p.y r ≥ 0 then some 0 else some (-p.ze Z r)) else if p.Lo r then some (p.zl Z r * p.yl r) else some 0
def Prob.ruF (p : Prob K) (Z : ℕ → K) (r : ℕ) : Option K :=
  if p.Eq r then (if p.y r = 0 then none else if p.y r ≥ 0 then some (p.ze Z r) else some 0) else if p.Up r then some (p.zu Z r * p.yu r) else some 0

theorem rl_mul (p : Prob K) (Z : ℕ → K) (r : ℕ) : ((p.rl Z r).map fun v => v * p.yl r * -1) = p.dlF Z r := by
  unfold Prob.rl Prob.dlF cDiv
  by_cases h1 : p.Eq r
  · rw [if_pos h1, if_pos h1]
    by_cases h2 : p.y r ≥ 0
    · rw [if_pos h2, if_pos h2]; simp
    · rw [if_neg h2, if_neg h2]
      have h3 : p.y r < 0 := not_le.1 h2
      rw [if_neg (ne_of_lt h3)]
      simp only [Option.map_some, Prob.yl]
      rw [max_eq_left (by linarith)]
      congr 1
      have := ne_of_lt h3
      field_simp
  · rw [if_neg h1, if_neg h1]
    by_cases h2 : p.Lo r
    · rw [if_pos h2, if_pos h2]; simp
    · rw [if_neg h2, if_neg h2]; simp

theorem ru_mul (p : Prob K) (Z : ℕ → K) (r : ℕ) : ((p.ru Z r).map fun v => v * p.yu r * 1) = p.ruF Z r := by
  unfold Prob.ru Prob.ruF cDiv
  by_cases h1 : p.Eq r
  · rw [if_pos h1, if_pos h1]
    by_cases h0 : p.y r = 0
    · rw [if_pos h0, if_pos h0, if_pos (by rw [h0])]; rfl
    · rw [if_neg h0, if_neg h0]
      by_cases h2 : p.y r ≥ 0
      · rw [if_pos h2, if_pos h2]
        simp only [Option.map_some, Prob.yu]
        rw [max_eq_left h2]
        congr 1
        field_simp
      · rw [if_neg h2, if_neg h2]; simp
  · rw [if_neg h1, if_neg h1]
    by_cases h2 : p.Up r
    · rw [if_pos h2, if_pos h2]; simp
    · rw [if_neg h2, if_neg h2]; simp

theorem prodInto_holds {c : Buf (Option K)} {b : Buf K} {n : ℕ} {f : ℕ → Option K} {g : ℕ → K} (h : Holds c n f) (hn : c.size = n) (hb : Holds b n g) (sc : K) :
    ∃ c', prodInto c b sc = some c' ∧ c'.size = n ∧ Holds c' n (fun k => (f k).map fun v => v * g k * sc) := by
  unfold prodInto
  rw [hn]
  obtain ⟨c', e, h1, h2⟩ := writeLoop0 (b := c) (len := n) (by omega) (fun k => (f k).map fun v => v * g k * sc)
    (f := fun i c => (c.rd i).bind fun v => (b.rd i).bind fun w => c.wr i (v.map fun v => v * w * sc)) (fun k c' hk h1 h2 => by
      have : c'.rd (k : ℤ) = some (f k) := by
        unfold Buf.rd; rw [if_pos ⟨by omega, by omega⟩, Int.toNat_natCast, h2 k (le_refl _), h.2 k hk]
      rw [this, hb.rd hk]; rfl)
  exact ⟨c', e, by omega, h2⟩

/-- The results of the adjoint computation, for the solution `Z` of the linear system. -/
structure Done (p : Prob K) (Z : ℕ → K) (D : DerivData K) : Prop where
  nl : D.nl = p.nl
  nu : D.nu = p.nu
  ne : D.ne = p.ne
  yl : Holds D.yl p.m p.yl
  yu : Holds D.yu p.m p.yu
  ryl : Holds D.ryl p.m (p.dlF Z)
  ryu : Holds D.ryu p.m (p.ruF Z)
  sl : D.ryl.size = p.m
  su : D.ryu.size = p.m
  rhs : Holds D.rhs (2 * p.N) Z

/-- The preallocated results have the sizes given by `osqp_setup`. -/
structure Room (p : Prob K) (D : DerivData K) : Prop where
  yl : D.yl.size = p.m
  yu : D.yu.size = p.m
  ryl : D.ryl.size = p.m
  ryu : D.ryu.size = p.m
  rhs : D.rhs.size = 2 * (p.n + 2 * p.m)

theorem adjCompute_holds (solve : AdjSys K → Buf K → Option (Buf K)) {S : Stored K} {p : Prob K} (h : StoredIs S p) {dx dyl dyu : Buf K} {DX DL DU : ℕ → K}
    (hx : Holds dx p.n DX) (hl : Holds dyl p.m DL) (hu : Holds dyu p.m DU) {D : DerivData K} (hD : Room p D) :
    ∃ Q VP VG VE VL rhs, SysRep p Q VP VG VE VL ∧ Holds rhs (2 * p.N) (p.rhsF DX DL DU) ∧ rhs.size = 2 * (p.n + 2 * p.m) ∧
      (solve Q rhs = none → adjCompute solve S dx dyl dyu D = none) ∧
      ∀ rhs' Z, solve Q rhs = some rhs' → Holds rhs' (2 * p.N) Z → ∃ D', adjCompute solve S dx dyl dyu D = some D' ∧ Done p Z D' ∧ D'.rhs = rhs' ∧ D'.yl.size = p.m ∧ D'.yu.size = p.m := by
  obtain ⟨W, VP, VA, e1, h1⟩ := unscaled_holds h
  obtain ⟨VP0, VA0, L, U, hr, _⟩ := h
  obtain ⟨x, e2, _, h2⟩ := newFrom_holds hr.x
  obtain ⟨y, e3, s3, h3⟩ := newFrom_holds hr.y
  obtain ⟨s, e4, h4⟩ := classify_at h1.l h1.u h3
  obtain ⟨B, D1, VPf, VG, VE, VL, e5, h5, h6, s6, s7, h7, h8⟩ := buildSys_holds h1 h4 h2 h3 s3 (D := { D with nl := s.nl, nu := s.nu, ne := s.ne }) hD.yl hD.yu
  have hrhs : D1.rhs = D.rhs := by rw [h6]
  obtain ⟨rhs, e6, s8, h9⟩ := buildRhs_holds h4 hx hl hu (rhs := D1.rhs) (by rw [hrhs]; exact hD.rhs)
  have hgo : adjCompute solve S dx dyl dyu D = (solve B rhs).bind fun rhs =>
      (readBack s S.n S.m y rhs).bind fun r =>
      (fromRaw D1.ryl r.1).bind fun ryl => (prodInto ryl D1.yl (-1)).bind fun ryl =>
      (fromRaw D1.ryu r.2).bind fun ryu => (prodInto ryu D1.yu 1).bind fun ryu =>
      some { D1 with rhs := rhs, ryl := ryl, ryu := ryu } := by
    unfold adjCompute
    rw [hr.nn, hr.mm]
    exact bindEq e1 <| bindEq e2 <| bindEq e3 <| bindEq e4 <| bindEq e5 <| bindEq e6 rfl
  refine ⟨B, VPf, VG, VE, VL, rhs, h5, h9, by rw [s8, hrhs]; exact hD.rhs, fun hn => by rw [hgo, hn]; rfl, fun rhs' Z hs hz => ?_⟩
  obtain ⟨r, e7, h10, h11⟩ := readBack_holds h4 h3 hz
  have hryl : D1.ryl.size = p.m := by rw [h6]; exact hD.ryl
  have hryu : D1.ryu.size = p.m := by rw [h6]; exact hD.ryu
  obtain ⟨c1, e8, s9, h12⟩ := fromRaw_holds (b := D1.ryl) (av := r.1) (by rw [hryl]; exact h10)
  obtain ⟨c2, e9, s10, h13⟩ := prodInto_holds h12 s9 (by rw [hryl]; exact h7) (-1)
  obtain ⟨c3, e10, s11, h14⟩ := fromRaw_holds (b := D1.ryu) (av := r.2) (by rw [hryu]; exact h11)
  obtain ⟨c4, e11, s12, h15⟩ := prodInto_holds h14 s11 (by rw [hryu]; exact h8) 1
  rw [hryl] at h13 s10
  rw [hryu] at h15 s12
  refine ⟨{ D1 with rhs := rhs', ryl := c2, ryu := c4 }, ?_, ?_, rfl, s6, s7⟩
  · rw [hgo, hr.nn, hr.mm]
    exact bindEq hs <| bindEq e7 <| bindEq e8 <| bindEq e9 <| bindEq e10 <| bindEq e11 rfl
  · refine ⟨?_, ?_, ?_, h7, h8, h13.congr fun r _ => rl_mul p Z r, h15.congr fun r _ => ru_mul p Z r, s10, s12, hz⟩
    · show D1.nl = _; rw [h6]; exact h4.nl
    · show D1.nu = _; rw [h6]; exact h4.nu
    · show D1.ne = _; rw [h6]; exact h4.ne

end Osqp.Csc
