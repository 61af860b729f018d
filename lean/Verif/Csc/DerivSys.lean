import Verif.Csc.DerivClass
import Verif.Props.Csc
import Verif.Props.CscConv

/-!
# The problem recovered from the workspace and the blocks of the adjoint system
-/

set_option linter.unusedSectionVars false
namespace Osqp.Csc
open Finset

variable {K : Type*} [Field K] [LinearOrder K]

theorem bindEq {α β : Type*} {o : Option α} {a : α} {f : α → Option β} {r : Option β} (h : o = some a) (h' : f a = r) : o.bind f = r := by rw [h]; exact h'

/-- What the stored matrices and vectors read as. -/
structure StoredRep (S : Stored K) (n m : ℕ) (VP VA : View K) (L U X Y : ℕ → K) : Prop where
  nn : S.n = n
  mm : S.m = m
  P : Rep S.P VP
  A : Rep S.A VA
  Pm : VP.m = n
  Pn : VP.n = n
  Am : VA.m = m
  An : VA.n = n
  triu : VP.Triu
  l : Holds S.l m L
  u : Holds S.u m U
  ls : S.l.size = m
  us : S.u.size = m
  x : Holds S.x n X
  y : Holds S.y m Y

/-- The workspace `S` stores the problem `p` and its solution: as it is when there is no scaling, otherwise multiplied by the
scaling factors, whose inverses are `cinv`, `Dinv`, `Einv`. -/
def StoredIs (S : Stored K) (p : Prob K) : Prop :=
  ∃ VP VA L U, StoredRep S p.n p.m VP VA L U p.x p.y ∧
    match S.scal with
    | none => (∀ i < p.n, ∀ j < p.n, p.P i j = VP.symEntry i j) ∧ (∀ r < p.m, ∀ j < p.n, p.A r j = VA.entry r j) ∧ (∀ r < p.m, p.l r = L r) ∧ ∀ r < p.m, p.u r = U r
    | some sc => ∃ D E, Holds sc.Dinv p.n D ∧ Holds sc.Einv p.m E ∧ (∀ i < p.n, ∀ j < p.n, p.P i j = sc.cinv * D i * VP.symEntry i j * D j) ∧
        (∀ r < p.m, ∀ j < p.n, p.A r j = E r * VA.entry r j * D j) ∧ (∀ r < p.m, p.l r = L r * E r) ∧ ∀ r < p.m, p.u r = U r * E r

/-- The unscaled copies read as the problem `p`. -/
structure ProbRep (p : Prob K) (Q : Csc K × Csc K × Buf K × Buf K) (VP VA : View K) : Prop where
  P : Rep Q.1 VP
  A : Rep Q.2.1 VA
  Pm : VP.m = p.n
  Pn : VP.n = p.n
  Am : VA.m = p.m
  An : VA.n = p.n
  triu : VP.Triu
  Pe : ∀ i < p.n, ∀ j < p.n, VP.symEntry i j = p.P i j
  Ae : ∀ r < p.m, ∀ j < p.n, VA.entry r j = p.A r j
  l : Holds Q.2.2.1 p.m p.l
  u : Holds Q.2.2.2 p.m p.u

theorem Scaled.rep {M M' : Csc K} {V : View K} {f : ℕ → ℕ → K} (h : Scaled M V M' f) :
    ∃ V', Rep M' V' ∧ V'.m = V.m ∧ V'.n = V.n ∧ (V.Triu → V'.Triu) ∧ V'.nnz = V.nnz ∧ ∀ r c, c < V.n → V'.entry r c = f r c * V.entry r c := by
  obtain ⟨V', h1, h2, h3, h4, h5, _, _, h6⟩ := h
  refine ⟨V', h1, h2, h3, fun ht => ?_, by unfold View.nnz; rw [h3, h4], h6⟩
  unfold View.Triu at *
  rw [h3, h4, h5]; exact ht

variable [IsStrictOrderedRing K]

theorem unscaled_holds {S : Stored K} {p : Prob K} (h : StoredIs S p) : ∃ Q VP VA, unscaled S = some Q ∧ ProbRep p Q VP VA := by
  obtain ⟨VP, VA, L, U, h, hs⟩ := h
  unfold unscaled
  obtain ⟨P1, eP, hP, _⟩ := copy_aux h.P
  obtain ⟨A1, eA, hA, _⟩ := copy_aux h.A
  obtain ⟨l1, el, sl, hl⟩ := newFrom_holds h.l
  obtain ⟨u1, eu, su, hu⟩ := newFrom_holds h.u
  rw [eP, eA, h.ls, h.us, el, eu]
  simp only [Option.bind_some]
  cases hc : S.scal with
  | none =>
    rw [hc] at hs
    obtain ⟨a1, a2, a3, a4⟩ := hs
    exact ⟨_, VP, VA, rfl, ⟨hP, hA, h.Pm, h.Pn, h.Am, h.An, h.triu, fun i hi j hj => (a1 i hi j hj).symm, fun r hr j hj => (a2 r hr j hj).symm,
      hl.congr fun r hr => (a3 r hr).symm, hu.congr fun r hr => (a4 r hr).symm⟩⟩
  | some sc =>
    rw [hc] at hs
    obtain ⟨D, E, hD, hE, a1, a2, a3, a4⟩ := hs
    obtain ⟨P2, e2, s2⟩ := c37_scale hP sc.cinv
    obtain ⟨V2, r2, m2, n2, t2, _, f2⟩ := s2.rep
    obtain ⟨P3, e3, s3⟩ := c37_lmult r2 (d := sc.Dinv) (D := D) (by rw [m2, h.Pm]; exact hD)
    obtain ⟨V3, r3, m3, n3, t3, _, f3⟩ := s3.rep
    obtain ⟨P4, e4, s4⟩ := c37_rmult r3 (d := sc.Dinv) (D := D) (by rw [n3, n2, h.Pn]; exact hD)
    obtain ⟨V4, r4, m4, n4, t4, _, f4⟩ := s4.rep
    obtain ⟨A2, e5, s5⟩ := c37_lmult hA (d := sc.Einv) (D := E) (by rw [h.Am]; exact hE)
    obtain ⟨W2, q2, k2, j2, _, _, g2⟩ := s5.rep
    obtain ⟨A3, e6, s6⟩ := c37_rmult q2 (d := sc.Dinv) (D := D) (by rw [j2, h.An]; exact hD)
    obtain ⟨W3, q3, k3, j3, _, _, g3⟩ := s6.rep
    obtain ⟨l2, e7, _, hl2⟩ := ewProdInto_holds hl sl hE
    obtain ⟨u2, e8, _, hu2⟩ := ewProdInto_holds hu su hE
    dsimp only
    rw [e2]; simp only [Option.bind_some]
    rw [e3]; simp only [Option.bind_some]
    rw [e4, e5]; simp only [Option.bind_some]
    rw [e6, e7, e8]; simp only [Option.bind_some]
    have hent : ∀ i j, j < p.n → V4.entry i j = sc.cinv * D i * VP.entry i j * D j := by
      intro i j hj
      rw [f4 i j (by rw [n3, n2, h.Pn]; exact hj), f3 i j (by rw [n2, h.Pn]; exact hj), f2 i j (by rw [h.Pn]; exact hj)]; ring
    refine ⟨_, V4, W3, rfl, ⟨r4, q3, by rw [m4, m3, m2, h.Pm], by rw [n4, n3, n2, h.Pn], by rw [k3, k2, h.Am], by rw [j3, j2, h.An], t4 (t3 (t2 h.triu)), ?_, ?_, ?_, ?_⟩⟩
    · intro i hi j hj
      rw [a1 i hi j hj]
      unfold View.symEntry
      by_cases hij : i ≤ j
      · rw [if_pos hij, if_pos hij, hent i j hj]
      · rw [if_neg hij, if_neg hij, hent j i hi]; ring
    · intro r hr j hj
      rw [a2 r hr j hj, g3 r j (by rw [j2, h.An]; exact hj), g2 r j (by rw [h.An]; exact hj)]; ring
    · exact hl2.congr fun r hr => (a3 r hr).symm
    · exact hu2.congr fun r hr => (a4 r hr).symm

/-! ## The blocks -/

/-- The blocks of the adjoint system read as they should. -/
structure SysRep (p : Prob K) (Q : AdjSys K) (VP VG VE VL : View K) : Prop where
  P : Rep Q.Pfull VP
  G : Rep Q.G VG
  E : Rep Q.Aeq VE
  L : Rep Q.GL VL
  Pm : VP.m = p.n
  Pn : VP.n = p.n
  Gm : VG.m = p.nl + p.nu
  Gn : VG.n = p.n
  Em : VE.m = p.ne
  En : VE.n = p.n
  Lm : VL.m = p.nl + p.nu
  Ln : VL.n = p.n
  Lz : VL.nnz = VG.nnz
  Pe : ∀ i < p.n, ∀ j < p.n, VP.entry i j = p.P i j
  Ge : ∀ k < p.nl + p.nu, ∀ c < p.n, VG.entry k c = p.gA k c
  Ee : ∀ k < p.ne, ∀ c < p.n, VE.entry k c = p.A (p.eq k) c
  Le : ∀ k < p.nl + p.nu, ∀ c < p.n, VL.entry k c = p.gLam k * p.gA k c
  S : Holds Q.slacks (p.nl + p.nu) p.gS

theorem cMax_eq (a b : K) : cMax a b = max a b := by
  unfold cMax
  split_ifs with h
  · rw [max_eq_left (le_of_lt h)]
  · rw [max_eq_right (not_lt.1 h)]
theorem cMin_eq (a b : K) : cMin a b = min a b := by
  unfold cMin
  split_ifs with h
  · rw [min_eq_left (le_of_lt h)]
  · rw [min_eq_right (not_lt.1 h)]

theorem scale_nzmax {M M' : Csc K} {sc : K} (h : scale M sc = some M') : M'.nzmax = M.nzmax := by
  unfold scale at h
  rw [Option.bind_eq_some_iff] at h
  obtain ⟨z, _, h⟩ := h
  rw [Option.bind_eq_some_iff] at h
  obtain ⟨x, _, h⟩ := h
  rw [← Option.some.inj h]

/-- Selecting rows with the flags of `p`. -/
theorem select {A : Csc K} {V : View K} (h : Rep A V) (q : ℕ → Prop) [DecidablePred q] {rows : Buf ℤ} (hF : Holds rows V.m (flag q)) :
    ∃ R W, submatrixByRows A rows = some R ∧ Rep R W ∧ W.m = idx q V.m ∧ W.n = V.n ∧ R.nzmax = W.nnz ∧
      ∀ k < idx q V.m, ∀ c < V.n, W.entry k c = V.entry (nth q V.m k) c := by
  obtain ⟨R, W, e, h1, h2, h3, h4, _, _, h5⟩ := submatrix_aux h hF
  have hr : ∀ r ≤ V.m, rank (flag q) r = idx q r := rank_eq_idx q (fun r _ => rfl)
  refine ⟨R, W, e, h1, by rw [h2, hr _ (le_refl _)], h3, h4, fun k hk c hc => ?_⟩
  obtain ⟨g1, g2, g3⟩ := nth_spec q hk
  have := h5 (nth q V.m k) g1 (by rw [flag, if_pos g2]; decide) c hc
  rwa [hr _ (le_of_lt g1), g3] at this

theorem buildSys_holds {p : Prob K} {Q : Csc K × Csc K × Buf K × Buf K} {VP VA : View K} (h : ProbRep p Q VP VA) {s : Lists}
    (hs : ClassAt p.m p.l p.u p.y p.m s) {x y : Buf K} (hx : Holds x p.n p.x) (hy : Holds y p.m p.y) (hys : y.size = p.m) {D : DerivData K}
    (hyl : D.yl.size = p.m) (hyu : D.yu.size = p.m) :
    ∃ B D' VPf VG VE VL, buildSys s (p.m : ℤ) Q.1 Q.2.1 Q.2.2.1 Q.2.2.2 x y D = some (B, D') ∧ SysRep p B VPf VG VE VL ∧
      D' = { D with yl := D'.yl, yu := D'.yu } ∧ D'.yl.size = p.m ∧ D'.yu.size = p.m ∧ Holds D'.yl p.m p.yl ∧ Holds D'.yu p.m p.yu := by
  unfold buildSys
  obtain ⟨il, e1, sil, hil⟩ := newFrom_holds hs.ineqL
  obtain ⟨iu, e2, siu, hiu⟩ := newFrom_holds hs.ineqU
  obtain ⟨ie, e3, sie, hie⟩ := newFrom_holds hs.eq
  have hAm := h.Am
  have hAn := h.An
  obtain ⟨Al, Wl, e4, r4, m4, n4, z4, f4⟩ := select h.A (LoRow p.l p.u) (rows := il) (by rw [hAm]; exact hil)
  obtain ⟨Al', e5, s5⟩ := c37_scale r4 (-1)
  obtain ⟨Wl', r5, m5, n5, _, z5, f5⟩ := s5.rep
  have z5' := scale_nzmax e5
  obtain ⟨Au, Wu, e6, r6, m6, n6, z6, f6⟩ := select h.A (UpRow p.l p.u) (rows := iu) (by rw [hAm]; exact hiu)
  obtain ⟨G, VG, e7, r7, m7, n7, _, _, _, g7, k7⟩ := c38_vstack r5 r6 (by rw [n5, n4, n6]) (by rw [z5', z4, z5]) (by rw [z6])
  obtain ⟨Ae, We, e8, r8, m8, n8, z8, f8⟩ := select h.A (EqRow p.l p.u) (rows := ie) (by rw [hAm]; exact hie)
  obtain ⟨z, e9, s9, h9⟩ := vecSet_holds (y := (Buf.fresh (p.m : ℤ) : Buf K)) (n := p.m) (by rw [fresh_size]) 0
  obtain ⟨yu, e10, s10, h10⟩ := ewVec_holds (c := D.yu) cMax hy hys h9 (by omega)
  obtain ⟨yl, e11, s11, h11⟩ := ewVec_holds (c := D.yl) cMin hy hys h9 (by omega)
  obtain ⟨yl', e12, s12, h12⟩ := multScalar_holds h11 (by omega) (-1)
  have hYu : Holds yu p.m p.yu := h10.congr fun r _ => cMax_eq _ _
  have hYl : Holds yl' p.m p.yl := h12.congr fun r _ => by
    rw [cMin_eq, Prob.yl]
    rcases le_total (p.y r) 0 with h0 | h0
    · rw [min_eq_left h0, max_eq_left (by linarith)]; ring
    · rw [min_eq_right h0, max_eq_right (by linarith)]; ring
  obtain ⟨yli, e13, s13, h13⟩ := subByRows_holds (LoRow p.l p.u) hil sil hYl
  obtain ⟨yui, e14, s14, h14⟩ := subByRows_holds (UpRow p.l p.u) hiu siu hYu
  obtain ⟨lam, e15, s15, c15, d15⟩ := concat_holds h13 s13 h14 s14
  obtain ⟨li, e16, s16, h16⟩ := subByRows_holds (LoRow p.l p.u) hil sil h.l
  obtain ⟨li', e17, s17, h17⟩ := multScalar_holds h16 s16 (-1)
  obtain ⟨ui, e18, s18, h18⟩ := subByRows_holds (UpRow p.l p.u) hiu siu h.u
  obtain ⟨hh, e19, s19, c19, d19⟩ := concat_holds h17 s17 h18 s18
  have hnl : idx (LoRow p.l p.u) p.m = p.nl := rfl
  have hnu : idx (UpRow p.l p.u) p.m = p.nu := rfl
  have hne : idx (EqRow p.l p.u) p.m = p.ne := rfl
  simp only [hAm, hAn, hnl, hnu, hne] at m4 n4 f4 m6 n6 f6 m8 n8 f8 c15 d15 c19 d19 s15 s19 m7 n7 g7 k7
  have hGm : VG.m = p.nl + p.nu := by rw [m7, m5, m4, m6]
  have hGn : VG.n = p.n := by rw [n7, n5, n4]
  have hH : Holds hh (p.nl + p.nu) (fun k => if k < p.nl then p.l (p.lo k) * -1 else p.u (p.up (k - p.nl))) := by
    refine ⟨by omega, fun k hk => ?_⟩
    show hh.cell k = some (if k < p.nl then p.l (p.lo k) * -1 else p.u (p.up (k - p.nl)))
    by_cases h1 : k < p.nl
    · rw [c19 k h1, if_pos h1]; rfl
    · rw [if_neg h1]
      have := d19 (k - p.nl) (by omega)
      rw [show p.nl + (k - p.nl) = k by omega] at this
      rw [this]; rfl
  have hLam : Holds lam (p.nl + p.nu) p.gLam := by
    refine ⟨by omega, fun k hk => ?_⟩
    unfold Prob.gLam
    by_cases h1 : k < p.nl
    · rw [c15 k h1, if_pos h1]; rfl
    · rw [if_neg h1]
      have := d15 (k - p.nl) (by omega)
      rw [show p.nl + (k - p.nl) = k by omega] at this
      rw [this]; rfl
  obtain ⟨sl, e20, s20, h20⟩ := newFrom_holds (a := hh) (n := hh.size) (f := fun k => if k < p.nl then p.l (p.lo k) * -1 else p.u (p.up (k - p.nl))) (by rw [s19]; exact hH)
  rw [s19] at s20 h20
  have hGe : ∀ k < p.nl + p.nu, ∀ c < p.n, VG.entry k c = p.gA k c := by
    intro k hk c hc
    unfold Prob.gA
    by_cases h1 : k < p.nl
    · rw [if_pos h1, g7 k (by rw [m5, m4]; exact h1) c (by rw [n5, n4]; exact hc), f5 k c (by rw [n4]; exact hc), f4 k h1 c hc, h.Ae _ ?_ c hc]
      · rw [neg_one_mul]; rfl
      · exact (nth_spec (LoRow p.l p.u) h1).1
    · rw [if_neg h1]
      have := k7 (k - p.nl) (by rw [m6]; omega) c (by rw [n5, n4]; exact hc)
      rw [m5, m4, show p.nl + (k - p.nl) = k by omega] at this
      have hk' : k - p.nl < p.nu := by omega
      rw [this, f6 _ hk' c hc, h.Ae _ ?_ c hc]
      · rfl
      · exact (nth_spec (UpRow p.l p.u) hk').1
  obtain ⟨sl', e21, h21⟩ := c36_axpy r7 (x := x) (y := sl) 1 (-1) (X := p.x) (Y := fun k => if k < p.nl then p.l (p.lo k) * -1 else p.u (p.up (k - p.nl)))
    (by rw [hGn]; exact hx) (by rw [hGm, s20]) (Or.inr (by rw [hGm]; exact h20))
  rw [hGm, hGn] at h21
  have hS : Holds sl' (p.nl + p.nu) p.gS := h21.congr fun k hk => by
    unfold Prob.gS
    rw [one_mul]
    have hsum : ∑ c ∈ range p.n, VG.entry k c * p.x c = ∑ c ∈ range p.n, p.gA k c * p.x c :=
      sum_congr rfl fun c hc => by rw [hGe k hk c (mem_range.1 hc)]
    rw [hsum]
    unfold Prob.gA Prob.Ax
    by_cases h1 : k < p.nl
    · simp only [if_pos h1]
      rw [show (∑ c ∈ range p.n, -p.A (p.lo k) c * p.x c) = -∑ c ∈ range p.n, p.A (p.lo k) c * p.x c by
        rw [← sum_neg_distrib]; exact sum_congr rfl fun c _ => by ring]
      ring
    · simp only [if_neg h1]; ring
  obtain ⟨GL, e22, r22, _⟩ := copy_aux r7
  obtain ⟨GL', e23, s23⟩ := c37_lmult r22 (d := lam) (D := p.gLam) (by rw [hGm]; exact hLam)
  obtain ⟨VL, r23, m23, n23, _, z23, f23⟩ := s23.rep
  obtain ⟨Pf, VPf, e24, r24, m24, n24, _, _, _, f24⟩ := c38_symmetrise h.P (by rw [h.Pm, h.Pn]) h.triu
  rw [h.Pn] at m24 n24 f24
  refine ⟨⟨Pf, G, Ae, GL', sl'⟩, { D with yl := yl', yu := yu }, VPf, VG, We, VL, ?_, ?_, rfl, s12, by show yu.size = _; omega, hYl, hYu⟩
  · exact bindEq e1 <| bindEq e4 <| bindEq e5 <| bindEq e2 <| bindEq e6 <| bindEq e7 <| bindEq rfl <| bindEq e3 <| bindEq e8 <| bindEq e9 <| bindEq e10 <| bindEq e11 <|
      bindEq e12 <| bindEq e13 <| bindEq e14 <| bindEq e15 <| bindEq e16 <| bindEq e17 <| bindEq e18 <| bindEq e19 <| bindEq e20 <| bindEq e21 <| bindEq e22 <|
      bindEq e23 <| bindEq e24 <| bindEq rfl rfl
  · refine ⟨r24, r7, r8, r23, m24, n24, hGm, hGn, m8, n8, by rw [m23, hGm], by rw [n23, hGn], z23, ?_, hGe, ?_, ?_, hS⟩
    · intro i hi j hj; rw [f24 i hi j hj, h.Pe i hi j hj]
    · intro k hk c hc
      rw [f8 k hk c hc, h.Ae _ (nth_spec (EqRow p.l p.u) hk).1 c hc]; rfl
    · intro k hk c hc
      rw [f23 k c (by rw [hGn]; exact hc), hGe k hk c hc]

end Osqp.Csc
