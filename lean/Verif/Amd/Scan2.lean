import Verif.Amd.Hash

/-!
# The second scan: the list of one variable

The dead and the absorbed elements, and the variables of the new element, leave the list of variable `i`.
-/

namespace Osqp.Amd
open Csc Finset
set_option linter.unusedSectionVars false

variable {n iwlen L0 lemax pfree me nel pme1 pme2 degme wflg : ℤ} {M M0 : Mem} {D U S : Finset ℤ}

/-- What is needed of the list of `i`. -/
structure Row (n iwlen pfree i : ℤ) (M : Mem) : Prop where
  v : isVar n M i
  fP : Full M.Pe n
  fL : Full M.Len n
  fNv : Full M.Nv n
  fE : Full M.Elen n
  fW : Full M.W n
  fD : Full M.Degree n
  fI : Full M.Iw pfree
  sI : (M.Iw.size : ℤ) = iwlen
  pf : pfree ≤ iwlen
  rng : ∀ p, 0 ≤ p → p < pfree → 0 ≤ M.Iw p ∧ M.Iw p < n
  p0 : 0 ≤ M.Pe i
  el : M.Elen i ≤ M.Len i
  le : M.Pe i + M.Len i ≤ pfree
  nodup : ∀ k l, 0 ≤ k → k < M.Elen i → 0 ≤ l → l < M.Elen i → ent M i k = ent M i l → k = l
  elt : ∀ e, inE M i e → M.Elen e < -1
  d0 : 0 ≤ M.Degree i

theorem Core.row (h : Core n iwlen L0 lemax pfree me nel M D U) {i : ℤ} (hi : isVar n M i) : Row n iwlen pfree i M := by
  have a := h.kvar i hi
  exact ⟨hi, h.fP, h.fL, h.fNv, h.fE, h.fW, h.fD, h.fI, h.sI, h.pf.2, h.rng, a.2.1, a.2.2.2.1, h.le i hi.1 hi.2.1 a.2.1, h.nodup i hi, fun e he => (h.eE i e hi he).2.2, a.2.2.2.2⟩

/-- Elements absorbed into the new one. -/
def Kill (wflg i : ℤ) (M : Mem) (y : ℤ) : Prop := inE M i y ∧ M.W y ≠ 0 ∧ M.W y ≤ wflg

/-- The first `q` entries of the list of `i` have been seen. -/
structure ScE (n iwlen pfree me wflg i : ℤ) (M0 : Mem) (p : ℤ) (r : Scan) (KE : Finset ℤ) : Prop where
  eq : r.M = { M0 with Pe := r.M.Pe, Iw := r.M.Iw, W := r.M.W }
  fP : Full r.M.Pe n
  fW : Full r.M.W n
  fI : Full r.M.Iw pfree
  sI : (r.M.Iw.size : ℤ) = iwlen
  rng : ∀ p, 0 ≤ p → p < pfree → 0 ≤ r.M.Iw p ∧ r.M.Iw p < n
  pn : M0.Pe i ≤ r.pn ∧ r.pn ≤ p
  seg : Seg r.M.Iw (M0.Pe i) r.pn KE
  kept : ∀ y, y ∈ KE ↔ (∃ k, 0 ≤ k ∧ M0.Pe i + k < p ∧ ent M0 i k = y) ∧ wflg < M0.W y
  iw : ∀ q, q < M0.Pe i ∨ p ≤ q → r.M.Iw q = M0.Iw q
  dead : ∀ y, (∃ k, 0 ≤ k ∧ M0.Pe i + k < p ∧ ent M0 i k = y) → M0.W y ≠ 0 → M0.W y ≤ wflg → r.M.Pe y = flip me ∧ r.M.W y = 0
  live : ∀ y, ¬ ((∃ k, 0 ≤ k ∧ M0.Pe i + k < p ∧ ent M0 i k = y) ∧ M0.W y ≠ 0 ∧ M0.W y ≤ wflg) → r.M.Pe y = M0.Pe y ∧ r.M.W y = M0.W y
  drop : (∃ k, 0 ≤ k ∧ M0.Pe i + k < p ∧ M0.W (ent M0 i k) = 0) → r.pn < p
  deg : 0 ≤ r.deg

theorem scanElems_ok {i : ℤ} (R : Row n iwlen pfree i M0) (hw : 2 ≤ wflg) (lim : ℤ) {s0 : Scan} (h0 : s0.M = M0) (h1 : s0.pn = M0.Pe i) (h2 : s0.deg = 0) :
    Ens (forI (M0.Pe i) (M0.Pe i + M0.Elen i) (scanElems me wflg lim) s0) (fun r => ∃ KE, ScE n iwlen pfree me wflg i M0 (M0.Pe i + M0.Elen i) r KE) := by
  obtain ⟨i0, i1, i2⟩ := R.v
  refine Ens.forI (fun p r => ∃ KE, ScE n iwlen pfree me wflg i M0 p r KE) (by omega) ⟨∅, ?_⟩ (fun p r p0 p1 hI => ?_)
  · have z : ∀ y, ¬ ∃ k, 0 ≤ k ∧ M0.Pe i + k < M0.Pe i ∧ ent M0 i k = y := fun y ⟨k, k0, k1, _⟩ => by omega
    refine ⟨by rw [h0], by rw [h0]; exact R.fP, by rw [h0]; exact R.fW, by rw [h0]; exact R.fI, by rw [h0]; exact R.sI, by rw [h0]; exact R.rng, by omega, by rw [h1]; exact Seg.nil _ _, fun y => ?_, fun q _ => by rw [h0],
      fun y hy => absurd hy (z y), fun y _ => by rw [h0]; exact ⟨rfl, rfl⟩, fun ⟨k, k0, k1, _⟩ => by omega, by omega⟩
    constructor
    · intro q; exact absurd q (notMem_empty _)
    · intro q; exact absurd q.1 (z y)
  · obtain ⟨KE, h⟩ := hI
    have hle := R.le
    have hel := R.el
    have hp0 := R.p0
    have hent : M0.Iw p = ent M0 i (p - M0.Pe i) := by unfold ent; rw [show M0.Pe i + (p - M0.Pe i) = p by omega]
    have hIp : r.M.Iw p = M0.Iw p := h.iw p (.inr le_rfl)
    obtain ⟨e, he⟩ : ∃ e, e = M0.Iw p := ⟨_, rfl⟩
    have er := R.rng p (by omega) (by omega)
    rw [← he] at er
    have hnew : ¬ ∃ k, 0 ≤ k ∧ M0.Pe i + k < p ∧ ent M0 i k = e := fun ⟨k, k0, k1, w⟩ => by
      have := R.nodup k (p - M0.Pe i) k0 (by omega) (by omega) (by omega) (by rw [w, he, hent])
      omega
    have hl := h.live e (fun q => hnew q.1)
    have hseen : ∀ y, (∃ k, 0 ≤ k ∧ M0.Pe i + k < p + 1 ∧ ent M0 i k = y) ↔ (∃ k, 0 ≤ k ∧ M0.Pe i + k < p ∧ ent M0 i k = y) ∨ y = e := fun y => by
      constructor
      · rintro ⟨k, k0, k1, w⟩
        by_cases c : M0.Pe i + k < p
        · exact .inl ⟨k, k0, c, w⟩
        · right; rw [he, hent, ← w, show p - M0.Pe i = k by omega]
      · rintro (⟨k, k0, k1, w⟩ | w)
        · exact ⟨k, k0, by omega, w⟩
        · exact ⟨p - M0.Pe i, by omega, by omega, by rw [w, he, hent]⟩
    have hpn := h.pn
    unfold scanElems
    refine Ens.rd h.fI (by omega) (by omega) ?_
    rw [hIp, ← he]
    refine Ens.rd h.fW er.1 er.2 ?_
    rw [hl.2]
    have sIw := h.sI
    have sP := h.fP.1
    have sW := h.fW.1
    by_cases c : M0.W e ≠ 0
    · rw [if_pos c]
      by_cases c2 : M0.W e - wflg > 0
      · rw [if_pos c2]
        refine Ens.wIw (by omega) (by have := R.pf; omega) (Ens.pure ⟨insert e KE, ?_⟩)
        have eK : e ∉ KE := fun q => hnew ((h.kept e).mp q).1
        refine ⟨by dsimp only; rw [h.eq], h.fP, h.fW, h.fI.upd _ _, sIw, fun q q0 q1 => ?_, by dsimp only; omega, ?_, fun y => ?_, fun q hq => ?_, fun y hy w1 w2 => ?_, fun y hy => ?_, fun ⟨k, k0, k1, w⟩ => ?_, by dsimp only; have := h.deg; omega⟩
        · dsimp only; rw [upd_at _ (by omega)]
          split_ifs
          · exact er
          · exact h.rng q q0 q1
        · exact h.seg.snoc eK (upd_same _ (by omega)) (fun q q0 q1 => upd_ne _ (by omega) (by omega))
        · rw [mem_insert, h.kept, hseen]
          constructor
          · rintro (rfl | q)
            · exact ⟨.inr rfl, by omega⟩
            · exact ⟨.inl q.1, q.2⟩
          · rintro ⟨q | q, w⟩
            · exact .inr ⟨q, w⟩
            · exact .inl q
        · dsimp only; rw [upd_ne _ (by omega) (by omega)]; exact h.iw q (by omega)
        · rw [hseen] at hy
          rcases hy with hy | rfl
          · exact h.dead y hy w1 w2
          · omega
        · rw [hseen] at hy
          exact h.live y (fun q => hy ⟨.inl q.1, q.2⟩)
        · have : M0.Pe i + k < p := by
            by_contra q
            rw [show k = p - M0.Pe i by omega, ← hent, ← he] at w; exact c w
          have := h.drop ⟨k, k0, this, w⟩
          dsimp only; omega
      · rw [if_neg c2]
        refine Ens.wPe er.1 (by omega) (Ens.wW er.1 (by dsimp only; omega) (Ens.pure ⟨KE, ?_⟩))
        refine ⟨by dsimp only; rw [h.eq], h.fP.upd _ _, h.fW.upd _ _, h.fI, sIw, h.rng, by dsimp only; omega, h.seg, fun y => ?_, fun q hq => h.iw q (by omega), fun y hy w1 w2 => ?_, fun y hy => ?_, fun ⟨k, k0, k1, w⟩ => ?_, h.deg⟩
        · rw [h.kept, hseen]
          constructor
          · rintro q; exact ⟨.inl q.1, q.2⟩
          · rintro ⟨q | q, w⟩
            · exact ⟨q, w⟩
            · subst q; omega
        · dsimp only
          by_cases ye : y = e
          · subst ye; rw [upd_same _ er.1, upd_same _ er.1]; exact ⟨rfl, rfl⟩
          · rw [upd_ne _ er.1 ye, upd_ne _ er.1 ye]
            rw [hseen] at hy
            exact h.dead y (hy.resolve_right ye) w1 w2
        · dsimp only
          rw [hseen] at hy
          have ye : y ≠ e := by rintro rfl; exact hy ⟨.inr rfl, c, by omega⟩
          rw [upd_ne _ er.1 ye, upd_ne _ er.1 ye]
          exact h.live y (fun q => hy ⟨.inl q.1, q.2⟩)
        · dsimp only; omega
    · rw [if_neg c]
      refine Ens.pure ⟨KE, ?_⟩
      have c' : M0.W e = 0 := by simpa using c
      refine ⟨h.eq, h.fP, h.fW, h.fI, sIw, h.rng, by omega, h.seg, fun y => ?_, fun q hq => h.iw q (by omega), fun y hy w1 w2 => ?_, fun y hy => ?_, fun ⟨k, k0, k1, w⟩ => by omega, h.deg⟩
      · rw [h.kept, hseen]
        constructor
        · rintro q; exact ⟨.inl q.1, q.2⟩
        · rintro ⟨q | q, w⟩
          · exact ⟨q, w⟩
          · subst q; omega
      · rw [hseen] at hy
        rcases hy with hy | rfl
        · exact h.dead y hy w1 w2
        · exact absurd c' w1
      · rw [hseen] at hy
        exact h.live y (fun q => hy ⟨.inl q.1, q.2⟩)

/-- After both loops: the elements kept are at `Pe i .. p3 - 1`, the variables kept at `p3 .. pn - 1`. -/
structure ScV (n iwlen pfree me wflg i : ℤ) (M0 : Mem) (p3 p : ℤ) (r : Scan) (KE : Finset ℤ) : Prop where
  eq : r.M = { M0 with Pe := r.M.Pe, Iw := r.M.Iw, W := r.M.W, Elen := upd M0.Elen i (p3 - M0.Pe i + 1) }
  fP : Full r.M.Pe n
  fW : Full r.M.W n
  fI : Full r.M.Iw pfree
  sI : (r.M.Iw.size : ℤ) = iwlen
  rng : ∀ p, 0 ≤ p → p < pfree → 0 ≤ r.M.Iw p ∧ r.M.Iw p < n
  pn : M0.Pe i ≤ p3 ∧ p3 ≤ r.pn ∧ r.pn ≤ p
  seg : Seg r.M.Iw (M0.Pe i) p3 KE
  kept : ∀ y, y ∈ KE ↔ inE M0 i y ∧ wflg < M0.W y
  iw : ∀ q, q < M0.Pe i ∨ p ≤ q → r.M.Iw q = M0.Iw q
  dead : ∀ y, Kill wflg i M0 y → r.M.Pe y = flip me ∧ r.M.W y = 0
  live : ∀ y, ¬ Kill wflg i M0 y → r.M.Pe y = M0.Pe y ∧ r.M.W y = M0.W y
  v1 : ∀ q, p3 ≤ q → q < r.pn → (∃ k, M0.Elen i ≤ k ∧ M0.Pe i + k < p ∧ ent M0 i k = r.M.Iw q) ∧ 0 < M0.Nv (r.M.Iw q)
  v2 : ∀ k, M0.Elen i ≤ k → M0.Pe i + k < p → 0 < M0.Nv (ent M0 i k) → ∃ q, p3 ≤ q ∧ q < r.pn ∧ r.M.Iw q = ent M0 i k
  drop : ((∃ k, 0 ≤ k ∧ k < M0.Elen i ∧ M0.W (ent M0 i k) = 0) ∨ ∃ k, M0.Elen i ≤ k ∧ M0.Pe i + k < p ∧ M0.Nv (ent M0 i k) ≤ 0) → r.pn < p
  deg : 0 ≤ r.deg

theorem scanVars_ok {i : ℤ} (R : Row n iwlen pfree i M0) (lim : ℤ) {r : Scan} {KE : Finset ℤ} (h : ScE n iwlen pfree me wflg i M0 (M0.Pe i + M0.Elen i) r KE) :
    Ens (forI (M0.Pe i + M0.Elen i) (M0.Pe i + M0.Len i) (scanVars lim) { r with M := { r.M with Elen := upd r.M.Elen i (r.pn - M0.Pe i + 1) } })
      (fun r' => ScV n iwlen pfree me wflg i M0 r.pn (M0.Pe i + M0.Len i) r' KE) := by
  obtain ⟨i0, i1, i2⟩ := R.v
  have hle := R.le
  have hel := R.el
  have hp0 := R.p0
  have hE : r.M.Elen = M0.Elen := by rw [h.eq]
  have hs : ∀ y, (∃ k, 0 ≤ k ∧ M0.Pe i + k < M0.Pe i + M0.Elen i ∧ ent M0 i k = y) ↔ inE M0 i y := fun y =>
    ⟨fun ⟨k, k0, k1, w⟩ => ⟨k, k0, by omega, w⟩, fun ⟨k, k0, k1, w⟩ => ⟨k, k0, by omega, w⟩⟩
  refine Ens.forI (fun p r' => ScV n iwlen pfree me wflg i M0 r.pn p r' KE) (by omega) ?_ (fun p r' p0 p1 g => ?_)
  · have hpn := h.pn
    refine ⟨?_, h.fP, h.fW, h.fI, h.sI, h.rng, by dsimp only; omega, h.seg, fun y => by rw [h.kept, hs], h.iw, fun y hy => h.dead y ((hs y).mpr hy.1) hy.2.1 hy.2.2, fun y hy => h.live y (by rw [hs]; exact hy),
      fun q q0 q1 => by dsimp only at q1; omega, fun k k0 k1 => by omega, fun q => ?_, h.deg⟩
    · dsimp only; rw [hE, h.eq]
    · rcases q with ⟨k, k0, k1, w⟩ | ⟨k, k0, k1, _⟩
      · exact h.drop ⟨k, k0, by omega, w⟩
      · omega
  · have hent : M0.Iw p = ent M0 i (p - M0.Pe i) := by unfold ent; rw [show M0.Pe i + (p - M0.Pe i) = p by omega]
    have hIp : r'.M.Iw p = M0.Iw p := g.iw p (.inr le_rfl)
    obtain ⟨j, hj⟩ : ∃ j, j = M0.Iw p := ⟨_, rfl⟩
    have er := R.rng p (by omega) (by omega)
    rw [← hj] at er hIp hent
    have hNv : r'.M.Nv = M0.Nv := by rw [g.eq]
    have fNv : Full r'.M.Nv n := by rw [hNv]; exact R.fNv
    have hpn := g.pn
    have sIw := g.sI
    have at_p : ∀ k, M0.Pe i + k < p + 1 → ¬ M0.Pe i + k < p → ent M0 i k = j := fun k k1 q => by rw [hent, show p - M0.Pe i = k by omega]
    unfold scanVars
    refine Ens.rd g.fI (by omega) (by omega) ?_
    rw [hIp]
    refine Ens.rd fNv er.1 er.2 ?_
    rw [hNv]
    by_cases c : M0.Nv j > 0
    · rw [if_pos c]
      refine Ens.wIw (by omega) (by have := R.pf; omega) (Ens.pure ?_)
      refine ⟨by dsimp only; rw [g.eq], g.fP, g.fW, g.fI.upd _ _, sIw, fun q q0 q1 => ?_, by dsimp only; omega, ?_, g.kept, fun q hq => ?_, g.dead, g.live, fun q q0 q1 => ?_, fun k k0 k1 w => ?_, fun q => ?_, by dsimp only; have := g.deg; omega⟩
      · dsimp only; rw [upd_at _ (by omega)]
        split_ifs
        · exact er
        · exact g.rng q q0 q1
      · exact g.seg.move rfl (fun t t0 t1 => by dsimp only; exact upd_ne _ (by omega) (by omega))
      · dsimp only; rw [upd_ne _ (by omega) (by omega)]; exact g.iw q (by omega)
      · dsimp only at q1 ⊢
        by_cases e : q = r'.pn
        · subst e; rw [upd_same _ (by omega)]
          exact ⟨⟨p - M0.Pe i, by omega, by omega, hent.symm⟩, c⟩
        · rw [upd_ne _ (by omega) e]
          obtain ⟨⟨k, k0, k1, w⟩, w2⟩ := g.v1 q q0 (by omega)
          exact ⟨⟨k, k0, by omega, w⟩, w2⟩
      · dsimp only
        by_cases q : M0.Pe i + k < p
        · obtain ⟨t, t0, t1, e⟩ := g.v2 k k0 q w
          exact ⟨t, t0, by omega, by rw [upd_ne _ (by omega) (by omega)]; exact e⟩
        · exact ⟨r'.pn, by omega, by omega, by rw [upd_same _ (by omega), at_p k k1 q]⟩
      · dsimp only
        have : r'.pn < p := by
          apply g.drop
          rcases q with q | ⟨k, k0, k1, w⟩
          · exact .inl q
          · refine .inr ⟨k, k0, ?_, w⟩
            by_contra q
            rw [at_p k k1 q] at w; omega
        omega
    · rw [if_neg c]
      refine Ens.pure ⟨g.eq, g.fP, g.fW, g.fI, sIw, g.rng, by omega, g.seg, g.kept, fun q hq => g.iw q (by omega), g.dead, g.live, fun q q0 q1 => ?_, fun k k0 k1 w => ?_, fun q => by omega, g.deg⟩
      · obtain ⟨⟨k, k0, k1, w⟩, w2⟩ := g.v1 q q0 q1
        exact ⟨⟨k, k0, by omega, w⟩, w2⟩
      · refine g.v2 k k0 ?_ w
        by_contra q
        rw [at_p k k1 q] at w; omega

end Osqp.Amd
