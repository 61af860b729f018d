import Verif.Amd.Scan2

/-!
# The second scan: the new element enters the list
-/

namespace Osqp.Amd
open Csc Finset
set_option linter.unusedSectionVars false

variable {n iwlen L0 lemax pfree me nel pme1 pme2 degme wflg : ℤ} {M M0 : Mem} {D U S : Finset ℤ}

/-- The list of `i` has been updated. -/
structure Upd2 (n iwlen pfree me wflg i : ℤ) (M0 M : Mem) : Prop where
  fP : Full M.Pe n
  fL : Full M.Len n
  fE : Full M.Elen n
  fW : Full M.W n
  fD : Full M.Degree n
  fI : Full M.Iw pfree
  sI : (M.Iw.size : ℤ) = iwlen
  rng : ∀ p, 0 ≤ p → p < pfree → 0 ≤ M.Iw p ∧ M.Iw p < n
  nv : M.Nv = M0.Nv
  iw : ∀ q, q < M0.Pe i ∨ M0.Pe i + M0.Len i ≤ q → M.Iw q = M0.Iw q
  dead : ∀ y, Kill wflg i M0 y → M.Pe y = flip me ∧ M.W y = 0
  live : ∀ y, ¬ Kill wflg i M0 y → M.Pe y = M0.Pe y ∧ M.W y = M0.W y
  elen : ∀ x, x ≠ i → M.Elen x = M0.Elen x
  len : ∀ x, x ≠ i → M.Len x = M0.Len x
  deg : ∀ x, x ≠ i → M.Degree x = M0.Degree x
  el : 0 < M.Elen i ∧ M.Elen i ≤ M.Len i ∧ M.Len i ≤ M0.Len i
  d0 : 0 ≤ M.Degree i
  first : ent M i 0 = me
  inE' : ∀ y, inE M i y ↔ y = me ∨ (inE M0 i y ∧ wflg < M0.W y)
  nodup : ∀ k l, 0 ≤ k → k < M.Elen i → 0 ≤ l → l < M.Elen i → ent M i k = ent M i l → k = l
  inV' : ∀ y, inV M i y ↔ inV M0 i y ∧ 0 < M0.Nv y

theorem addElem_ok {i : ℤ} (R : Row n iwlen pfree i M0) {r : Scan} {KE : Finset ℤ} {p3 : ℤ} (h : ScV n iwlen pfree me wflg i M0 p3 (M0.Pe i + M0.Len i) r KE) (m0 : 0 ≤ me) (m1 : me < n) (hmE : ¬ inE M0 i me)
    (hno : ¬ (p3 - M0.Pe i + 1 = 1 ∧ p3 = r.pn)) (hroom : r.pn < M0.Pe i + M0.Len i)
    {lk mb : ℤ → Prop} {bl : ℤ → List ℤ} (hN : Full M0.Next n) (hL : Full M0.Last n) (hH : Full M0.Head n) (hh : Hash n M0.Next M0.Last M0.Head M0.Degree lk mb bl) (hi : ¬ lk i) (hm : ¬ mb i) :
    Ens (addElem n me i (M0.Pe i) p3 r) (fun M => Upd2 n iwlen pfree me wflg i M0 M ∧ Full M.Next n ∧ Full M.Last n ∧ Full M.Head n ∧
      ∃ bl', Hash n M.Next M.Last M.Head M.Degree lk (fun x => mb x ∨ x = i) bl') := by
  obtain ⟨i0, i1, i2⟩ := R.v
  have hpn := h.pn
  have hle := R.le
  have hp0 := R.p0
  have hpf := R.pf
  have sIw := h.sI
  have zD : r.M.Degree = M0.Degree := by rw [h.eq]
  have zL : r.M.Len = M0.Len := by rw [h.eq]
  have zN : r.M.Nv = M0.Nv := by rw [h.eq]
  have zE : r.M.Elen = upd M0.Elen i (p3 - M0.Pe i + 1) := by rw [h.eq]
  have z1 : r.M.Next = M0.Next := by rw [h.eq]
  have z2 : r.M.Last = M0.Last := by rw [h.eq]
  have z3 : r.M.Head = M0.Head := by rw [h.eq]
  have fD : Full r.M.Degree n := by rw [zD]; exact R.fD
  have fL : Full r.M.Len n := by rw [zL]; exact R.fL
  have sD := fD.1
  have sL := fL.1
  unfold addElem
  refine Ens.rd fD i0 i1 (Ens.wDegree i0 (by omega) (Ens.rd h.fI (by omega) (by omega) (Ens.wIw (by omega) (by dsimp only; omega) ?_)))
  refine Ens.rd (h.fI.upd _ _) (by omega) (by omega) (Ens.wIw (by omega) (by dsimp only; rw [upd_size]; omega) (Ens.wIw (by omega) (by dsimp only; rw [upd_size, upd_size]; omega) (Ens.wLen i0 (by dsimp only; omega) ?_)))
  dsimp only
  obtain ⟨I, hI⟩ : ∃ I, I = upd (upd (upd r.M.Iw r.pn (r.M.Iw p3)) p3 ((upd r.M.Iw r.pn (r.M.Iw p3)) (M0.Pe i))) (M0.Pe i) me := ⟨_, rfl⟩
  have a1 : I (M0.Pe i) = me := by rw [hI, upd_same _ hp0]
  have a2 : ∀ q, M0.Pe i < q → q < p3 → I q = r.M.Iw q := fun q q0 q1 => by rw [hI, upd_ne _ hp0 (by omega), upd_ne _ (by omega) (by omega), upd_ne _ (by omega) (by omega)]
  have a3 : M0.Pe i < p3 → I p3 = r.M.Iw (M0.Pe i) := fun q => by rw [hI, upd_ne _ hp0 (by omega), upd_same _ (by omega), upd_ne _ (by omega) (by omega)]
  have a4 : ∀ q, p3 < q → q < r.pn → I q = r.M.Iw q := fun q q0 q1 => by rw [hI, upd_ne _ hp0 (by omega), upd_ne _ (by omega) (by omega), upd_ne _ (by omega) (by omega)]
  have a5 : p3 < r.pn → I r.pn = r.M.Iw p3 := fun q => by rw [hI, upd_ne _ hp0 (by omega), upd_ne _ (by omega) (by omega), upd_same _ (by omega)]
  have a6 : ∀ q, q < M0.Pe i ∨ r.pn < q → I q = r.M.Iw q := fun q w => by rw [hI, upd_ne _ hp0 (by omega), upd_ne _ (by omega) (by omega), upd_ne _ (by omega) (by omega)]
  rw [← hI]
  have fI : Full I pfree := by rw [hI]; exact ((h.fI.upd _ _).upd _ _).upd _ _
  have sI : (I.size : ℤ) = iwlen := by rw [hI, upd_size, upd_size, upd_size]; exact sIw
  clear hI
  obtain ⟨M1, hM1⟩ : ∃ M1 : Mem, M1 = { r.M with Degree := upd r.M.Degree i (min (r.M.Degree i) r.deg), Iw := I, Len := upd r.M.Len i (r.pn - M0.Pe i + 1) } := ⟨_, rfl⟩
  have hh1 : Hash n M1.Next M1.Last M1.Head M1.Degree lk mb bl := by
    rw [hM1]; dsimp only; rw [z1, z2, z3]
    exact hh.congr (fun _ => Iff.rfl) (fun _ => Iff.rfl) (fun x hx => by rw [upd_ne _ i0 (by rintro rfl; exact hi hx), zD])
  have hmod : 0 ≤ r.hash % n ∧ r.hash % n < n := ⟨Int.emod_nonneg _ (by omega), Int.emod_lt_of_pos _ (by omega)⟩
  show Ens (bucket i (r.hash % n) ({ r.M with Degree := upd r.M.Degree i (min (r.M.Degree i) r.deg), Iw := I, Len := upd r.M.Len i (r.pn - M0.Pe i + 1) } : Mem)) _
  rw [← hM1]
  have y1 : M1.Next = M0.Next := by rw [hM1]; exact z1
  have y2 : M1.Last = M0.Last := by rw [hM1]; exact z2
  have y3 : M1.Head = M0.Head := by rw [hM1]; exact z3
  refine Ens.imp (bucket_ok hh1 (by rw [y1]; exact hN) (by rw [y2]; exact hL) (by rw [y3]; exact hH) i0 i1 hi hm hmod.1 hmod.2) (fun M ⟨hr, f1, f2, f3, f4⟩ => ⟨?_, f1, f2, f3, _, f4⟩)
  have bP : M.Pe = r.M.Pe := by rw [hr.Pe, hM1]
  have bI : M.Iw = I := by rw [hr.Iw, hM1]
  have bL : M.Len = upd M0.Len i (r.pn - M0.Pe i + 1) := by rw [hr.Len, hM1, zL]
  have bE : M.Elen = upd M0.Elen i (p3 - M0.Pe i + 1) := by rw [hr.Elen, hM1, zE]
  have bD : M.Degree = upd M0.Degree i (min (M0.Degree i) r.deg) := by rw [hr.Degree, hM1, zD]
  have bW : M.W = r.M.W := by rw [hr.W, hM1]
  have iK : ¬ Kill wflg i M0 i := fun q => by have := R.elt i q.1; omega
  have pi : M.Pe i = M0.Pe i := by rw [bP]; exact (h.live i iK).1
  have eli : M.Elen i = p3 - M0.Pe i + 1 := by rw [bE, upd_same _ i0]
  have li : M.Len i = r.pn - M0.Pe i + 1 := by rw [bL, upd_same _ i0]
  have hent : ∀ k, ent M i k = I (M0.Pe i + k) := fun k => by unfold ent; rw [bI, pi]
  refine ⟨by rw [bP]; exact h.fP, by rw [bL]; exact R.fL.upd _ _, by rw [bE]; exact R.fE.upd _ _, by rw [bW]; exact h.fW, by rw [bD]; exact R.fD.upd _ _, by rw [bI]; exact fI, by rw [bI]; exact sI, fun q q0 q1 => ?_,
    by rw [hr.Nv, hM1]; exact zN, fun q hq => ?_, fun y hy => by rw [bP, bW]; exact h.dead y hy, fun y hy => by rw [bP, bW]; exact h.live y hy, fun x hx => by rw [bE, upd_ne _ i0 hx], fun x hx => by rw [bL, upd_ne _ i0 hx],
    fun x hx => by rw [bD, upd_ne _ i0 hx], by rw [eli, li]; omega, ?_, by rw [hent, add_zero]; exact a1, fun y => ?_, fun k l k0 k1 l0 l1 e => ?_, fun y => ?_⟩
  · rw [bI]
    by_cases c1 : q = M0.Pe i
    · rw [c1, a1]; exact ⟨m0, m1⟩
    · by_cases c2 : q < M0.Pe i ∨ r.pn < q
      · rw [a6 q c2]; exact h.rng q q0 q1
      · by_cases c3 : q < p3
        · rw [a2 q (by omega) c3]; exact h.rng q q0 q1
        · by_cases c4 : q = p3
          · rw [c4, a3 (by omega)]; exact h.rng _ hp0 (by omega)
          · by_cases c5 : q = r.pn
            · rw [c5, a5 (by omega)]; exact h.rng _ (by omega) (by omega)
            · rw [a4 q (by omega) (by omega)]; exact h.rng q q0 q1
  · rw [bI, a6 q (by omega)]; exact h.iw q (by omega)
  · rw [bD, upd_same _ i0]; have := h.deg; have := R.d0; omega
  · rw [← h.kept]
    unfold inE
    rw [eli]
    constructor
    · rintro ⟨k, k0, k1, w⟩
      rw [hent] at w
      by_cases c1 : k = 0
      · left; rw [c1, add_zero, a1] at w; exact w.symm
      · right
        rw [← w]
        by_cases c2 : M0.Pe i + k = p3
        · rw [c2, a3 (by omega)]; exact h.seg.mem _ le_rfl (by omega)
        · rw [a2 _ (by omega) (by omega)]; exact h.seg.mem _ (by omega) (by omega)
    · rintro (w | w)
      · exact ⟨0, le_rfl, by omega, by rw [hent, add_zero, a1, w]⟩
      · obtain ⟨q, q0, q1, e⟩ := h.seg.surj y w
        by_cases c : q = M0.Pe i
        · exact ⟨p3 - M0.Pe i, by omega, by omega, by rw [hent, show M0.Pe i + (p3 - M0.Pe i) = p3 by omega, a3 (by omega), ← e, c]⟩
        · exact ⟨q - M0.Pe i, by omega, by omega, by rw [hent, show M0.Pe i + (q - M0.Pe i) = q by omega, a2 q (by omega) q1, e]⟩
  · rw [hent, hent] at e
    rw [eli] at k1 l1
    have mE : me ∉ KE := fun q => hmE ((h.kept me).mp q).1
    have val : ∀ k, 0 ≤ k → k < p3 - M0.Pe i + 1 → k = 0 ∨ k ≠ 0 ∧ ∃ q, M0.Pe i ≤ q ∧ q < p3 ∧ I (M0.Pe i + k) = r.M.Iw q ∧ (q = M0.Pe i + k ∨ (q = M0.Pe i ∧ M0.Pe i + k = p3)) := fun k k0 k1 => by
      by_cases c : k = 0
      · exact .inl c
      · refine .inr ⟨c, ?_⟩
        by_cases c2 : M0.Pe i + k = p3
        · exact ⟨M0.Pe i, le_rfl, by omega, by rw [c2, a3 (by omega)], .inr ⟨rfl, c2⟩⟩
        · exact ⟨M0.Pe i + k, by omega, by omega, a2 _ (by omega) (by omega), .inl rfl⟩
    rcases val k k0 k1 with c | ⟨c, q, q0, q1, w, v⟩
    · rcases val l l0 l1 with c' | ⟨c', q', q0', q1', w', v'⟩
      · omega
      · rw [c, add_zero, a1, w'] at e
        exact absurd (e ▸ h.seg.mem q' q0' q1') mE
    · rcases val l l0 l1 with c' | ⟨c', q', q0', q1', w', v'⟩
      · rw [c', add_zero, a1, w] at e
        exact absurd (e ▸ h.seg.mem q q0 q1) mE
      · rw [w, w'] at e
        have := h.seg.inj q q' q0 q1 q0' q1' e
        omega
  · unfold inV
    rw [eli, li]
    constructor
    · rintro ⟨k, k0, k1, w⟩
      rw [hent] at w
      obtain ⟨q, q0, q1, e⟩ : ∃ q, p3 ≤ q ∧ q < r.pn ∧ I (M0.Pe i + k) = r.M.Iw q := by
        by_cases c : M0.Pe i + k = r.pn
        · exact ⟨p3, le_rfl, by omega, by rw [c, a5 (by omega)]⟩
        · exact ⟨M0.Pe i + k, by omega, by omega, a4 _ (by omega) (by omega)⟩
      obtain ⟨⟨t, t0, t1, s⟩, v⟩ := h.v1 q q0 q1
      rw [← e, w] at s v
      exact ⟨⟨t, t0, by omega, s⟩, v⟩
    · rintro ⟨⟨k, k0, k1, w⟩, v⟩
      obtain ⟨q, q0, q1, e⟩ := h.v2 k k0 (by omega) (by rw [w]; exact v)
      by_cases c : q = p3
      · exact ⟨r.pn - M0.Pe i, by omega, by omega, by rw [hent, show M0.Pe i + (r.pn - M0.Pe i) = r.pn by omega, a5 (by omega), ← c, e, w]⟩
      · exact ⟨q - M0.Pe i, by omega, by omega, by rw [hent, show M0.Pe i + (q - M0.Pe i) = q by omega, a4 q (by omega) q1, e, w]⟩

end Osqp.Amd
