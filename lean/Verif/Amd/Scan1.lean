import Verif.Amd.Core

/-!
# Clearing the marks, and the first scan

The first scan computes, for every element `e` of a variable of the new element, `W e = wflg + |Le \ Lme|`.
-/

namespace Osqp.Amd
open Csc Finset
set_option linter.unusedSectionVars false

variable {n iwlen L0 lemax pfree me nel pme1 pme2 degme wflg : ℤ} {M M0 : Mem} {D U S : Finset ℤ}

/-- Only `W` changes, and not where it is 0. -/
structure KeepW (n : ℤ) (M0 M : Mem) : Prop where
  eq : M = { M0 with W := M.W }
  fW : Full M.W n
  zero : ∀ x, 0 ≤ x → x < n → (M.W x = 0 ↔ M0.W x = 0)

theorem KeepW.refl (h : Full M.W n) : KeepW n M M := ⟨rfl, h, fun _ _ _ => Iff.rfl⟩

theorem KeepW.trans {M1 : Mem} (h : KeepW n M0 M) (g : KeepW n M M1) : KeepW n M0 M1 :=
  ⟨by rw [g.eq, h.eq], g.fW, fun x x0 x1 => (g.zero x x0 x1).trans (h.zero x x0 x1)⟩

theorem Core.keepW (h : Core n iwlen L0 lemax pfree me nel M0 D U) (k : KeepW n M0 M) : Core n iwlen L0 lemax pfree me nel M D U := by
  have hz := k.zero
  have hf := k.fW
  have e := k.eq
  generalize M.W = W at e hz hf
  subst e
  refine ⟨h.fP, h.fL, h.fNv, h.fE, hf, h.fD, h.fI, h.sI, h.pf, h.rng, h.len, h.le, h.disj, h.bud, h.iw, fun x hx => ?_, h.knv, fun x x0 x1 hx xm => ?_, h.kgone, h.eE, h.nodup, h.eMe, h.eLive, h.vV, h.vD, h.s1, h.s2, h.lL, h.i4, h.i5,
    fun x hx hU => ?_, h.cnt⟩
  · have a := h.kvar x hx
    exact ⟨a.1, a.2.1, fun q => a.2.2.1 ((hz x hx.1 hx.2.1).mp q), a.2.2.2⟩
  · have a := h.kelt x x0 x1 hx xm
    refine ⟨a.1, ?_⟩
    rcases a.2 with q | q
    · exact .inl ⟨q.1, fun w => q.2.1 ((hz x x0 x1).mp w), q.2.2⟩
    · exact .inr ⟨q.1, (hz x x0 x1).mpr q.2⟩
  · have a := h.kvar x hx
    rcases h.spare x hx hU with ⟨k, k0, k1, q⟩ | q
    · have r := h.ent_rng hx.1 hx.2.1 a.2.1 k0 (lt_of_lt_of_le k1 a.2.2.2.1)
      exact .inl ⟨k, k0, k1, (hz _ r.1 r.2).mpr q⟩
    · exact .inr q

theorem Me.keepW (h : Me n me pme1 pme2 degme M0 D U) (k : KeepW n M0 M) : Me n me pme1 pme2 degme M D U := by
  have hz := k.zero
  have e := k.eq
  generalize M.W = W at e hz
  subst e
  exact ⟨h.r, h.elen, h.nv, h.pe, h.p0, h.len, fun q => h.w ((hz me h.r.1 h.r.2).mp q), h.seg, h.sep, h.uvar, h.dvar, h.first, h.deg⟩

theorem clearFlag_ok (hW : Full M0.W n) (n0 : 0 ≤ n) (hlt : ∀ x, 0 ≤ x → x < n → M0.W x < wflg) (wbig : ℤ) :
    Ens (clearFlag n wbig wflg M0) (fun r => KeepW n M0 r.2 ∧ 2 ≤ r.1 ∧ ∀ x, 0 ≤ x → x < n → r.2.W x < r.1) := by
  unfold clearFlag
  by_cases q : wflg < 2 ∨ wflg ≥ wbig
  · rw [if_pos q]
    refine Ens.bind (Ens.forI (fun k M => KeepW n M0 M ∧ ∀ x, 0 ≤ x → x < k → M.W x < 2) n0 ⟨KeepW.refl hW, fun x x0 x1 => by omega⟩ (fun k M k0 k1 hI => ?_)) (fun M hM => Ens.pure ⟨hM.1, le_refl _, hM.2⟩)
    unfold clearEntry
    refine Ens.rd hI.1.fW k0 k1 ?_
    by_cases z : M.W k ≠ 0
    · rw [if_pos z]
      refine Ens.last (Ens.wW k0 (by have := hI.1.fW.1; omega) (Ens.some ⟨⟨?_, hI.1.fW.upd _ _, fun x x0 x1 => ?_⟩, fun x x0 x1 => ?_⟩))
      · rw [hI.1.eq]
      · dsimp only
        rw [upd_at _ k0]
        split_ifs with e
        · rw [e]; have := (hI.1.zero k k0 k1).not.mp z; constructor
          · intro w; omega
          · intro w; exact absurd w this
        · exact hI.1.zero x x0 x1
      · dsimp only
        rw [upd_at _ k0]
        split_ifs with e
        · omega
        · exact hI.2 x x0 (by omega)
    · rw [if_neg z]
      refine Ens.pure ⟨hI.1, fun x x0 x1 => ?_⟩
      by_cases e : x = k
      · rw [e]; have : M.W k = 0 := by simpa using z
        omega
      · exact hI.2 x x0 (by omega)
  · rw [if_neg q]
    exact Ens.pure ⟨KeepW.refl hW, by dsimp only; omega, hlt⟩

/-- The state of the first scan: `seen x e` if `e` has been met in the list of `x`. -/
structure Seen1 (n wflg : ℤ) (M0 M : Mem) (seen : ℤ → ℤ → Prop) : Prop where
  eq : M = { M0 with W := M.W }
  fW : Full M.W n
  zero : ∀ e, 0 ≤ e → e < n → M0.W e = 0 → M.W e = 0
  met : ∀ e, 0 ≤ e → e < n → M0.W e ≠ 0 → (∃ x, seen x e) → M.W e = wflg + M0.Degree e - wsum n (fun x => seen x e) (fun x => av (M0.Nv x))
  other : ∀ e, 0 ≤ e → e < n → (¬ ∃ x, seen x e) → M.W e = M0.W e
  sub : ∀ x e, seen x e → isVar n M0 x ∧ inE M0 x e

/-- What the first scan leaves. -/
structure Done1 (n lemax wflg : ℤ) (M : Mem) (S : Finset ℤ) : Prop where
  wlt : ∀ x, 0 ≤ x → x < n → M.W x < wflg + lemax
  key : ∀ i ∈ S, ∀ e x, inE M i e → isVar n M x → inE M x e → M.W e ≠ 0 → M.W e ≤ wflg → x ∈ S

theorem Seen1.congr {seen seen' : ℤ → ℤ → Prop} (h : Seen1 n wflg M0 M seen) (he : ∀ x e, seen' x e ↔ seen x e) : Seen1 n wflg M0 M seen' := by
  have : seen' = seen := by funext x e; exact propext (he x e)
  rw [this]; exact h

/-- One element met in the list of variable `i`. -/
theorem scan1Elem_ok (C : Core n iwlen L0 lemax pfree me nel M0 ∅ S) (hlt : ∀ x, 0 ≤ x → x < n → M0.W x < wflg) (hw : 2 ≤ wflg) {seen : ℤ → ℤ → Prop} (h : Seen1 n wflg M0 M seen) {i p : ℤ} (hi : isVar n M0 i)
    (hiS : i ∈ S) (p0 : 0 ≤ p) (p1 : p < pfree) (hin : inE M0 i (M0.Iw p)) (hns : ¬ seen i (M0.Iw p)) :
    Ens (scan1Elem wflg (-M0.Nv i) p M) (fun M' => Seen1 n wflg M0 M' (fun x e => seen x e ∨ (x = i ∧ e = M0.Iw p))) := by
  obtain ⟨e, he⟩ : ∃ e, e = M0.Iw p := ⟨_, rfl⟩
  rw [← he] at hin hns ⊢
  have hE := C.eE i e hi hin
  have em : e ≠ me := by
    rintro rfl
    exact absurd ((C.eMe i hi).mp hin) (notMem_empty _)
  have hIw : M.Iw = M0.Iw := by rw [h.eq]
  have hDg : M.Degree = M0.Degree := by rw [h.eq]
  have hnv : M0.Nv i < 0 := (C.knv i hi).mpr (.inr hiS)
  have fI : Full M.Iw pfree := by rw [hIw]; exact C.fI
  have fD : Full M.Degree n := by rw [hDg]; exact C.fD
  unfold scan1Elem
  refine Ens.rd fI p0 p1 ?_
  rw [hIw, ← he]
  refine Ens.rd h.fW hE.1 hE.2.1 ?_
  -- the weight of `e` grows by that of `i`
  have hsum : wsum n (fun x => seen x e ∨ (x = i ∧ e = e)) (fun x => av (M0.Nv x)) = wsum n (fun x => seen x e) (fun x => av (M0.Nv x)) + -M0.Nv i := by
    have := wsum_add (p := fun x => seen x e) (p' := fun x => seen x e ∨ (x = i ∧ e = e)) (f := fun x => av (M0.Nv x)) (f' := fun x => av (M0.Nv x)) hi.1 hi.2.1 hns (fun x _ _ => by tauto) (fun _ _ _ _ => rfl)
    rw [this, av_neg hnv]
  have fin : ∀ v, (M0.W e = 0 → v = 0) → (M0.W e ≠ 0 → v = wflg + M0.Degree e - (wsum n (fun x => seen x e) (fun x => av (M0.Nv x)) + -M0.Nv i)) →
      Ens (M.wW e v) (fun M' => Seen1 n wflg M0 M' (fun x y => seen x y ∨ (x = i ∧ y = e))) := fun v h0 h1 => by
    refine Ens.last (Ens.wW hE.1 (by have := h.fW.1; omega) (Ens.some ⟨by rw [h.eq], h.fW.upd _ _, fun y y0 y1 hy => ?_, fun y y0 y1 hy hx => ?_, fun y y0 y1 hx => ?_, fun x y q => ?_⟩))
    · dsimp only
      rw [upd_at _ hE.1]
      split_ifs with q
      · exact h0 (by rw [← q]; exact hy)
      · exact h.zero y y0 y1 hy
    · dsimp only
      rw [upd_at _ hE.1]
      split_ifs with q
      · subst q; rw [hsum]; exact h1 hy
      · have e1 : (fun x => seen x y ∨ (x = i ∧ y = e)) = fun x => seen x y := by
          funext x; apply propext; tauto
        rw [e1]
        refine h.met y y0 y1 hy ?_
        obtain ⟨x, w | w⟩ := hx
        · exact ⟨x, w⟩
        · exact absurd w.2 q
    · dsimp only
      rw [upd_ne _ hE.1 (by rintro rfl; exact hx ⟨i, .inr ⟨rfl, rfl⟩⟩)]
      exact h.other y y0 y1 (fun ⟨x, w⟩ => hx ⟨x, .inl w⟩)
    · rcases q with q | ⟨rfl, rfl⟩
      · exact h.sub x y q
      · exact ⟨hi, hin⟩
  by_cases z : M0.W e = 0
  · have hz := h.zero e hE.1 hE.2.1 z
    rw [if_neg (by rw [hz]; omega), if_neg (by rw [hz]; simp), hz]
    exact fin 0 (fun _ => rfl) (fun q => absurd z q)
  · have live : isElt n M0 e := by
      refine ⟨hE.1, hE.2.1, hE.2.2, ?_⟩
      rcases (C.kelt e hE.1 hE.2.1 hE.2.2 em).2 with q | q
      · exact q.1
      · exact absurd q.2 z
    by_cases sn : ∃ x, seen x e
    · have hW := h.met e hE.1 hE.2.1 z sn
      have : wsum n (fun x => seen x e) (fun x => av (M0.Nv x)) ≤ M0.Degree e :=
        le_trans (wsum_mono (fun x _ _ q => h.sub x e q) (fun x _ _ => av_nonneg _) fun _ _ _ _ => le_refl _) (C.i5 e live em)
      rw [if_pos (by rw [hW]; omega)]
      exact fin _ (fun q => absurd q z) (fun _ => by rw [hW]; ring)
    · have hW := h.other e hE.1 hE.2.1 sn
      have hl := hlt e hE.1 hE.2.1
      have h0 : wsum n (fun x => seen x e) (fun x => av (M0.Nv x)) = 0 := by
        classical
        unfold wsum
        refine sum_eq_zero fun x _ => if_neg fun q => sn ⟨x, q⟩
      rw [if_neg (by rw [hW]; omega), if_pos (by rw [hW]; exact z)]
      refine Ens.rd fD hE.1 hE.2.1 ?_
      rw [hDg]
      exact fin _ (fun q => absurd q z) (fun _ => by rw [h0]; ring)

theorem scan1_ok (C : Core n iwlen L0 lemax pfree me nel M0 ∅ S) (E : Me n me pme1 pme2 degme M0 ∅ S) (hp : pme2 + 1 ≤ pfree) (hlt : ∀ x, 0 ≤ x → x < n → M0.W x < wflg) (hw : 2 ≤ wflg) (hl0 : 0 ≤ lemax) :
    Ens (forI pme1 (pme2 + 1) (scan1Entry wflg) M0) (fun M => KeepW n M0 M ∧ Done1 n lemax wflg M S) := by
  have seg : Seg M0.Iw pme1 (pme2 + 1) S := by have := E.seg; rwa [empty_union] at this
  have hle : pme1 ≤ pme2 + 1 := by have := seg.card; omega
  refine Ens.imp (Ens.forI (fun q M => Seen1 n wflg M0 M (fun x e => (∃ t, pme1 ≤ t ∧ t < q ∧ M0.Iw t = x) ∧ inE M0 x e)) hle ?_ (fun q M q0 q1 hI => ?_)) (fun M h => ?_)
  · refine ⟨rfl, C.fW, fun _ _ _ q => q, fun e _ _ _ ⟨x, ⟨t, t0, t1, _⟩, _⟩ => by omega, fun _ _ _ _ => rfl, fun x e ⟨⟨t, t0, t1, _⟩, _⟩ => by omega⟩
  · have hIw : M.Iw = M0.Iw := by rw [hI.eq]
    have hEl : M.Elen = M0.Elen := by rw [hI.eq]
    have hNv : M.Nv = M0.Nv := by rw [hI.eq]
    have hPe : M.Pe = M0.Pe := by rw [hI.eq]
    have fI : Full M.Iw pfree := by rw [hIw]; exact C.fI
    have fE : Full M.Elen n := by rw [hEl]; exact C.fE
    have fN : Full M.Nv n := by rw [hNv]; exact C.fNv
    have fP : Full M.Pe n := by rw [hPe]; exact C.fP
    unfold scan1Entry
    refine Ens.rd fI (by have := E.p0; omega) (by omega) ?_
    rw [hIw]
    obtain ⟨i, hi⟩ : ∃ i, i = M0.Iw q := ⟨_, rfl⟩
    have hiS : i ∈ S := by rw [hi]; exact seg.mem q q0 q1
    have hv := E.uvar i hiS
    have kv := C.kvar i hv
    have kl := C.le i hv.1 hv.2.1 kv.2.1
    rw [← hi]
    refine Ens.rd fE hv.1 hv.2.1 ?_
    rw [hEl]
    by_cases z : M0.Elen i > 0
    · rw [if_pos z]
      refine Ens.rd fN hv.1 hv.2.1 (Ens.rd fP hv.1 hv.2.1 ?_)
      rw [hNv, hPe]
      have new : ∀ t, pme1 ≤ t → t < q → M0.Iw t ≠ i := fun t t0 t1 e => by
        have := seg.inj t q t0 (by omega) q0 q1 (by rw [e, hi])
        omega
      refine Ens.imp (Ens.forI (fun p M => Seen1 n wflg M0 M (fun x e => ((∃ t, pme1 ≤ t ∧ t < q ∧ M0.Iw t = x) ∧ inE M0 x e) ∨ (x = i ∧ ∃ k, 0 ≤ k ∧ M0.Pe i + k < p ∧ ent M0 i k = e))) (by omega) ?_ (fun p M p0 p1 hJ => ?_))
        (fun M h => h.congr fun x e => ?_)
      · exact hI.congr fun x e => ⟨fun w => w.elim id fun ⟨_, k, k0, k1, _⟩ => by omega, .inl⟩
      · have hk : M0.Iw p = ent M0 i (p - M0.Pe i) := by unfold ent; rw [show M0.Pe i + (p - M0.Pe i) = p by omega]
        refine Ens.imp (scan1Elem_ok C hlt hw hJ hv hiS (by omega) (by omega) ⟨p - M0.Pe i, by omega, by omega, hk.symm⟩ ?_) (fun M h => h.congr fun x e => ?_)
        · rintro (⟨⟨t, t0, t1, w⟩, _⟩ | ⟨_, k, k0, k1, w⟩)
          · exact new t t0 t1 w
          · rw [hk] at w
            have := C.nodup i hv k (p - M0.Pe i) k0 (by omega) (by omega) (by omega) w
            omega
        · constructor
          · rintro (w | ⟨w, k, k0, k1, r⟩)
            · exact .inl (.inl w)
            · by_cases y : M0.Pe i + k < p
              · exact .inl (.inr ⟨w, k, k0, y, r⟩)
              · exact .inr ⟨w, by rw [hk, ← r, show p - M0.Pe i = k by omega]⟩
          · rintro ((w | ⟨w, k, k0, k1, r⟩) | ⟨w, r⟩)
            · exact .inl w
            · exact .inr ⟨w, k, k0, by omega, r⟩
            · exact .inr ⟨w, p - M0.Pe i, by omega, by omega, by rw [r, hk]⟩
      · constructor
        · rintro ⟨⟨t, t0, t1, w⟩, r⟩
          by_cases y : t < q
          · exact .inl ⟨⟨t, t0, y, w⟩, r⟩
          · right
            have : t = q := by omega
            rw [this, ← hi] at w
            subst w
            obtain ⟨k, k0, k1, r⟩ := r
            exact ⟨rfl, k, k0, by omega, r⟩
        · rintro (⟨⟨t, t0, t1, w⟩, r⟩ | ⟨w, k, k0, k1, r⟩)
          · exact ⟨⟨t, t0, by omega, w⟩, r⟩
          · subst w
            exact ⟨⟨q, q0, by omega, hi.symm⟩, k, k0, by omega, r⟩
    · rw [if_neg z]
      refine Ens.pure (hI.congr fun x e => ?_)
      constructor
      · rintro ⟨⟨t, t0, t1, w⟩, r⟩
        refine ⟨⟨t, t0, ?_, w⟩, r⟩
        by_contra y
        have : t = q := by omega
        rw [this, ← hi] at w
        subst w
        obtain ⟨k, k0, k1, r⟩ := r
        omega
      · rintro ⟨⟨t, t0, t1, w⟩, r⟩; exact ⟨⟨t, t0, by omega, w⟩, r⟩
  · have hs : ∀ x, (∃ t, pme1 ≤ t ∧ t < pme2 + 1 ∧ M0.Iw t = x) ↔ x ∈ S := fun x => by
      constructor
      · rintro ⟨t, t0, t1, rfl⟩; exact seg.mem t t0 t1
      · intro q; exact seg.surj x q
    simp only [hs] at h
    have live : ∀ x e, x ∈ S → inE M0 x e → M0.W e ≠ 0 → isElt n M0 e ∧ e ≠ me ∧ M0.Degree e ≤ lemax := fun x e hx he z => by
      have hv := E.uvar x hx
      have a := C.eE x e hv he
      have em : e ≠ me := by rintro rfl; exact absurd ((C.eMe x hv).mp he) (notMem_empty _)
      rcases (C.kelt e a.1 a.2.1 a.2.2 em).2 with q | q
      · exact ⟨⟨a.1, a.2.1, a.2.2, q.1⟩, em, q.2.2.2⟩
      · exact absurd q.2 z
    have ge : ∀ x e, x ∈ S → inE M0 x e → M0.W e ≠ 0 → wflg ≤ M.W e := fun x e hx he z => by
      obtain ⟨a, em, _⟩ := live x e hx he z
      rw [h.met e a.1 a.2.1 z ⟨x, hx, he⟩]
      have : wsum n (fun x => x ∈ S ∧ inE M0 x e) (fun x => av (M0.Nv x)) ≤ M0.Degree e :=
        le_trans (wsum_mono (fun x _ _ q => h.sub x e q) (fun x _ _ => av_nonneg _) fun _ _ _ _ => le_refl _) (C.i5 e a em)
      omega
    have hinE : ∀ x e, inE M x e ↔ inE M0 x e := fun x e => by rw [h.eq]; exact Iff.rfl
    have hvar : ∀ x, isVar n M x ↔ isVar n M0 x := fun x => by rw [h.eq]; exact Iff.rfl
    refine ⟨⟨h.eq, h.fW, fun e e0 e1 => ⟨fun q => ?_, h.zero e e0 e1⟩⟩, fun e e0 e1 => ?_, fun i hi e x hie hx hxe z hz => ?_⟩
    · by_contra w
      by_cases y : ∃ x, x ∈ S ∧ inE M0 x e
      · obtain ⟨x, hx, hxe⟩ := y
        have := ge x e hx hxe w; omega
      · have := h.other e e0 e1 y; omega
    · by_cases w : M0.W e = 0
      · rw [h.zero e e0 e1 w]; omega
      by_cases y : ∃ x, x ∈ S ∧ inE M0 x e
      · rw [h.met e e0 e1 w y]
        obtain ⟨x, hx, hxe⟩ := y
        have hv := E.uvar x hx
        have := wsum_single (p := fun x => x ∈ S ∧ inE M0 x e) (f := fun x => av (M0.Nv x)) hv.1 hv.2.1 ⟨hx, hxe⟩ (fun x _ _ => av_nonneg _)
        have a := av_gt (C.kvar x hv).1
        have := (live x e hx hxe w).2.2
        omega
      · rw [h.other e e0 e1 y]; have := hlt e e0 e1; omega
    · rw [hinE] at hie hxe
      rw [hvar] at hx
      have hE := C.eE x e hx hxe
      have w : M0.W e ≠ 0 := fun q => z (h.zero e hE.1 hE.2.1 q)
      obtain ⟨a, em, _⟩ := live i e hi hie w
      have hm := h.met e a.1 a.2.1 w ⟨i, hi, hie⟩
      by_contra hx'
      have s1 := wsum_add (n := n) (p := fun y => y ∈ S ∧ inE M0 y e) (p' := fun y => (y ∈ S ∧ inE M0 y e) ∨ y = x) (f := fun x => av (M0.Nv x)) (f' := fun x => av (M0.Nv x)) hx.1 hx.2.1 (fun q => hx' q.1)
        (fun y _ _ => Iff.rfl) (fun _ _ _ _ => rfl)
      have s2 : wsum n (fun y => (y ∈ S ∧ inE M0 y e) ∨ y = x) (fun x => av (M0.Nv x)) ≤ M0.Degree e :=
        le_trans (wsum_mono (fun y _ _ q => by
          rcases q with q | rfl
          · exact h.sub y e q
          · exact ⟨hx, hxe⟩) (fun x _ _ => av_nonneg _) fun _ _ _ _ => le_refl _) (C.i5 e a em)
      have := av_gt (C.kvar x hx).1
      omega

end Osqp.Amd
