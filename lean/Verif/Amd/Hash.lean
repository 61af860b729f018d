import Verif.Amd.Scan1

/-!
# The hash buckets

The variables of the new element are kept in singly linked lists, whose heads share the arrays of the degree lists.
-/

namespace Osqp.Amd
open Csc Finset
set_option linter.unusedSectionVars false

/-- The degree lists of the variables `lk`, and the hash buckets `bl`, whose members satisfy `mb`. -/
structure Hash (n : ℤ) (N L H D : ℤ → ℤ) (lk mb : ℤ → Prop) (bl : ℤ → List ℤ) : Prop where
  deg : ∃ st, Deg n N L H D lk st
  chain : ∀ d, 0 ≤ d → d < n → Chain N (bh L H d) (bl d)
  nodup : ∀ d, 0 ≤ d → d < n → (bl d).Nodup
  mem : ∀ d, 0 ≤ d → d < n → ∀ x ∈ bl d, mb x ∧ L x = d
  apart : ∀ x, mb x → ¬ lk x ∧ 0 ≤ x ∧ x < n ∧ 0 ≤ L x ∧ L x < n

variable {n : ℤ} {N L H D N' L' H' D' : ℤ → ℤ} {lk mb : ℤ → Prop} {st : ℤ → ℕ} {bl : ℤ → List ℤ} {M : Mem}

/-- The degree lists do not depend on the places where the buckets are kept. -/
theorem Deg.share (d : Deg n N L H D lk st) (hN : ∀ x, lk x → N' x = N x) (hL : ∀ x, lk x → H (D x) ≠ x → L' x = L x)
    (hH : ∀ e, 0 ≤ e → e < n → (0 ≤ H e → H' e = H e) ∧ (H e < 0 → H' e < 0)) : Deg n N' L' H' D lk st := by
  have hne : ∀ x y, lk x → lk y → H (D x) ≠ y → H' (D x) ≠ y := fun x y hx hy h => by
    have a := d.deg x hx
    have b := d.rng y hy
    have c := hH _ a.1 a.2
    by_cases q : 0 ≤ H (D x)
    · rw [c.1 q]; exact h
    · have := c.2 (by omega); omega
  refine ⟨d.rng, d.deg, fun x hx => ?_, fun x hx => ?_, fun e e0 e1 => ?_⟩
  · rw [hN x hx]
    rcases d.next x hx with q | ⟨q1, q2, q3, q4⟩
    · exact .inl q
    · exact .inr ⟨q1, by rw [hL _ q1 (by rw [q3]; exact q4)]; exact q2, q3, hne x _ hx q1 q4⟩
  · rcases d.last x hx with q | ⟨q0, q1, q2, q3, q4⟩
    · left
      have a := d.deg x hx
      rw [(hH _ a.1 a.2).1 (by rw [q]; exact (d.rng x hx).1)]; exact q
    · refine .inr ⟨hne x x hx hx q0, ?_⟩
      rw [hL x hx q0]
      exact ⟨q1, by rw [hN _ q1]; exact q2, q3, q4⟩
  · rcases d.head e e0 e1 with q | ⟨q1, q2⟩
    · exact .inl ((hH e e0 e1).2 q)
    · right
      rw [(hH e e0 e1).1 (d.rng _ q1).1]; exact ⟨q1, q2⟩

theorem Hash.congr (h : Hash n N L H D lk mb bl) {lk' mb' : ℤ → Prop} (hlk : ∀ x, lk' x ↔ lk x) (hmb : ∀ x, mb' x ↔ mb x) (hD : ∀ x, lk x → D' x = D x) : Hash n N L H D' lk' mb' bl := by
  obtain ⟨st, d⟩ := h.deg
  exact ⟨⟨st, d.congr hlk hD⟩, h.chain, h.nodup, fun e e0 e1 x hx => ⟨(hmb x).mpr (h.mem e e0 e1 x hx).1, (h.mem e e0 e1 x hx).2⟩, fun x hx => by rw [hlk]; exact h.apart x ((hmb x).mp hx)⟩

/-- No bucket yet. -/
theorem Lists.hash {lk : ℤ → Prop} (h : Lists n M lk) : Hash n M.Next M.Last M.Head M.Degree lk (fun _ => False) (fun _ => []) :=
  ⟨h.deg, fun d d0 d1 => h.nohash d d0 d1, fun _ _ _ => List.nodup_nil, fun _ _ _ _ hx => absurd hx (by simp), fun _ hx => hx.elim⟩

/-- No bucket any more. -/
theorem Hash.lists (h : Hash n M.Next M.Last M.Head M.Degree lk mb bl) (hN : Full M.Next n) (hL : Full M.Last n) (hH : Full M.Head n) (hD : Full M.Degree n) (he : ∀ d, 0 ≤ d → d < n → bl d = []) : Lists n M lk :=
  ⟨hN, hL, hH, hD, h.deg, fun d d0 d1 => by have := h.chain d d0 d1; rw [he d d0 d1] at this; exact this⟩

theorem bucket_ok (h : Hash n M.Next M.Last M.Head M.Degree lk mb bl) (hN : Full M.Next n) (hL : Full M.Last n) (hH : Full M.Head n) {i g : ℤ} (i0 : 0 ≤ i) (i1 : i < n) (hi : ¬ lk i) (hm : ¬ mb i) (g0 : 0 ≤ g) (g1 : g < n) :
    Ens (bucket i g M) (fun M' => Rest M M' ∧ Full M'.Next n ∧ Full M'.Last n ∧ Full M'.Head n ∧
      Hash n M'.Next M'.Last M'.Head M'.Degree lk (fun x => mb x ∨ x = i) (fun d => if d = g then i :: bl g else bl d)) := by
  obtain ⟨st, d⟩ := h.deg
  have sN := hN.1
  have sL := hL.1
  have sH := hH.1
  have hnot : ∀ e, 0 ≤ e → e < n → i ∉ bl e := fun e e0 e1 q => hm (h.mem e e0 e1 i q).1
  unfold bucket
  refine Ens.rd hH g0 g1 ?_
  by_cases q : M.Head g ≤ -1
  · rw [if_pos q]
    refine Ens.wNext i0 (by omega) (Ens.wHead g0 (by dsimp only; omega) (Ens.last (Ens.wLast i0 (by dsimp only; omega) (Ens.some
      ⟨⟨rfl, rfl, rfl, rfl, rfl, rfl, rfl⟩, hN.upd _ _, hL.upd _ _, hH.upd _ _, ?_⟩))))
    dsimp only
    have hfl : flip i < 0 := by unfold flip; omega
    refine ⟨⟨st, d.share (fun x hx => upd_ne _ i0 (by rintro rfl; exact hi hx)) (fun x hx _ => upd_ne _ i0 (by rintro rfl; exact hi hx)) (fun e e0 e1 => ?_)⟩, fun e e0 e1 => ?_, fun e e0 e1 => ?_, fun e e0 e1 x hx => ?_, fun x hx => ?_⟩
    · rw [upd_at _ g0]
      split_ifs with w
      · exact ⟨fun r => by rw [w] at r; omega, fun _ => hfl⟩
      · exact ⟨fun _ => rfl, id⟩
    · have hold : Chain (upd M.Next i (flip (M.Head g))) (bh M.Last M.Head e) (bl e) := chain_congr (fun x hx => upd_ne _ i0 (by rintro rfl; exact hnot e e0 e1 hx)) (h.chain e e0 e1)
      by_cases w : e = g
      · subst w
        rw [if_pos rfl]
        unfold bh at hold ⊢
        rw [upd_same _ g0, if_neg (by omega)]
        rw [if_neg (by omega)] at hold
        exact ⟨by unfold flip; omega, i0, by rw [upd_same _ i0]; exact hold⟩
      · rw [if_neg w]
        unfold bh at hold ⊢
        rw [upd_ne _ g0 w]
        by_cases y : 0 ≤ M.Head e
        · rw [if_pos y] at hold ⊢
          have hk := (d.head e e0 e1).resolve_left (by omega)
          rw [upd_ne _ i0 (by intro r; rw [r] at hk; exact hi hk.1)]; exact hold
        · rw [if_neg y] at hold ⊢; exact hold
    · split_ifs with w
      · exact List.nodup_cons.mpr ⟨hnot g g0 g1, h.nodup g g0 g1⟩
      · exact h.nodup e e0 e1
    · by_cases xi : x = i
      · subst xi
        refine ⟨.inr rfl, ?_⟩
        rw [upd_same _ i0]
        by_contra w
        rw [if_neg (Ne.symm w)] at hx; exact hnot e e0 e1 hx
      · have : x ∈ bl e := by
          split_ifs at hx with w
          · subst w; simpa [xi] using hx
          · exact hx
        rw [upd_ne _ i0 xi]
        exact ⟨.inl (h.mem e e0 e1 x this).1, (h.mem e e0 e1 x this).2⟩
    · by_cases xi : x = i
      · subst xi; rw [upd_same _ i0]; exact ⟨hi, i0, i1, g0, g1⟩
      · rw [upd_ne _ i0 xi]; exact h.apart x (hx.resolve_right xi)
  · rw [if_neg q]
    obtain ⟨j, hj⟩ : ∃ j, j = M.Head g := ⟨_, rfl⟩
    have hk := (d.head g g0 g1).resolve_left (by omega)
    have jr := d.rng _ hk.1
    rw [← hj] at hk jr ⊢
    have ij : j ≠ i := by rintro rfl; exact hi hk.1
    refine Ens.rd hL jr.1 jr.2 (Ens.wNext i0 (by omega) (Ens.wLast jr.1 (by dsimp only; omega) (Ens.last (Ens.wLast i0 (by dsimp only; rw [upd_size]; omega) (Ens.some
      ⟨⟨rfl, rfl, rfl, rfl, rfl, rfl, rfl⟩, hN.upd _ _, (hL.upd _ _).upd _ _, hH, ?_⟩)))))
    dsimp only
    refine ⟨⟨st, d.share (fun x hx => upd_ne _ i0 (by rintro rfl; exact hi hx)) (fun x hx hx' => ?_) (fun e e0 e1 => ⟨fun _ => rfl, id⟩)⟩, fun e e0 e1 => ?_, fun e e0 e1 => ?_, fun e e0 e1 x hx => ?_, fun x hx => ?_⟩
    · rw [upd_ne _ i0 (by rintro rfl; exact hi hx), upd_ne _ jr.1]
      rintro rfl
      rw [hk.2] at hx'; exact hx' hj.symm
    · have hold : Chain (upd M.Next i (M.Last j)) (bh M.Last M.Head e) (bl e) := chain_congr (fun x hx => upd_ne _ i0 (by rintro rfl; exact hnot e e0 e1 hx)) (h.chain e e0 e1)
      by_cases w : e = g
      · subst w
        rw [if_pos rfl]
        unfold bh at hold ⊢
        rw [← hj, if_pos jr.1] at hold ⊢
        rw [upd_ne _ i0 ij, upd_same _ jr.1]
        exact ⟨rfl, i0, by rw [upd_same _ i0]; exact hold⟩
      · rw [if_neg w]
        unfold bh at hold ⊢
        by_cases y : 0 ≤ M.Head e
        · rw [if_pos y] at hold ⊢
          have hk' := (d.head e e0 e1).resolve_left (by omega)
          rw [upd_ne _ i0 (by intro r; rw [r] at hk'; exact hi hk'.1), upd_ne _ jr.1 (by intro r; rw [r, hk.2] at hk'; exact w hk'.2.symm)]; exact hold
        · rw [if_neg y] at hold ⊢; exact hold
    · split_ifs with w
      · exact List.nodup_cons.mpr ⟨hnot g g0 g1, h.nodup g g0 g1⟩
      · exact h.nodup e e0 e1
    · by_cases xi : x = i
      · subst xi
        refine ⟨.inr rfl, ?_⟩
        rw [upd_same _ i0]
        by_contra w
        rw [if_neg (Ne.symm w)] at hx; exact hnot e e0 e1 hx
      · have : x ∈ bl e := by
          split_ifs at hx with w
          · subst w; simpa [xi] using hx
          · exact hx
        have hmx := h.mem e e0 e1 x this
        rw [upd_ne _ i0 xi, upd_ne _ jr.1 (by rintro rfl; exact (h.apart x hmx.1).1 hk.1)]
        exact ⟨.inl hmx.1, hmx.2⟩
    · by_cases xi : x = i
      · subst xi; rw [upd_same _ i0]; exact ⟨hi, i0, i1, g0, g1⟩
      · have := h.apart x (hx.resolve_right xi)
        rw [upd_ne _ i0 xi, upd_ne _ jr.1 (by rintro rfl; exact this.1 hk.1)]; exact this

theorem takeBucket_ok (h : Hash n M.Next M.Last M.Head M.Degree lk mb bl) (hL : Full M.Last n) (hH : Full M.Head n) {g : ℤ} (g0 : 0 ≤ g) (g1 : g < n) :
    Ens (takeBucket g M) (fun r => Rest M r.2 ∧ r.2.Next = M.Next ∧ Full r.2.Last n ∧ Full r.2.Head n ∧ Chain r.2.Next r.1 (bl g) ∧ (∀ x, mb x → r.2.Last x = M.Last x) ∧
      Hash n r.2.Next r.2.Last r.2.Head r.2.Degree lk mb (fun d => if d = g then [] else bl d)) := by
  obtain ⟨st, d⟩ := h.deg
  have sL := hL.1
  have sH := hH.1
  have hc := h.chain g g0 g1
  unfold takeBucket
  refine Ens.rd hH g0 g1 ?_
  have nodup' : ∀ e, 0 ≤ e → e < n → (if e = g then [] else bl e : List ℤ).Nodup := fun e e0 e1 => by
    split_ifs
    · exact List.nodup_nil
    · exact h.nodup e e0 e1
  have mem' : ∀ e x, x ∈ (if e = g then [] else bl e : List ℤ) → e ≠ g ∧ x ∈ bl e := fun e x hx => by
    split_ifs at hx with w
    · simp at hx
    · exact ⟨w, hx⟩
  by_cases q : M.Head g = -1
  · rw [if_pos q]
    have hb : bh M.Last M.Head g = -1 := by unfold bh; rw [q, if_neg (by omega)]; rfl
    rw [hb] at hc
    refine Ens.pure ⟨⟨rfl, rfl, rfl, rfl, rfl, rfl, rfl⟩, rfl, hL, hH, hc, fun _ _ => rfl, ⟨st, d⟩, fun e e0 e1 => ?_, nodup', fun e e0 e1 x hx => h.mem e e0 e1 x (mem' e x hx).2, h.apart⟩
    by_cases w : e = g
    · rw [if_pos w, w]; exact hb
    · rw [if_neg w]; exact h.chain e e0 e1
  · rw [if_neg q]
    by_cases q2 : M.Head g < -1
    · rw [if_pos q2]
      have hb : bh M.Last M.Head g = flip (M.Head g) := by unfold bh; rw [if_neg (by omega)]
      rw [hb] at hc
      refine Ens.wHead g0 (by omega) (Ens.pure ⟨⟨rfl, rfl, rfl, rfl, rfl, rfl, rfl⟩, rfl, hL, hH.upd _ _, hc, fun _ _ => rfl,
        ⟨st, d.share (fun _ _ => rfl) (fun _ _ _ => rfl) (fun e e0 e1 => ?_)⟩, fun e e0 e1 => ?_, nodup', fun e e0 e1 x hx => h.mem e e0 e1 x (mem' e x hx).2, h.apart⟩)
      · dsimp only
        rw [upd_at _ g0]
        split_ifs with w
        · exact ⟨fun r => by rw [w] at r; omega, fun _ => by omega⟩
        · exact ⟨fun _ => rfl, id⟩
      · dsimp only
        by_cases w : e = g
        · rw [if_pos w, w]
          show bh _ _ _ = -1
          unfold bh; rw [upd_same _ g0, if_neg (by omega)]; rfl
        · rw [if_neg w]
          have := h.chain e e0 e1
          unfold bh at this ⊢
          rw [upd_ne _ g0 w]; exact this
    · rw [if_neg q2]
      obtain ⟨j, hj⟩ : ∃ j, j = M.Head g := ⟨_, rfl⟩
      have hk := (d.head g g0 g1).resolve_left (by omega)
      have jr := d.rng _ hk.1
      have hb : bh M.Last M.Head g = M.Last j := by unfold bh; rw [if_pos (by omega), hj]
      rw [hb] at hc
      rw [← hj] at hk jr ⊢
      refine Ens.rd hL jr.1 jr.2 (Ens.wLast jr.1 (by omega) (Ens.pure ⟨⟨rfl, rfl, rfl, rfl, rfl, rfl, rfl⟩, rfl, hL.upd _ _, hH, hc, fun x hx => ?_,
        ⟨st, d.share (fun _ _ => rfl) (fun x hx hx' => ?_) (fun e e0 e1 => ⟨fun _ => rfl, id⟩)⟩, fun e e0 e1 => ?_, nodup', fun e e0 e1 x hx => ?_, fun x hx => ?_⟩))
      · exact upd_ne _ jr.1 (by rintro rfl; exact (h.apart x hx).1 hk.1)
      · refine upd_ne _ jr.1 ?_
        rintro rfl
        rw [hk.2] at hx'; exact hx' hj.symm
      · dsimp only
        by_cases w : e = g
        · rw [if_pos w, w]
          show bh _ _ _ = -1
          unfold bh; rw [← hj, if_pos jr.1, upd_same _ jr.1]
        · rw [if_neg w]
          have := h.chain e e0 e1
          unfold bh at this ⊢
          by_cases y : 0 ≤ M.Head e
          · rw [if_pos y] at this ⊢
            have hk' := (d.head e e0 e1).resolve_left (by omega)
            rw [upd_ne _ jr.1 (by intro r; rw [r, hk.2] at hk'; exact w hk'.2.symm)]; exact this
          · rw [if_neg y] at this ⊢; exact this
      · have := h.mem e e0 e1 x (mem' e x hx).2
        dsimp only
        rw [upd_ne _ jr.1 (by rintro rfl; exact (h.apart x this.1).1 hk.1)]; exact this
      · have := h.apart x hx
        dsimp only
        rw [upd_ne _ jr.1 (by rintro rfl; exact this.1 hk.1)]; exact this

end Osqp.Amd
