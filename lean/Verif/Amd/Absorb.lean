import Verif.Amd.Scan2c

/-!
# Two variables of the new element become one
-/

namespace Osqp.Amd
open Csc Finset
set_option linter.unusedSectionVars false

variable {n iwlen L0 lemax pfree me nel pme1 pme2 degme wflg dmin bnd nvpiv : ℤ} {M M0 : Mem} {D U S : Finset ℤ}

/-- Variable `j` is absorbed into `i`. -/
structure Abs (i j : ℤ) (M0 M : Mem) : Prop where
  pe : M.Pe = upd M0.Pe j (flip i)
  nv : M.Nv = upd (upd M0.Nv i (M0.Nv i + M0.Nv j)) j 0
  elen : M.Elen = upd M0.Elen j (-1)
  iw : M.Iw = M0.Iw
  len : M.Len = M0.Len
  deg : M.Degree = M0.Degree
  w : M.W = M0.W

theorem absorb_core (C : Core n iwlen L0 lemax pfree me nel M0 S ∅) (E : Me n me pme1 pme2 degme M0 S ∅) (T : Trees n M0 me nvpiv) {i j : ℤ} (hij : j ≠ i) (iS : i ∈ S) (jS : j ∈ S) (iv : isVar n M0 i) (jv : isVar n M0 j)
    (hs : ∀ e, inE M0 j e ↔ inE M0 i e) (A : Abs i j M0 M) : Core n iwlen L0 lemax pfree me nel M S ∅ ∧ Me n me pme1 pme2 degme M S ∅ ∧ Trees n M me nvpiv := by
  have i0 := iv.1
  have i1 := iv.2.1
  have j0 := jv.1
  have j1 := jv.2.1
  have ki := C.kvar i iv
  have kj := C.kvar j jv
  have ni : M0.Nv i < 0 := (C.knv i iv).mpr (.inl iS)
  have nj : M0.Nv j < 0 := (C.knv j jv).mpr (.inl jS)
  have im : i ≠ me := by rintro rfl; have := E.elen; have := iv.2.2; omega
  have jm : j ≠ me := by rintro rfl; have := E.elen; have := jv.2.2; omega
  have fl : flip i < 0 := by unfold flip; omega
  have pj : M.Pe j = flip i := by rw [A.pe, upd_same _ j0]
  have pn : ∀ x, x ≠ j → M.Pe x = M0.Pe x := fun x h => by rw [A.pe, upd_ne _ j0 h]
  have ej : M.Elen j = -1 := by rw [A.elen, upd_same _ j0]
  have en : ∀ x, x ≠ j → M.Elen x = M0.Elen x := fun x h => by rw [A.elen, upd_ne _ j0 h]
  have vj : M.Nv j = 0 := by rw [A.nv, upd_same _ j0]
  have vi : M.Nv i = M0.Nv i + M0.Nv j := by rw [A.nv, upd_ne _ j0 (Ne.symm hij), upd_same _ i0]
  have vn : ∀ x, x ≠ j → x ≠ i → M.Nv x = M0.Nv x := fun x h h' => by rw [A.nv, upd_ne _ j0 h, upd_ne _ i0 h']
  have var : ∀ x, isVar n M x ↔ isVar n M0 x ∧ x ≠ j := fun x => by
    unfold isVar
    by_cases q : x = j
    · rw [q, ej]; simp
    · rw [en x q]; simp [q]
  have hent : ∀ x, x ≠ j → ∀ k, ent M x k = ent M0 x k := fun x h k => by unfold ent; rw [pn x h, A.iw]
  have hinE : ∀ x, x ≠ j → ∀ y, inE M x y ↔ inE M0 x y := fun x h y => by unfold inE; rw [en x h]; simp only [hent x h]
  have hinV : ∀ x, x ≠ j → ∀ y, inV M x y ↔ inV M0 x y := fun x h y => by unfold inV; rw [en x h, A.len]; simp only [hent x h]
  have hinL : ∀ x, x ≠ j → ∀ y, inL M x y ↔ inL M0 x y := fun x h y => by unfold inL; rw [A.len]; simp only [hent x h]
  have elt : ∀ e, isElt n M e ↔ isElt n M0 e ∧ e ≠ j := fun e => by
    unfold isElt
    by_cases q : e = j
    · rw [q, ej]; simp
    · rw [en e q, pn e q]; simp [q]
  have ge : ∀ y, -1 ≤ M0.Elen y → -1 ≤ M.Elen y := fun y h => by
    by_cases q : y = j
    · rw [q, ej]
    · rw [en y q]; exact h
  have live : ∀ x, 0 ≤ M.Pe x → x ≠ j := fun x h => by rintro rfl; omega
  have avi : av (M.Nv i) = av (M0.Nv i) + av (M0.Nv j) := by rw [vi, av_neg ni, av_neg nj, av_neg (by omega)]; ring
  refine ⟨⟨by rw [A.pe]; exact C.fP.upd _ _, by rw [A.len]; exact C.fL, by rw [A.nv]; exact (C.fNv.upd _ _).upd _ _, by rw [A.elen]; exact C.fE.upd _ _, by rw [A.w]; exact C.fW, by rw [A.deg]; exact C.fD,
    by rw [A.iw]; exact C.fI, by rw [A.iw]; exact C.sI, C.pf, by rw [A.iw]; exact C.rng, fun x x0 x1 xp xm => ?_, fun x x0 x1 xp => ?_, fun x y x0 x1 y0 y1 hxy xp yp => ?_, ?_, C.iw, fun x hx => ?_, fun x hx => ?_,
    fun x x0 x1 hx xm => ?_, fun x x0 x1 hx => ?_, fun x e hx he => ?_, fun x hx k l k0 k1 l0 l1 q => ?_, fun x hx => ?_, fun x e hx hS he => ?_, fun x y hx hy => ?_, fun x y hx hxD hxy => ?_, fun x y hx hy hS hxy => ?_,
      fun x e hx he em => ?_, fun e y he em hy => ?_, fun e he em => ?_, fun e he em => ?_, fun x hx hS => absurd hS (notMem_empty _), ?_⟩, ?_, ?_⟩
  · rw [A.len]; rw [pn x (live x xp)] at xp; exact C.len x x0 x1 xp xm
  · have b := live x xp
    rw [A.len]; rw [pn x b] at xp ⊢; exact C.le x x0 x1 xp
  · have b := live x xp
    have c := live y yp
    rw [A.len]; rw [pn x b] at xp ⊢; rw [pn y c] at yp ⊢; exact C.disj x y x0 x1 y0 y1 hxy xp yp
  · refine le_trans ?_ C.bud
    unfold room
    refine sum_le_sum fun x hx => ?_
    rw [mem_Ico] at hx
    rw [A.len]
    by_cases q : x = j
    · rw [q, pj, if_neg (by omega), if_pos kj.2.1]
      have := C.len j j0 j1 kj.2.1 jm; omega
    · rw [pn x q]
  · obtain ⟨a, b⟩ := (var x).mp hx
    have k := C.kvar x a
    rw [pn x b, A.w, en x b, A.len, A.deg]
    refine ⟨?_, k.2⟩
    by_cases q : x = i
    · rw [q, vi]; omega
    · rw [vn x b q]; exact k.1
  · obtain ⟨a, b⟩ := (var x).mp hx
    rw [← C.knv x a]
    by_cases q : x = i
    · rw [q, vi]; constructor <;> intro <;> omega
    · rw [vn x b q]
  · have b : x ≠ j := by rintro rfl; omega
    rw [en x b] at hx
    have c : x ≠ i := by rintro rfl; have := iv.2.2; omega
    rw [vn x b c, pn x b, A.w, A.deg]; exact C.kelt x x0 x1 hx xm
  · by_cases b : x = j
    · rw [b]; exact ⟨vj, by omega⟩
    · rw [en x b] at hx
      have c : x ≠ i := by rintro rfl; have := iv.2.2; omega
      rw [vn x b c, pn x b]; exact C.kgone x x0 x1 hx
  · obtain ⟨a, b⟩ := (var x).mp hx
    have := C.eE x e a ((hinE x b e).mp he)
    refine ⟨this.1, this.2.1, ?_⟩
    rw [en e (by rintro rfl; have := jv.2.2; omega)]; exact this.2.2
  · obtain ⟨a, b⟩ := (var x).mp hx
    rw [en x b] at k1 l1
    rw [hent x b, hent x b] at q
    exact C.nodup x a k l k0 k1 l0 l1 q
  · obtain ⟨a, b⟩ := (var x).mp hx
    rw [hinE x b]; exact C.eMe x a
  · obtain ⟨a, b⟩ := (var x).mp hx
    have he' := (hinE x b e).mp he
    have c := C.eE x e a he'
    rw [pn e (by rintro rfl; have := jv.2.2; omega)]
    exact C.eLive x e a hS he'
  · obtain ⟨a, b⟩ := (var x).mp hx
    rcases C.vV x y a ((hinV x b y).mp hy) with q | q
    · exact .inl (ge y q)
    · exact absurd q.1 (notMem_empty _)
  · obtain ⟨a, b⟩ := (var x).mp hx
    obtain ⟨c, d⟩ := C.vD x y a hxD ((hinV x b y).mp hxy)
    have yj : y ≠ j := by rintro rfl; omega
    have yi : y ≠ i := by rintro rfl; omega
    exact ⟨(var y).mpr ⟨c, yj⟩, by rw [vn y yj yi]; exact d⟩
  · obtain ⟨a, b⟩ := (var x).mp hx
    obtain ⟨c, d⟩ := (var y).mp hy
    exact (hinV y d x).mpr (C.s1 x y a c hS ((hinV x b y).mp hxy))
  · obtain ⟨a, b⟩ := (var x).mp hx
    obtain ⟨c, d⟩ := (elt e).mp he
    rw [hinE x b, hinL e d]; exact C.s2 x e a c em
  · obtain ⟨c, d⟩ := (elt e).mp he
    exact ge y (C.lL e y c em ((hinL e d y).mp hy))
  · obtain ⟨c, d⟩ := (elt e).mp he
    obtain ⟨x, hx, hxe⟩ := C.i4 e c em
    by_cases q : x = j
    · subst q
      exact ⟨i, (var i).mpr ⟨iv, Ne.symm hij⟩, (hinE i (Ne.symm hij) e).mpr ((hs e).mp hxe)⟩
    · exact ⟨x, (var x).mpr ⟨hx, q⟩, (hinE x q e).mpr hxe⟩
  · obtain ⟨c, d⟩ := (elt e).mp he
    rw [A.deg]
    refine le_trans (le_of_eq ?_) (C.i5 e c em)
    refine wsum_shift j0 j1 i0 i1 hij ⟨fun q => ⟨iv, (hs e).mp q.2⟩, fun q => ⟨jv, (hs e).mpr q.2⟩⟩ (fun x x0 x1 => ?_) (fun x x0 x1 h1 h2 => by rw [vn x h1 h2]) avi
    by_cases q : x = j
    · simp [q, (var j)]
    · rw [var x, hinE x q]; tauto
  · have e := wsum_shift (p := isVar n M0) (p' := isVar n M) (f := fun x => av (M0.Nv x)) (f' := fun x => av (M.Nv x)) j0 j1 i0 i1 hij ⟨fun _ => iv, fun _ => jv⟩ (fun x x0 x1 => var x)
      (fun x x0 x1 h1 h2 => by show av (M.Nv x) = av (M0.Nv x); rw [vn x h1 h2]) avi
    rw [e]; exact C.cnt
  · refine ⟨E.r, by rw [en me (Ne.symm jm)]; exact E.elen, by rw [vn me (Ne.symm jm) (Ne.symm im)]; exact E.nv, by rw [pn me (Ne.symm jm)]; exact E.pe, E.p0, by rw [A.len]; exact E.len, by rw [A.w]; exact E.w,
      by rw [A.iw]; exact E.seg, E.sep, fun x hx => absurd hx (notMem_empty _), fun x hx => ge x (E.dvar x hx), fun x hx hv => ?_, ?_⟩
    · obtain ⟨a, b⟩ := (var x).mp hv
      rw [hent x b]; exact E.first x hx a
    · rw [E.deg]
      refine (wsum_shift j0 j1 i0 i1 hij ⟨fun _ => ⟨iv, .inl iS⟩, fun _ => ⟨jv, .inl jS⟩⟩ (fun x x0 x1 => ?_) (fun x x0 x1 h1 h2 => by rw [vn x h1 h2]) avi).symm
      rw [var x]; tauto
  · obtain ⟨rep, rank, T, F⟩ := T
    refine F.absorb j0 j1 i0 i1 hij ki.2.1 (by have := iv.2.2; omega) jv.2.2 kj.2.1 pj (fun x _ _ h => pn x h) ej (fun x _ _ h => en x h) (fun x _ _ _ h h' => ?_) ?_
    · show (if x = me then nvpiv else av (M.Nv x)) = if x = me then nvpiv else av (M0.Nv x)
      rw [vn x h h']
    · show (if i = me then nvpiv else av (M.Nv i)) = (if i = me then nvpiv else av (M0.Nv i)) + (if j = me then nvpiv else av (M0.Nv j))
      rw [if_neg im, if_neg im, if_neg jm]; exact avi

end Osqp.Amd
