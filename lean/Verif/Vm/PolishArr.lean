import Verif.Vm.PolishSpec
import Verif.Vm.ApiSetup
import Verif.Vm.QdldlLemmas
import Verif.Lemmas.Reduced
import Verif.Props.Csc
import Verif.Csc.LinLemmas

/-!
# The arrays of the polishing
-/

set_option linter.unusedSectionVars false
namespace Osqp.Vm
open Csc Spec Finset
variable {L L' K : Type*} [Field K] [LinearOrder K] [IsStrictOrderedRing K] {d : Dims}

/-! ## Selected constraints -/

/-- Flags on all naturals. -/
def extF (flags : Fin d.m → ℤ) (k : ℕ) : ℤ := if h : k < d.m then flags ⟨k, h⟩ else 0

@[simp] theorem extF_val (flags : Fin d.m → ℤ) (k : Fin d.m) : extF flags k = flags k := by simp [extF]

theorem extF_of (flags : Fin d.m → ℤ) {k : ℕ} (h : k < d.m) : extF flags k = flags ⟨k, h⟩ := by simp [extF, h]

theorem rank_ext (flags : Fin d.m → ℤ) (i : Fin d.m) : Csc.rank (extF flags) i = Spec.rank flags i := by
  unfold Csc.rank Spec.rank
  symm
  refine card_nbij (fun k : Fin d.m => (k : ℕ)) ?_ (fun a _ b _ h => Fin.ext h) ?_
  · intro k hk
    simp only [coe_filter, mem_univ, true_and, Set.mem_setOf_eq] at hk
    simp only [coe_filter, mem_range, Set.mem_setOf_eq, extF_val]
    exact ⟨hk.1, hk.2⟩
  · intro k hk
    simp only [coe_filter, mem_range, Set.mem_setOf_eq] at hk
    have hm : k < d.m := lt_trans hk.1 i.2
    refine ⟨⟨k, hm⟩, ?_, rfl⟩
    simp only [coe_filter, mem_univ, true_and, Set.mem_setOf_eq]
    rw [extF_of _ hm] at hk
    exact ⟨hk.1, hk.2⟩

theorem rank_all (flags : Fin d.m → ℤ) : Csc.rank (extF flags) d.m = picked flags := by
  unfold Csc.rank picked
  symm
  refine card_nbij (fun k : Fin d.m => (k : ℕ)) ?_ (fun a _ b _ h => Fin.ext h) ?_
  · intro k hk
    simp only [coe_filter, mem_univ, true_and, Set.mem_setOf_eq] at hk
    simp only [coe_filter, mem_range, Set.mem_setOf_eq, extF_val]
    exact ⟨k.2, hk⟩
  · intro k hk
    simp only [coe_filter, mem_range, Set.mem_setOf_eq] at hk
    refine ⟨⟨k, hk.1⟩, ?_, rfl⟩
    simp only [coe_filter, mem_univ, true_and, Set.mem_setOf_eq]
    rw [extF_of _ hk.1] at hk
    exact hk.2

theorem rank_picked {flags : Fin d.m → ℤ} {i : Fin d.m} (hi : flags i ≠ 0) : Spec.rank flags i < picked flags := by
  unfold Spec.rank picked
  apply card_lt_card
  rw [ssubset_iff_of_subset]
  · exact ⟨i, by simp [hi], by simp⟩
  · intro k; simp only [mem_filter, mem_univ, true_and]; exact fun h => h.2

theorem rank_image (flags : Fin d.m → ℤ) : (univ.filter fun i => flags i ≠ 0).image (Spec.rank flags) = range (picked flags) := by
  refine eq_of_subset_of_card_le (fun r hr => ?_) ?_
  · simp only [mem_image, mem_filter, mem_univ, true_and] at hr
    obtain ⟨i, hi, rfl⟩ := hr
    exact mem_range.2 (rank_picked hi)
  · rw [card_range, card_image_of_injOn]
    · exact le_rfl
    · intro a ha b hb h
      simp only [coe_filter, mem_univ, true_and, Set.mem_setOf_eq] at ha hb
      exact rank_inj ha hb h

theorem rank_surj {flags : Fin d.m → ℤ} {r : ℕ} (h : r < picked flags) : ∃ i, flags i ≠ 0 ∧ Spec.rank flags i = r := by
  have := mem_range.2 h
  rw [← rank_image, mem_image] at this
  obtain ⟨i, hi, e⟩ := this
  simp only [mem_filter, mem_univ, true_and] at hi
  exact ⟨i, hi, e⟩

theorem sum_picked (flags : Fin d.m → ℤ) (g : ℕ → K) (f : Fin d.m → K) (h : ∀ i, flags i ≠ 0 → g (Spec.rank flags i) = f i) :
    ∑ r ∈ range (picked flags), g r = ∑ i, if flags i ≠ 0 then f i else 0 := by
  rw [← rank_image, sum_image, sum_filter]
  · exact sum_congr rfl fun i _ => by split_ifs with c <;> [exact h i c; rfl]
  · intro a ha b hb e
    simp only [coe_filter, mem_univ, true_and, Set.mem_setOf_eq] at ha hb
    exact rank_inj ha hb e

theorem aredMul_out (flags : Fin d.m → ℤ) (v : Vec K d.A.nnz) (x : Vec K d.n) {r : ℕ} (h : picked flags ≤ r) : aredMul flags v x r = 0 := by
  unfold aredMul
  refine sum_eq_zero fun k _ => if_neg fun c => ?_
  rw [redIdx_eq] at c
  have := rank_picked c.1
  omega

theorem rhs_out_fold (D : Data d K) (flags : Fin d.m → ℤ) (l : List (Fin d.m)) (c : ℕ) (v : ℕ → K) (r : ℕ) (hr : c + l.countP (fun i => decide (flags i ≠ 0)) ≤ r) :
    (l.foldl (fun (st : ℕ × (ℕ → K)) j =>
      if flags j = -1 then (st.1 + 1, Function.update st.2 st.1 (D.l j))
      else if flags j = 1 then (st.1 + 1, Function.update st.2 st.1 (D.u j))
      else st) (c, v)).2 r = v r := by
  induction l generalizing c v with
  | nil => rfl
  | cons a t ih =>
    rw [List.foldl_cons]
    rw [List.countP_cons] at hr
    by_cases h1 : flags a = -1
    · have : flags a ≠ 0 := by omega
      simp only [h1, if_true]
      simp only [this, ne_eq, not_false_eq_true, decide_true, if_true] at hr
      simp only [ne_eq] at ih
      rw [ih _ _ (by omega), Function.update_of_ne (by omega)]
    · by_cases h2 : flags a = 1
      · have : flags a ≠ 0 := by omega
        simp only [h2, if_true]
        simp only [this, ne_eq, not_false_eq_true, decide_true, if_true] at hr
        simp only [ne_eq] at ih
        rw [if_neg (by decide), ih _ _ (by omega), Function.update_of_ne (by omega)]
      · simp only [h1, h2, if_false]
        exact ih _ _ (by omega)

theorem rhs_out (D : Data d K) (flags : Fin d.m → ℤ) {r : ℕ} (h : picked flags ≤ r) : (formRhsRed D flags).2 r = 0 := by
  refine rhs_out_fold D flags _ 0 (fun _ => 0) r ?_
  rw [zero_add, countP_finRange]; exact h

/-! ## Arrays -/

theorem Arr.holds' {n : ℕ} {b : Buf K} {v : Vec K n} (h : Arr b v) : Holds b n (Csc.ext v) :=
  ⟨h.1, fun k hk => by rw [h.2 ⟨k, hk⟩, Csc.ext, dif_pos hk]⟩

theorem fresh_le {α : Type*} (n : ℕ) : n ≤ (Buf.fresh (n : ℤ) : Buf α).size := by simp

theorem rawOf_ok {σ : Store K} {v : Ref} {n : ℕ} {f : Vec K n} (h : Has σ v n f) : Ok (rawOf v (n : ℤ) σ) fun b => Holds b n (Csc.ext f) := by
  obtain ⟨b, e, _, hb⟩ := fill_holds (b := Buf.fresh (n : ℤ)) (n := n) (by simp) (Csc.ext f) (f := fun i b => (rd σ v i).bind fun x => b.wr i x)
    (fun k b hk => by
      have : rd σ v (k : ℤ) = some (f ⟨k, hk⟩) := by
        unfold rd Buf.rd
        have := h.room
        rw [if_pos ⟨by omega, by omega⟩, ← Nat.cast_add, Int.toNat_natCast]
        exact h.val ⟨k, hk⟩
      rw [this]; simp [Csc.ext, hk])
  exact ⟨b, by unfold rawOf; rw [h.len]; exact e, hb⟩

theorem part_holds {b : Buf K} {N : ℕ} {f : ℕ → K} (h : Holds b N f) {lo len : ℕ} (hl : lo + len ≤ N) :
    Holds (part b (lo : ℤ) (len : ℤ)) len (fun k => f (lo + k)) ∧ (part b (lo : ℤ) (len : ℤ)).size = len := by
  have := h.1
  have hs : (part b (lo : ℤ) (len : ℤ)).size = len := by
    show min _ _ = _
    simp only [Int.toNat_natCast]
    omega
  exact ⟨⟨hs.ge, fun k hk => h.2 _ (by omega)⟩, hs⟩

theorem onPart_holds {b : Buf K} {N : ℕ} {f g : ℕ → K} (h : Holds b N f) {lo len : ℕ} (hl : lo + len ≤ N) {op : Buf K → Option (Buf K)}
    (ho : ∀ c, Holds c len (fun k => f (lo + k)) → Ok (op c) fun c' => Holds c' len g) :
    Ok (onPart op b (lo : ℤ) (len : ℤ)) fun b' => Holds b' N fun k => if lo ≤ k ∧ k < lo + len then g (k - lo) else f k := by
  obtain ⟨c, e, hc⟩ := ho _ (part_holds h hl).1
  refine ⟨putPart b (lo : ℤ) (len : ℤ) c, by unfold onPart; rw [e]; rfl, h.1, fun k hk => ?_⟩
  show (if _ then c.cell _ else _) = _
  simp only [Int.toNat_natCast]
  split_ifs with c1
  · exact hc.2 _ (by omega)
  · exact h.2 k hk

/-! ## The active set -/

theorem guess_ok {z y l u : Buf K} {Z Y A B : Vec K d.m} (hz : Holds z d.m (Csc.ext Z)) (hy : Holds y d.m (Csc.ext Y)) (hl : Holds l d.m (Csc.ext A)) (hu : Holds u d.m (Csc.ext B)) :
    Ok (guess (d.m : ℤ) z y l u) fun r => Holds r.1 d.m (extF (activeFlags A B Z Y)) ∧ r.2 = (picked (activeFlags A B Z Y) : ℤ) := by
  set fl := activeFlags A B Z Y with hfl
  obtain ⟨r, e, h1, h2, h3⟩ := forI_zero (hi := d.m) (s := ((Buf.fresh (d.m : ℤ) : Buf ℤ), (0 : ℤ)))
    (f := fun j (s : Buf ℤ × ℤ) =>
      (z.rd j).bind fun zj => (l.rd j).bind fun lj => (y.rd j).bind fun yj => (u.rd j).bind fun uj =>
      if zj - lj < -yj ∨ lj = uj then (s.1.wr j (-1)).bind fun b => some (b, s.2 + 1)
      else if uj - zj < yj then (s.1.wr j 1).bind fun b => some (b, s.2 + 1)
      else (s.1.wr j 0).bind fun b => some (b, s.2))
    (fun k s => s.1.size = d.m ∧ Holds s.1 k (extF fl) ∧ s.2 = (Csc.rank (extF fl) k : ℤ)) ⟨by simp, Holds.zero, by simp [Csc.rank]⟩ (by
      rintro k ⟨b, c⟩ hk ⟨h1, h2, h3⟩
      dsimp only at h1 h2 h3 ⊢
      rw [hz.rd hk, hl.rd hk, hy.rd hk, hu.rd hk]
      simp only [Option.bind_some]
      have e0 : extF fl k = if Csc.ext Z k - Csc.ext A k < -Csc.ext Y k ∨ Csc.ext A k = Csc.ext B k then -1 else if Csc.ext B k - Csc.ext Z k < Csc.ext Y k then 1 else 0 := by
        rw [extF_of _ hk, hfl]; simp [activeFlags, Csc.ext, hk]
      have hw : ∀ v : ℤ, b.wr (k : ℤ) v = some (b.set k v) := fun v => Buf.wr_eq (by omega)
      by_cases c1 : Csc.ext Z k - Csc.ext A k < -Csc.ext Y k ∨ Csc.ext A k = Csc.ext B k
      · rw [if_pos c1] at e0 ⊢
        rw [hw]
        refine ⟨_, rfl, h1, h2.extend (by omega) _ e0, ?_⟩
        rw [Csc.rank_succ, e0, if_pos (by decide), h3]; push_cast; rfl
      · rw [if_neg c1] at e0 ⊢
        by_cases c2 : Csc.ext B k - Csc.ext Z k < Csc.ext Y k
        · rw [if_pos c2] at e0 ⊢
          rw [hw]
          refine ⟨_, rfl, h1, h2.extend (by omega) _ e0, ?_⟩
          rw [Csc.rank_succ, e0, if_pos (by decide), h3]; push_cast; rfl
        · rw [if_neg c2] at e0 ⊢
          rw [hw]
          refine ⟨_, rfl, h1, h2.extend (by omega) _ e0, ?_⟩
          rw [Csc.rank_succ, e0, if_neg (by decide), h3]; push_cast; rfl)
  exact ⟨r, e, h2, by rw [h3, rank_all]⟩

theorem red_ok {A : Csc K} {D : Data d K} (hA : Stores A d.A D.A) {b : Buf ℤ} {flags : Fin d.m → ℤ} (hb : Holds b d.m (extF flags)) :
    Ok (submatrixByRows A b) fun R => RedOf D flags R := by
  obtain ⟨V, hR, hV⟩ := stores_view.1 hA
  obtain ⟨R, W, e, hW, w1, w2, -, -, -, w3⟩ := submatrix_aux hR (rows := b) (F := extF flags) (by rw [hV.m]; exact hb)
  refine ⟨R, e, W, hW, by rw [w1, hV.m, rank_all], by rw [w2, hV.n], fun i hi j => ?_⟩
  have := w3 i (by rw [hV.m]; exact i.2) (by rw [extF_val]; exact hi) j (by rw [hV.n]; exact j.2)
  rw [rank_ext] at this
  rw [this]
  exact hV.entry i j

/-! ## Right-hand side -/

theorem fill_rhs {flags : Fin d.m → ℤ} (hf : ∀ i, flags i = -1 ∨ flags i = 0 ∨ flags i = 1) (D : Data d K) {fb : Buf ℤ} (hb : Holds fb d.m (extF flags))
    {q l u : Buf K} (hq : Holds q d.n (Csc.ext D.q)) (hl : Holds l d.m (Csc.ext D.l)) (hu : Holds u d.m (Csc.ext D.u)) :
    Ok ((forI 0 (d.n : ℤ) (fun j r => (q.rd j).bind fun v => r.wr j (-v)) (Buf.fresh ((d.n : ℤ) + (picked flags : ℤ)))).bind fun rhs =>
      (forI 0 (d.m : ℤ) (fun j (s : Buf K × ℤ) => (fb.rd j).bind fun f =>
        if f = -1 then (l.rd j).bind fun v => (s.1.wr ((d.n : ℤ) + s.2) v).bind fun r => some (r, s.2 + 1)
        else if f = 1 then (u.rd j).bind fun v => (s.1.wr ((d.n : ℤ) + s.2) v).bind fun r => some (r, s.2 + 1)
        else some s) (rhs, 0)).map fun s => s.1)
      fun b => Holds b (d.n + picked flags) (cat d.n (Csc.ext (formRhsRed D flags).1) (formRhsRed D flags).2) := by
  set g := cat d.n (Csc.ext (formRhsRed D flags).1) (formRhsRed D flags).2 with hg
  have hfs : (Buf.fresh ((d.n : ℤ) + (picked flags : ℤ)) : Buf K).size = d.n + picked flags := by
    show ((d.n : ℤ) + (picked flags : ℤ)).toNat = _
    omega
  obtain ⟨r0, e0, s0, h0⟩ := fill_holds (b := (Buf.fresh ((d.n : ℤ) + (picked flags : ℤ)) : Buf K)) (n := d.n) (by omega) g
    (f := fun j r => (q.rd j).bind fun v => r.wr j (-v)) (fun k b hk => by
      rw [hq.rd hk]
      simp [hg, cat, hk, Csc.ext, formRhsRed])
  obtain ⟨r, e, h1, h2, h3⟩ := forI_zero (hi := d.m) (s := (r0, (0 : ℤ)))
    (f := fun j (s : Buf K × ℤ) => (fb.rd j).bind fun f =>
        if f = -1 then (l.rd j).bind fun v => (s.1.wr ((d.n : ℤ) + s.2) v).bind fun r => some (r, s.2 + 1)
        else if f = 1 then (u.rd j).bind fun v => (s.1.wr ((d.n : ℤ) + s.2) v).bind fun r => some (r, s.2 + 1)
        else some s)
    (fun k s => s.1.size = d.n + picked flags ∧ Holds s.1 (d.n + Csc.rank (extF flags) k) g ∧ s.2 = (Csc.rank (extF flags) k : ℤ))
    ⟨by rw [s0, hfs], by simpa [Csc.rank] using h0, by simp [Csc.rank]⟩ (by
      rintro k ⟨b, c⟩ hk ⟨h1, h2, h3⟩
      dsimp only at h1 h2 h3 ⊢
      rw [hb.rd hk]
      simp only [Option.bind_some]
      have ek : extF flags k = flags ⟨k, hk⟩ := extF_of _ hk
      have er : Csc.rank (extF flags) k = Spec.rank flags ⟨k, hk⟩ := rank_ext flags ⟨k, hk⟩
      have hw : flags ⟨k, hk⟩ ≠ 0 → ∀ v, b.wr ((d.n : ℤ) + c) v = some (b.set (d.n + Csc.rank (extF flags) k) v) := fun hn v => by
        rw [h3, ← Nat.cast_add]
        exact Buf.wr_eq (by rw [h1, er]; have := rank_picked hn; omega)
      have hv : flags ⟨k, hk⟩ ≠ 0 → g (d.n + Csc.rank (extF flags) k) = if flags ⟨k, hk⟩ = -1 then D.l ⟨k, hk⟩ else D.u ⟨k, hk⟩ := fun hn => by
        rw [hg, cat, if_neg (by omega), Nat.add_sub_cancel_left, er]
        exact rhs_apply D flags hf _ hn
      have hsz : flags ⟨k, hk⟩ ≠ 0 → d.n + Csc.rank (extF flags) k < b.size := fun hn => by rw [h1, er]; have := rank_picked hn; omega
      rw [Csc.rank_succ, ek]
      by_cases c1 : flags ⟨k, hk⟩ = -1
      · have hn : flags ⟨k, hk⟩ ≠ 0 := by omega
        rw [if_pos c1, if_pos hn, hl.rd hk]
        simp only [Option.bind_some]
        rw [hw hn]
        refine ⟨_, rfl, h1, ?_, by rw [h3]; push_cast; rfl⟩
        rw [← add_assoc]
        exact h2.extend (hsz hn) _ (by rw [hv hn, if_pos c1]; simp [Csc.ext, hk])
      · rw [if_neg c1]
        by_cases c2 : flags ⟨k, hk⟩ = 1
        · have hn : flags ⟨k, hk⟩ ≠ 0 := by omega
          rw [if_pos c2, if_pos hn, hu.rd hk]
          simp only [Option.bind_some]
          rw [hw hn]
          refine ⟨_, rfl, h1, ?_, by rw [h3]; push_cast; rfl⟩
          rw [← add_assoc]
          exact h2.extend (hsz hn) _ (by rw [hv hn, if_neg c1]; simp [Csc.ext, hk])
        · have hn : ¬ flags ⟨k, hk⟩ ≠ 0 := by have := hf ⟨k, hk⟩; omega
          rw [if_neg c2, if_neg hn]
          exact ⟨_, rfl, h1, h2, by rw [h3]; rfl⟩)
  refine .val e0 ⟨r.1, by rw [e]; rfl, ?_⟩
  rw [rank_all] at h2
  exact h2

/-! ## Refinement -/

theorem sub_axpy_sym {n : ℕ} {M : Csc K} {p : Pat n n} {v : Vec K p.nnz} (h : Stores M p v) {x y : Buf K} {X : Vec K n} {Y : ℕ → K}
    (hx : Holds x n (Csc.ext X)) (hy : Holds y n Y) : Ok (axpySymTriu M x y (-1) 1) fun y' => Holds y' n fun r => Y r - Csc.ext (symMul p v X) r := by
  obtain ⟨V, hR, hm, rfl, hz, he⟩ := h
  obtain ⟨y', e, h'⟩ := hR.axpySym_aux hm (alpha := -1) (beta := 1) (Y := Y) hx hy.1 (.inr hy)
  refine ⟨y', e, h'.congr fun r hr => ?_⟩
  rw [if_neg one_ne_zero, one_mul, neg_one_mul, ← sub_eq_add_neg]
  congr 1
  obtain ⟨r, rfl⟩ : ∃ i : Fin V.n, (i : ℕ) = r := ⟨⟨r, hr⟩, rfl⟩
  rw [ext_val]
  exact sum_entries hR.valid hz (fun j k => symContrib V (Csc.ext X) j k r) _ fun k => by
    obtain ⟨e1, e2, e3⟩ := he k
    simp only [symContrib, e1, e2, e3, Fin.val_inj, ext_val, ne_eq]

theorem sub_atxpy {D : Data d K} {flags : Fin d.m → ℤ} {R : Csc K} (h : RedOf D flags R) {x y : Buf K} {X Y : ℕ → K}
    (hx : Holds x (picked flags) X) (hy : Holds y d.n Y) : Ok (atxpy R x y (-1) 1) fun y' => Holds y' d.n fun c => Y c - Csc.ext (aredMulT flags D.A X) c := by
  obtain ⟨W, hR, hm, hn, he⟩ := h
  obtain ⟨y', e, h'⟩ := c36_atxpy hR (-1) 1 (x := x) (y := y) (X := X) (Y := Y) (by rw [hm]; exact hx) (by rw [hn]; exact hy.1) (.inr (by rw [hn]; exact hy))
  rw [hn] at h'
  refine ⟨y', e, h'.congr fun c hc => ?_⟩
  rw [one_mul, neg_one_mul, add_comm, ← sub_eq_add_neg]
  congr 1
  rw [Csc.ext, dif_pos hc, aredMulT_eq, hm]
  exact sum_picked flags _ (fun i => (ofData D).A i ⟨c, hc⟩ * X (Spec.rank flags i)) fun i hi => by rw [← he i hi ⟨c, hc⟩]

theorem sub_axpy {D : Data d K} {flags : Fin d.m → ℤ} {R : Csc K} (h : RedOf D flags R) {x y : Buf K} {X : Vec K d.n} {Y : ℕ → K}
    (hx : Holds x d.n (Csc.ext X)) (hy : Holds y (picked flags) Y) : Ok (axpy R x y (-1) 1) fun y' => Holds y' (picked flags) fun r => Y r - aredMul flags D.A X r := by
  obtain ⟨W, hR, hm, hn, he⟩ := h
  obtain ⟨y', e, h'⟩ := c36_axpy hR (-1) 1 (x := x) (y := y) (X := Csc.ext X) (Y := Y) (by rw [hn]; exact hx) (by rw [hm]; exact hy.1) (.inr (by rw [hm]; exact hy))
  rw [hm] at h'
  refine ⟨y', e, h'.congr fun r hr => ?_⟩
  rw [one_mul, neg_one_mul, add_comm, ← sub_eq_add_neg]
  congr 1
  obtain ⟨i, hi, rfl⟩ := rank_surj hr
  rw [aredMul_rank flags D X i hi, hn, ← Fin.sum_univ_eq_sum_range fun c => W.entry (Spec.rank flags i) c * Csc.ext X c]
  exact sum_congr rfl fun c _ => by rw [he i hi c, ext_val]

/-- One right-hand side of the refinement. -/
theorem refineRhs_ok {D : Data d K} {flags : Fin d.m → ℤ} {P R : Csc K} (hP : Stores P d.P D.P) (hR : RedOf D flags R) {rhs z b : Buf K} {Z B : Vec K d.n × (ℕ → K)}
    (hs : d.n + picked flags ≤ rhs.size) (hz : Holds z (d.n + picked flags) (cat d.n (Csc.ext Z.1) Z.2)) (hb : Holds b (d.n + picked flags) (cat d.n (Csc.ext B.1) B.2)) {α : Type*}
    {f : Buf K → Option α} {Q : α → Prop}
    (hf : ∀ r, Holds r (d.n + picked flags) (cat d.n (Csc.ext (refineRhs D flags B Z).1) (refineRhs D flags B Z).2) → Ok (f r) Q) :
    Ok ((copyVec rhs b ((d.n : ℤ) + (picked flags : ℤ))).bind fun rhs =>
      (onPart (fun r => axpySymTriu P (part z 0 (d.n : ℤ)) r (-1) 1) rhs 0 (d.n : ℤ)).bind fun rhs =>
      (onPart (fun r => atxpy R (part z (d.n : ℤ) (picked flags : ℤ)) r (-1) 1) rhs 0 (d.n : ℤ)).bind fun rhs =>
      (onPart (fun r => axpy R (part z 0 (d.n : ℤ)) r (-1) 1) rhs (d.n : ℤ) (picked flags : ℤ)).bind f) Q := by
  obtain ⟨r1, e1, h1⟩ := copyVec_holds hs hb
  rw [Nat.cast_add] at e1
  refine .val e1 ?_
  have p1 : Holds (part z 0 (d.n : ℤ)) d.n (Csc.ext Z.1) := by
    have := (part_holds hz (lo := 0) (len := d.n) (by omega)).1
    refine this.congr fun k hk => ?_
    rw [zero_add, cat, if_pos hk]
  have p2 : Holds (part z (d.n : ℤ) (picked flags : ℤ)) (picked flags) Z.2 := by
    have := (part_holds hz (lo := d.n) (len := picked flags) le_rfl).1
    refine this.congr fun k hk => ?_
    rw [cat, if_neg (by omega), Nat.add_sub_cancel_left]
  refine .bind (onPart_holds h1 (lo := 0) (len := d.n) (by omega) fun c hc => sub_axpy_sym hP p1 hc) fun r2 h2 => ?_
  refine .bind (onPart_holds h2 (lo := 0) (len := d.n) (by omega) fun c hc => sub_atxpy hR p2 hc) fun r3 h3 => ?_
  refine .bind (onPart_holds h3 (lo := d.n) (len := picked flags) le_rfl fun c hc => sub_axpy hR p1 hc) fun r4 h4 => ?_
  refine hf r4 (h4.congr fun k hk => ?_)
  unfold cat refineRhs
  by_cases hk' : k < d.n
  · simp [hk', Csc.ext]
  · rw [if_pos (by omega), if_neg hk']
    have e : d.n + (k - d.n) = k := by omega
    simp [e, hk']

theorem refine_ok {env : Env d K} {G : PolLib L' K} {T : Data d K → (Fin d.m → ℤ) → K → L' → Prop} (hG : PolImpl env G T) {D : Data d K} {flags : Fin d.m → ℤ}
    {sigma : K} {lin : L'} (hT : T D flags sigma lin) {P R : Csc K} (hP : Stores P d.P D.P) (hR : RedOf D flags R) {z b : Buf K} {Z : Vec K d.n × (ℕ → K)}
    (hz : Holds z (d.n + picked flags) (cat d.n (Csc.ext Z.1) Z.2)) (hb : Holds b (d.n + picked flags) (cat d.n (Csc.ext (formRhsRed D flags).1) (formRhsRed D flags).2))
    (iters : ℤ) :
    Ok (refine (G.solve lin) iters (d.n : ℤ) P R z b) fun z' =>
      let S := refineLoop env D flags sigma (formRhsRed D flags) iters.toNat Z
      Holds z' (d.n + picked flags) (cat d.n (Csc.ext S.1) S.2) := by
  unfold refine
  by_cases hi : iters > 0
  · rw [if_pos hi]
    have hRm : R.m = (picked flags : ℤ) := by obtain ⟨W, h1, h2, _⟩ := hR; rw [h1.m, h2]
    rw [hRm]
    dsimp only
    suffices ∀ (k : ℕ) (i : ℤ) (rhs z : Buf K) (Z : Vec K d.n × (ℕ → K)), d.n + picked flags ≤ rhs.size →
        Holds z (d.n + picked flags) (cat d.n (Csc.ext Z.1) Z.2) →
        Ok (forGo (fun _ (s : Buf K × Buf K) =>
          (copyVec s.1 b ((d.n : ℤ) + (picked flags : ℤ))).bind fun rhs =>
          (onPart (fun r => axpySymTriu P (part s.2 0 (d.n : ℤ)) r (-1) 1) rhs 0 (d.n : ℤ)).bind fun rhs =>
          (onPart (fun r => atxpy R (part s.2 (d.n : ℤ) (picked flags : ℤ)) r (-1) 1) rhs 0 (d.n : ℤ)).bind fun rhs =>
          (onPart (fun r => axpy R (part s.2 0 (d.n : ℤ)) r (-1) 1) rhs (d.n : ℤ) (picked flags : ℤ)).bind fun rhs =>
          (G.solve lin rhs).bind fun rhs =>
          (plusIn s.2 rhs ((d.n : ℤ) + (picked flags : ℤ))).bind fun z => some (rhs, z)) k i (rhs, z)) fun s =>
            let S := refineLoop env D flags sigma (formRhsRed D flags) k Z
            Holds s.2 (d.n + picked flags) (cat d.n (Csc.ext S.1) S.2) by
      obtain ⟨s, e, h⟩ := this iters.toNat 0 (Buf.fresh ((d.n : ℤ) + (picked flags : ℤ))) z Z (by show _ ≤ ((d.n : ℤ) + (picked flags : ℤ)).toNat; omega) hz
      refine ⟨s.2, ?_, h⟩
      unfold forI
      rw [sub_zero, e]; rfl
    intro k
    induction k with
    | zero => exact fun i rhs z Z _ hz => .pure hz
    | succ k ih =>
      intro i rhs z Z hs hz
      unfold forGo
      refine .bind (P := fun s => d.n + picked flags ≤ s.1.size ∧ Holds s.2 (d.n + picked flags)
        (let dz := env.polSolve D flags sigma (refineRhs D flags (formRhsRed D flags) Z).1 (refineRhs D flags (formRhsRed D flags) Z).2
         cat d.n (Csc.ext fun j => Z.1 j + dz.1 j) fun i => Z.2 i + dz.2 i)) ?_ fun s h => ih (i + 1) s.1 s.2 _ h.1 h.2
      refine refineRhs_ok hP hR hs hz hb fun r hr => ?_
      obtain ⟨r', e, hr'⟩ := hG.solve D flags sigma lin hT _ _ r (fun k hk => by
        show (formRhsRed D flags).2 k - aredMul flags D.A Z.1 k = 0
        rw [rhs_out D flags hk, aredMul_out flags _ _ hk, sub_zero]) hr
      refine .val e ?_
      obtain ⟨z', e', hz'⟩ := plusIn_holds hz hr'
      rw [Nat.cast_add] at e'
      refine .val e' (.pure ⟨hr'.1, hz'.congr fun k hk => ?_⟩)
      unfold cat
      split_ifs with c
      · simp [Csc.ext, c]
      · rfl
  · rw [if_neg hi, show iters.toNat = 0 by omega]
    exact .pure hz

/-! ## Multipliers -/

theorem ypol_fill {flags : Fin d.m → ℤ} {fb : Buf ℤ} (hb : Holds fb d.m (extF flags)) {yr : Buf K} {Y : ℕ → K} (hy : Holds yr (picked flags) Y) :
    Ok (forI 0 (d.m : ℤ) (fun j (s : Buf K × ℤ) => (fb.rd j).bind fun f =>
      if f = 0 then (s.1.wr j 0).bind fun y => some (y, s.2)
      else (yr.rd s.2).bind fun v => (s.1.wr j v).bind fun y => some (y, s.2 + 1)) (Buf.fresh (d.m : ℤ), 0)) fun s => Arr s.1 (ypolOfYred flags Y) := by
  obtain ⟨r, e, h1, h2, h3⟩ := forI_zero (hi := d.m) (s := ((Buf.fresh (d.m : ℤ) : Buf K), (0 : ℤ)))
    (f := fun j (s : Buf K × ℤ) => (fb.rd j).bind fun f =>
      if f = 0 then (s.1.wr j 0).bind fun y => some (y, s.2)
      else (yr.rd s.2).bind fun v => (s.1.wr j v).bind fun y => some (y, s.2 + 1))
    (fun k s => s.1.size = d.m ∧ Holds s.1 k (Csc.ext (ypolOfYred flags Y)) ∧ s.2 = (Csc.rank (extF flags) k : ℤ)) ⟨by simp, Holds.zero, by simp [Csc.rank]⟩ (by
      rintro k ⟨b, c⟩ hk ⟨h1, h2, h3⟩
      dsimp only at h1 h2 h3 ⊢
      rw [hb.rd hk]
      simp only [Option.bind_some]
      have ek : extF flags k = flags ⟨k, hk⟩ := extF_of _ hk
      have er : Csc.rank (extF flags) k = Spec.rank flags ⟨k, hk⟩ := rank_ext flags ⟨k, hk⟩
      have hw : ∀ v : K, b.wr (k : ℤ) v = some (b.set k v) := fun v => Buf.wr_eq (by omega)
      rw [Csc.rank_succ, ek]
      by_cases c1 : flags ⟨k, hk⟩ = 0
      · rw [if_pos c1, hw, if_neg (by simp [c1])]
        exact ⟨_, rfl, h1, h2.extend (by omega) _ (by rw [Csc.ext, dif_pos hk, ypol_apply, if_pos c1]), by rw [h3]; rfl⟩
      · rw [if_neg c1, if_pos c1, h3, hy.rd (by rw [er]; exact rank_picked c1)]
        simp only [Option.bind_some]
        rw [hw]
        exact ⟨_, rfl, h1, h2.extend (by omega) _ (by rw [Csc.ext, dif_pos hk, ypol_apply, if_neg c1, er]), by push_cast; rfl⟩)
  exact ⟨r, e, by omega, fun k => by rw [h2.2 k k.2, ext_val]⟩

end Osqp.Vm
