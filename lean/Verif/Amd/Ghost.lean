import Verif.Amd.Space
import Verif.Amd.Finish

/-!
# Weights and the forest under construction

`wsum n p f` is the sum of `f` over the nodes that satisfy `p`. `Fo` describes the assembly forest during the elimination: nodes without a list (`Pe < 0`) have
their parent in `Pe`, the others are roots for the time being.
-/

namespace Osqp.Amd
open Csc Finset
set_option linter.unusedSectionVars false

/-- Absolute value. -/
def av (x : ℤ) : ℤ := if 0 ≤ x then x else -x
theorem av_pos {x : ℤ} (h : 0 ≤ x) : av x = x := if_pos h
theorem av_neg {x : ℤ} (h : x < 0) : av x = -x := if_neg (by omega)
theorem av_nonneg (x : ℤ) : 0 ≤ av x := by unfold av; split_ifs <;> omega
theorem av_gt {x : ℤ} (h : x ≠ 0) : 0 < av x := by unfold av; split_ifs <;> omega
theorem av_flip (x : ℤ) : av (-x) = av x := by unfold av; split_ifs <;> omega

open Classical in
/-- The sum of `f` over the nodes that satisfy `p`. -/
noncomputable def wsum (n : ℤ) (p : ℤ → Prop) (f : ℤ → ℤ) : ℤ := ∑ x ∈ Ico (0 : ℤ) n, if p x then f x else 0

variable {n : ℤ} {p p' : ℤ → Prop} {f f' : ℤ → ℤ}

theorem wsum_congr (hp : ∀ x, 0 ≤ x → x < n → (p' x ↔ p x)) (hf : ∀ x, 0 ≤ x → x < n → p x → f' x = f x) : wsum n p' f' = wsum n p f := by
  classical
  unfold wsum
  refine sum_congr rfl fun x hx => ?_
  rw [mem_Ico] at hx
  by_cases h : p x
  · rw [if_pos h, if_pos ((hp x hx.1 hx.2).mpr h), hf x hx.1 hx.2 h]
  · rw [if_neg h, if_neg (fun q => h ((hp x hx.1 hx.2).mp q))]

theorem wsum_mono (hp : ∀ x, 0 ≤ x → x < n → p' x → p x) (hf : ∀ x, 0 ≤ x → x < n → 0 ≤ f x) (hf' : ∀ x, 0 ≤ x → x < n → p' x → f' x ≤ f x) : wsum n p' f' ≤ wsum n p f := by
  classical
  unfold wsum
  refine sum_le_sum fun x hx => ?_
  rw [mem_Ico] at hx
  by_cases h : p' x
  · rw [if_pos h, if_pos (hp x hx.1 hx.2 h)]; exact hf' x hx.1 hx.2 h
  · rw [if_neg h]
    split_ifs
    · exact hf x hx.1 hx.2
    · exact le_rfl

theorem wsum_nonneg (hf : ∀ x, 0 ≤ x → x < n → 0 ≤ f x) : 0 ≤ wsum n p f := by
  classical
  unfold wsum
  refine sum_nonneg fun x hx => ?_
  rw [mem_Ico] at hx
  split_ifs
  · exact hf x hx.1 hx.2
  · exact le_rfl

/-- One more node. -/
theorem wsum_add {i : ℤ} (i0 : 0 ≤ i) (i1 : i < n) (hi : ¬ p i) (hp : ∀ x, 0 ≤ x → x < n → (p' x ↔ p x ∨ x = i)) (hf : ∀ x, 0 ≤ x → x < n → p x → f' x = f x) :
    wsum n p' f' = wsum n p f + f' i := by
  classical
  have e : f' i = ∑ x ∈ Ico (0 : ℤ) n, if x = i then f' i else 0 := by rw [sum_ite_eq', if_pos (mem_Ico.mpr ⟨i0, i1⟩)]
  rw [e]
  unfold wsum
  rw [← sum_add_distrib]
  refine sum_congr rfl fun x hx => ?_
  rw [mem_Ico] at hx
  have h := hp x hx.1 hx.2
  by_cases q : x = i
  · rw [if_pos (h.mpr (.inr q)), if_pos q, q, if_neg hi, zero_add]
  · rw [if_neg q, add_zero]
    by_cases w : p x
    · rw [if_pos w, if_pos (h.mpr (.inl w)), hf x hx.1 hx.2 w]
    · rw [if_neg w, if_neg (fun y => (h.mp y).elim w q)]

/-- One term is at most the sum. -/
theorem wsum_single {i : ℤ} (i0 : 0 ≤ i) (i1 : i < n) (hi : p i) (hf : ∀ x, 0 ≤ x → x < n → 0 ≤ f x) : f i ≤ wsum n p f := by
  classical
  unfold wsum
  refine le_trans ?_ (single_le_sum (f := fun x => if p x then f x else 0) (s := Ico (0 : ℤ) n) (fun x hx => ?_) (mem_Ico.mpr ⟨i0, i1⟩))
  · rw [if_pos hi]
  · rw [mem_Ico] at hx
    split_ifs
    · exact hf x hx.1 hx.2
    · exact le_rfl

/-- The weight of `j` goes to `t`. -/
theorem wsum_shift {j t : ℤ} (j0 : 0 ≤ j) (j1 : j < n) (t0 : 0 ≤ t) (t1 : t < n) (hjt : j ≠ t) (hsame : p j ↔ p t) (hp : ∀ x, 0 ≤ x → x < n → (p' x ↔ p x ∧ x ≠ j))
    (hf : ∀ x, 0 ≤ x → x < n → x ≠ j → x ≠ t → f' x = f x) (ht : f' t = f t + f j) : wsum n p' f' = wsum n p f := by
  classical
  have e1 : wsum n p f = wsum n (fun x => p x ∧ x ≠ j ∧ x ≠ t) f + (if p j then f j + f t else 0) := by
    by_cases h : p j
    · rw [if_pos h]
      have a := wsum_add (p := fun x => p x ∧ x ≠ j ∧ x ≠ t) (p' := fun x => p x ∧ x ≠ j) (f := f) (f' := f) t0 t1 (fun q => q.2.2 rfl) (fun x x0 x1 => by
        by_cases w : x = t
        · subst w; exact ⟨fun _ => .inr rfl, fun _ => ⟨hsame.mp h, Ne.symm hjt⟩⟩
        · tauto) (fun _ _ _ _ => rfl)
      have b := wsum_add (p := fun x => p x ∧ x ≠ j) (p' := p) (f := f) (f' := f) j0 j1 (fun q => q.2 rfl) (fun x x0 x1 => by
        by_cases w : x = j
        · subst w; exact ⟨fun _ => .inr rfl, fun _ => h⟩
        · tauto) (fun _ _ _ _ => rfl)
      omega
    · rw [if_neg h, add_zero]
      refine (wsum_congr (fun x x0 x1 => ?_) fun _ _ _ _ => rfl).symm
      constructor
      · exact fun q => q.1
      · exact fun q => ⟨q, fun e => h (e ▸ q), fun e => h (hsame.mpr (e ▸ q))⟩
  have e2 : wsum n p' f' = wsum n (fun x => p x ∧ x ≠ j ∧ x ≠ t) f + (if p j then f j + f t else 0) := by
    by_cases h : p j
    · rw [if_pos h, wsum_add (p := fun x => p x ∧ x ≠ j ∧ x ≠ t) (p' := p') (f := f) (f' := f') t0 t1 (fun q => q.2.2 rfl) (fun x x0 x1 => by
        rw [hp x x0 x1]
        by_cases w : x = t
        · subst w; exact ⟨fun _ => .inr rfl, fun _ => ⟨hsame.mp h, Ne.symm hjt⟩⟩
        · tauto) (fun x x0 x1 q => hf x x0 x1 q.2.1 q.2.2)]
      rw [ht]; ring
    · rw [if_neg h, add_zero]
      refine wsum_congr (fun x x0 x1 => ?_) fun x x0 x1 q => hf x x0 x1 q.2.1 q.2.2
      rw [hp x x0 x1]
      constructor
      · exact fun q => ⟨q.1, q.2, fun e => h (hsame.mpr (e ▸ q.1))⟩
      · exact fun q => ⟨q.1, q.2.1⟩
  rw [e1, e2]

/-! ## The forest -/

/-- The assembly forest during the elimination. `nv x` is the number of variables that `x` stands for. -/
structure Fo (n : ℤ) (Pe Elen nv rep : ℤ → ℤ) (rank : ℤ → ℕ) (T : ℕ) : Prop where
  dead : ∀ x, 0 ≤ x → x < n → Pe x < 0 → Pe x = -1 ∨ (0 ≤ flip (Pe x) ∧ flip (Pe x) < n ∧ (0 ≤ Pe (flip (Pe x)) ∨ rank x < rank (flip (Pe x))))
  lt : ∀ x, 0 ≤ x → x < n → Pe x < 0 → rank x < T
  elt : ∀ x, 0 ≤ x → x < n → Elen x < -1 → Pe x < 0 → Pe x ≠ -1 → Elen (flip (Pe x)) < -1
  gone : ∀ x, 0 ≤ x → x < n → Elen x = -1 → Pe x < 0
  self : ∀ x, 0 ≤ x → x < n → Elen x ≠ -1 → rep x = x
  up : ∀ x, 0 ≤ x → x < n → Elen x = -1 → Pe x ≠ -1 → rep x = rep (flip (Pe x)) ∧ rep x ≠ -1
  apart : ∀ x, 0 ≤ x → x < n → Elen x = -1 → Pe x = -1 → rep x = -1
  cnt : ∀ x, 0 ≤ x → x < n → Elen x ≠ -1 → nv x = ((Ico (0 : ℤ) n).filter fun y => rep y = x).card

variable {Pe Elen nv rep Pe' Elen' nv' : ℤ → ℤ} {rank : ℤ → ℕ} {T : ℕ}

/-- Elements are absorbed into `me`, which is or becomes an element. -/
theorem Fo.kill (F : Fo n Pe Elen nv rep rank T) {me : ℤ} (m0 : 0 ≤ me) (m1 : me < n) (mp : 0 ≤ Pe' me) (K : ℤ → Prop) (hK : ∀ x, K x → x ≠ me ∧ Elen x < -1 ∧ 0 ≤ Pe x ∧ Pe' x = flip me)
    (hneg : ∀ x, 0 ≤ x → x < n → ¬ K x → Pe x < 0 → Pe' x = Pe x) (hpos : ∀ x, 0 ≤ x → x < n → ¬ K x → 0 ≤ Pe x → 0 ≤ Pe' x) (hE : ∀ x, 0 ≤ x → x < n → x ≠ me → Elen' x = Elen x)
    (hme : Elen me ≠ -1 ∧ Elen' me < -1) (hnv : ∀ x, 0 ≤ x → x < n → Elen x ≠ -1 → nv' x = nv x) : ∃ rank' T', Fo n Pe' Elen' nv' rep rank' T' := by
  classical
  have hEl : ∀ x, 0 ≤ x → x < n → (Elen' x = -1 ↔ Elen x = -1) := fun x x0 x1 => by
    by_cases e : x = me
    · subst e; have := hme; constructor <;> intro <;> omega
    · rw [hE x x0 x1 e]
  have hmK : ¬ K me := fun q => (hK me q).1 rfl
  refine ⟨fun x => if K x then T else rank x, T + 1, fun x x0 x1 hp => ?_, fun x x0 x1 hp => ?_, fun x x0 x1 he hp h1 => ?_, fun x x0 x1 he => ?_, fun x x0 x1 he => F.self x x0 x1 ((hEl x x0 x1).not.mp he),
    fun x x0 x1 he hp => ?_, fun x x0 x1 he hp => ?_, fun x x0 x1 he => ?_⟩
  · by_cases k : K x
    · right
      rw [(hK x k).2.2.2, show flip (flip me) = me by unfold flip; omega]
      exact ⟨m0, m1, .inl mp⟩
    · have hn : Pe x < 0 := by by_contra q; have := hpos x x0 x1 k (by omega); omega
      rw [hneg x x0 x1 k hn]
      rcases F.dead x x0 x1 hn with q | ⟨q0, q1, q2⟩
      · exact .inl q
      · refine .inr ⟨q0, q1, ?_⟩
        rw [if_neg k]
        by_cases k' : K (flip (Pe x))
        · right; rw [if_pos k']; exact F.lt x x0 x1 hn
        · rw [if_neg k']
          rcases q2 with q2 | q2
          · exact .inl (hpos _ q0 q1 k' q2)
          · exact .inr q2
  · split_ifs with k
    · omega
    · have hn : Pe x < 0 := by by_contra q; have := hpos x x0 x1 k (by omega); omega
      have := F.lt x x0 x1 hn; omega
  · by_cases k : K x
    · rw [(hK x k).2.2.2, show flip (flip me) = me by unfold flip; omega]; exact hme.2
    · have hn : Pe x < 0 := by by_contra q; have := hpos x x0 x1 k (by omega); omega
      have hxm : x ≠ me := by rintro rfl; omega
      rw [hneg x x0 x1 k hn] at h1 ⊢
      have hpar := (F.dead x x0 x1 hn).resolve_left h1
      rw [hE x x0 x1 hxm] at he
      have := F.elt x x0 x1 he hn h1
      by_cases e : flip (Pe x) = me
      · rw [e]; exact hme.2
      · rw [hE _ hpar.1 hpar.2.1 e]; exact this
  · have he' := (hEl x x0 x1).mp he
    have hk : ¬ K x := fun q => by have := (hK x q).2.1; omega
    have := F.gone x x0 x1 he'
    rw [hneg x x0 x1 hk this]; exact this
  · have he' := (hEl x x0 x1).mp he
    have hk : ¬ K x := fun q => by have := (hK x q).2.1; omega
    have := F.gone x x0 x1 he'
    rw [hneg x x0 x1 hk this] at hp ⊢
    exact F.up x x0 x1 he' hp
  · have he' := (hEl x x0 x1).mp he
    have hk : ¬ K x := fun q => by have := (hK x q).2.1; omega
    have := F.gone x x0 x1 he'
    rw [hneg x x0 x1 hk this] at hp
    exact F.apart x x0 x1 he' hp
  · have he' := (hEl x x0 x1).not.mp he
    rw [hnv x x0 x1 he']; exact F.cnt x x0 x1 he'

/-- Variable `j` is absorbed into `t`. -/
theorem Fo.absorb (F : Fo n Pe Elen nv rep rank T) {j t : ℤ} (j0 : 0 ≤ j) (j1 : j < n) (t0 : 0 ≤ t) (t1 : t < n) (hjt : j ≠ t) (tp : 0 ≤ Pe t) (te : Elen t ≠ -1) (je : 0 ≤ Elen j) (jp : 0 ≤ Pe j)
    (hj : Pe' j = flip t) (hP : ∀ x, 0 ≤ x → x < n → x ≠ j → Pe' x = Pe x) (hEj : Elen' j = -1) (hE : ∀ x, 0 ≤ x → x < n → x ≠ j → Elen' x = Elen x)
    (hnv : ∀ x, 0 ≤ x → x < n → Elen x ≠ -1 → x ≠ j → x ≠ t → nv' x = nv x) (hnt : nv' t = nv t + nv j) : ∃ rep' rank' T', Fo n Pe' Elen' nv' rep' rank' T' := by
  have ff : flip (flip t) = t := by unfold flip; omega
  have hrj : rep j = j := F.self j j0 j1 (by omega)
  have hrt : rep t = t := F.self t t0 t1 te
  refine ⟨fun y => if rep y = j then t else rep y, fun x => if x = j then T else rank x, T + 1, fun x x0 x1 hp => ?_, fun x x0 x1 hp => ?_, fun x x0 x1 he hp h1 => ?_, fun x x0 x1 he => ?_,
    fun x x0 x1 he => ?_, fun x x0 x1 he hp => ?_, fun x x0 x1 he hp => ?_, fun x x0 x1 he => ?_⟩
  · by_cases e : x = j
    · subst e; right
      rw [hj, ff]
      exact ⟨t0, t1, .inl (by rw [hP t t0 t1 (Ne.symm hjt)]; exact tp)⟩
    · rw [hP x x0 x1 e] at hp ⊢
      rcases F.dead x x0 x1 hp with q | ⟨q0, q1, q2⟩
      · exact .inl q
      · refine .inr ⟨q0, q1, ?_⟩
        rw [if_neg e]
        by_cases w : flip (Pe x) = j
        · right; rw [if_pos w]; exact F.lt x x0 x1 hp
        · rw [if_neg w, hP _ q0 q1 w]; exact q2
  · split_ifs with e
    · omega
    · rw [hP x x0 x1 e] at hp; have := F.lt x x0 x1 hp; omega
  · have e : x ≠ j := by rintro rfl; omega
    rw [hP x x0 x1 e] at hp h1 ⊢
    rw [hE x x0 x1 e] at he
    have := F.elt x x0 x1 he hp h1
    have hpar := (F.dead x x0 x1 hp).resolve_left h1
    have w : flip (Pe x) ≠ j := by intro w; rw [w] at this; omega
    rw [hE _ hpar.1 hpar.2.1 w]; exact this
  · by_cases e : x = j
    · subst e; rw [hj]; unfold flip; omega
    · rw [hP x x0 x1 e]; rw [hE x x0 x1 e] at he; exact F.gone x x0 x1 he
  · have e : x ≠ j := by rintro rfl; omega
    rw [hE x x0 x1 e] at he
    have := F.self x x0 x1 he
    rw [this, if_neg e]
  · by_cases e : x = j
    · subst e
      rw [hj, ff, hrj, if_pos rfl, hrt, if_neg (Ne.symm hjt)]; exact ⟨rfl, by omega⟩
    · rw [hP x x0 x1 e] at hp ⊢
      rw [hE x x0 x1 e] at he
      have := F.up x x0 x1 he hp
      rw [this.1]
      refine ⟨rfl, ?_⟩
      split_ifs
      · omega
      · rw [← this.1]; exact this.2
  · have e : x ≠ j := by rintro rfl; rw [hj] at hp; unfold flip at hp; omega
    rw [hP x x0 x1 e] at hp
    rw [hE x x0 x1 e] at he
    have := F.apart x x0 x1 he hp
    rw [this, if_neg (by omega)]
  · have e : x ≠ j := by rintro rfl; omega
    rw [hE x x0 x1 e] at he
    by_cases w : x = t
    · subst w
      rw [hnt, F.cnt x t0 t1 te, F.cnt j j0 j1 (by omega), ← Nat.cast_add, ← card_union_of_disjoint]
      · congr 2
        ext y
        rw [mem_union, mem_filter, mem_filter, mem_filter]
        by_cases q : rep y = j
        · rw [if_pos q]; tauto
        · rw [if_neg q]; tauto
      · rw [disjoint_left]
        intro y h1 h2
        rw [mem_filter] at h1 h2
        exact hjt (h2.2.symm.trans h1.2)
    · rw [hnv x x0 x1 he e w, F.cnt x x0 x1 he]
      congr 2
      ext y
      rw [mem_filter, mem_filter]
      by_cases q : rep y = j
      · rw [if_pos q, q]; constructor
        · rintro ⟨_, h⟩; exact absurd h.symm e
        · rintro ⟨_, h⟩; exact absurd h.symm w
      · rw [if_neg q]

/-- An element without variables becomes a root. -/
theorem Fo.root (F : Fo n Pe Elen nv rep rank T) {me : ℤ} (m0 : 0 ≤ me) (m1 : me < n) (mp : 0 ≤ Pe me) (me1 : Elen me < -1) (hm : Pe' me = -1) (hP : ∀ x, 0 ≤ x → x < n → x ≠ me → Pe' x = Pe x) :
    ∃ rank' T', Fo n Pe' Elen nv rep rank' T' := by
  refine ⟨fun x => if x = me then T else rank x, T + 1, fun x x0 x1 hp => ?_, fun x x0 x1 hp => ?_, fun x x0 x1 he hp h1 => ?_, fun x x0 x1 he => ?_, F.self, fun x x0 x1 he hp => ?_, fun x x0 x1 he hp => ?_, F.cnt⟩
  · by_cases e : x = me
    · left; rw [e]; exact hm
    · rw [hP x x0 x1 e] at hp ⊢
      rcases F.dead x x0 x1 hp with q | ⟨q0, q1, q2⟩
      · exact .inl q
      · refine .inr ⟨q0, q1, ?_⟩
        rw [if_neg e]
        by_cases w : flip (Pe x) = me
        · right; rw [if_pos w]; exact F.lt x x0 x1 hp
        · rw [if_neg w, hP _ q0 q1 w]; exact q2
  · split_ifs with e
    · omega
    · rw [hP x x0 x1 e] at hp; have := F.lt x x0 x1 hp; omega
  · have e : x ≠ me := by rintro rfl; exact h1 hm
    rw [hP x x0 x1 e] at hp h1 ⊢
    exact F.elt x x0 x1 he hp h1
  · have e : x ≠ me := by rintro rfl; omega
    rw [hP x x0 x1 e]; exact F.gone x x0 x1 he
  · have e : x ≠ me := by rintro rfl; omega
    rw [hP x x0 x1 e] at hp ⊢; exact F.up x x0 x1 he hp
  · have e : x ≠ me := by rintro rfl; omega
    rw [hP x x0 x1 e] at hp; exact F.apart x x0 x1 he hp

theorem Fo.congr (F : Fo n Pe Elen nv rep rank T) (hneg : ∀ x, 0 ≤ x → x < n → Pe x < 0 → Pe' x = Pe x) (hpos : ∀ x, 0 ≤ x → x < n → 0 ≤ Pe x → 0 ≤ Pe' x)
    (hE : ∀ x, 0 ≤ x → x < n → (Elen' x = -1 ↔ Elen x = -1)) (hE' : ∀ x, 0 ≤ x → x < n → (Elen' x < -1 ↔ Elen x < -1)) (hnv : ∀ x, 0 ≤ x → x < n → Elen x ≠ -1 → nv' x = nv x) : Fo n Pe' Elen' nv' rep rank T := by
  have hn : ∀ x, 0 ≤ x → x < n → Pe' x < 0 → Pe x < 0 := fun x x0 x1 h => by by_contra q; have := hpos x x0 x1 (by omega); omega
  refine ⟨fun x x0 x1 hp => ?_, fun x x0 x1 hp => F.lt x x0 x1 (hn x x0 x1 hp), fun x x0 x1 he hp h1 => ?_, fun x x0 x1 he => ?_, fun x x0 x1 he => F.self x x0 x1 ((hE x x0 x1).not.mp he), fun x x0 x1 he hp => ?_,
    fun x x0 x1 he hp => ?_, fun x x0 x1 he => ?_⟩
  · have h := hn x x0 x1 hp
    rw [hneg x x0 x1 h]
    rcases F.dead x x0 x1 h with q | ⟨q0, q1, q2⟩
    · exact .inl q
    · refine .inr ⟨q0, q1, ?_⟩
      rcases q2 with q2 | q2
      · exact .inl (hpos _ q0 q1 q2)
      · exact .inr q2
  · have h := hn x x0 x1 hp
    rw [hneg x x0 x1 h] at h1 ⊢
    have hpar := (F.dead x x0 x1 h).resolve_left h1
    exact (hE' _ hpar.1 hpar.2.1).mpr (F.elt x x0 x1 ((hE' x x0 x1).mp he) h h1)
  · have h := F.gone x x0 x1 ((hE x x0 x1).mp he)
    rw [hneg x x0 x1 h]; exact h
  · have h := F.gone x x0 x1 ((hE x x0 x1).mp he)
    rw [hneg x x0 x1 h] at hp ⊢; exact F.up x x0 x1 ((hE x x0 x1).mp he) hp
  · have h := F.gone x x0 x1 ((hE x x0 x1).mp he)
    rw [hneg x x0 x1 h] at hp; exact F.apart x x0 x1 ((hE x x0 x1).mp he) hp
  · rw [hnv x x0 x1 ((hE x x0 x1).not.mp he)]; exact F.cnt x x0 x1 ((hE x x0 x1).not.mp he)

/-- At the end. -/
theorem Fo.forest (F : Fo n Pe Elen nv rep rank T) (hall : ∀ x, 0 ≤ x → x < n → Pe x < 0) {Nv : ℤ → ℤ} (h1 : ∀ x, 0 ≤ x → x < n → Elen x ≠ -1 → Elen x < -1 ∧ 0 < Nv x ∧ nv x = Nv x)
    (h0 : ∀ x, 0 ≤ x → x < n → Elen x = -1 → Nv x = 0) : Forest n (fun i => flip (Pe i)) Nv rep rank := by
  have fl : ∀ x, flip (Pe x) = -1 ↔ Pe x = -1 := fun x => by unfold flip; omega
  have hpos : ∀ x, 0 ≤ x → x < n → 0 < Nv x → Elen x < -1 := fun x x0 x1 h => by
    by_cases e : Elen x = -1
    · have := h0 x x0 x1 e; omega
    · exact (h1 x x0 x1 e).1
  have hz : ∀ x, 0 ≤ x → x < n → Nv x = 0 → Elen x = -1 := fun x x0 x1 h => by
    by_contra e
    have := (h1 x x0 x1 e).2.1; omega
  refine ⟨fun x x0 x1 => ?_, fun x x0 x1 => ?_, fun x x0 x1 h hp => ?_, fun x x0 x1 h => F.self x x0 x1 (by have := hpos x x0 x1 h; omega), fun x x0 x1 h hp => (F.up x x0 x1 (hz x x0 x1 h) ((fl x).not.mp hp)).1,
    fun x x0 x1 h hp => F.apart x x0 x1 (hz x x0 x1 h) ((fl x).mp hp), fun x x0 x1 h hp => (F.up x x0 x1 (hz x x0 x1 h) ((fl x).not.mp hp)).2, fun x x0 x1 h => ?_⟩
  · by_cases e : Elen x = -1
    · rw [h0 x x0 x1 e]
    · have := (h1 x x0 x1 e).2.1; omega
  · rcases F.dead x x0 x1 (hall x x0 x1) with q | ⟨q0, q1, q2⟩
    · exact .inl ((fl x).mpr q)
    · refine .inr ⟨q0, q1, q2.resolve_left ?_⟩
      have := hall _ q0 q1; omega
  · have hp' := (fl x).not.mp hp
    have := (F.dead x x0 x1 (hall x x0 x1)).resolve_left hp'
    have he := F.elt x x0 x1 (hpos x x0 x1 h) (hall x x0 x1) hp'
    exact (h1 _ this.1 this.2.1 (by omega)).2.1
  · have he := hpos x x0 x1 h
    rw [← (h1 x x0 x1 (by omega)).2.2]; exact F.cnt x x0 x1 (by omega)

end Osqp.Amd
