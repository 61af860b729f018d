import Verif.Amd.Tree

/-!
# The degree lists

Doubly linked lists of variables, one for every degree. `Head d` also keeps the hash bucket `d`: if the degree list is not empty, the head of
the bucket is in the `Last` of its first variable, otherwise it is in `Head d`, flipped.
-/

namespace Osqp.Amd
open Csc Finset
set_option linter.unusedSectionVars false

/-- The head of the hash bucket `d`. -/
def bh (L H : ℤ → ℤ) (d : ℤ) : ℤ := if 0 ≤ H d then L (H d) else flip (H d)

/-- The degree lists of the variables `lk`. `st` increases towards the heads. -/
structure Deg (n : ℤ) (N L H D : ℤ → ℤ) (lk : ℤ → Prop) (st : ℤ → ℕ) : Prop where
  rng : ∀ x, lk x → 0 ≤ x ∧ x < n
  deg : ∀ x, lk x → 0 ≤ D x ∧ D x < n
  next : ∀ x, lk x → N x = -1 ∨ (lk (N x) ∧ L (N x) = x ∧ D (N x) = D x ∧ H (D x) ≠ N x)
  last : ∀ x, lk x → H (D x) = x ∨ (H (D x) ≠ x ∧ lk (L x) ∧ N (L x) = x ∧ D (L x) = D x ∧ st x < st (L x))
  head : ∀ d, 0 ≤ d → d < n → H d < 0 ∨ (lk (H d) ∧ D (H d) = d)

/-- All the hash buckets are empty. -/
def NoHash (n : ℤ) (L H : ℤ → ℤ) : Prop := ∀ d, 0 ≤ d → d < n → bh L H d = -1

variable {n : ℤ} {N L H D N' L' H' D' : ℤ → ℤ} {lk : ℤ → Prop} {st : ℤ → ℕ}

theorem NoHash.head (h : NoHash n L H) {d : ℤ} (h0 : 0 ≤ d) (h1 : d < n) : (0 ≤ H d → L (H d) = -1) ∧ (H d < 0 → H d = -1) := by
  have := h d h0 h1
  unfold bh flip at this
  split_ifs at this with q
  · exact ⟨fun _ => this, fun e => by omega⟩
  · exact ⟨fun e => by omega, fun _ => by omega⟩

/-- Removing a variable. -/
theorem deg_unlink (d : Deg n N L H D lk st) (hh : NoHash n L H) {i : ℤ} (hi : lk i)
    (hN : ∀ x, N' x = if L i ≠ -1 ∧ x = L i then N i else N x) (hL : ∀ x, L' x = if N i ≠ -1 ∧ x = N i then L i else L x)
    (hH : ∀ e, H' e = if L i = -1 ∧ e = D i then N i else H e) : Deg n N' L' H' D (fun x => lk x ∧ x ≠ i) st ∧ NoHash n L' H' := by
  obtain ⟨i0, i1⟩ := d.rng i hi
  obtain ⟨d0, d1⟩ := d.deg i hi
  have hlast : (L i = -1 ∧ H (D i) = i) ∨ (L i ≠ -1 ∧ H (D i) ≠ i ∧ lk (L i) ∧ N (L i) = i ∧ D (L i) = D i ∧ st i < st (L i)) := by
    rcases d.last i hi with e | ⟨e, h1, h2⟩
    · exact .inl ⟨by have := (hh.head d0 d1).1 (by omega); rw [e] at this; exact this, e⟩
    · exact .inr ⟨by have := d.rng _ h1; omega, e, h1, h2⟩
  have hnext := d.next i hi
  have hne : N i ≠ i := by
    intro e
    rcases hnext with q | ⟨_, q, _, _⟩
    · omega
    · rw [e] at q
      rcases hlast with ⟨w, _⟩ | ⟨_, _, _, _, _, w⟩
      · omega
      · rw [q] at w; omega
  have hnl : N i ≠ -1 → N i ≠ L i := by
    intro h1 e
    have hnext' := hnext
    rcases hnext with q | ⟨_, q, _, _⟩
    · exact h1 q
    · rcases hlast with ⟨w, _⟩ | ⟨_, _, hlk, w, _, ws⟩
      · omega
      · have := d.last (L i) hlk
        rw [e] at q
        rcases this with this | ⟨_, _, _, _, this⟩
        · rcases hnext' with r | ⟨_, _, r1, r2⟩
          · omega
          · rw [e] at r1 r2; rw [r1] at this; exact r2 this
        · rw [q] at this; omega
  constructor
  · refine ⟨fun x hx => d.rng x hx.1, fun x hx => d.deg x hx.1, fun x hx => ?_, fun x hx => ?_, fun e e0 e1 => ?_⟩
    · obtain ⟨hx, hxi⟩ := hx
      rw [hN]
      by_cases c : L i ≠ -1 ∧ x = L i
      · rw [if_pos c]
        obtain ⟨c1, rfl⟩ := c
        rcases hlast with ⟨w, _⟩ | ⟨_, w0, hlk, w, wd, ws⟩
        · omega
        · rcases hnext with q | ⟨q1, q2, q3, q4⟩
          · exact .inl q
          · refine .inr ⟨⟨q1, hne⟩, ?_, by omega, ?_⟩
            · rw [hL, if_pos ⟨by have := d.rng _ q1; omega, rfl⟩]
            · rw [hH, if_neg (by omega), wd]; exact q4
      · rw [if_neg c]
        rcases d.next x hx with q | ⟨q1, q2, q3, q4⟩
        · exact .inl q
        · have hxn : N x ≠ i := by
            intro e
            rw [e] at q2
            exact c ⟨by have := d.rng x hx; omega, q2.symm⟩
          have hnn : N x ≠ N i := by
            intro e
            rcases hnext with r | ⟨_, r2, _, _⟩
            · have := d.rng _ q1; omega
            · rw [e, r2] at q2; exact hxi q2.symm
          refine .inr ⟨⟨q1, hxn⟩, by rw [hL, if_neg (fun w => hnn w.2)]; exact q2, q3, ?_⟩
          rw [hH]
          split_ifs with w
          · exact hnn.symm
          · exact q4
    · obtain ⟨hx, hxi⟩ := hx
      rw [hH, hL]
      by_cases c : N i ≠ -1 ∧ x = N i
      · obtain ⟨c1, rfl⟩ := c
        obtain ⟨q1, q2, q3, q4⟩ := hnext.resolve_left c1
        rw [if_pos (show N i ≠ -1 ∧ N i = N i from ⟨c1, rfl⟩)]
        rcases hlast with ⟨w, _⟩ | ⟨w, w0, hlk, wn, wd, ws⟩
        · left; rw [if_pos ⟨w, q3⟩]
        · right
          rw [if_neg (by omega), hN, if_pos ⟨w, rfl⟩]
          refine ⟨by rw [q3]; exact q4, ⟨hlk, fun e => ?_⟩, rfl, by omega, ?_⟩
          · rw [e] at ws; omega
          · rcases d.last _ q1 with r | ⟨_, _, _, _, r⟩
            · rw [q3] at r; exact absurd r q4
            · rw [q2] at r; omega
      · rw [if_neg c]
        rcases d.last x hx with q | ⟨q0, q1, q2, q3, q4⟩
        · left
          split_ifs with w
          · exfalso
            rcases hlast with ⟨_, r⟩ | ⟨r, _⟩
            · rw [w.2, r] at q; exact hxi q.symm
            · exact r w.1
          · exact q
        · right
          have hli : L x ≠ i := by
            intro e
            rw [e] at q2
            exact c ⟨by have := d.rng x hx; omega, q2.symm⟩
          refine ⟨?_, ⟨q1, hli⟩, ?_, q3, q4⟩
          · split_ifs with w
            · intro e
              exact c ⟨by have := d.rng x hx; omega, e.symm⟩
            · exact q0
          · rw [hN, if_neg]
            · exact q2
            · rintro ⟨w1, w2⟩
              rcases hlast with ⟨r, _⟩ | ⟨_, _, _, r, _⟩
              · exact w1 r
              · rw [w2, r] at q2; exact hxi q2.symm
    · rw [hH]
      split_ifs with w
      · rcases hnext with q | ⟨q1, q2, q3, q4⟩
        · left; omega
        · right; exact ⟨⟨q1, hne⟩, by rw [q3, w.2]⟩
      · rcases d.head e e0 e1 with q | ⟨q1, q2⟩
        · exact .inl q
        · refine .inr ⟨⟨q1, fun r => ?_⟩, q2⟩
          rw [r] at q2
          rcases hlast with ⟨r1, _⟩ | ⟨_, r1, _⟩
          · exact w ⟨r1, q2.symm⟩
          · rw [q2] at r1; exact r1 r
  · intro e e0 e1
    unfold bh
    rw [hH]
    split_ifs with w q q
    · rw [hL, if_pos ⟨by omega, rfl⟩]; exact w.1
    · rcases hnext with r | ⟨r, _⟩
      · rw [r]; rfl
      · have := d.rng _ r; omega
    · rw [hL, if_neg]
      · exact (hh.head e0 e1).1 q
      · rintro ⟨r1, r2⟩
        obtain ⟨q1, q2, q3, q4⟩ := hnext.resolve_left r1
        have := (d.head e e0 e1).resolve_left (by omega)
        rw [r2] at this
        rw [← this.2, q3] at r2
        exact q4 r2
    · rw [(hh.head e0 e1).2 (by omega)]; rfl

/-- Putting a variable at the head of a list. -/
theorem deg_insert (d : Deg n N L H D lk st) (hh : NoHash n L H) {i g : ℤ} (i0 : 0 ≤ i) (i1 : i < n) (hi : ¬ lk i) (g0 : 0 ≤ g) (g1 : g < n)
    (hN : ∀ x, N' x = if x = i then H g else N x) (hL : ∀ x, L' x = if x = i then -1 else if H g ≠ -1 ∧ x = H g then i else L x)
    (hH : ∀ e, H' e = if e = g then i else H e) (hD : ∀ x, D' x = if x = i then g else D x) :
    ∃ st', Deg n N' L' H' D' (fun x => lk x ∨ x = i) st' ∧ NoHash n L' H' := by
  obtain ⟨B, hB⟩ : ∃ B : ℕ, ∀ x, 0 ≤ x → x < n → st x < B := by
    refine ⟨(∑ x ∈ Ico (0 : ℤ) n, st x) + 1, fun x x0 x1 => ?_⟩
    have := single_le_sum (f := st) (s := Ico (0 : ℤ) n) (fun _ _ => Nat.zero_le _) (mem_Ico.mpr ⟨x0, x1⟩)
    omega
  have hne : ∀ x, lk x → x ≠ i := fun x hx e => hi (e ▸ hx)
  have hg := hh.head g0 g1
  refine ⟨fun x => if x = i then B else st x, ⟨fun x hx => ?_, fun x hx => ?_, fun x hx => ?_, fun x hx => ?_, fun e e0 e1 => ?_⟩, fun e e0 e1 => ?_⟩
  · rcases hx with hx | rfl
    · exact d.rng x hx
    · exact ⟨i0, i1⟩
  · rw [hD]
    rcases hx with hx | rfl
    · rw [if_neg (hne x hx)]; exact d.deg x hx
    · rw [if_pos rfl]; exact ⟨g0, g1⟩
  · rcases hx with hx | rfl
    · rw [hN, if_neg (hne x hx), hD x, if_neg (hne x hx), hH]
      rcases d.next x hx with q | ⟨q1, q2, q3, q4⟩
      · exact .inl q
      · refine .inr ⟨.inl q1, ?_, ?_, ?_⟩
        · rw [hL, if_neg (hne _ q1), if_neg]
          · exact q2
          · rintro ⟨w1, w2⟩
            have hd := (d.head g g0 g1).resolve_left (by have := d.rng _ q1; omega)
            rw [← w2] at hd
            rw [← q3, hd.2, w2] at q4
            exact q4 rfl
        · rw [hD, if_neg (hne _ q1)]; exact q3
        · split_ifs with w
          · exact (hne _ q1).symm
          · exact q4
    · rw [hN, if_pos rfl, hD x, if_pos rfl, hH, if_pos rfl]
      rcases d.head g g0 g1 with q | ⟨q1, q2⟩
      · exact .inl (hg.2 q)
      · have hq := hne _ q1
        refine .inr ⟨.inl q1, ?_, ?_, hq.symm⟩
        · rw [hL, if_neg hq, if_pos ⟨by have := d.rng _ q1; omega, rfl⟩]
        · rw [hD, if_neg hq]; exact q2
  · rcases hx with hx | rfl
    · have hq := hne x hx
      rw [hD x, if_neg hq, hH, hL, if_neg hq]
      rcases d.last x hx with q | ⟨q0, q1, q2, q3, q4⟩
      · by_cases w : D x = g
        · right
          rw [if_pos w]
          have hx' : H g = x := by rw [← w]; exact q
          rw [if_pos (show H g ≠ -1 ∧ x = H g from ⟨by have := d.rng x hx; omega, hx'.symm⟩)]
          refine ⟨hq.symm, .inr rfl, by rw [hN, if_pos rfl]; exact hx', by rw [hD, if_pos rfl]; exact w.symm, ?_⟩
          rw [if_neg hq, if_pos rfl]
          have := d.rng x hx
          exact hB x this.1 this.2
        · left; rw [if_neg w]; exact q
      · right
        have hxg : ¬ (H g ≠ -1 ∧ x = H g) := by
          rintro ⟨w1, w2⟩
          have hd := (d.head g g0 g1).resolve_left (by have := d.rng _ hx; omega)
          rw [← w2] at hd
          rw [hd.2] at q0
          exact q0 w2.symm
        rw [if_neg hxg]
        have hq1 := hne _ q1
        refine ⟨?_, .inl q1, by rw [hN, if_neg hq1]; exact q2, by rw [hD, if_neg hq1]; exact q3, by rw [if_neg hq, if_neg hq1]; exact q4⟩
        split_ifs with w
        · exact hq.symm
        · exact q0
    · left; rw [hD x, if_pos rfl, hH, if_pos rfl]
  · rw [hH]
    split_ifs with w
    · right; exact ⟨.inr rfl, by rw [hD, if_pos rfl, w]⟩
    · rcases d.head e e0 e1 with q | ⟨q1, q2⟩
      · exact .inl q
      · exact .inr ⟨.inl q1, by rw [hD, if_neg (hne _ q1)]; exact q2⟩
  · unfold bh
    rw [hH]
    split_ifs with w q q
    · rw [hL, if_pos rfl]
    · have h1 := (d.head e e0 e1).resolve_left (by omega)
      rw [hL, if_neg (hne _ h1.1), if_neg]
      · exact (hh.head e0 e1).1 q
      · rintro ⟨_, r⟩
        have h2 := (d.head g g0 g1).resolve_left (by omega)
        rw [r] at h1
        omega
    · rw [(hh.head e0 e1).2 (by omega)]; rfl

/-- The list of a linked variable is not empty. -/
theorem Deg.nonempty (d : Deg n N L H D lk st) {x : ℤ} (hx : lk x) : 0 ≤ H (D x) := by
  obtain ⟨B, hB⟩ : ∃ B : ℕ, ∀ x, 0 ≤ x → x < n → st x < B := by
    refine ⟨(∑ x ∈ Ico (0 : ℤ) n, st x) + 1, fun x x0 x1 => ?_⟩
    have := single_le_sum (f := st) (s := Ico (0 : ℤ) n) (fun _ _ => Nat.zero_le _) (mem_Ico.mpr ⟨x0, x1⟩)
    omega
  have : ∀ (k : ℕ) (x : ℤ), lk x → B - st x ≤ k → 0 ≤ H (D x) := by
    intro k
    induction k with
    | zero => intro x hx hk; have := d.rng x hx; have := hB x this.1 this.2; omega
    | succ k ih =>
      intro x hx hk
      rcases d.last x hx with q | ⟨q0, q1, q2, q3, q4⟩
      · have := d.rng x hx; omega
      · rw [← q3]
        have := d.rng _ q1
        have := hB _ this.1 this.2
        exact ih _ q1 (by omega)
  exact this _ x hx le_rfl

/-- Only the pointers of linked variables matter. -/
theorem Deg.congr (d : Deg n N L H D lk st) {lk' : ℤ → Prop} (hlk : ∀ x, lk' x ↔ lk x) (hD : ∀ x, lk x → D' x = D x) : Deg n N L H D' lk' st where
  rng x hx := d.rng x ((hlk x).mp hx)
  deg x hx := by rw [hD x ((hlk x).mp hx)]; exact d.deg x ((hlk x).mp hx)
  next x hx := by
    have hx := (hlk x).mp hx
    rw [hD x hx]
    rcases d.next x hx with q | ⟨q1, q2, q3, q4⟩
    · exact .inl q
    · exact .inr ⟨(hlk _).mpr q1, q2, by rw [hD _ q1]; exact q3, q4⟩
  last x hx := by
    have hx := (hlk x).mp hx
    rw [hD x hx]
    rcases d.last x hx with q | ⟨q0, q1, q2, q3, q4⟩
    · exact .inl q
    · exact .inr ⟨q0, (hlk _).mpr q1, q2, by rw [hD _ q1]; exact q3, q4⟩
  head e e0 e1 := by
    rcases d.head e e0 e1 with q | ⟨q1, q2⟩
    · exact .inl q
    · exact .inr ⟨(hlk _).mpr q1, by rw [hD _ q1]; exact q2⟩

/-- `findPivot` finds a variable of least degree. -/
theorem findPivot_ok {Hd : Buf ℤ} (hF : Full Hd n) (d : Deg n N L Hd D lk st) (hh : NoHash n L Hd) {m : ℤ} (m0 : 0 ≤ m) (hm : ∀ x, lk x → m ≤ D x) {x : ℤ} (hx : lk x) :
    Ens (findPivot n Hd m) (fun r => m ≤ r.1 ∧ r.1 < n ∧ lk r.2 ∧ D r.2 = r.1 ∧ Hd r.1 = r.2 ∧ ∀ y, lk y → r.1 ≤ D y) := by
  unfold findPivot
  refine Ens.loop (fun (s : ℤ × ℤ) => m ≤ s.1 ∧ ∀ y, lk y → s.1 ≤ D y) _ (fun s => (n - s.1).toNat) ?_ _ _ ⟨le_rfl, hm⟩ (by dsimp only; omega)
  rintro ⟨g, e⟩ ⟨h1, h2⟩
  dsimp only at *
  have hxd := d.deg x hx
  have := h2 x hx
  rw [if_pos (by omega)]
  refine Ens.rd hF (by omega) (by omega) ?_
  by_cases hq : Hd g = -1
  · rw [if_neg (by omega)]
    refine Ens.pure ⟨⟨by dsimp only; omega, fun y hy => ?_⟩, by dsimp only; omega⟩
    dsimp only
    have := h2 y hy
    rcases eq_or_ne (D y) g with e | e
    · have := d.nonempty hy; rw [e] at this; omega
    · omega
  · rw [if_pos hq]
    have h0 : ¬ Hd g < 0 := fun q => hq ((hh.head (by omega) (by omega)).2 q)
    have := (d.head g (by omega) (by omega)).resolve_left h0
    exact Ens.pure ⟨h1, by dsimp only; omega, this.1, this.2, rfl, h2⟩

end Osqp.Amd

namespace Osqp.Amd
open Csc Finset

variable {n : ℤ} {lk : ℤ → Prop}

/-- The degree lists in memory, with no hash bucket in use. -/
structure Lists (n : ℤ) (M : Mem) (lk : ℤ → Prop) : Prop where
  fN : Full M.Next n
  fL : Full M.Last n
  fH : Full M.Head n
  fD : Full M.Degree n
  deg : ∃ st, Deg n M.Next M.Last M.Head M.Degree lk st
  nohash : NoHash n M.Last M.Head

/-- `M'` differs from `M` in the pointers of the degree lists only. -/
structure Rest (M M' : Mem) : Prop where
  Pe : M'.Pe = M.Pe
  Iw : M'.Iw = M.Iw
  Len : M'.Len = M.Len
  Nv : M'.Nv = M.Nv
  Elen : M'.Elen = M.Elen
  Degree : M'.Degree = M.Degree
  W : M'.W = M.W

theorem Lists.congr {M : Mem} (h : Lists n M lk) {M' : Mem} (h1 : M'.Next = M.Next) (h2 : M'.Last = M.Last) (h3 : M'.Head = M.Head) (h4 : M'.Degree = M.Degree)
    {lk' : ℤ → Prop} (hlk : ∀ x, lk' x ↔ lk x) : Lists n M' lk' := by
  obtain ⟨st, d⟩ := h.deg
  exact ⟨by rw [h1]; exact h.fN, by rw [h2]; exact h.fL, by rw [h3]; exact h.fH, by rw [h4]; exact h.fD,
    ⟨st, by rw [h1, h2, h3, h4]; exact d.congr hlk fun _ _ => rfl⟩, by rw [h2, h3]; exact h.nohash⟩

theorem upd_at_if (b : Buf ℤ) {i v : ℤ} (c : Prop) [Decidable c] (hi : c → 0 ≤ i) (j : ℤ) :
    (if c then upd b i v else b) j = if c ∧ j = i then v else b j := by
  by_cases h : c
  · rw [if_pos h, upd_at _ (hi h)]
    by_cases e : j = i
    · rw [if_pos e, if_pos ⟨h, e⟩]
    · rw [if_neg e, if_neg (fun q => e q.2)]
  · rw [if_neg h, if_neg (fun q => h q.1)]

theorem unlink_ok {M : Mem} {i : ℤ} (h : Lists n M lk) (hi : lk i) : Ens (unlink i M) (fun M' => Rest M M' ∧ Lists n M' (fun x => lk x ∧ x ≠ i)) := by
  obtain ⟨st, d⟩ := h.deg
  obtain ⟨i0, i1⟩ := d.rng i hi
  obtain ⟨d0, d1⟩ := d.deg i hi
  have sN := h.fN.1
  have sL := h.fL.1
  have sH := h.fH.1
  have hn0 : M.Next i ≠ -1 → 0 ≤ M.Next i ∧ M.Next i < n := fun e => d.rng _ ((d.next i hi).resolve_left e).1
  have hl0 : M.Last i ≠ -1 → 0 ≤ M.Last i ∧ M.Last i < n := fun e => by
    rcases d.last i hi with q | q
    · have := (h.nohash.head d0 d1).1 (by omega); rw [q] at this; exact absurd this e
    · exact d.rng _ q.2.1
  unfold unlink
  refine Ens.rd h.fL i0 i1 (Ens.rd h.fN i0 i1 ?_)
  have key : ∀ M' : Mem, Rest M M' → M'.Next = (if M.Last i ≠ -1 then upd M.Next (M.Last i) (M.Next i) else M.Next) →
      M'.Last = (if M.Next i ≠ -1 then upd M.Last (M.Next i) (M.Last i) else M.Last) →
      M'.Head = (if M.Last i = -1 then upd M.Head (M.Degree i) (M.Next i) else M.Head) → Rest M M' ∧ Lists n M' (fun x => lk x ∧ x ≠ i) := by
    intro M' hr e1 e2 e3
    have := deg_unlink d h.nohash hi (N' := M'.Next) (L' := M'.Last) (H' := M'.Head) (fun x => by rw [e1, upd_at_if _ _ (fun q => (hl0 q).1)])
      (fun x => by rw [e2, upd_at_if _ _ (fun q => (hn0 q).1)]) (fun x => by rw [e3, upd_at_if _ _ (fun _ => d0)])
    refine ⟨hr, ?_, ?_, ?_, by rw [hr.Degree]; exact h.fD, ⟨st, by rw [hr.Degree]; exact this.1⟩, this.2⟩
    · rw [e1]; split_ifs
      · exact h.fN.upd _ _
      · exact h.fN
    · rw [e2]; split_ifs
      · exact h.fL.upd _ _
      · exact h.fL
    · rw [e3]; split_ifs
      · exact h.fH.upd _ _
      · exact h.fH
  unfold Mem.wLastOf
  by_cases hN : M.Next i = -1
  · rw [if_neg (by omega)]
    by_cases hL : M.Last i = -1
    · show Ens (if M.Last i ≠ -1 then _ else _) _
      rw [if_neg (by omega)]
      refine Ens.rd h.fD i0 i1 (Ens.last (Ens.wHead d0 (by omega) (Ens.some (key _ ⟨rfl, rfl, rfl, rfl, rfl, rfl, rfl⟩ ?_ ?_ ?_))))
      · rw [if_neg (by omega)]
      · rw [if_neg (by omega)]
      · rw [if_pos hL]
    · show Ens (if M.Last i ≠ -1 then _ else _) _
      rw [if_pos hL]
      have := hl0 hL
      refine Ens.last (Ens.wNext this.1 (by omega) (Ens.some (key _ ⟨rfl, rfl, rfl, rfl, rfl, rfl, rfl⟩ ?_ ?_ ?_)))
      · rw [if_pos hL]
      · rw [if_neg (by omega)]
      · rw [if_neg hL]
  · rw [if_pos hN]
    have hN' := hn0 hN
    refine Ens.wLast hN'.1 (by omega) ?_
    by_cases hL : M.Last i = -1
    · rw [if_neg (by omega)]
      refine Ens.rd h.fD i0 i1 (Ens.last (Ens.wHead d0 (by dsimp only; omega) (Ens.some (key _ ⟨rfl, rfl, rfl, rfl, rfl, rfl, rfl⟩ ?_ ?_ ?_))))
      · rw [if_neg (by omega)]
      · rw [if_pos hN]
      · rw [if_pos hL]
    · rw [if_pos hL]
      have := hl0 hL
      refine Ens.last (Ens.wNext this.1 (by dsimp only; omega) (Ens.some (key _ ⟨rfl, rfl, rfl, rfl, rfl, rfl, rfl⟩ ?_ ?_ ?_)))
      · rw [if_pos hL]
      · rw [if_pos hN]
      · rw [if_neg hL]

/-- The pivot is chosen and removed. -/
theorem choose_ok {M : Mem} (h : Lists n M lk) {m : ℤ} (m0 : 0 ≤ m) (hm : ∀ x, lk x → m ≤ M.Degree x) {x : ℤ} (hx : lk x) :
    Ens (choose n m M) (fun r => Rest M r.1 ∧ Lists n r.1 (fun x => lk x ∧ x ≠ r.2.2) ∧ lk r.2.2 ∧ 0 ≤ r.2.1 ∧ r.2.1 < n ∧ ∀ y, lk y → r.2.1 ≤ M.Degree y) := by
  obtain ⟨st, d⟩ := h.deg
  unfold choose
  refine Ens.bind (findPivot_ok h.fH d h.nohash m0 hm hx) ?_
  rintro ⟨g, me⟩ ⟨g0, g1, hme, hg, hH, hmin⟩
  dsimp only at *
  obtain ⟨i0, i1⟩ := d.rng me hme
  have sL := h.fL.1
  have sH := h.fH.1
  have hl : M.Last me = -1 := by have := (h.nohash.head (by omega) g1).1 (by omega); rw [hH] at this; exact this
  refine Ens.rd h.fN i0 i1 ?_
  have key : ∀ M' : Mem, Rest M M' → M'.Next = M.Next → M'.Last = (if M.Next me ≠ -1 then upd M.Last (M.Next me) (-1) else M.Last) →
      M'.Head = upd M.Head g (M.Next me) → Lists n M' (fun x => lk x ∧ x ≠ me) := by
    intro M' hr e1 e2 e3
    have hn0 : M.Next me ≠ -1 → 0 ≤ M.Next me ∧ M.Next me < n := fun e => d.rng _ ((d.next me hme).resolve_left e).1
    have := deg_unlink d h.nohash hme (N' := M'.Next) (L' := M'.Last) (H' := M'.Head) (fun x => by rw [e1, if_neg (by omega)])
      (fun x => by rw [e2, upd_at_if _ _ (fun q => (hn0 q).1), hl]) (fun x => by
        rw [e3, upd_at _ (by omega), hg]
        by_cases q : x = g
        · rw [if_pos q, if_pos ⟨hl, q⟩]
        · rw [if_neg q, if_neg (fun w => q w.2)])
    refine ⟨by rw [e1]; exact h.fN, ?_, by rw [e3]; exact h.fH.upd _ _, by rw [hr.Degree]; exact h.fD, ⟨st, by rw [hr.Degree]; exact this.1⟩, this.2⟩
    rw [e2]; split_ifs
    · exact h.fL.upd _ _
    · exact h.fL
  unfold Mem.wLastOf
  by_cases hN : M.Next me = -1
  · rw [if_neg (by omega)]
    show Ens (M.wHead g (M.Next me) >>= _) _
    refine Ens.wHead (by omega) (by omega) (Ens.pure ⟨⟨rfl, rfl, rfl, rfl, rfl, rfl, rfl⟩, key _ ⟨rfl, rfl, rfl, rfl, rfl, rfl, rfl⟩ rfl ?_ rfl, hme, by dsimp only; omega, g1, hmin⟩)
    rw [if_neg (by omega)]
  · rw [if_pos hN]
    have hN' := d.rng _ ((d.next me hme).resolve_left hN).1
    refine Ens.wLast hN'.1 (by omega) (Ens.wHead (by omega) (by dsimp only; omega) (Ens.pure ⟨⟨rfl, rfl, rfl, rfl, rfl, rfl, rfl⟩, key _ ⟨rfl, rfl, rfl, rfl, rfl, rfl, rfl⟩ rfl ?_ rfl,
      hme, by dsimp only; omega, g1, hmin⟩))
    rw [if_pos hN]

end Osqp.Amd
