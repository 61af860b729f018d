import Verif.Amd.Perm
import Mathlib.Data.Finset.Basic

/-!
# The postorder

`postorder` numbers all the pivots.
-/

namespace Osqp.Amd
open Csc Finset
set_option linter.unusedSectionVars false

/-- Rule for `while` loops with a ghost value that decreases. -/
theorem Ens.loopG {σ β γ : Type} {step : σ → Option (σ ⊕ β)} (I : γ → σ → Prop) (Q : β → Prop) (μ : γ → ℕ)
    (hs : ∀ g s, I g s → Ens (step s) (fun r => match r with | .inl s' => ∃ g', I g' s' ∧ μ g' < μ g | .inr b => Q b)) :
    ∀ (fuel : ℕ) (g : γ) (s : σ), I g s → μ g < fuel → Ens (Amd.loop step fuel s) Q := by
  intro fuel
  induction fuel with
  | zero => intro g s _ h; omega
  | succ k ih =>
    intro g s hI hm
    obtain ⟨r, e, hr⟩ := hs g s hI
    unfold Amd.loop
    rw [e]
    cases r with
    | inl s' => obtain ⟨g', h1, h2⟩ := hr; exact ih g' s' h1 (by omega)
    | inr b => exact ⟨b, rfl, hr⟩

/-- The linked list that starts at `h` is `l`. -/
def Chain (nx : ℤ → ℤ) : ℤ → List ℤ → Prop
  | h, [] => h = -1
  | h, a :: l => h = a ∧ 0 ≤ a ∧ Chain nx (nx a) l

theorem chain_congr {nx nx' : ℤ → ℤ} : ∀ {l : List ℤ} {h : ℤ}, (∀ x ∈ l, nx' x = nx x) → Chain nx h l → Chain nx' h l
  | [], _, _, h => h
  | a :: l, _, e, h => ⟨h.1, h.2.1, by rw [e a (by simp)]; exact chain_congr (fun x hx => e x (by simp [hx])) h.2.2⟩

theorem chain_ne {nx : ℤ → ℤ} {l : List ℤ} {h : ℤ} (hc : Chain nx h l) : h ≠ -1 ↔ l ≠ [] := by
  cases l with
  | nil => simpa [Chain] using hc
  | cons a l => have := hc.1; have := hc.2.1; simp; omega

/-- The last element of a list, -1 if there is none. -/
def lastOr (l : List ℤ) : ℤ := l.getLast?.getD (-1)

theorem lastOr_concat (l : List ℤ) (x : ℤ) : lastOr (l ++ [x]) = x := by simp [lastOr]
theorem lastOr_cons (a b : ℤ) (l : List ℤ) : lastOr (a :: b :: l) = lastOr (b :: l) := by simp [lastOr, List.getLast?_cons_cons]
theorem lastOr_append {l : List ℤ} (h : l ≠ []) (k : List ℤ) : lastOr (k ++ l) = lastOr l := by
  obtain ⟨a, ha⟩ : ∃ a, l.getLast? = some a := by
    cases hl : l.getLast? with
    | none => exact absurd (List.getLast?_eq_none_iff.mp hl) h
    | some a => exact ⟨a, rfl⟩
  simp [lastOr, List.getLast?_append, ha]
theorem lastOr_mem {l : List ℤ} (h : l ≠ []) : lastOr l ∈ l := by
  obtain ⟨a, ha⟩ : ∃ a, l.getLast? = some a := by
    cases hl : l.getLast? with
    | none => exact absurd (List.getLast?_eq_none_iff.mp hl) h
    | some a => exact ⟨a, rfl⟩
  simp only [lastOr, ha]; exact List.mem_of_getLast? ha

theorem chain_concat {nx nx' : ℤ → ℤ} {x : ℤ} (hx : 0 ≤ x) : ∀ {l : List ℤ} {h : ℤ}, l ≠ [] → l.Nodup → x ∉ l → Chain nx h l →
    (∀ y, y ≠ lastOr l → y ≠ x → nx' y = nx y) → nx' (lastOr l) = x → nx' x = -1 → Chain nx' h (l ++ [x])
  | [], _, h, _, _, _, _, _, _ => absurd rfl h
  | [a], _, _, _, _, hc, _, h2, h3 => ⟨hc.1, hc.2.1, by have : nx' a = x := h2; rw [this]; exact ⟨rfl, hx, h3⟩⟩
  | a :: b :: l, _, _, hnd, hm, hc, h1, h2, h3 => by
    rw [lastOr_cons] at h1 h2
    refine ⟨hc.1, hc.2.1, ?_⟩
    have hab : nx' a = nx a := h1 a (fun e => by
      have := lastOr_mem (l := b :: l) (by simp)
      rw [← e] at this
      exact (List.nodup_cons.mp hnd).1 this) (fun e => hm (by simp [e]))
    rw [hab]
    exact chain_concat hx (by simp) (List.nodup_cons.mp hnd).2 (fun e => hm (List.mem_cons_of_mem _ e)) hc.2.2 h1 h2 h3

theorem chain_skip {nx nx' : ℤ → ℤ} {x : ℤ} {B : List ℤ} : ∀ {A : List ℤ} {h : ℤ}, A ≠ [] → (A ++ x :: B).Nodup → Chain nx h (A ++ x :: B) →
    (∀ y, y ≠ lastOr A → nx' y = nx y) → nx' (lastOr A) = nx x → Chain nx' h (A ++ B)
  | [], _, h, _, _, _, _ => absurd rfl h
  | [a], _, _, hnd, hc, h1, h2 => by
    refine ⟨hc.1, hc.2.1, ?_⟩
    have : nx' a = nx x := h2
    show Chain nx' (nx' a) B
    rw [this]
    refine chain_congr (fun y hy => h1 y ?_) hc.2.2.2.2
    rintro e
    have : y = a := e
    subst this
    exact (List.nodup_cons.mp hnd).1 (List.mem_append_right _ (List.mem_cons_of_mem _ hy))
  | a :: b :: l, _, _, hnd, hc, h1, h2 => by
    rw [lastOr_cons] at h1 h2
    refine ⟨hc.1, hc.2.1, ?_⟩
    have hab : nx' a = nx a := h1 a (fun e => by
      have := lastOr_mem (l := b :: l) (by simp)
      rw [← e] at this
      exact (List.nodup_cons.mp hnd).1 (List.mem_append_left _ this))
    show Chain nx' (nx' a) ((b :: l) ++ B)
    rw [hab]
    exact chain_skip (by simp) (List.nodup_cons.mp hnd).2 hc.2.2 h1 h2

variable {n K : ℤ} {par nv rep : ℤ → ℤ} {rank : ℤ → ℕ}

/-- The lists of children. -/
structure Kids (n : ℤ) (par nv : ℤ → ℤ) (from' : ℤ) (Child Sib : Buf ℤ) (ch : ℤ → List ℤ) : Prop where
  fullC : Full Child n
  fullS : Full Sib n
  chain : ∀ p, 0 ≤ p → p < n → Chain Sib (Child p) (ch p)
  nodup : ∀ p, (ch p).Nodup
  mem : ∀ p, 0 ≤ p → p < n → ∀ x, x ∈ ch p ↔ from' ≤ x ∧ 0 ≤ x ∧ x < n ∧ 0 < nv x ∧ par x = p

theorem nodup_len {l : List ℤ} (h : l.Nodup) (hr : ∀ x ∈ l, 0 ≤ x ∧ x < n) : l.length ≤ n.toNat := by
  rw [← List.toFinset_card_of_nodup h]
  refine le_trans (card_le_card (t := Ico (0 : ℤ) n) fun x hx => ?_) (by simp)
  rw [List.mem_toFinset] at hx
  rw [mem_Ico]; exact hr x hx

/-- `biggest` finds a place in the list. -/
theorem biggest_ok {Fsize Sib : Buf ℤ} {l : List ℤ} {f : ℤ} (hF : Full Fsize n) (hS : Full Sib n) (hc : Chain Sib f l) (hl : l ≠ [])
    (hr : ∀ x ∈ l, 0 ≤ x ∧ x < n ∧ -1 ≤ Fsize x) (hlen : l.length ≤ n.toNat) :
    Ens (biggest n Fsize Sib f) (fun r => ∃ A B, l = A ++ r.2.2 :: B ∧ r.1 = lastOr l ∧ r.2.1 = lastOr A) := by
  unfold biggest
  refine Ens.loopG (γ := List ℤ × List ℤ) (fun g (s : ℤ × ℤ × ℤ × ℤ × ℤ) => l = g.1 ++ g.2 ∧ Chain Sib s.1 g.2 ∧ s.2.1 = lastOr g.1 ∧
    ((g.1 = [] ∧ s.2.2.1 = -1) ∨ ∃ A B, g.1 = A ++ s.2.2.2.2 :: B ∧ s.2.2.2.1 = lastOr A)) _ (fun g => g.2.length) ?_ _ ([], l) _
    ⟨rfl, hc, rfl, .inl ⟨rfl, rfl⟩⟩ (by dsimp only; omega)
  rintro ⟨D, R⟩ ⟨f, fprev, mx, bp, big⟩ ⟨e, hch, hfp, hb⟩
  dsimp only at *
  cases R with
  | nil =>
    have : f = -1 := hch
    rw [if_neg (by simpa using this)]
    rw [List.append_nil] at e
    refine Ens.pure ?_
    rcases hb with ⟨hb, _⟩ | ⟨A, B, h1, h2⟩
    · exact absurd (e.trans hb) hl
    · exact ⟨A, B, by rw [e]; exact h1, by rw [e]; exact hfp, h2⟩
  | cons a R =>
    obtain ⟨rfl, h0, hch⟩ := hch
    obtain ⟨_, h1, hfs⟩ := hr f (by rw [e]; simp)
    rw [if_pos (by omega)]
    refine Ens.rd hF h0 h1 (Ens.rd hS h0 h1 ?_)
    by_cases hge : Fsize f ≥ mx
    · rw [if_pos hge]
      refine Ens.pure ⟨(D ++ [f], R), ⟨by simp [e], hch, by rw [lastOr_concat], .inr ⟨D, [], rfl, hfp⟩⟩, by simp⟩
    · rw [if_neg hge]
      refine Ens.pure ⟨(D ++ [f], R), ⟨by simp [e], hch, by rw [lastOr_concat], .inr ?_⟩, by simp⟩
      rcases hb with ⟨_, hb⟩ | ⟨A, B, h2, h3⟩
      · omega
      · exact ⟨A, B ++ [f], by simp [h2], h3⟩

/-- The lists of children are built. -/
theorem build_kids {Nv Parent Child Sib : Buf ℤ} (hn : 0 ≤ n) (hNv : Full Nv n) (hP : Full Parent n) (F : Forest n par Nv rep rank)
    (hpar : ∀ i, 0 ≤ i → i < n → 0 < Nv i → Parent i = par i) (fC : Full Child n) (fS : Full Sib n) (hC : ∀ k, 0 ≤ k → k < n → Child k = -1) :
    Ens (forI 0 n (fun r (s : Buf ℤ × Buf ℤ) => do
      let j := n - 1 - r
      let nv ← Nv.rd j
      if nv > 0 then
        let parent ← Parent.rd j
        if parent ≠ -1 then
          let c ← s.1.rd parent
          let Sibling ← s.2.wr j c
          let Child ← s.1.wr parent j
          return (Child, Sibling)
        else return s
      else return s) (Child, Sib)) (fun s => ∃ ch, Kids n par Nv 0 s.1 s.2 ch) := by
  refine Ens.imp (Ens.forI (fun r (s : Buf ℤ × Buf ℤ) => ∃ ch, Kids n par Nv (n - r) s.1 s.2 ch) hn ?_ ?_) ?_
  · exact ⟨fun _ => [], fC, fS, fun p h0 h1 => hC p h0 h1, fun _ => List.nodup_nil, fun p h0 h1 x => by simp; omega⟩
  · rintro r ⟨C, S⟩ h0 h1 ⟨ch, hk⟩
    have j0 : 0 ≤ n - 1 - r := by omega
    have j1 : n - 1 - r < n := by omega
    obtain ⟨j, hj⟩ : ∃ j, j = n - 1 - r := ⟨_, rfl⟩
    rw [← hj] at j0 j1
    dsimp only
    rw [← hj]
    refine Ens.rd hNv j0 j1 ?_
    by_cases hv : 0 < Nv j
    swap
    · rw [if_neg hv]
      refine Ens.pure ⟨ch, hk.fullC, hk.fullS, hk.chain, hk.nodup, fun p p0 p1 x => (hk.mem p p0 p1 x).trans ?_⟩
      constructor
      · rintro ⟨a, b⟩; exact ⟨by omega, b⟩
      · rintro ⟨a, b⟩
        refine ⟨?_, b⟩
        rcases eq_or_ne x j with q | q
        · rw [q] at b; exact absurd b.2.2.1 hv
        · omega
    rw [if_pos hv]
    refine Ens.rd hP j0 j1 ?_
    rw [hpar j j0 j1 hv]
    by_cases hp : par j = -1
    · rw [if_neg (by omega)]
      refine Ens.pure ⟨ch, hk.fullC, hk.fullS, hk.chain, hk.nodup, fun p p0 p1 x => (hk.mem p p0 p1 x).trans ?_⟩
      constructor
      · rintro ⟨a, b⟩; exact ⟨by omega, b⟩
      · rintro ⟨a, b⟩
        refine ⟨?_, b⟩
        rcases eq_or_ne x j with q | q
        · rw [q] at b; omega
        · omega
    rw [if_pos hp]
    obtain ⟨p0, p1, _⟩ : 0 ≤ par j ∧ par j < n ∧ rank j < rank (par j) := (F.pr j j0 j1).resolve_left hp
    refine Ens.rd hk.fullC p0 p1 (Ens.wr j0 (by have := hk.fullS.1; dsimp only at this; omega) (Ens.wr p0 (by have := hk.fullC.1; dsimp only at this; omega)
      (Ens.pure ⟨fun p => if p = par j then j :: ch p else ch p, hk.fullC.upd _ _, hk.fullS.upd _ _, fun p q0 q1 => ?_, fun p => ?_, fun p q0 q1 x => ?_⟩)))
    · dsimp only
      have hnot : ∀ q, 0 ≤ q → q < n → j ∉ ch q := fun q a b hm => by have := (hk.mem q a b j).mp hm; omega
      rw [upd_at _ p0]
      have hcongr : ∀ q, 0 ≤ q → q < n → ∀ h, Chain S h (ch q) → Chain (upd S j (C (par j))) h (ch q) := fun q a b h =>
        chain_congr fun x hx => upd_ne _ j0 (by rintro rfl; exact hnot q a b hx)
      split_ifs with e
      · refine ⟨rfl, j0, ?_⟩
        rw [upd_same _ j0, e]
        exact hcongr _ p0 p1 _ (hk.chain _ p0 p1)
      · exact hcongr p q0 q1 _ (hk.chain p q0 q1)
    · split_ifs with e
      · rw [List.nodup_cons]
        refine ⟨fun hm => ?_, hk.nodup p⟩
        rw [e] at hm
        have := (hk.mem _ p0 p1 j).mp hm; omega
      · exact hk.nodup p
    · split_ifs with e
      · rw [List.mem_cons, hk.mem p q0 q1]
        constructor
        · rintro (rfl | ⟨a, b⟩)
          · exact ⟨by omega, j0, j1, hv, e.symm⟩
          · exact ⟨by omega, b⟩
        · rintro ⟨a, b⟩
          by_cases q : x = j
          · exact .inl q
          · exact .inr ⟨by omega, b⟩
      · rw [hk.mem p q0 q1]
        constructor
        · rintro ⟨a, b⟩; exact ⟨by omega, b⟩
        · rintro ⟨a, b⟩
          refine ⟨?_, b⟩
          rcases eq_or_ne x j with q | q
          · rw [q] at b; omega
          · omega
  · rintro ⟨C, S⟩ ⟨ch, hk⟩
    exact ⟨ch, by rw [sub_self] at hk; exact hk⟩

/-- The biggest child is moved to the end of every list. -/
theorem move_kids {Nv Fsize Child Sib : Buf ℤ} (hn : 0 ≤ n) (hNv : Full Nv n) (hF : Full Fsize n) (hFs : ∀ i, 0 ≤ i → i < n → 0 < Nv i → -1 ≤ Fsize i)
    {ch : ℤ → List ℤ} (hk : Kids n par Nv 0 Child Sib ch) :
    Ens (forI 0 n (fun i (s : Buf ℤ × Buf ℤ) => do
      let nv ← Nv.rd i
      if nv > 0 then
        let c ← s.1.rd i
        if c ≠ -1 then
          let (fprev, bigfprev, bigf) ← biggest n Fsize s.2 c
          let fnext ← s.2.rd bigf
          if fnext ≠ -1 then
            let s ← if bigfprev = -1 then do
                let Child ← s.1.wr i fnext
                pure (Child, s.2)
              else do
                let Sibling ← s.2.wr bigfprev fnext
                pure (s.1, Sibling)
            let Sibling ← s.2.wr bigf (-1)
            let Sibling ← Sibling.wr fprev bigf
            return (s.1, Sibling)
          else return s
        else return s
      else return s) (Child, Sib)) (fun s => ∃ ch, Kids n par Nv 0 s.1 s.2 ch) := by
  refine Ens.forI (fun _ (s : Buf ℤ × Buf ℤ) => ∃ ch, Kids n par Nv 0 s.1 s.2 ch) hn ⟨ch, hk⟩ ?_
  rintro i ⟨C, S⟩ i0 i1 ⟨ch, hk⟩
  dsimp only at *
  refine Ens.rd hNv i0 i1 ?_
  by_cases hv : Nv i > 0
  swap
  · rw [if_neg hv]; exact Ens.pure ⟨ch, hk⟩
  rw [if_pos hv]
  refine Ens.rd hk.fullC i0 i1 ?_
  by_cases hc : C i = -1
  · rw [if_neg (by omega)]; exact Ens.pure ⟨ch, hk⟩
  rw [if_pos hc]
  have hchi := hk.chain i i0 i1
  have hmem := hk.mem i i0 i1
  have hne : ch i ≠ [] := (chain_ne hchi).mp hc
  have hrng : ∀ x ∈ ch i, 0 ≤ x ∧ x < n := fun x hx => by have := (hmem x).mp hx; exact ⟨this.2.1, this.2.2.1⟩
  refine Ens.bind (biggest_ok hF hk.fullS hchi hne (fun x hx => by
    obtain ⟨_, a, b, c, _⟩ := (hmem x).mp hx
    exact ⟨a, b, hFs x a b c⟩) (nodup_len (hk.nodup i) hrng)) ?_
  rintro ⟨fprev, bprev, big⟩ ⟨A, B, hl, hf, hb⟩
  dsimp only at *
  have hbig : big ∈ ch i := by rw [hl]; simp
  obtain ⟨b0, b1⟩ := hrng big hbig
  refine Ens.rd hk.fullS b0 b1 ?_
  by_cases hfn : S big = -1
  · rw [if_neg (by omega)]; exact Ens.pure ⟨ch, hk⟩
  rw [if_pos hfn]
  have hnd : (A ++ big :: B).Nodup := by rw [← hl]; exact hk.nodup i
  have hseg : Chain S (S big) B := by
    rw [hl] at hchi
    clear hl hnd hb
    revert hchi
    generalize C i = h
    induction A generalizing h with
    | nil => intro q; have := q.1; subst this; exact q.2.2
    | cons a A ih => intro q; exact ih _ q.2.2
  have hB : B ≠ [] := (chain_ne hseg).mp hfn
  have hlast : lastOr (A ++ B) = fprev := by
    rw [hf, hl, lastOr_append hB, show A ++ big :: B = (A ++ [big]) ++ B by simp, lastOr_append hB]
  have hfB : fprev ∈ B := by rw [← hlast, lastOr_append hB]; exact lastOr_mem hB
  have hf2 : 0 ≤ fprev ∧ fprev < n := hrng fprev (by rw [hl]; simp [hfB])
  have hperm : (A ++ B ++ [big]).Perm (ch i) := by
    rw [hl]
    have : (A ++ B ++ [big]).Perm (A ++ ([big] ++ B)) := by
      rw [List.append_assoc]; exact List.Perm.append_left _ List.perm_append_comm
    simpa using this
  have hbn : big ∉ A ++ B := by
    have := hperm.nodup_iff.mpr (hk.nodup i)
    rw [List.nodup_append] at this
    exact fun hm => this.2.2 big hm big (by simp) rfl
  have hABnd : (A ++ B).Nodup := by
    have := hperm.nodup_iff.mpr (hk.nodup i)
    rw [List.nodup_append] at this
    exact this.1
  have hcs := hk.fullC.1
  have hss := hk.fullS.1
  -- the list without the biggest child
  have htail : ∀ s : Buf ℤ × Buf ℤ, (Full s.1 n ∧ Full s.2 n ∧ Chain s.2 (s.1 i) (A ++ B) ∧ (∀ p, p ≠ i → s.1 p = C p) ∧
    (∀ x, x ∉ ch i → s.2 x = S x)) → Ens (do
      let Sibling ← s.2.wr big (-1)
      let Sibling ← Sibling.wr fprev big
      return (s.1, Sibling)) (fun s => ∃ ch, Kids n par Nv 0 s.1 s.2 ch) := by
    rintro ⟨C', S'⟩ ⟨fC', fS', hch', hC', hS'⟩
    dsimp only at *
    have := fS'.1
    refine Ens.wr b0 (by omega) (Ens.wr hf2.1 (by rw [upd_size]; omega) (Ens.pure ⟨fun p => if p = i then A ++ B ++ [big] else ch p, fC', (fS'.upd _ _).upd _ _,
      fun p p0 p1 => ?_, fun p => ?_, fun p p0 p1 x => ?_⟩))
    · dsimp only
      split_ifs with e
      · subst e
        refine chain_concat b0 (by simp [hB]) hABnd hbn hch' (fun y y1 y2 => ?_) ?_ ?_
        · rw [upd_ne _ hf2.1 (by rw [← hlast]; exact y1), upd_ne _ b0 y2]
        · rw [hlast, upd_same _ hf2.1]
        · rw [upd_ne _ hf2.1 (fun e => hbn (by rw [e, List.mem_append]; exact .inr hfB)), upd_same _ b0]
      · rw [hC' p e]
        refine chain_congr (fun x hx => ?_) (hk.chain p p0 p1)
        have hxi : x ∉ ch i := fun hm => by
          have h1 := (hmem x).mp hm
          have h2 := (hk.mem p p0 p1 x).mp hx
          omega
        rw [upd_ne _ hf2.1 (by rintro rfl; exact hxi (by rw [hl]; simp [hfB])), upd_ne _ b0 (by rintro rfl; exact hxi hbig)]
        exact hS' x hxi
    · show (if p = i then A ++ B ++ [big] else ch p).Nodup
      split_ifs with e
      · exact hperm.nodup_iff.mpr (hk.nodup i)
      · exact hk.nodup p
    · show x ∈ (if p = i then A ++ B ++ [big] else ch p) ↔ _
      split_ifs with e
      · subst e; rw [hperm.mem_iff]; exact hmem x
      · exact hk.mem p p0 p1 x
  by_cases hA : A = []
  · rw [if_pos (by rw [hb, hA]; rfl)]
    refine Ens.wr i0 (by omega) (htail _ ⟨hk.fullC.upd _ _, hk.fullS, ?_, fun p hp => upd_ne _ i0 hp, fun _ _ => rfl⟩)
    dsimp only
    rw [upd_same _ i0, hA]; exact hseg
  · have hbm : bprev ∈ ch i := by rw [hb, hl]; exact List.mem_append_left _ (lastOr_mem hA)
    obtain ⟨q0, q1⟩ := hrng bprev hbm
    rw [if_neg (by omega)]
    refine Ens.wr q0 (by omega) (htail _ ⟨hk.fullC, hk.fullS.upd _ _, ?_, fun p hp => rfl, fun x hx => ?_⟩)
    · dsimp only
      rw [hl] at hchi
      refine chain_skip hA hnd hchi (fun y hy => upd_ne _ q0 (by rw [hb]; exact hy)) ?_
      rw [← hb, upd_same _ q0]
    · exact upd_ne _ q0 (by rintro rfl; exact hx hbm)

end Osqp.Amd
