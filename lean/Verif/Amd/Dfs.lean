import Verif.Amd.Tree

/-!
# The depth-first search

`postTree` numbers the pivots of one tree, `postorder` those of the whole forest.
-/

namespace Osqp.Amd
open Csc Finset
set_option linter.unusedSectionVars false

/-- The stack holds `st`, bottom first. -/
def Stk (b : Buf ℤ) (st : List ℤ) : Prop := ∀ k : ℕ, k < st.length → b.rd k = st[k]?

variable {n K : ℤ} {par nv rep : ℤ → ℤ} {rank : ℤ → ℕ}

/-- The state of the search: `S` is the set of nodes discovered, `st` the stack, `k` the number of nodes ordered, and the roots met are below `m`. -/
structure Dfs (n : ℤ) (par nv : ℤ → ℤ) (ch : ℤ → List ℤ) (Sib : Buf ℤ) (m : ℤ) (Child Order Stack : Buf ℤ) (k : ℤ) (st : List ℤ) (S : Finset ℤ) : Prop where
  fullC : Full Child n
  fullO : Full Order n
  size : n ≤ Stack.size
  stk : Stk Stack st
  nodup : st.Nodup
  sub : ∀ x ∈ st, x ∈ S
  rng : ∀ x ∈ S, 0 ≤ x ∧ x < n ∧ 0 < nv x
  new : ∀ x, 0 ≤ x → x < n → x ∉ S → Order x = -1
  ord : ∀ x ∈ S, x ∉ st → 0 ≤ Order x ∧ Order x < k
  inj : ∀ x ∈ S, ∀ y ∈ S, x ∉ st → y ∉ st → Order x = Order y → x = y
  surj : ∀ j, 0 ≤ j → j < k → ∃ x ∈ S, x ∉ st ∧ Order x = j
  num : k + st.length = S.card
  nonneg : 0 ≤ k
  fresh : ∀ x, 0 ≤ x → x < n → x ∉ S → Chain Sib (Child x) (ch x)
  kids : ∀ x ∈ S, (Chain Sib (Child x) (ch x) ∧ ∀ c ∈ ch x, c ∉ S) ∨ (Child x = -1 ∧ ∀ c ∈ ch x, c ∈ S)
  done : ∀ x ∈ S, x ∉ st → ∀ c ∈ ch x, c ∈ S
  up : ∀ x ∈ S, par x = -1 ∨ par x ∈ S
  roots : ∀ x ∈ S, par x = -1 → x < m

/-- Facts about the lists of children that the search does not change. -/
structure KidsOk (n : ℤ) (par nv : ℤ → ℤ) (ch : ℤ → List ℤ) (Sib : Buf ℤ) : Prop where
  full : Full Sib n
  nodup : ∀ p, (ch p).Nodup
  mem : ∀ p, 0 ≤ p → p < n → ∀ x, x ∈ ch p ↔ 0 ≤ x ∧ x < n ∧ 0 < nv x ∧ par x = p

/-- Counting a list. -/
theorem count_ok {Sib : Buf ℤ} (hS : Full Sib n) {l : List ℤ} {c head : ℤ} (hc : Chain Sib c l) (hr : ∀ x ∈ l, 0 ≤ x ∧ x < n) (hlen : l.length ≤ n.toNat) :
    Ens (loop (fun (s : ℤ × ℤ) => do
          if s.1 ≠ -1 then
            let f ← Sib.rd s.1
            return .inl (f, s.2 + 1)
          else return .inr s.2) (n.toNat + 1) (c, head)) (fun h => h = head + l.length) := by
  refine Ens.loopG (γ := List ℤ) (fun g (s : ℤ × ℤ) => Chain Sib s.1 g ∧ s.2 + g.length = head + l.length ∧ ∀ x ∈ g, 0 ≤ x ∧ x < n) _ (fun g => g.length) ?_ _ l _
    ⟨hc, rfl, hr⟩ (by omega)
  rintro g ⟨f, h⟩ ⟨h1, h2, h3⟩
  dsimp only at *
  cases g with
  | nil =>
    have : f = -1 := h1
    rw [if_neg (by simpa using this)]
    exact Ens.pure (by simpa using h2)
  | cons a g =>
    obtain ⟨rfl, h0, h1⟩ := h1
    rw [if_pos (by omega)]
    refine Ens.rd hS h0 (h3 f (by simp)).2 (Ens.pure ⟨g, ⟨h1, ?_, fun x hx => h3 x (by simp [hx])⟩, by simp⟩)
    dsimp only
    rw [List.length_cons] at h2
    push_cast at h2; omega

theorem rd_upd (b : Buf ℤ) {i v k : ℤ} (hi : 0 ≤ i) (hs : i < b.size) : (upd b i v).rd k = if k = i then some v else b.rd k := by
  unfold Buf.rd
  rw [upd_size]
  by_cases hk : 0 ≤ k ∧ k < b.size
  · rw [if_pos hk, if_pos hk, upd_cell]
    by_cases e : k = i
    · rw [if_pos e, if_pos (by omega)]
    · rw [if_neg e, if_neg (by omega)]
  · rw [if_neg hk, if_neg hk, if_neg (by omega)]

/-- Pushing a list. -/
theorem push_ok {Sib Stack : Buf ℤ} (hS : Full Sib n) {l : List ℤ} {c head : ℤ} (hc : Chain Sib c l) (hr : ∀ x ∈ l, 0 ≤ x ∧ x < n) (hlen : l.length ≤ n.toNat)
    (h0 : -1 ≤ head) (hsz : head + l.length < Stack.size) :
    Ens (loop (fun (s : Buf ℤ × ℤ × ℤ) => do
          if s.2.1 ≠ -1 then
            let Stack ← s.1.wr s.2.2 s.2.1
            let f ← Sib.rd s.2.1
            return .inl (Stack, f, s.2.2 - 1)
          else return .inr s.1) (n.toNat + 1) (Stack, c, head + l.length))
      (fun b => b.size = Stack.size ∧ (∀ k, k ≤ head → b.rd k = Stack.rd k) ∧ ∀ t : ℕ, t < l.length → b.rd (head + l.length - t) = l[t]?) := by
  refine Ens.loopG (γ := List ℤ × List ℤ) (fun g (s : Buf ℤ × ℤ × ℤ) => l = g.1 ++ g.2 ∧ Chain Sib s.2.1 g.2 ∧ s.2.2 = head + l.length - g.1.length ∧
    s.1.size = Stack.size ∧ (∀ k, k ≤ head → s.1.rd k = Stack.rd k) ∧ ∀ t : ℕ, t < g.1.length → s.1.rd (head + l.length - t) = l[t]?) _ (fun g => g.2.length) ?_ _ ([], l) _
    ⟨rfl, hc, by simp, rfl, fun _ _ => rfl, fun t ht => by simp at ht⟩ (by dsimp only; omega)
  rintro ⟨D, R⟩ ⟨b, f, h⟩ ⟨e, hch, hh, hs, hlow, hD⟩
  dsimp only at *
  cases R with
  | nil =>
    have : f = -1 := hch
    rw [if_neg (by simpa using this)]
    rw [List.append_nil] at e
    exact Ens.pure ⟨hs, hlow, by rw [e]; rw [e] at hD; exact hD⟩
  | cons a R =>
    obtain ⟨rfl, a0, hch⟩ := hch
    have hle : l.length = D.length + (R.length + 1) := by rw [e]; simp
    have hpos : head < h := by omega
    rw [if_pos (by omega)]
    refine Ens.wr (by omega) (by omega) (Ens.rd hS a0 (hr f (by rw [e]; simp)).2 (Ens.pure ⟨(D ++ [f], R), ⟨by simp [e], hch, ?_, hs, fun k hk => ?_, fun t ht => ?_⟩, by simp⟩))
    · dsimp only; rw [List.length_append, List.length_singleton]; push_cast; omega
    · dsimp only; rw [rd_upd _ (by omega) (by omega), if_neg (by omega)]; exact hlow k hk
    · rw [List.length_append, List.length_singleton] at ht
      dsimp only
      rw [rd_upd _ (by omega) (by omega)]
      split_ifs with q
      · have : t = D.length := by omega
        rw [this, e]; simp
      · exact hD t (by omega)

/-- One step of the search keeps its invariant. -/
theorem postTree_ok {Sib Child Order Stack : Buf ℤ} {ch : ℤ → List ℤ} (hk : KidsOk n par nv ch Sib) {root k : ℤ} {S : Finset ℤ}
    (h : Dfs n par nv ch Sib root Child Order Stack k [] S) (r0 : 0 ≤ root) (r1 : root < n) (rp : par root = -1) (rv : 0 < nv root)
    (hpar : ∀ x, 0 ≤ x → x < n → 0 < nv x → par x ≠ -1 → 0 ≤ par x) :
    Ens (postTree n root k Sib Child Order Stack) (fun r => ∃ S', S ⊆ S' ∧ root ∈ S' ∧ Dfs n par nv ch Sib (root + 1) r.2.1 r.2.2.1 r.2.2.2 r.1 [] S') := by
  unfold postTree
  have hrS : root ∉ S := fun hm => by have := h.roots root hm rp; omega
  refine Ens.wr le_rfl (by have := h.size; omega) ?_
  refine Ens.loopG (γ := List ℤ × Finset ℤ) (fun g (s : Buf ℤ × Buf ℤ × Buf ℤ × ℤ × ℤ) => S ⊆ g.2 ∧ root ∈ g.2 ∧ s.2.2.2.1 + 1 = g.1.length ∧
    Dfs n par nv ch Sib (root + 1) s.1 s.2.1 s.2.2.1 s.2.2.2.2 g.1 g.2) _ (fun g => 2 * (n.toNat - g.2.card) + g.1.length) ?_ _ ([root], insert root S) _ ?_ ?_
  · rintro ⟨st, T⟩ ⟨C, O, b, head, j⟩ ⟨hST, hrT, hhead, d⟩
    dsimp only at *
    have hcard : T.card ≤ n.toNat := by
      refine le_trans (card_le_card (t := Ico (0 : ℤ) n) fun x hx => ?_) (by simp)
      have := d.rng x hx
      rw [mem_Ico]; exact ⟨this.1, this.2.1⟩
    rcases List.eq_nil_or_concat st with rfl | ⟨st, i, rfl⟩
    · rw [if_neg (by simp at hhead; omega)]
      exact Ens.pure ⟨T, hST, hrT, d⟩
    rw [List.concat_eq_append] at *
    have hlen : (st ++ [i]).length = st.length + 1 := by simp
    have hh : head = st.length := by rw [hlen] at hhead; push_cast at hhead; omega
    rw [if_pos (by omega)]
    have htop : b.rd head = some i := by
      have := d.stk st.length (by simp)
      rw [hh, this]; simp
    have hiT : i ∈ T := d.sub i (by simp)
    obtain ⟨i0, i1, iv⟩ := d.rng i hiT
    rw [htop]
    show Ens (C.rd i >>= _) _
    refine Ens.rd d.fullC i0 i1 ?_
    have hmi := hk.mem i i0 i1
    by_cases hc : C i = -1
    · -- the node is ordered
      rw [if_neg (by omega)]
      have hall : ∀ c ∈ ch i, c ∈ T := by
        rcases d.kids i hiT with ⟨h1, _⟩ | ⟨_, h2⟩
        · have : ch i = [] := by by_contra hne; exact (chain_ne h1).mpr hne hc
          rw [this]; simp
        · exact h2
      have hist : i ∉ st := by have := d.nodup; rw [List.nodup_append] at this; exact fun hm => this.2.2 i hm i (by simp) rfl
      have hnot : ∀ x, x ∉ st → x ≠ i → x ∉ st ++ [i] := fun x h1 h2 => by simp [h1, h2]
      have hnum := d.num
      rw [hlen] at hnum
      have fO := d.fullO
      refine Ens.wr i0 (by have := fO.1; omega) (Ens.pure ⟨(st, T), ⟨hST, hrT, by dsimp only; omega, ⟨d.fullC, fO.upd _ _, d.size, fun k hk => ?_, ?_, fun x hx => d.sub x (by simp [hx]), d.rng,
        fun x x0 x1 hx => ?_, fun x hx hs => ?_, fun x hx y hy xs ys e => ?_, fun q q0 q1 => ?_, by dsimp only; push_cast at hnum; omega, by have := d.nonneg; dsimp only; omega, d.fresh, d.kids, fun x hx hs => ?_, d.up, d.roots⟩⟩, by rw [hlen]; dsimp only; omega⟩)
      · have hk' : k < st.length := hk
        have := d.stk k (by rw [hlen]; omega)
        rw [List.getElem?_append_left hk'] at this
        exact this
      · have := d.nodup; rw [List.nodup_append] at this; exact this.1
      · dsimp only; rw [upd_ne _ i0 (by rintro rfl; exact hx hiT)]; exact d.new x x0 x1 hx
      · dsimp only
        rw [upd_at _ i0]
        split_ifs with e
        · have := d.nonneg; constructor <;> omega
        · have := d.ord x hx (hnot x hs e); constructor <;> omega
      · dsimp only at e
        rw [upd_at _ i0, upd_at _ i0] at e
        split_ifs at e with e1 e2 e2
        · rw [e1, e2]
        · have := d.ord y hy (hnot y ys e2); omega
        · have := d.ord x hx (hnot x xs e1); omega
        · exact d.inj x hx y hy (hnot x xs e1) (hnot y ys e2) e
      · dsimp only at q1
        by_cases e : q = j
        · exact ⟨i, hiT, hist, by dsimp only; rw [upd_same _ i0, e]⟩
        · obtain ⟨x, hx, hs, he⟩ := d.surj q q0 (by omega)
          have hxi : x ≠ i := by rintro rfl; exact hs (by simp)
          exact ⟨x, hx, fun hm => hs (by simp [hm]), by dsimp only; rw [upd_ne _ i0 hxi]; exact he⟩
      · by_cases e : x = i
        · rw [e]; exact hall
        · exact d.done x hx (hnot x hs e)
    · -- the children are put on the stack
      rw [if_pos hc]
      obtain ⟨hch, hnew⟩ : Chain Sib (C i) (ch i) ∧ ∀ c ∈ ch i, c ∉ T := by
        rcases d.kids i hiT with h1 | ⟨h1, _⟩
        · exact h1
        · exact absurd h1 hc
      have hne : ch i ≠ [] := (chain_ne hch).mp hc
      have hpos : 0 < (ch i).length := List.length_pos_iff.mpr hne
      have hr : ∀ x ∈ ch i, 0 ≤ x ∧ x < n := fun x hx => by have := (hmi x).mp hx; exact ⟨this.1, this.2.1⟩
      have hll := nodup_len (hk.nodup i) hr
      have hnd' : (st ++ [i] ++ (ch i).reverse).Nodup := by
        rw [List.nodup_append]
        refine ⟨d.nodup, List.nodup_reverse.mpr (hk.nodup i), fun x hx y hy e => ?_⟩
        rw [List.mem_reverse] at hy
        rw [e] at hx
        exact hnew y hy (d.sub y hx)
      have hl' : (st ++ [i] ++ (ch i).reverse).length = st.length + 1 + (ch i).length := by simp; omega
      have hle' := nodup_len (n := n) hnd' (fun x hx => by
        rw [List.mem_append, List.mem_reverse] at hx
        rcases hx with hx | hx
        · have := d.rng x (d.sub x hx); exact ⟨this.1, this.2.1⟩
        · exact hr x hx)
      rw [hl'] at hle'
      refine Ens.bind (count_ok hk.full hch hr hll) ?_
      rintro _ rfl
      refine Ens.bind (push_ok hk.full hch hr hll (by omega) (by have := d.size; omega)) ?_
      rintro b' ⟨hsz, hlow, hhigh⟩
      have hTd : Disjoint T (ch i).toFinset := by
        rw [disjoint_left]; intro x hx hx'; exact hnew x (List.mem_toFinset.mp hx') hx
      have hcU : (T ∪ (ch i).toFinset).card = T.card + (ch i).length := by
        rw [card_union_of_disjoint hTd, List.toFinset_card_of_nodup (hk.nodup i)]
      have hcU' : (T ∪ (ch i).toFinset).card ≤ n.toNat := by
        refine le_trans (card_le_card (t := Ico (0 : ℤ) n) fun x hx => ?_) (by simp)
        rw [mem_Ico]
        rw [mem_union, List.mem_toFinset] at hx
        rcases hx with hx | hx
        · have := d.rng x hx; exact ⟨this.1, this.2.1⟩
        · exact hr x hx
      have hin : ∀ x, x ∈ T ∪ (ch i).toFinset ↔ x ∈ T ∨ x ∈ ch i := fun x => by rw [mem_union, List.mem_toFinset]
      have hst : ∀ x, x ∈ st ++ [i] ++ (ch i).reverse ↔ x ∈ st ++ [i] ∨ x ∈ ch i := fun x => by rw [List.mem_append, List.mem_reverse]
      have hold : ∀ x, x ∈ T ∪ (ch i).toFinset → x ∉ st ++ [i] ++ (ch i).reverse → x ∈ T ∧ x ∉ st ++ [i] := fun x h1 h2 => by
        rw [hin] at h1; rw [hst] at h2
        exact ⟨h1.resolve_right (fun q => h2 (.inr q)), fun q => h2 (.inl q)⟩
      have fC := d.fullC
      refine Ens.wr i0 (by have := fC.1; omega) (Ens.pure ⟨(st ++ [i] ++ (ch i).reverse, T ∪ (ch i).toFinset), ⟨fun x hx => (hin x).mpr (.inl (hST hx)), (hin root).mpr (.inl hrT), ?_,
        ⟨fC.upd _ _, d.fullO, by dsimp only; rw [hsz]; exact d.size, fun k hkl => ?_, hnd', fun x hx => ?_, fun x hx => ?_, fun x x0 x1 hx => ?_, fun x hx hs => ?_, fun x hx y hy xs ys e => ?_,
        fun q q0 q1 => ?_, ?_, d.nonneg, fun x x0 x1 hx => ?_, fun x hx => ?_, fun x hx hs c hcm => ?_, fun x hx => ?_, fun x hx hp => ?_⟩⟩, ?_⟩)
      · dsimp only; rw [hl']; push_cast; omega
      · rw [hl'] at hkl
        by_cases hkst : k < st.length + 1
        · rw [List.getElem?_append_left (by rw [hlen]; exact hkst), ← d.stk k (by rw [hlen]; exact hkst)]
          exact hlow k (by omega)
        · rw [List.getElem?_append_right (by rw [hlen]; omega), hlen, List.getElem?_reverse (by omega)]
          have := hhigh ((ch i).length - 1 - (k - (st.length + 1))) (by omega)
          rw [← this]
          dsimp only
          congr 1
          omega
      · rw [hst] at hx
        rw [hin]
        rcases hx with hx | hx
        · exact .inl (d.sub x hx)
        · exact .inr hx
      · rw [hin] at hx
        rcases hx with hx | hx
        · exact d.rng x hx
        · have := (hmi x).mp hx; exact ⟨this.1, this.2.1, this.2.2.1⟩
      · exact d.new x x0 x1 (fun q => hx ((hin x).mpr (.inl q)))
      · obtain ⟨a, c⟩ := hold x hx hs; exact d.ord x a c
      · obtain ⟨a, c⟩ := hold x hx xs
        obtain ⟨a', c'⟩ := hold y hy ys
        exact d.inj x a y a' c c' e
      · obtain ⟨x, hx, hs, he⟩ := d.surj q q0 q1
        refine ⟨x, (hin x).mpr (.inl hx), fun hm => ?_, he⟩
        rw [hst] at hm
        rcases hm with hm | hm
        · exact hs hm
        · exact hnew x hm hx
      · have := d.num
        rw [hlen] at this
        rw [hl', hcU]; push_cast at this ⊢; omega
      · have hxT : x ∉ T := fun q => hx ((hin x).mpr (.inl q))
        dsimp only
        rw [upd_ne _ i0 (by rintro rfl; exact hxT hiT)]
        exact d.fresh x x0 x1 hxT
      · rw [hin] at hx
        dsimp only
        by_cases e : x = i
        · refine .inr ⟨by rw [e, upd_same _ i0], fun c hcm => (hin c).mpr (.inr (by rw [← e]; exact hcm))⟩
        · rw [upd_ne _ i0 e]
          rcases hx with hx | hx
          · rcases d.kids x hx with ⟨h1, h2⟩ | ⟨h1, h2⟩
            · refine .inl ⟨h1, fun c hcm q => ?_⟩
              rw [hin] at q
              rcases q with q | q
              · exact h2 c hcm q
              · obtain ⟨x0, x1, _⟩ := d.rng x hx
                have e1 := ((hk.mem x x0 x1 c).mp hcm).2.2.2
                have e2 := ((hmi c).mp q).2.2.2
                omega
            · exact .inr ⟨h1, fun c hcm => (hin c).mpr (.inl (h2 c hcm))⟩
          · obtain ⟨x0, x1, xv, xp⟩ := (hmi x).mp hx
            refine .inl ⟨d.fresh x x0 x1 (hnew x hx), fun c hcm q => ?_⟩
            rw [hin] at q
            obtain ⟨c0, c1, cv, cp⟩ := (hk.mem x x0 x1 c).mp hcm
            rcases q with q | q
            · rcases d.up c q with h1 | h1
              · omega
              · rw [cp] at h1; exact hnew x hx h1
            · have e2 := ((hmi c).mp q).2.2.2
              omega
      · obtain ⟨a, c'⟩ := hold x hx hs
        exact (hin c).mpr (.inl (d.done x a c' c hcm))
      · rw [hin] at hx
        rcases hx with hx | hx
        · rcases d.up x hx with q | q
          · exact .inl q
          · exact .inr ((hin _).mpr (.inl q))
        · have := ((hmi x).mp hx).2.2.2
          exact .inr ((hin _).mpr (.inl (by rw [this]; exact hiT)))
      · rw [hin] at hx
        rcases hx with hx | hx
        · exact d.roots x hx hp
        · have := ((hmi x).mp hx).2.2.2; omega
      · dsimp only
        rw [hl', hcU, hlen]
        rw [hcU] at hcU'
        omega
  · refine ⟨subset_insert _ _, mem_insert_self _ _, by simp, ⟨h.fullC, h.fullO, h.size, fun k hk => ?_, by simp, by simp, fun x hx => ?_, fun x x0 x1 hx => ?_, fun x hx hs => ?_,
      fun x hx y hy xs ys e => ?_, fun q q0 q1 => ?_, ?_, h.nonneg, fun x x0 x1 hx => ?_, fun x hx => ?_, fun x hx hs c hcm => ?_, fun x hx => ?_, fun x hx hp => ?_⟩⟩
    · have : k = 0 := by simpa using hk
      subst this
      dsimp only
      rw [rd_upd _ (by omega) (by have := h.size; omega)]
      simp
    · rw [mem_insert] at hx
      rcases hx with rfl | hx
      · exact ⟨r0, r1, rv⟩
      · exact h.rng x hx
    · exact h.new x x0 x1 (fun q => hx (mem_insert_of_mem q))
    · have hx' : x ∈ S := (mem_insert.mp hx).resolve_left (by simpa using hs)
      exact h.ord x hx' (by simp)
    · exact h.inj x ((mem_insert.mp hx).resolve_left (by simpa using xs)) y ((mem_insert.mp hy).resolve_left (by simpa using ys)) (by simp) (by simp) e
    · obtain ⟨x, hx, _, he⟩ := h.surj q q0 q1
      exact ⟨x, mem_insert_of_mem hx, by simp; rintro rfl; exact hrS hx, he⟩
    · rw [card_insert_of_notMem hrS]
      have := h.num
      simp at this ⊢; omega
    · exact h.fresh x x0 x1 (fun q => hx (mem_insert_of_mem q))
    · rw [mem_insert] at hx
      rcases hx with rfl | hx
      · refine .inl ⟨h.fresh x r0 r1 hrS, fun c hcm q => ?_⟩
        obtain ⟨c0, c1, cv, cp⟩ := (hk.mem x r0 r1 c).mp hcm
        rw [mem_insert] at q
        rcases q with q | q
        · rw [q, rp] at cp; omega
        · rcases h.up c q with h1 | h1
          · omega
          · rw [cp] at h1; exact hrS h1
      · rcases h.kids x hx with ⟨h1, h2⟩ | ⟨h1, h2⟩
        · refine .inl ⟨h1, fun c hcm q => ?_⟩
          obtain ⟨x0, x1, _⟩ := h.rng x hx
          rw [mem_insert] at q
          rcases q with q | q
          · have := ((hk.mem x x0 x1 c).mp hcm).2.2.2
            rw [q, rp] at this; omega
          · exact h2 c hcm q
        · exact .inr ⟨h1, fun c hcm => mem_insert_of_mem (h2 c hcm)⟩
    · have hx' : x ∈ S := (mem_insert.mp hx).resolve_left (by simpa using hs)
      exact mem_insert_of_mem (h.done x hx' (by simp) c hcm)
    · rw [mem_insert] at hx
      rcases hx with rfl | hx
      · exact .inl rp
      · rcases h.up x hx with q | q
        · exact .inl q
        · exact .inr (mem_insert_of_mem q)
    · rw [mem_insert] at hx
      rcases hx with rfl | hx
      · omega
      · have := h.roots x hx hp; omega
  · dsimp only
    have : 0 < (insert root S).card := card_pos.mpr ⟨root, mem_insert_self _ _⟩
    have hle : (insert root S).card ≤ n.toNat := by
      refine le_trans (card_le_card (t := Ico (0 : ℤ) n) fun x hx => ?_) (by simp)
      rw [mem_insert] at hx
      rw [mem_Ico]
      rcases hx with rfl | hx
      · exact ⟨r0, r1⟩
      · have := h.rng x hx; exact ⟨this.1, this.2.1⟩
    simp only [List.length_singleton]
    omega

/-- `postorder` numbers the pivots. -/
theorem postorder_ok {Parent Nv Fsize Order Child Sib Stack : Buf ℤ} (hn : 0 ≤ n) (F : Forest n par Nv rep rank) (hNv : Full Nv n) (hP : Full Parent n)
    (hpar : ∀ i, 0 ≤ i → i < n → 0 < Nv i → Parent i = par i) (hF : Full Fsize n) (hFs : ∀ i, 0 ≤ i → i < n → 0 < Nv i → -1 ≤ Fsize i)
    (sO : n ≤ Order.size) (sC : n ≤ Child.size) (sS : n ≤ Sib.size) (sT : n ≤ Stack.size) :
    Ens (postorder n Parent Nv Fsize Order Child Sib Stack) (fun r => (∃ K, Ordered n Nv r.1 K) ∧ n ≤ r.2.1.size ∧ n ≤ r.2.2.1.size ∧ n ≤ r.2.2.2.size) := by
  unfold postorder
  refine Ens.bind (fill2 hn sC sS (-1) (-1)) ?_
  rintro ⟨C, S⟩ ⟨_, _, fC, fS, vC, _⟩
  refine Ens.bind (build_kids hn hNv hP F hpar fC fS vC) ?_
  rintro ⟨C1, S1⟩ ⟨ch, hk⟩
  refine Ens.bind (move_kids hn hNv hF hFs hk) ?_
  rintro ⟨C2, S2⟩ ⟨ch, hk⟩
  refine Ens.bind (fill1 hn sO (-1)) ?_
  rintro O ⟨_, fO, vO⟩
  have hko : KidsOk n par Nv ch S2 := ⟨hk.fullS, hk.nodup, fun p p0 p1 x => by
    rw [hk.mem p p0 p1 x]; constructor
    · rintro ⟨_, b⟩; exact b
    · rintro ⟨a, b⟩; exact ⟨a, a, b⟩⟩
  refine Ens.bind (P := fun (s : ℤ × Buf ℤ × Buf ℤ × Buf ℤ) => ∃ T, Dfs n par Nv ch S2 n s.2.1 s.2.2.1 s.2.2.2 s.1 [] T ∧
    ∀ x, 0 ≤ x → x < n → 0 < Nv x → par x = -1 → x ∈ T) ?_ ?_
  · refine Ens.imp (Ens.forI (fun m (s : ℤ × Buf ℤ × Buf ℤ × Buf ℤ) => ∃ T, Dfs n par Nv ch S2 m s.2.1 s.2.2.1 s.2.2.2 s.1 [] T ∧
      ∀ x, 0 ≤ x → x < m → x < n → 0 < Nv x → par x = -1 → x ∈ T) hn ?_ ?_) ?_
    · refine ⟨∅, ⟨hk.fullC, fO, sT, fun k h => by simp at h, by simp, by simp, by simp, fun x x0 x1 _ => vO x x0 x1, by simp, by simp, fun j h0 h1 => by dsimp only at h1; omega,
        by simp, by simp, fun x x0 x1 _ => hk.chain x x0 x1, by simp, by simp, by simp, by simp⟩, fun x h0 h1 => by omega⟩
    · rintro i ⟨k, C, O, b⟩ i0 i1 ⟨T, d, hr⟩
      dsimp only at *
      have hweak : (¬ (0 < Nv i ∧ par i = -1)) → ∃ T, Dfs n par Nv ch S2 (i + 1) C O b k [] T ∧ ∀ x, 0 ≤ x → x < i + 1 → x < n → 0 < Nv x → par x = -1 → x ∈ T := fun hno =>
        ⟨T, ⟨d.fullC, d.fullO, d.size, d.stk, d.nodup, d.sub, d.rng, d.new, d.ord, d.inj, d.surj, d.num, d.nonneg, d.fresh, d.kids, d.done, d.up, fun x hx hp => by have := d.roots x hx hp; omega⟩,
          fun x x0 x1 xn xv xp => hr x x0 (by rcases eq_or_ne x i with e | e; · rw [e] at xv xp; exact absurd ⟨xv, xp⟩ hno
                                              · omega) xn xv xp⟩
      refine Ens.rd hP i0 i1 ?_
      by_cases hv : 0 < Nv i
      · rw [hpar i i0 i1 hv]
        by_cases hp : par i = -1
        · rw [if_pos hp]
          refine Ens.rd hNv i0 i1 ?_
          rw [if_pos hv]
          refine Ens.imp (postTree_ok hko d i0 i1 hp hv (fun x x0 x1 xv xp => ((F.pr x x0 x1).resolve_left xp).1)) ?_
          rintro ⟨k', C', O', b'⟩ ⟨T', hsub, hrt, d'⟩
          refine ⟨T', d', fun x x0 x1 xn xv xp => ?_⟩
          rcases eq_or_ne x i with e | e
          · rw [e]; exact hrt
          · exact hsub (hr x x0 (by omega) xn xv xp)
        · rw [if_neg hp]; exact Ens.pure (hweak (fun q => hp q.2))
      · by_cases hp : Parent i = -1
        · rw [if_pos hp]
          refine Ens.rd hNv i0 i1 ?_
          rw [if_neg hv]; exact Ens.pure (hweak (fun q => hv q.1))
        · rw [if_neg hp]; exact Ens.pure (hweak (fun q => hv q.1))
    · rintro ⟨k, C, O, b⟩ ⟨T, d, hr⟩
      exact ⟨T, d, fun x x0 x1 xv xp => hr x x0 x1 x1 xv xp⟩
  rintro ⟨k, C3, O3, b3⟩ ⟨T, d, hr⟩
  dsimp only at *
  have hall : ∀ (h : ℕ) (x : ℤ), height n rank x ≤ h → 0 ≤ x → x < n → 0 < Nv x → x ∈ T := by
    intro h
    induction h with
    | zero =>
      intro x hh x0 x1 xv
      rcases F.pr x x0 x1 with e | ⟨p0, p1, hlt⟩
      · exact hr x x0 x1 xv e
      · have := height_lt (n := n) p0 p1 hlt; omega
    | succ h ih =>
      intro x hh x0 x1 xv
      rcases F.pr x x0 x1 with e | ⟨p0, p1, hlt⟩
      · exact hr x x0 x1 xv e
      · have hl := height_lt (n := n) p0 p1 hlt
        have := ih (par x) (by omega) p0 p1 (F.elt x x0 x1 xv (by omega))
        exact d.done _ this (by simp) x ((hko.mem _ p0 p1 x).mpr ⟨x0, x1, xv, rfl⟩)
  have hin : ∀ x, 0 ≤ x → x < n → 0 < Nv x → x ∈ T := fun x => hall _ x le_rfl
  refine Ens.pure ⟨⟨k, d.fullO, ⟨d.nonneg, ?_⟩, fun i i0 i1 hz => ?_, fun i i0 i1 hv => d.ord i (hin i i0 i1 hv) (by simp),
    fun i j i0 i1 iv j0 j1 jv e => d.inj i (hin i i0 i1 iv) j (hin j j0 j1 jv) (by simp) (by simp) e, fun q q0 q1 => ?_⟩, d.fullC.1, hk.fullS.1, d.size⟩
  · have h1 := d.num
    have h2 : T.card ≤ n.toNat := by
      refine le_trans (card_le_card (t := Ico (0 : ℤ) n) fun x hx => ?_) (by simp)
      have := d.rng x hx
      rw [mem_Ico]; exact ⟨this.1, this.2.1⟩
    simp at h1; omega
  · exact d.new i i0 i1 (fun q => by have := d.rng i q; omega)
  · obtain ⟨x, hx, _, e⟩ := d.surj q q0 q1
    obtain ⟨x0, x1, xv⟩ := d.rng x hx
    exact ⟨x, x0, x1, xv, e⟩

end Osqp.Amd
