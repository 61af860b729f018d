import Verif.Amd.Lay

/-!
# Checking and sorting the matrix

`AMD_valid` decides whether the matrix is well formed, and whether its columns are sorted; `AMD_preprocess` makes a sorted matrix of one that is not.
-/

namespace Osqp.Amd
open Csc Finset
set_option linter.unusedSectionVars false

variable {n : ℤ} {Ap Ai : Buf ℤ}

/-- What `AMD_valid` has found out when it comes to column `j`. -/
def Seen (n : ℤ) (Ap Ai : Buf ℤ) (j : ℤ) : Option ℤ → Prop
  | none => ¬ Cols n Ap Ai
  | some v => (∀ k, 0 ≤ k → k < j → Ap k ≤ Ap (k + 1)) ∧ (∀ p, 0 ≤ p → p < Ap j → 0 ≤ Ai p ∧ Ai p < n) ∧ 0 ≤ Ap j ∧ (v = 0 ∨ v = 1) ∧
      (v = 0 ↔ ∀ k p, 0 ≤ k → k < j → Ap k ≤ p → p + 1 < Ap (k + 1) → Ai p < Ai (p + 1))

/-- … and to position `p` of this column. -/
def SeenIn (n : ℤ) (Ap Ai : Buf ℤ) (j p : ℤ) : Option (ℤ × ℤ) → Prop
  | none => ¬ Cols n Ap Ai
  | some (v, last) => (∀ q, 0 ≤ q → q < p → 0 ≤ Ai q ∧ Ai q < n) ∧ (v = 0 ∨ v = 1) ∧
      (v = 0 ↔ (∀ k q, 0 ≤ k → k < j → Ap k ≤ q → q + 1 < Ap (k + 1) → Ai q < Ai (q + 1)) ∧ ∀ q, Ap j ≤ q → q + 1 < p → Ai q < Ai (q + 1)) ∧
      last = if p = Ap j then -1 else Ai (p - 1)

theorem valid_ok (n0 : 0 ≤ n) (fp : Full Ap (n + 1)) (fi : ∀ j, 0 ≤ j → j ≤ n → Full Ai (Ap j)) :
    Ens (valid n Ap Ai) (fun r => (r = 0 ∧ Srt n Ap Ai) ∨ (r = 1 ∧ Cols n Ap Ai ∧ ¬ Srt n Ap Ai) ∨ (r = -2 ∧ ¬ Cols n Ap Ai)) := by
  unfold valid
  rw [if_neg (by omega)]
  refine Ens.rd fp n0 (by omega) (Ens.rd fp le_rfl (by omega) ?_)
  by_cases c : Ap 0 ≠ 0 ∨ Ap n < 0
  · rw [if_pos c]
    refine Ens.pure (.inr (.inr ⟨rfl, fun h => ?_⟩))
    have := h.zero
    have := h.nonneg n0 le_rfl
    omega
  rw [if_neg c]
  have z0 : Ap 0 = 0 := by by_contra q; exact c (.inl q)
  refine Ens.bind (Ens.forI (fun j r => Seen n Ap Ai j r) n0 ⟨fun k k0 k1 => by omega, fun p p0 p1 => by omega, by omega, .inl rfl, ⟨fun _ k p k0 k1 => by omega, fun _ => rfl⟩⟩ ?_) ?_
  · rintro j r j0 j1 h
    cases r with
    | none => exact Ens.some h
    | some v =>
      obtain ⟨mono, rng, pos, v01, hv⟩ := h
      dsimp only
      refine Ens.rd fp j0 (by omega) (Ens.rd fp (by omega) (by omega) ?_)
      by_cases d : Ap j > Ap (j + 1)
      · rw [if_pos d]
        exact Ens.pure fun h => by have := h.mono j j0 j1; omega
      rw [if_neg d]
      refine Ens.bind (Ens.forI (fun p r => SeenIn n Ap Ai j p r) (by omega) ⟨rng, v01, ?_, by rw [if_pos rfl]⟩ ?_) ?_
      · rw [hv]
        exact ⟨fun h => ⟨h, fun q q0 q1 => by omega⟩, fun h => h.1⟩
      · rintro p r p0 p1 h
        cases r with
        | none => exact Ens.some h
        | some w =>
          obtain ⟨w, last⟩ := w
          obtain ⟨rng, w01, hw, hl⟩ := h
          unfold validCol
          dsimp only
          refine Ens.rd (fi (j + 1) (by omega) (by omega)) (by omega) p1 ?_
          by_cases e : Ai p < 0 ∨ Ai p ≥ n
          · rw [if_pos e]
            refine Ens.some fun h => ?_
            have a := h.pos j0 j1 p0 p1
            have := h.rng p a.1 a.2
            omega
          · rw [if_neg e]
            refine Ens.some ⟨fun q q0 q1 => ?_, ?_, ?_, ?_⟩
            · by_cases z : q = p
              · rw [z]; omega
              · exact rng q q0 (by omega)
            · split_ifs
              · exact .inr rfl
              · exact w01
            · by_cases z : p = Ap j
              · rw [if_pos z] at hl
                rw [if_neg (by omega), hw]
                exact ⟨fun h => ⟨h.1, fun q q0 q1 => by omega⟩, fun h => ⟨h.1, fun q q0 q1 => by omega⟩⟩
              · rw [if_neg z] at hl
                split_ifs with y
                · constructor
                  · intro h; omega
                  · intro h
                    have := h.2 (p - 1) (by omega) (by omega)
                    rw [show p - 1 + 1 = p by ring] at this
                    omega
                · rw [hw]
                  refine ⟨fun h => ⟨h.1, fun q q0 q1 => ?_⟩, fun h => ⟨h.1, fun q q0 q1 => h.2 q q0 (by omega)⟩⟩
                  by_cases x : q + 1 = p
                  · have : q = p - 1 := by omega
                    rw [x, this]; omega
                  · exact h.2 q q0 (by omega)
            · rw [if_neg (by omega)]; congr 1; omega
      · intro r h
        cases r with
        | none => exact Ens.pure h
        | some w =>
          obtain ⟨w, last⟩ := w
          obtain ⟨rng', w01, hw, hl⟩ := h
          refine Ens.pure ⟨fun k k0 k1 => ?_, rng', by omega, w01, ?_⟩
          · by_cases e : k = j
            · rw [e]; omega
            · exact mono k k0 (by omega)
          · rw [hw]
            constructor
            · intro h k p k0 k1 p0 p1
              by_cases e : k = j
              · rw [e] at p0 p1; exact h.2 p p0 p1
              · exact h.1 k p k0 (by omega) p0 p1
            · intro h
              exact ⟨fun k p k0 k1 => h k p k0 (by omega), fun p => h j p j0 (by omega)⟩
  · intro r h
    cases r with
    | none => exact Ens.pure (.inr (.inr ⟨rfl, h⟩))
    | some v =>
      obtain ⟨mono, rng, pos, v01, hv⟩ := h
      have C : Cols n Ap Ai := ⟨fp, z0, mono, fi n n0 le_rfl, rng⟩
      refine Ens.pure ?_
      rcases v01 with rfl | rfl
      · exact .inl ⟨rfl, C, fun j p => hv.mp rfl j p⟩
      · refine .inr (.inl ⟨rfl, C, fun S => ?_⟩)
        have := hv.mpr S.inc
        omega

/-! ## `AMD_preprocess` -/

section
variable {σ : Type} {act : ℤ → ℤ → σ → Option σ} {I : List (ℤ × ℤ) → σ → Prop}

/-- The entries are visited in the order of the columns, each once. -/
theorem distinct_ok (A : Cols n Ap Ai) (n0 : 0 ≤ n)
    (hact : ∀ i j l s, I l s → (l ++ [(i, j)]).Nodup → (∀ q ∈ l ++ [(i, j)], 0 ≤ q.1 ∧ q.1 < n ∧ 0 ≤ q.2 ∧ q.2 < n ∧ hasE Ap Ai q.1 q.2) → Ens (act i j s) (I (l ++ [(i, j)])))
    {s : σ} {Flag : Buf ℤ} (fF : Full Flag n) (hF : ∀ x, 0 ≤ x → x < n → Flag x = -1) (hI : I [] s) :
    Ens (distinct n Ap Ai act (s, Flag)) (fun r => Full r.2 n ∧ ∃ l, I l r.1 ∧ l.Nodup ∧ (∀ a b, (a, b) ∈ l ↔ 0 ≤ b ∧ b < n ∧ hasE Ap Ai a b) ∧ (l.length : ℤ) ≤ Ap n ∧ ∀ x, (row l x).Pairwise (· < ·)) := by
  unfold distinct
  have key : Ens (forI 0 n (fun j s => do
      let p2 ← Ap.rd (j + 1)
      let p1 ← Ap.rd j
      forI p1 p2 (fun p (s : σ × Buf ℤ) => do
        let i ← Ai.rd p
        let f ← s.2.rd i
        if f ≠ j then
          let s1 ← act i j s.1
          let Flag ← s.2.wr i j
          return (s1, Flag)
        else return s) s) (s, Flag))
      (fun r => Full r.2 n ∧ (∀ x, 0 ≤ x → x < n → r.2 x < n) ∧ ∃ l, I l r.1 ∧ l.Nodup ∧ (∀ a b, (a, b) ∈ l ↔ 0 ≤ b ∧ b < n ∧ hasE Ap Ai a b) ∧ (l.length : ℤ) ≤ Ap n ∧ ∀ x, (row l x).Pairwise (· < ·)) := by
    refine Ens.forI (fun j (r : σ × Buf ℤ) => Full r.2 n ∧ (∀ x, 0 ≤ x → x < n → r.2 x < j) ∧ ∃ l, I l r.1 ∧ l.Nodup ∧ (∀ a b, (a, b) ∈ l ↔ 0 ≤ b ∧ b < j ∧ hasE Ap Ai a b) ∧ (l.length : ℤ) ≤ Ap j ∧
      ∀ x, (row l x).Pairwise (· < ·)) n0 ⟨fF, fun x x0 x1 => by dsimp only; rw [hF x x0 x1]; omega, [], hI, List.nodup_nil, fun a b => ?_, by rw [A.zero]; simp, fun x => by simp [row]⟩ ?_
    · simp only [List.not_mem_nil, false_iff]; omega
    rintro j ⟨s, Flag⟩ j0 j1 ⟨fF, hF, l, hI, nd, mem, len, pw⟩
    dsimp only at fF hF hI ⊢
    refine Ens.rd A.fp (by omega) (by omega) (Ens.rd A.fp j0 (by omega) ?_)
    refine Ens.imp (Ens.forI (fun p (r : σ × Buf ℤ) => Full r.2 n ∧ ∃ l, I l r.1 ∧ l.Nodup ∧ (∀ a b, (a, b) ∈ l ↔ 0 ≤ b ∧ ((b < j ∧ hasE Ap Ai a b) ∨ (b = j ∧ ∃ q, Ap j ≤ q ∧ q < p ∧ Ai q = a))) ∧ (l.length : ℤ) ≤ p ∧
      (∀ x, (row l x).Pairwise (· < ·)) ∧ ∀ x, 0 ≤ x → x < n → r.2 x ≤ j ∧ (r.2 x = j ↔ (x, j) ∈ l)) (A.mono j j0 j1) ⟨fF, l, hI, nd, fun a b => ?_, len, pw, fun x x0 x1 => ?_⟩ ?_) ?_
    · rw [mem]
      constructor
      · rintro ⟨b0, b1, e⟩; exact ⟨b0, .inl ⟨b1, e⟩⟩
      · rintro ⟨b0, ⟨b1, e⟩ | ⟨_, q, q0, q1, _⟩⟩
        · exact ⟨b0, b1, e⟩
        · omega
    · have := hF x x0 x1
      dsimp only
      refine ⟨by omega, ⟨fun h => by omega, fun h => ?_⟩⟩
      have := (mem x j).mp h; omega
    · rintro p ⟨s, Flag⟩ p0 p1 ⟨fF, l, hI, nd, mem, len, pw, hF⟩
      dsimp only at fF hF hI ⊢
      have pp := A.pos j0 j1 p0 p1
      refine Ens.rd A.fi pp.1 pp.2 ?_
      have r := A.rng p pp.1 pp.2
      refine Ens.rd fF r.1 r.2 ?_
      have hi := hF _ r.1 r.2
      by_cases c : Flag (Ai p) ≠ j
      · rw [if_pos c]
        have nl : (Ai p, j) ∉ l := fun h => c (hi.2.mpr h)
        have nd2 : (l ++ [(Ai p, j)]).Nodup := by
          rw [List.nodup_append]
          refine ⟨nd, by simp, ?_⟩
          rintro a ha b hb rfl
          rw [List.mem_singleton] at hb
          rw [hb] at ha; exact nl ha
        refine Ens.bind (hact (Ai p) j l s hI nd2 ?_) (fun s1 hs1 => Ens.wr r.1 (by have := fF.1; omega) (Ens.pure ⟨fF.upd _ _, _, hs1, nd2, ?_, ?_, ?_, ?_⟩))
        · rintro ⟨a, b⟩ hq
          have : 0 ≤ b ∧ b < n ∧ hasE Ap Ai a b := by
            rw [List.mem_append, List.mem_singleton, Prod.mk.injEq] at hq
            rcases hq with hq | ⟨rfl, rfl⟩
            · rcases (mem a b).mp hq with ⟨b0, ⟨b1, e⟩ | ⟨b1, q, q0, q1, e⟩⟩
              · exact ⟨b0, by omega, e⟩
              · rw [b1]; exact ⟨j0, j1, q, q0, by omega, e⟩
            · exact ⟨j0, j1, p, p0, p1, rfl⟩
          have ra := A.row this.1 this.2.1 this.2.2
          exact ⟨ra.1, ra.2, this⟩
        · intro a b
          rw [List.mem_append, List.mem_singleton, Prod.mk.injEq, mem]
          constructor
          · rintro (⟨b0, u | ⟨b1, q, q0, q1, e⟩⟩ | ⟨rfl, rfl⟩)
            · exact ⟨b0, .inl u⟩
            · exact ⟨b0, .inr ⟨b1, q, q0, by omega, e⟩⟩
            · exact ⟨j0, .inr ⟨rfl, p, p0, by omega, rfl⟩⟩
          · rintro ⟨b0, u | ⟨b1, q, q0, q1, e⟩⟩
            · exact .inl ⟨b0, .inl u⟩
            · by_cases z : q = p
              · right; exact ⟨by rw [← e, z], b1⟩
              · exact .inl ⟨b0, .inr ⟨b1, q, q0, by omega, e⟩⟩
        · rw [List.length_append]; push_cast; simp; exact len
        · intro x
          rw [row_add]
          split_ifs with e
          · rw [List.pairwise_append]
            refine ⟨pw x, by simp, fun y hy z hz => ?_⟩
            rw [List.mem_singleton] at hz
            rw [mem_row, e] at hy
            have ny : y ≠ j := by rintro rfl; exact nl hy
            have := (mem _ _).mp hy
            omega
          · exact pw x
        · intro x x0 x1
          dsimp only
          rw [upd_at _ r.1, List.mem_append, List.mem_singleton, Prod.mk.injEq]
          have := hF x x0 x1
          by_cases e : x = Ai p
          · rw [if_pos e]; exact ⟨le_rfl, by simp [e]⟩
          · rw [if_neg e]; exact ⟨this.1, by rw [this.2]; simp [e]⟩
      · rw [if_neg c]
        have c' : Flag (Ai p) = j := by by_contra q; exact c q
        refine Ens.pure ⟨fF, l, hI, nd, fun a b => ?_, by omega, pw, hF⟩
        rw [mem]
        constructor
        · rintro ⟨b0, u | ⟨b1, q, q0, q1, e⟩⟩
          · exact ⟨b0, .inl u⟩
          · exact ⟨b0, .inr ⟨b1, q, q0, by omega, e⟩⟩
        · rintro ⟨b0, u | ⟨b1, q, q0, q1, e⟩⟩
          · exact ⟨b0, .inl u⟩
          · by_cases z : q = p
            · rw [← e, z, b1]
              exact (mem (Ai p) j).mp (hi.2.mp c')
            · exact ⟨b0, .inr ⟨b1, q, q0, by omega, e⟩⟩
    · rintro ⟨s, Flag⟩ ⟨fF, l, hI, nd, mem, len, pw, hF⟩
      refine ⟨fF, fun x x0 x1 => by have := (hF x x0 x1).1; omega, l, hI, nd, fun a b => ?_, len, pw⟩
      rw [mem]
      constructor
      · rintro ⟨b0, ⟨b1, e⟩ | ⟨b1, q, q0, q1, e⟩⟩
        · exact ⟨b0, by omega, e⟩
        · rw [b1]; exact ⟨j0, by omega, q, q0, q1, e⟩
      · rintro ⟨b0, b1, e⟩
        by_cases z : b = j
        · rw [z] at e ⊢
          obtain ⟨q, q0, q1, e⟩ := e
          exact ⟨j0, .inr ⟨rfl, q, q0, q1, e⟩⟩
        · exact ⟨b0, .inl ⟨by omega, e⟩⟩
  exact Ens.imp key (fun r h => ⟨h.1, h.2.2⟩)
end

theorem row_sum {l : List (ℤ × ℤ)} (h : ∀ q ∈ l, 0 ≤ q.1 ∧ q.1 < n) : ∑ x ∈ Ico (0 : ℤ) n, ((row l x).length : ℤ) = l.length := by
  induction l using List.reverseRecOn with
  | nil => simp [row]
  | append_singleton l q ih =>
    obtain ⟨i, v⟩ := q
    have hi := h (i, v) (by simp)
    have e : ∀ x, ((row (l ++ [(i, v)]) x).length : ℤ) = (row l x).length + if x = i then 1 else 0 := fun x => by
      rw [row_add]; split_ifs <;> simp
    simp only [e]
    rw [sum_add_distrib, ih (fun q hq => h q (List.mem_append_left _ hq)), sum_ite_eq', if_pos (mem_Ico.mpr hi)]
    simp

/-- `AMD_preprocess`: the transposed matrix, sorted. -/
theorem preprocess_ok (A : Cols n Ap Ai) (n0 : 0 ≤ n) {W Flag : Buf ℤ} (hW : n ≤ W.size) (hF : n ≤ Flag.size) :
    Ens (preprocess n (Ap n) Ap Ai W Flag) (fun r => Srt n r.1 r.2.1 ∧ n ≤ r.2.2.1.size ∧ n ≤ r.2.2.2.size ∧
      ∀ i j, 0 ≤ i → i < n → 0 ≤ j → j < n → (hasE r.1 r.2.1 i j ↔ hasE Ap Ai j i)) := by
  unfold preprocess
  refine Ens.bind (Ens.forI (fun k (s : Buf ℤ × Buf ℤ) => (n ≤ s.1.size ∧ n ≤ s.2.size) ∧ Full s.1 k ∧ Full s.2 k ∧ ∀ x, 0 ≤ x → x < k → s.1 x = 0 ∧ s.2 x = -1) n0
    ⟨⟨hW, hF⟩, Full.none _, Full.none _, fun x x0 x1 => by omega⟩ ?_) ?_
  · rintro k ⟨W, Flag⟩ k0 k1 ⟨⟨hW, hF⟩, f1, f2, hv⟩
    dsimp only at hW hF f1 f2 hv ⊢
    refine Ens.wr k0 (by omega) (Ens.wr k0 (by omega) (Ens.pure ⟨⟨hW, hF⟩, f1.grow k0 (by omega) _, f2.grow k0 (by omega) _, fun x x0 x1 => ?_⟩))
    dsimp only
    rw [upd_at _ k0, upd_at _ k0]
    split_ifs with e
    · exact ⟨rfl, rfl⟩
    · exact hv x x0 (by omega)
  rintro ⟨W, Flag⟩ ⟨⟨hW, hF⟩, f1, f2, hv⟩
  dsimp only at hW hF f1 f2 hv ⊢
  refine Ens.bind (distinct_ok (I := fun l W => n ≤ W.size ∧ Cnt n l W) A n0 ?_ f2 (fun x x0 x1 => (hv x x0 x1).2) ⟨hW, f1, fun x x0 x1 => by rw [(hv x x0 x1).1]; simp [row]⟩) ?_
  · rintro i j l W ⟨hW, hC⟩ _ hq
    have r := hq (i, j) (by simp)
    refine Ens.rd hC.full r.1 r.2.1 (Ens.wrLast r.1 (by omega) ⟨hW, hC.incr r.1 r.2.1 j⟩)
  rintro ⟨W, Flag⟩ ⟨fF, l1, ⟨hW, hC⟩, nd1, mem1, len1, pw1⟩
  dsimp only at fF hW hC ⊢
  have s0 : ((Buf.fresh (n + 1) : Buf ℤ).size : ℤ) = n + 1 := Int.toNat_of_nonneg (by omega)
  refine Ens.wr le_rfl (by omega) ?_
  refine Ens.bind (Ens.forI (fun k (Rp : Buf ℤ) => (Rp.size : ℤ) = n + 1 ∧ Full Rp (k + 1) ∧ 0 ≤ Rp k ∧ Rp 0 = 0 ∧ (∀ x, 0 ≤ x → x < k → Rp (x + 1) = Rp x + (row l1 x).length) ∧ Lay k (fun x => (row l1 x).length) Rp (Rp k)) n0
    ⟨s0, by have := (Full.none (Buf.fresh (n + 1) : Buf ℤ)).grow le_rfl (by omega) 0; exact this, by rw [upd_same _ le_rfl], upd_same _ le_rfl, fun x x0 x1 => by omega,
      ⟨fun x x0 x1 => by omega, fun j k j0 j1 => by omega, fun p p0 p1 => by rw [upd_same _ le_rfl] at p1; omega, by rw [upd_same _ le_rfl]; simp⟩⟩ ?_) ?_
  · rintro k Rp k0 k1 ⟨s0, f, pos, z, st, L⟩
    refine Ens.rd f k0 (by omega) (Ens.rd hC.full k0 k1 (Ens.wrLast (by omega) (by omega) ⟨s0, f.grow (by omega) (by omega) _, ?_, ?_, fun x x0 x1 => ?_, ?_⟩))
    · rw [upd_same _ (by omega), hC.v k k0 k1]; omega
    · rw [upd_ne _ (by omega) (by omega)]; exact z
    · rw [upd_at _ (by omega), upd_ne _ (by omega) (by omega)]
      split_ifs with e
      · have : x = k := by omega
        rw [this, hC.v k k0 k1]
      · exact st x x0 (by omega)
    · rw [upd_same _ (by omega), hC.v k k0 k1]
      exact L.grow k0 pos (by omega) (fun x x0 x1 => upd_ne _ (by omega) (by omega)) (upd_ne _ (by omega) (by omega))
  rintro Rp ⟨s0, fR, posR, zR, stR, L⟩
  refine Ens.bind (Ens.forI (fun k (s : Buf ℤ × Buf ℤ) => (n ≤ s.1.size ∧ n ≤ s.2.size) ∧ Full s.1 k ∧ Full s.2 k ∧ ∀ x, 0 ≤ x → x < k → s.1 x = Rp x ∧ s.2 x = -1) n0
    ⟨⟨hW, fF.1⟩, Full.none _, Full.none _, fun x x0 x1 => by omega⟩ ?_) ?_
  · rintro k ⟨W, Flag⟩ k0 k1 ⟨⟨hW, hF⟩, f1, f2, hv⟩
    dsimp only at hW hF f1 f2 hv ⊢
    refine Ens.rd fR k0 (by omega) (Ens.wr k0 (by omega) (Ens.wr k0 (by omega) (Ens.pure ⟨⟨hW, hF⟩, f1.grow k0 (by omega) _, f2.grow k0 (by omega) _, fun x x0 x1 => ?_⟩)))
    dsimp only
    rw [upd_at _ k0, upd_at _ k0]
    split_ifs with e
    · rw [e]; exact ⟨rfl, rfl⟩
    · exact hv x x0 (by omega)
  rintro ⟨W, Flag⟩ ⟨⟨hW, hF⟩, f1, f2, hv⟩
  dsimp only at hW hF f1 f2 hv ⊢
  have lim : Rp n ≤ Ap n := by
    rw [← L.sum, row_sum]
    · exact len1
    · rintro ⟨a, b⟩ hq
      have := (mem1 a b).mp hq
      exact A.row this.1 this.2.1 this.2.2
  have hcap : ∀ l' : List (ℤ × ℤ), l'.Nodup → (∀ q ∈ l', 0 ≤ q.1 ∧ q.1 < n ∧ 0 ≤ q.2 ∧ q.2 < n ∧ hasE Ap Ai q.1 q.2) → ∀ x, 0 ≤ x → x < n → ((row l' x).length : ℤ) ≤ (row l1 x).length := fun l' nd' sub x x0 x1 => by
    have := row_len (l' := l1) nd' (fun ⟨a, b⟩ hq => (mem1 a b).mpr (sub _ hq).2.2) x
    omega
  have zi : ((Buf.fresh (Ap n) : Buf ℤ).size : ℤ) = Ap n := Int.toNat_of_nonneg (by omega)
  refine Ens.bind (distinct_ok (I := fun l (s : Buf ℤ × Buf ℤ) => n ≤ s.1.size ∧ (s.2.size : ℤ) = Ap n ∧ Fill n Rp l s.2 s.1) A n0 ?_ f2 (fun x x0 x1 => (hv x x0 x1).2) ⟨hW, zi, Fill.start f1 (fun x x0 x1 => (hv x x0 x1).1)⟩) ?_
  · rintro i j l ⟨W, Ri⟩ ⟨hW, hR, F⟩ nd' hq
    dsimp only at hW hR F ⊢
    have r := hq (i, j) (by simp)
    dsimp only at r
    obtain ⟨r1, F1⟩ := F.put L r.1 r.2.1 j (hcap _ nd' hq)
    exact Ens.rd F.full r.1 r.2.1 (Ens.wr r1.1 (by omega) (Ens.wr r.1 (by omega) (Ens.pure ⟨hW, hR, F1⟩)))
  rintro ⟨⟨W, Ri⟩, Flag⟩ ⟨fF, l, ⟨hW, hR, F⟩, nd, mem, len, pw⟩
  dsimp only at fF hW hR F ⊢
  have hc : ∀ x, 0 ≤ x → x < n → ((row l x).length : ℤ) = (row l1 x).length := fun x x0 x1 => by
    have a := row_len (l := l) (l' := l1) nd (fun ⟨a, b⟩ hq => (mem1 a b).mpr ((mem a b).mp hq)) x
    have b := row_len (l := l1) (l' := l) nd1 (fun ⟨a, b⟩ hq => (mem a b).mpr ((mem1 a b).mp hq)) x
    omega
  obtain ⟨fI, hv'⟩ := F.fin L hc (by omega)
  have rng : ∀ p, 0 ≤ p → p < Rp n → ∃ x, 0 ≤ x ∧ x < n ∧ Rp x ≤ p ∧ p < Rp (x + 1) ∧ (x, Ri p) ∈ l := fun p p0 p1 => by
    obtain ⟨x, x0, x1, a, b⟩ := L.cover p p0 p1
    have e := stR x x0 x1
    have hx := hc x x0 x1
    have := hv' x x0 x1 (p - Rp x).toNat (by omega)
    rw [show Rp x + ((p - Rp x).toNat : ℤ) = p by omega] at this
    exact ⟨x, x0, x1, a, by omega, mem_row.mp (List.mem_iff_getElem?.mpr ⟨_, this⟩)⟩
  refine Ens.pure ⟨⟨⟨fR, zR, fun j j0 j1 => (by have := stR j j0 j1; omega : Rp j ≤ Rp (j + 1)), fI, fun p p0 p1 => ?_⟩, fun j p j0 j1 p0 p1 => ?_⟩, hW, fF.1, fun i j i0 i1 j0 j1 => ?_⟩
  · obtain ⟨x, x0, x1, _, _, h⟩ := rng p p0 p1
    have := (mem _ _).mp h
    exact ⟨this.1, this.2.1⟩
  · dsimp only at p0 p1 ⊢
    rw [stR j j0 j1] at p1
    have hx := hc j j0 j1
    have e1 := hv' j j0 j1 (p - Rp j).toNat (by omega)
    have e2 := hv' j j0 j1 ((p - Rp j).toNat + 1) (by omega)
    rw [show Rp j + ((p - Rp j).toNat : ℤ) = p by omega] at e1
    rw [show Rp j + (((p - Rp j).toNat + 1 : ℕ) : ℤ) = p + 1 by push_cast; omega] at e2
    obtain ⟨q1, e1⟩ := List.getElem?_eq_some_iff.mp e1
    obtain ⟨q2, e2⟩ := List.getElem?_eq_some_iff.mp e2
    have := List.pairwise_iff_getElem.mp (pw j) _ _ q1 q2 (by omega)
    rw [e1, e2] at this
    exact this
  · dsimp only
    have hx := hc j j0 j1
    have hj := stR j j0 j1
    constructor
    · rintro ⟨p, p0, p1, e⟩
      have := hv' j j0 j1 (p - Rp j).toNat (by omega)
      rw [show Rp j + ((p - Rp j).toNat : ℤ) = p by omega, e] at this
      exact ((mem j i).mp (mem_row.mp (List.mem_iff_getElem?.mpr ⟨_, this⟩))).2.2
    · intro e
      obtain ⟨k, hk⟩ := List.mem_iff_getElem?.mp (mem_row.mpr ((mem j i).mpr ⟨i0, i1, e⟩))
      obtain ⟨q, _⟩ := List.getElem?_eq_some_iff.mp hk
      have := hv' j j0 j1 k q
      rw [hk] at this
      exact ⟨Rp j + k, by omega, by omega, (Option.some.inj this).symm⟩

end Osqp.Amd
