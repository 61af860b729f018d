import Verif.Amd.Base
import Mathlib.Data.List.Nodup
import Mathlib.Data.List.Perm.Subperm

/-!
# The pairs visited by `AMD_aat` and `AMD_1`

For a matrix whose columns are sorted, the two functions visit each off-diagonal position of `A + A'` once.
-/

namespace Osqp.Amd
open Csc
set_option linter.unusedSectionVars false

/-- `A(i, j)` is an entry. -/
def hasE (Ap Ai : Buf ℤ) (i j : ℤ) : Prop := ∃ p, Ap j ≤ p ∧ p < Ap (j + 1) ∧ Ai p = i

/-- A matrix in compressed column form with row indices in range. -/
structure Cols (n : ℤ) (Ap Ai : Buf ℤ) : Prop where
  fp : Full Ap (n + 1)
  zero : Ap 0 = 0
  mono : ∀ j, 0 ≤ j → j < n → Ap j ≤ Ap (j + 1)
  fi : Full Ai (Ap n)
  rng : ∀ p, 0 ≤ p → p < Ap n → 0 ≤ Ai p ∧ Ai p < n

/-- … with sorted columns, without duplicates. -/
structure Srt (n : ℤ) (Ap Ai : Buf ℤ) : Prop extends Cols n Ap Ai where
  inc : ∀ j p, 0 ≤ j → j < n → Ap j ≤ p → p + 1 < Ap (j + 1) → Ai p < Ai (p + 1)

variable {n : ℤ} {Ap Ai : Buf ℤ}

theorem Cols.le (h : Cols n Ap Ai) {i j : ℤ} (i0 : 0 ≤ i) (ij : i ≤ j) (jn : j ≤ n) : Ap i ≤ Ap j := by
  obtain ⟨c, hc⟩ : ∃ c : ℕ, j = i + c := ⟨(j - i).toNat, by omega⟩
  induction c generalizing j with
  | zero => rw [hc]; simp
  | succ c ih =>
    have a := ih (j := i + c) (by omega) (by push_cast at hc; omega) rfl
    have b := h.mono (i + c) (by omega) (by push_cast at hc; omega)
    have : i + ((c + 1 : ℕ) : ℤ) = i + c + 1 := by push_cast; ring
    rw [hc, this]; omega

theorem Cols.nonneg (h : Cols n Ap Ai) {j : ℤ} (j0 : 0 ≤ j) (jn : j ≤ n) : 0 ≤ Ap j := by
  have := h.le le_rfl j0 jn; rw [h.zero] at this; exact this

theorem Cols.pos (h : Cols n Ap Ai) {j p : ℤ} (j0 : 0 ≤ j) (jn : j < n) (p0 : Ap j ≤ p) (p1 : p < Ap (j + 1)) : 0 ≤ p ∧ p < Ap n := by
  have := h.nonneg j0 jn.le
  have := h.le (i := j + 1) (j := n) (by omega) (by omega) le_rfl
  omega

theorem Cols.row (h : Cols n Ap Ai) {i j : ℤ} (j0 : 0 ≤ j) (jn : j < n) (e : hasE Ap Ai i j) : 0 ≤ i ∧ i < n := by
  obtain ⟨p, p0, p1, rfl⟩ := e
  have := h.pos j0 jn p0 p1
  exact h.rng p this.1 this.2

theorem Srt.lt (h : Srt n Ap Ai) {j p q : ℤ} (j0 : 0 ≤ j) (jn : j < n) (p0 : Ap j ≤ p) (pq : p < q) (q1 : q < Ap (j + 1)) : Ai p < Ai q := by
  obtain ⟨c, hc⟩ : ∃ c : ℕ, q = p + 1 + c := ⟨(q - p - 1).toNat, by omega⟩
  induction c generalizing q with
  | zero =>
    have := h.inc j p j0 jn p0 (by push_cast at hc; omega)
    rw [hc]; simpa using this
  | succ c ih =>
    have a := ih (q := p + 1 + c) (by omega) (by push_cast at hc; omega) rfl
    have b := h.inc j (p + 1 + c) j0 jn (by omega) (by push_cast at hc; omega)
    have : p + 1 + ((c + 1 : ℕ) : ℤ) = p + 1 + c + 1 := by push_cast; ring
    rw [hc, this]; omega

/-- The pairs: an entry above the diagonal, or an entry below it that has no counterpart above. -/
def Pair (n : ℤ) (Ap Ai : Buf ℤ) (q : ℤ × ℤ) : Prop :=
  (0 ≤ q.1 ∧ q.1 < n) ∧ (0 ≤ q.2 ∧ q.2 < n) ∧ q.1 ≠ q.2 ∧ hasE Ap Ai q.1 q.2 ∧ (q.1 < q.2 ∨ ¬ hasE Ap Ai q.2 q.1)

/-- The pairs visited so far: those of `Up`, and those of column `b` below the diagonal up to `T b`. -/
def Vis (Ap Ai : Buf ℤ) (K : ℤ) (Up : ℤ → ℤ → Prop) (T : ℤ → ℤ) (l : List (ℤ × ℤ)) : Prop :=
  ∀ a b, (a, b) ∈ l ↔ (Up a b ∨ (0 ≤ b ∧ b < K ∧ b < a ∧ ¬ hasE Ap Ai b a ∧ ∃ p, Ap b ≤ p ∧ p < T b ∧ Ai p = a))

/-- The state of the scan when `K` columns are done. -/
structure Scn (n : ℤ) (Ap Ai : Buf ℤ) (K : ℤ) (Up : ℤ → ℤ → Prop) (Tp : Buf ℤ) (l : List (ℤ × ℤ)) : Prop where
  fT : Full Tp K
  size : n ≤ Tp.size
  tp : ∀ j, 0 ≤ j → j < K → Ap j ≤ Tp j ∧ Tp j ≤ Ap (j + 1) ∧ ∀ p, Tp j ≤ p → p < Ap (j + 1) → j < Ai p
  past : ∀ a b, Up a b → ∀ p, Tp a ≤ p → p < Ap (a + 1) → b < Ai p
  nodup : l.Nodup
  vis : Vis Ap Ai K Up Tp l

/-- The upper pairs when `K` columns are done, and of column `K` those before position `q`. -/
def up (Ap Ai : Buf ℤ) (K q a b : ℤ) : Prop := 0 ≤ a ∧ a < b ∧ ((b < K ∧ hasE Ap Ai a b) ∨ (b = K ∧ ∃ p, Ap K ≤ p ∧ p < q ∧ Ai p = a))

section
variable {σ : Type} {act : ℤ → ℤ → σ → Option σ} {I : List (ℤ × ℤ) → σ → Prop}
  (hact : ∀ i j l s, I l s → l.Nodup → (∀ q ∈ l, Pair n Ap Ai q) → Pair n Ap Ai (i, j) → (i, j) ∉ l → Ens (act i j s) (I (l ++ [(i, j)])))

include hact

theorem vis_pair (A : Srt n Ap Ai) {K : ℤ} {Up : ℤ → ℤ → Prop} {T : ℤ → ℤ} {l : List (ℤ × ℤ)} (kn : K ≤ n) (hup : ∀ a b, Up a b → 0 ≤ a ∧ a < b ∧ b < n ∧ hasE Ap Ai a b)
    (hT : ∀ b, 0 ≤ b → b < K → T b ≤ Ap (b + 1)) (h : Vis Ap Ai K Up T l) : ∀ q ∈ l, Pair n Ap Ai q := by
  rintro ⟨a, b⟩ hq
  rcases (h a b).mp hq with q | ⟨b0, b1, ab, na, p, p0, p1, rfl⟩
  · obtain ⟨a0, ab, bn, e⟩ := hup a b q
    exact ⟨⟨a0, by dsimp only; omega⟩, ⟨by dsimp only; omega, bn⟩, by dsimp only; omega, e, .inl ab⟩
  · have := hT b b0 b1
    have e : hasE Ap Ai (Ai p) b := ⟨p, p0, by omega, rfl⟩
    exact ⟨A.row b0 (by omega) e, ⟨b0, by dsimp only; omega⟩, by dsimp only; omega, e, .inr na⟩

/-- The lower part of column `j`. -/
theorem scanLower_ok (A : Srt n Ap Ai) {K j q : ℤ} {s : σ} {Tp : Buf ℤ} {l : List (ℤ × ℤ)} (kn : K < n) (j0 : 0 ≤ j) (jK : j < K) (q0 : Ap K ≤ q) (q1 : q < Ap (K + 1)) (hq : Ai q = j)
    (hI : I l s) (fT : Full Tp K) (size : n ≤ Tp.size)
    (tp : ∀ j, 0 ≤ j → j < K → Ap j ≤ Tp j ∧ Tp j ≤ Ap (j + 1) ∧ ∀ p, Tp j ≤ p → p < Ap (j + 1) → j < Ai p)
    (past : ∀ a b, up Ap Ai K q a b → ∀ p, Tp a ≤ p → p < Ap (a + 1) → b < Ai p) (nodup : l.Nodup) (vis : Vis Ap Ai K (up Ap Ai K (q + 1)) Tp l) :
    Ens (scanLower Ap Ai act K j (s, Tp)) (fun r => ∃ l, I l r.1 ∧ Scn n Ap Ai K (up Ap Ai K (q + 1)) r.2 l) := by
  have hjK : hasE Ap Ai j K := ⟨q, q0, q1, hq⟩
  have upE : ∀ a b, up Ap Ai K (q + 1) a b → 0 ≤ a ∧ a < b ∧ b < n ∧ hasE Ap Ai a b := by
    rintro a b ⟨a0, ab, ⟨bK, e⟩ | ⟨rfl, p, p0, p1, e⟩⟩
    · exact ⟨a0, ab, by omega, e⟩
    · exact ⟨a0, ab, kn, p, p0, by omega, e⟩
  unfold scanLower
  refine Ens.rd A.fp (by omega) (by omega) (Ens.rd fT j0 jK ?_)
  obtain ⟨t0, t1, t2⟩ := tp j j0 jK
  refine Ens.bind (P := fun r : σ × ℤ => ∃ l, I l r.1 ∧ l.Nodup ∧ Vis Ap Ai K (up Ap Ai K (q + 1)) (fun x => if x = j then r.2 else Tp x) l ∧ Tp j ≤ r.2 ∧ r.2 ≤ Ap (j + 1) ∧
      ∀ p, r.2 ≤ p → p < Ap (j + 1) → K < Ai p)
    (Ens.loop (fun r : σ × ℤ => ∃ l, I l r.1 ∧ l.Nodup ∧ Vis Ap Ai K (up Ap Ai K (q + 1)) (fun x => if x = j then r.2 else Tp x) l ∧ Tp j ≤ r.2 ∧ r.2 ≤ Ap (j + 1))
      _ (fun r => (Ap (j + 1) - r.2).toNat) ?_ _ _ ⟨l, hI, nodup, ?_, le_rfl, t1⟩ (by dsimp only; omega)) ?_
  · rintro ⟨s, p⟩ ⟨l, hI, nodup, vis, p0, p1⟩
    dsimp only at hI vis p0 p1 ⊢
    by_cases w : p < Ap (j + 1)
    · rw [if_pos w]
      have pp := A.pos j0 (by omega) (by omega : Ap j ≤ p) w
      refine Ens.rd A.fi pp.1 pp.2 ?_
      have hij := t2 p p0 w
      by_cases c : Ai p < K
      · rw [if_pos c]
        have hE : hasE Ap Ai (Ai p) j := ⟨p, by omega, w, rfl⟩
        have nE : ¬ hasE Ap Ai j (Ai p) := fun e => by
          have := past j (Ai p) ⟨j0, hij, .inl ⟨c, e⟩⟩ p p0 w
          omega
        have nl : (Ai p, j) ∉ l := fun hl => by
          rcases (vis _ _).mp hl with u | ⟨_, _, _, _, p', p'0, p'1, e⟩
          · have := u.2.1; omega
          · dsimp only at p'1
            rw [if_pos rfl] at p'1
            have := A.lt j0 (by omega) p'0 p'1 w
            omega
        have T1 : ∀ b, 0 ≤ b → b < K → (if b = j then p else Tp b) ≤ Ap (b + 1) := fun b b0 b1 => by
          split_ifs with e
          · rw [e]; exact p1
          · exact (tp b b0 b1).2.1
        refine Ens.bind (hact (Ai p) j l s hI nodup (vis_pair hact A (by omega) upE T1 vis) ⟨A.row j0 (by omega) hE, ⟨j0, by dsimp only; omega⟩, by dsimp only; omega, hE, .inr nE⟩ nl) (fun s1 hs1 => Ens.pure ?_)
        dsimp only
        refine ⟨⟨_, hs1, ?_, ?_, by omega, by omega⟩, by omega⟩
        · rw [List.nodup_append]
          refine ⟨nodup, by simp, ?_⟩
          rintro a ha b hb rfl
          rw [List.mem_singleton] at hb
          rw [hb] at ha; exact nl ha
        · intro a b
          rw [List.mem_append, List.mem_singleton, vis a b]
          constructor
          · rintro ((u | ⟨b0, b1, ab, na, p', p'0, p'1, e⟩) | e)
            · exact .inl u
            · refine .inr ⟨b0, b1, ab, na, p', p'0, ?_, e⟩
              dsimp only at p'1 ⊢
              split_ifs at p'1 ⊢ <;> omega
            · obtain ⟨rfl, rfl⟩ := Prod.mk.injEq .. ▸ e
              exact .inr ⟨j0, jK, hij, nE, p, by omega, by dsimp only; rw [if_pos rfl]; omega, rfl⟩
          · rintro (u | ⟨b0, b1, ab, na, p', p'0, p'1, e⟩)
            · exact .inl (.inl u)
            · by_cases z : b = j ∧ p' = p
              · right; rw [← e, z.1, z.2]
              · refine .inl (.inr ⟨b0, b1, ab, na, p', p'0, ?_, e⟩)
                dsimp only at p'1 ⊢
                split_ifs at p'1 ⊢ <;> omega
      · rw [if_neg c]
        by_cases d : Ai p = K
        · rw [if_pos d]
          refine Ens.pure ⟨l, hI, nodup, ?_, by dsimp only; omega, by dsimp only; omega, fun p' p'0 p'1 => ?_⟩
          · intro a b
            rw [vis a b]
            constructor
            · rintro (u | ⟨b0, b1, ab, na, p', p'0, p'1, e⟩)
              · exact .inl u
              · refine .inr ⟨b0, b1, ab, na, p', p'0, ?_, e⟩
                dsimp only at p'1 ⊢
                split_ifs at p'1 ⊢ <;> omega
            · rintro (u | ⟨b0, b1, ab, na, p', p'0, p'1, e⟩)
              · exact .inl u
              · refine .inr ⟨b0, b1, ab, na, p', p'0, ?_, e⟩
                by_cases z : b = j ∧ p' = p
                · rw [z.1, ← e, z.2, d] at na; exact absurd hjK na
                · dsimp only at p'1 ⊢
                  split_ifs at p'1 ⊢ <;> omega
          · have := A.lt j0 (by omega) (by omega : Ap j ≤ p) (by dsimp only at p'0; omega : p < p') p'1
            omega
        · rw [if_neg d]
          refine Ens.pure ⟨l, hI, nodup, vis, p0, p1, fun p' p'0 p'1 => ?_⟩
          dsimp only at p'0
          by_cases z : p' = p
          · rw [z]; omega
          · have := A.lt j0 (by omega) (by omega : Ap j ≤ p) (by omega : p < p') p'1
            omega
    · rw [if_neg w]
      exact Ens.pure ⟨l, hI, nodup, vis, p0, p1, fun p' p'0 p'1 => by dsimp only at p'0; omega⟩
  · intro a b
    rw [vis a b]
    have : (if b = j then Tp j else Tp b) = Tp b := by split_ifs with e; exacts [by rw [e], rfl]
    simp only [this]
  · rintro ⟨s', r⟩ ⟨l', hI', nodup', vis', r0, r1, r2⟩
    dsimp only at hI' vis' r0 r1 r2 ⊢
    refine Ens.wr j0 (by omega) (Ens.pure ⟨l', hI', ⟨fT.upd _ _, size, fun x x0 x1 => ?_, fun a b u p p0 p1 => ?_, nodup', ?_⟩⟩)
    · dsimp only
      rw [upd_at _ j0]
      split_ifs with e
      · rw [e]
        exact ⟨by omega, r1, fun p p0 p1 => t2 p (by omega) p1⟩
      · exact tp x x0 x1
    · dsimp only at p0
      rw [upd_at _ j0] at p0
      obtain ⟨a0, ab, u⟩ := u
      split_ifs at p0 with e
      · rw [e] at p1
        have := r2 p p0 p1
        rcases u with u | u <;> omega
      · rcases u with u | ⟨u1, p', u2, u3, u4⟩
        · exact past a b ⟨a0, ab, .inl u⟩ p p0 p1
        · refine past a b ⟨a0, ab, .inr ⟨u1, p', u2, ?_, u4⟩⟩ p p0 p1
          by_contra z
          have : p' = q := by omega
          rw [this, hq] at u4; exact e u4.symm
    · intro a b
      rw [vis' a b]
      dsimp only
      rw [upd_at _ j0]

omit hact in
theorem Scn.congr {K : ℤ} {Up Up' : ℤ → ℤ → Prop} {Tp : Buf ℤ} {l : List (ℤ × ℤ)} (h : Scn n Ap Ai K Up Tp l) (e : ∀ a b, Up' a b ↔ Up a b) : Scn n Ap Ai K Up' Tp l := by
  have : Up' = Up := by funext a b; exact propext (e a b)
  rw [this]; exact h

/-- A column. -/
theorem scanCol_ok (A : Srt n Ap Ai) {K : ℤ} {s : σ} {Tp : Buf ℤ} {l : List (ℤ × ℤ)} (k0 : 0 ≤ K) (kn : K < n) (hI : I l s) (h : Scn n Ap Ai K (up Ap Ai K (Ap K)) Tp l) :
    Ens (scanCol Ap Ai act K (s, Tp)) (fun r => ∃ l, I l r.1 ∧ Scn n Ap Ai (K + 1) (up Ap Ai (K + 1) (Ap (K + 1))) r.2 l) := by
  unfold scanCol
  refine Ens.rd A.fp k0 (by omega) (Ens.rd A.fp (by omega) (by omega) ?_)
  have hm := A.mono K k0 kn
  refine Ens.bind (P := fun r : (σ × Buf ℤ) × ℤ => ∃ l, I l r.1.1 ∧ Ap K ≤ r.2 ∧ r.2 ≤ Ap (K + 1) ∧ Scn n Ap Ai K (up Ap Ai K r.2) r.1.2 l ∧ (∀ p, Ap K ≤ p → p < r.2 → Ai p ≤ K) ∧
      ∀ p, r.2 ≤ p → p < Ap (K + 1) → K < Ai p)
    (Ens.loop (fun r : (σ × Buf ℤ) × ℤ => ∃ l, I l r.1.1 ∧ Ap K ≤ r.2 ∧ r.2 ≤ Ap (K + 1) ∧ Scn n Ap Ai K (up Ap Ai K r.2) r.1.2 l ∧ ∀ p, Ap K ≤ p → p < r.2 → Ai p < K)
      _ (fun r => (Ap (K + 1) - r.2).toNat) ?_ _ _ ⟨l, hI, le_rfl, hm, h, fun p p0 p1 => by dsimp only at p1; omega⟩ (by dsimp only; omega)) ?_
  · rintro ⟨⟨s, Tp⟩, q⟩ ⟨l, hI, q0, q1, h, lo⟩
    dsimp only at hI q0 q1 h lo ⊢
    by_cases w : q < Ap (K + 1)
    · rw [if_pos w]
      have pp := A.pos k0 kn q0 w
      refine Ens.rd A.fi pp.1 pp.2 ?_
      have rq := A.rng q pp.1 pp.2
      by_cases c : Ai q < K
      · rw [if_pos c]
        have hE : hasE Ap Ai (Ai q) K := ⟨q, q0, w, rfl⟩
        have upE : ∀ a b, up Ap Ai K q a b → 0 ≤ a ∧ a < b ∧ b < n ∧ hasE Ap Ai a b := by
          rintro a b ⟨a0, ab, ⟨bK, e⟩ | ⟨rfl, p, p0, p1, e⟩⟩
          · exact ⟨a0, ab, by omega, e⟩
          · exact ⟨a0, ab, kn, p, p0, by omega, e⟩
        have nl : (Ai q, K) ∉ l := fun hl => by
          rcases (h.vis _ _).mp hl with u | ⟨_, b1, _⟩
          · obtain ⟨_, _, u | ⟨_, p, p0, p1, e⟩⟩ := u
            · omega
            · have := A.lt k0 kn p0 p1 w; omega
          · omega
        refine Ens.bind (hact (Ai q) K l s hI h.nodup (vis_pair hact A (by omega) upE (fun b b0 b1 => (h.tp b b0 b1).2.1) h.vis) ⟨rq, ⟨k0, kn⟩, by dsimp only; omega, hE, .inl c⟩ nl) (fun s1 hs1 => ?_)
        refine Ens.bind (scanLower_ok hact A kn rq.1 c q0 w rfl hs1 h.fT h.size h.tp h.past ?_ ?_) ?_
        · rw [List.nodup_append]
          refine ⟨h.nodup, by simp, ?_⟩
          rintro a ha b hb rfl
          rw [List.mem_singleton] at hb
          rw [hb] at ha; exact nl ha
        · intro a b
          rw [List.mem_append, List.mem_singleton, h.vis a b]
          constructor
          · rintro ((⟨a0, ab, u⟩ | u) | e)
            · left
              rcases u with u | ⟨rfl, p, p0, p1, e⟩
              · exact ⟨a0, ab, .inl u⟩
              · exact ⟨a0, ab, .inr ⟨rfl, p, p0, by omega, e⟩⟩
            · exact .inr u
            · obtain ⟨rfl, rfl⟩ := Prod.mk.injEq .. ▸ e
              exact .inl ⟨rq.1, c, .inr ⟨rfl, q, q0, by omega, rfl⟩⟩
          · rintro (⟨a0, ab, u⟩ | u)
            · rcases u with u | ⟨rfl, p, p0, p1, e⟩
              · exact .inl (.inl ⟨a0, ab, .inl u⟩)
              · by_cases z : p = q
                · right; rw [← e, z]
                · exact .inl (.inl ⟨a0, ab, .inr ⟨rfl, p, p0, by omega, e⟩⟩)
            · exact .inl (.inr u)
        · rintro ⟨s2, T2⟩ ⟨l2, hI2, h2⟩
          refine Ens.pure ⟨⟨l2, hI2, by dsimp only; omega, by dsimp only; omega, h2, fun p p0 p1 => ?_⟩, by dsimp only; omega⟩
          dsimp only at p1
          by_cases z : p = q
          · rw [z]; exact c
          · exact lo p p0 (by omega)
      · rw [if_neg c]
        by_cases d : Ai q = K
        · rw [if_pos d]
          refine Ens.pure ⟨l, hI, by dsimp only; omega, by dsimp only; omega, h.congr (fun a b => ?_), fun p p0 p1 => ?_, fun p p0 p1 => ?_⟩
          · dsimp only
            constructor
            · rintro ⟨a0, ab, u | ⟨rfl, p, p0, p1, e⟩⟩
              · exact ⟨a0, ab, .inl u⟩
              · refine ⟨a0, ab, .inr ⟨rfl, p, p0, ?_, e⟩⟩
                by_contra z
                have : p = q := by omega
                rw [this] at e; omega
            · rintro ⟨a0, ab, u | ⟨rfl, p, p0, p1, e⟩⟩
              · exact ⟨a0, ab, .inl u⟩
              · exact ⟨a0, ab, .inr ⟨rfl, p, p0, by omega, e⟩⟩
          · dsimp only at p1
            by_cases z : p = q
            · rw [z]; omega
            · exact (lo p p0 (by omega)).le
          · dsimp only at p0
            have := A.lt k0 kn q0 (by omega : q < p) p1
            omega
        · rw [if_neg d]
          refine Ens.pure ⟨l, hI, q0, q1, h, fun p p0 p1 => (lo p p0 p1).le, fun p p0 p1 => ?_⟩
          dsimp only at p0
          by_cases z : p = q
          · rw [z]; omega
          · have := A.lt k0 kn q0 (by omega : q < p) p1
            omega
    · rw [if_neg w]
      exact Ens.pure ⟨l, hI, q0, q1, h, fun p p0 p1 => (lo p p0 p1).le, fun p p0 p1 => by dsimp only at p0; omega⟩
  · rintro ⟨⟨s', T'⟩, q⟩ ⟨l', hI', q0, q1, h', lo, hi⟩
    dsimp only at hI' q0 q1 h' lo hi ⊢
    refine Ens.wr k0 (by have := h'.size; omega) (Ens.pure ⟨l', hI', ?_⟩)
    have upC : ∀ a b, up Ap Ai (K + 1) (Ap (K + 1)) a b ↔ up Ap Ai K q a b := fun a b => by
      constructor
      · rintro ⟨a0, ab, ⟨u1, u2⟩ | ⟨_, p, p0, p1, _⟩⟩
        · by_cases z : b < K
          · exact ⟨a0, ab, .inl ⟨z, u2⟩⟩
          · have : b = K := by omega
            subst this
            obtain ⟨p, p0, p1, e⟩ := u2
            refine ⟨a0, ab, .inr ⟨rfl, p, p0, ?_, e⟩⟩
            by_contra z'
            have := hi p (by omega) p1
            omega
        · omega
      · rintro ⟨a0, ab, ⟨u1, u2⟩ | ⟨rfl, p, p0, p1, e⟩⟩
        · exact ⟨a0, ab, .inl ⟨by omega, u2⟩⟩
        · exact ⟨a0, ab, .inl ⟨by omega, p, p0, by omega, e⟩⟩
    refine Scn.congr ?_ upC
    refine ⟨h'.fT.grow k0 (by have := h'.size; omega) _, h'.size, fun j j0 j1 => ?_, fun a b u p p0 p1 => ?_, h'.nodup, ?_⟩
    · dsimp only
      rw [upd_at _ k0]
      split_ifs with e
      · rw [e]; exact ⟨q0, q1, hi⟩
      · exact h'.tp j j0 (by omega)
    · dsimp only at p0
      rw [upd_ne _ k0 (by obtain ⟨_, u1, u | u⟩ := u <;> omega)] at p0
      exact h'.past a b u p p0 p1
    · intro a b
      rw [h'.vis a b]
      dsimp only
      constructor
      · rintro (u | ⟨b0, b1, ab, na, p, p0, p1, e⟩)
        · exact .inl u
        · exact .inr ⟨b0, by omega, ab, na, p, p0, by rw [upd_ne _ k0 (by omega)]; exact p1, e⟩
      · rintro (u | ⟨b0, b1, ab, na, p, p0, p1, e⟩)
        · exact .inl u
        · rw [upd_at _ k0] at p1
          split_ifs at p1 with z
          · rw [z] at p0 ab
            have := lo p p0 p1; omega
          · exact .inr ⟨b0, by omega, ab, na, p, p0, p1, e⟩

/-- **The scan**: each pair is visited once. -/
theorem scanAAt_ok (A : Srt n Ap Ai) (n0 : 0 ≤ n) {s : σ} {Tp : Buf ℤ} (hT : n ≤ Tp.size) (hI : I [] s) :
    Ens (scanAAt n Ap Ai act (s, Tp)) (fun r => n ≤ r.2.size ∧ ∃ l, I l r.1 ∧ l.Nodup ∧ ∀ q, q ∈ l ↔ Pair n Ap Ai q) := by
  unfold scanAAt
  refine Ens.bind (Ens.forI (fun K (r : σ × Buf ℤ) => ∃ l, I l r.1 ∧ Scn n Ap Ai K (up Ap Ai K (Ap K)) r.2 l) n0 ⟨[], hI, ⟨Full.none _, hT, fun j j0 j1 => by omega, ?_, List.nodup_nil, ?_⟩⟩ ?_) ?_
  · rintro a b ⟨a0, ab, u | u⟩ <;> omega
  · intro a b
    simp only [List.not_mem_nil, false_iff]
    rintro (⟨a0, ab, u | ⟨rfl, p, p0, p1, _⟩⟩ | u) <;> omega
  · rintro K ⟨s, Tp⟩ k0 kn ⟨l, hI, h⟩
    exact scanCol_ok hact A k0 kn hI h
  · rintro ⟨s1, T⟩ ⟨l1, hI1, h1⟩
    dsimp only at hI1 h1
    refine Ens.imp (Ens.forI (fun j (r : σ × Buf ℤ) => r.2 = T ∧ ∃ l, I l r.1 ∧ l.Nodup ∧ Vis Ap Ai n (up Ap Ai n (Ap n)) (fun x => if x < j then Ap (x + 1) else T x) l) n0 ⟨rfl, l1, hI1, h1.nodup, ?_⟩ ?_) ?_
    · intro a b
      rw [h1.vis a b]
      constructor
      · rintro (u | ⟨b0, b1, ab, na, p, p0, p1, e⟩)
        · exact .inl u
        · exact .inr ⟨b0, b1, ab, na, p, p0, by dsimp only; rw [if_neg (by omega)]; exact p1, e⟩
      · rintro (u | ⟨b0, b1, ab, na, p, p0, p1, e⟩)
        · exact .inl u
        · dsimp only at p1
          rw [if_neg (by omega)] at p1
          exact .inr ⟨b0, b1, ab, na, p, p0, p1, e⟩
    · rintro j ⟨s, T'⟩ j0 j1 ⟨rfl, l, hI, nodup, vis⟩
      dsimp only at hI vis ⊢
      refine Ens.rd h1.fT j0 j1 (Ens.rd A.fp (by omega) (by omega) ?_)
      obtain ⟨t0, t1, t2⟩ := h1.tp j j0 j1
      dsimp only at t0 t1 t2
      refine Ens.bind (Ens.forI (fun q s => ∃ l, I l s ∧ l.Nodup ∧ Vis Ap Ai n (up Ap Ai n (Ap n)) (fun x => if x < j then Ap (x + 1) else if x = j then q else T' x) l) t1 ⟨l, hI, nodup, ?_⟩ ?_) ?_
      · intro a b
        rw [vis a b]
        have : (if b < j then Ap (b + 1) else if b = j then T' j else T' b) = if b < j then Ap (b + 1) else T' b := by
          split_ifs with e1 e2
          · rfl
          · rw [e2]
          · rfl
        simp only [this]
      · rintro q s q0 q1 ⟨l, hI, nodup, vis⟩
        have pp := A.pos j0 j1 (by omega : Ap j ≤ q) q1
        refine Ens.rd A.fi pp.1 pp.2 ?_
        have rq := A.rng q pp.1 pp.2
        have hij := t2 q q0 q1
        have hE : hasE Ap Ai (Ai q) j := ⟨q, by omega, q1, rfl⟩
        have nE : ¬ hasE Ap Ai j (Ai q) := fun e => by
          have := h1.past j (Ai q) ⟨j0, hij, .inl ⟨rq.2, e⟩⟩ q q0 q1
          omega
        have nl : (Ai q, j) ∉ l := fun hl => by
          rcases (vis _ _).mp hl with u | ⟨_, _, _, _, p', p'0, p'1, e⟩
          · have := u.2.1; omega
          · dsimp only at p'1
            rw [if_neg (by omega), if_pos rfl] at p'1
            have := A.lt j0 j1 p'0 p'1 q1
            omega
        have upE : ∀ a b, up Ap Ai n (Ap n) a b → 0 ≤ a ∧ a < b ∧ b < n ∧ hasE Ap Ai a b := by
          rintro a b ⟨a0, ab, ⟨bK, e⟩ | ⟨rfl, p, p0, p1, e⟩⟩
          · exact ⟨a0, ab, by omega, e⟩
          · omega
        have T1 : ∀ b, 0 ≤ b → b < n → (if b < j then Ap (b + 1) else if b = j then q else T' b) ≤ Ap (b + 1) := fun b b0 b1 => by
          split_ifs with e1 e2
          · exact le_rfl
          · rw [e2]; exact q1.le
          · exact (h1.tp b b0 b1).2.1
        refine Ens.imp (hact (Ai q) j l s hI nodup (vis_pair hact A le_rfl upE T1 vis) ⟨rq, ⟨j0, j1⟩, by dsimp only; omega, hE, .inr nE⟩ nl) (fun s1 hs1 => ⟨_, hs1, ?_, ?_⟩)
        · rw [List.nodup_append]
          refine ⟨nodup, by simp, ?_⟩
          rintro a ha b hb rfl
          rw [List.mem_singleton] at hb
          rw [hb] at ha; exact nl ha
        · intro a b
          rw [List.mem_append, List.mem_singleton, vis a b]
          constructor
          · rintro ((u | ⟨b0, b1, ab, na, p', p'0, p'1, e⟩) | e)
            · exact .inl u
            · refine .inr ⟨b0, b1, ab, na, p', p'0, ?_, e⟩
              dsimp only at p'1 ⊢
              split_ifs at p'1 ⊢ <;> omega
            · obtain ⟨rfl, rfl⟩ := Prod.mk.injEq .. ▸ e
              exact .inr ⟨j0, j1, hij, nE, q, by omega, by dsimp only; rw [if_neg (by omega), if_pos rfl]; omega, rfl⟩
          · rintro (u | ⟨b0, b1, ab, na, p', p'0, p'1, e⟩)
            · exact .inl (.inl u)
            · by_cases z : b = j ∧ p' = q
              · right; rw [← e, z.1, z.2]
              · refine .inl (.inr ⟨b0, b1, ab, na, p', p'0, ?_, e⟩)
                dsimp only at p'1 ⊢
                split_ifs at p'1 ⊢ <;> omega
      · rintro s2 ⟨l2, hI2, nodup2, vis2⟩
        refine Ens.pure ⟨rfl, l2, hI2, nodup2, ?_⟩
        intro a b
        rw [vis2 a b]
        have : (if b < j then Ap (b + 1) else if b = j then Ap (j + 1) else T' b) = if b < j + 1 then Ap (b + 1) else T' b := by
          split_ifs with e1 e2 e3 e4 <;> first | rfl | omega | (rw [e3]) | (rw [e2])
        simp only [this]
    · rintro ⟨s2, T2⟩ ⟨rfl, l2, hI2, nodup2, vis2⟩
      refine ⟨h1.size, l2, hI2, nodup2, ?_⟩
      rintro ⟨a, b⟩
      rw [vis2 a b]
      constructor
      · rintro (⟨a0, ab, ⟨bK, e⟩ | ⟨rfl, p, p0, p1, e⟩⟩ | ⟨b0, b1, ab, na, p, p0, p1, e⟩)
        · exact ⟨⟨a0, by dsimp only; omega⟩, ⟨by dsimp only; omega, bK⟩, by dsimp only; omega, e, .inl ab⟩
        · omega
        · dsimp only at p1
          rw [if_pos b1] at p1
          have e' : hasE Ap Ai a b := ⟨p, p0, p1, e⟩
          exact ⟨A.row b0 b1 e', ⟨b0, b1⟩, by dsimp only; omega, e', .inr na⟩
      · rintro ⟨⟨a0, a1⟩, ⟨b0, b1⟩, ab, e, u⟩
        dsimp only at a0 a1 b0 b1 ab e u
        by_cases z : a < b
        · exact .inl ⟨a0, z, .inl ⟨b1, e⟩⟩
        · obtain ⟨p, p0, p1, e⟩ := e
          exact .inr ⟨b0, b1, by omega, u.resolve_left z, p, p0, by dsimp only; rw [if_pos b1]; exact p1, e⟩

end
end Osqp.Amd
