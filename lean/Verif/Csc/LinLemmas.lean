import Verif.Csc.LinStep
import Verif.Csc.KktMain
import Verif.Csc.KktSpec
import Verif.Csc.Rows

set_option linter.unusedSectionVars false
namespace Osqp.Csc
open Finset

variable {K : Type*} [Field K] [LinearOrder K] {VP VA : View K} {P A : Csc K}

/-- Loops that fill an array from the start. -/
theorem fill_holds {b : Buf K} {n : ℕ} (hs : n ≤ b.size) (g : ℕ → K) {f : ℤ → Buf K → Option (Buf K)}
    (hf : ∀ (k : ℕ) (b : Buf K), k < n → f (k : ℤ) b = b.wr (k : ℤ) (g k)) :
    ∃ b', forI 0 (n : ℤ) f b = some b' ∧ b'.size = b.size ∧ Holds b' n g := by
  obtain ⟨b', e, h1, h2⟩ := forI_zero (hi := n) (f := f) (s := b) (fun k c => c.size = b.size ∧ Holds c k g) ⟨rfl, Holds.zero⟩ (by
    rintro k c hk ⟨h1, h2⟩
    rw [hf k c hk, Buf.wr_eq (by omega)]
    exact ⟨_, rfl, h1, h2.extend (by omega) _ rfl⟩)
  exact ⟨b', e, h1, h2⟩

theorem ewProdIn_holds {c b : Buf K} {n : ℕ} {C B : ℕ → K} (hc : Holds c n C) (hb : Holds b n B) : ∃ c', ewProdIn c b (n : ℤ) = some c' ∧ Holds c' n (fun k => C k * B k) :=
  map_holds hc (fun k v => v * B k) (fun k c v _ e hk => by rw [e, hb.rd hk]; rfl)

theorem plusIn_holds {c b : Buf K} {n : ℕ} {C B : ℕ → K} (hc : Holds c n C) (hb : Holds b n B) : ∃ c', plusIn c b (n : ℤ) = some c' ∧ Holds c' n (fun k => C k + B k) :=
  map_holds hc (fun k v => v + B k) (fun k c v _ e hk => by rw [e, hb.rd hk]; rfl)

theorem ewProd_holds {c a b : Buf K} {n : ℕ} {X B : ℕ → K} (hs : n ≤ c.size) (ha : Holds a n X) (hb : Holds b n B) :
    ∃ c', ewProd c a b (n : ℤ) = some c' ∧ Holds c' n (fun k => X k * B k) := by
  obtain ⟨c', e, _, h⟩ := fill_holds hs (fun k => X k * B k) (f := fun i c => (a.rd i).bind fun v => (b.rd i).bind fun w => c.wr i (v * w))
    (fun k c hk => by rw [ha.rd hk, hb.rd hk]; rfl)
  exact ⟨c', e, h⟩

theorem ewRecip_holds {c a : Buf K} {n : ℕ} {X : ℕ → K} (hs : n ≤ c.size) (ha : Holds a n X) : ∃ c', ewRecip c a (n : ℤ) = some c' ∧ Holds c' n (fun k => 1 / X k) := by
  obtain ⟨c', e, _, h⟩ := fill_holds hs (fun k => 1 / X k) (f := fun i c => (a.rd i).bind fun v => c.wr i (1 / v)) (fun k c hk => by rw [ha.rd hk]; rfl)
  exact ⟨c', e, h⟩

theorem copyVec_holds {c a : Buf K} {n : ℕ} {X : ℕ → K} (hs : n ≤ c.size) (ha : Holds a n X) : ∃ c', copyVec c a (n : ℤ) = some c' ∧ Holds c' n X := by
  obtain ⟨c', e, _, h⟩ := fill_holds hs X (f := fun i c => (a.rd i).bind fun v => c.wr i v) (fun k c hk => by rw [ha.rd hk]; rfl)
  exact ⟨c', e, h⟩

/-! ## The KKT equations row by row -/

theorem kkt_sum_top {R : ℕ → K} {sigma : K} {X W : ℕ → K} {r : ℕ} (hr : r < VP.n) :
    ∑ c ∈ range (VP.n + VA.m), kktFull VP VA sigma R r c * cat VP.n X W c =
      (∑ c ∈ range VP.n, (VP.symEntry r c + if r = c then sigma else 0) * X c) + ∑ k ∈ range VA.m, VA.entry k r * W k := by
  rw [sum_range_add]
  congr 1
  · refine sum_congr rfl fun c hc => ?_
    rw [mem_range] at hc
    unfold kktFull cat
    rw [if_pos hr, if_pos hc, if_pos hc]
  · refine sum_congr rfl fun c _ => ?_
    have hc : ¬ VP.n + c < VP.n := by omega
    unfold kktFull cat
    rw [if_pos hr, if_neg hc, if_neg hc, Nat.add_sub_cancel_left]

theorem kkt_sum_bot {R : ℕ → K} {sigma : K} {X W : ℕ → K} {k : ℕ} (hk : k < VA.m) :
    ∑ c ∈ range (VP.n + VA.m), kktFull VP VA sigma R (VP.n + k) c * cat VP.n X W c = (∑ c ∈ range VP.n, VA.entry k c * X c) - R k * W k := by
  have hr : ¬ VP.n + k < VP.n := by omega
  rw [sum_range_add, sub_eq_add_neg]
  congr 1
  · refine sum_congr rfl fun c hc => ?_
    rw [mem_range] at hc
    unfold kktFull cat
    rw [if_neg hr, if_pos hc, if_pos hc, Nat.add_sub_cancel_left]
  · rw [sum_eq_single k]
    · unfold kktFull cat
      rw [if_neg hr, if_neg hr, if_pos rfl, if_neg hr, Nat.add_sub_cancel_left]; ring
    · intro j _ hj
      have hc : ¬ VP.n + j < VP.n := by omega
      have hne : ¬ VP.n + k = VP.n + j := by omega
      unfold kktFull
      rw [if_neg hr, if_neg hc, if_neg hne, zero_mul]
    · intro h; exact absurd (mem_range.2 hk) h

theorem kkt_rows {R : ℕ → K} {sigma : K} {X W B1 B2 : ℕ → K} :
    (∀ r < VP.n + VA.m, ∑ c ∈ range (VP.n + VA.m), kktFull VP VA sigma R r c * cat VP.n X W c = cat VP.n B1 B2 r) ↔
      (∀ r < VP.n, (∑ c ∈ range VP.n, (VP.symEntry r c + if r = c then sigma else 0) * X c) + ∑ k ∈ range VA.m, VA.entry k r * W k = B1 r) ∧
      ∀ k < VA.m, (∑ c ∈ range VP.n, VA.entry k c * X c) - R k * W k = B2 k := by
  constructor
  · intro h
    refine ⟨fun r hr => ?_, fun k hk => ?_⟩
    · have := h r (by omega)
      rw [kkt_sum_top hr] at this
      rw [this]; unfold cat; rw [if_pos hr]
    · have := h (VP.n + k) (by omega)
      rw [kkt_sum_bot hk] at this
      rw [this]; unfold cat; rw [if_neg (by omega), Nat.add_sub_cancel_left]
  · rintro ⟨h1, h2⟩ r hr
    by_cases hlt : r < VP.n
    · rw [kkt_sum_top hlt, h1 r hlt]; unfold cat; rw [if_pos hlt]
    · obtain ⟨k, rfl⟩ := Nat.exists_eq_add_of_le (not_lt.1 hlt)
      rw [kkt_sum_bot (by omega), h2 k (by omega)]; unfold cat; rw [if_neg hlt, Nat.add_sub_cancel_left]

theorem red_sum {sigma : K} {rho X : ℕ → K} {r : ℕ} :
    ∑ c ∈ range VP.n, redEntry VP VA sigma rho r c * X c =
      (∑ c ∈ range VP.n, (VP.symEntry r c + if r = c then sigma else 0) * X c) + ∑ k ∈ range VA.m, VA.entry k r * (rho k * ∑ c ∈ range VP.n, VA.entry k c * X c) := by
  unfold redEntry
  simp only [add_mul _ (∑ k ∈ range VA.m, _), sum_add_distrib]
  congr 1
  simp only [sum_mul, mul_sum]
  rw [sum_comm]
  exact sum_congr rfl fun k _ => sum_congr rfl fun c _ => by ring

theorem sigma_sum {sigma : K} {X : ℕ → K} {r : ℕ} (hr : r < VP.n) :
    ∑ c ∈ range VP.n, (VP.symEntry r c + if r = c then sigma else 0) * X c = (∑ c ∈ range VP.n, VP.symEntry r c * X c) + sigma * X r := by
  simp only [add_mul, sum_add_distrib]
  congr 1
  rw [sum_eq_single r]
  · rw [if_pos rfl]
  · intro c _ hc; rw [if_neg (Ne.symm hc), zero_mul]
  · intro h; exact absurd (mem_range.2 hr) h

/-! ## Permuted solves -/

/-- `qsolve` solves the system with matrix `M` (`N × N`) exactly. -/
def SolvesExactly (qsolve : Buf K → Option (Buf K)) (N : ℕ) (M : ℕ → ℕ → K) : Prop :=
  ∀ (b : Buf K) (B : ℕ → K), Holds b N B → ∃ b' S, qsolve b = some b' ∧ Holds b' N S ∧ ∀ i < N, ∑ j ∈ range N, M i j * S j = B i

theorem ldlSolve_holds {qsolve : Buf K → Option (Buf K)} {N : ℕ} {E : ℕ → ℕ → K} {perm : Buf ℤ} {p : ℕ → ℕ} (hp : Holds perm N fun k => ((p k : ℕ) : ℤ))
    (hlt : ∀ k < N, p k < N) (hinj : ∀ a < N, ∀ b < N, p a = p b → a = b) (hq : SolvesExactly qsolve N fun i j => E (p i) (p j))
    {x b bp : Buf K} {B : ℕ → K} (hb : Holds b N B) (hx : N ≤ x.size) (hs : N ≤ bp.size) :
    ∃ x' bp' S, ldlSolve qsolve (N : ℤ) x b perm bp = some (x', bp') ∧ Holds x' N S ∧ ∀ r < N, ∑ c ∈ range N, E r c * S c = B r := by
  obtain ⟨_, π, _, _, q1, q2, q3⟩ := pinv_aux hp hlt hinj
  obtain ⟨b1, e1, _, h1⟩ := fill_holds hs (fun j => B (p j)) (f := fun j bp => (perm.rd j).bind fun k => (b.rd k).bind fun v => bp.wr j v)
    (fun k c hk => by rw [hp.rd hk]; simp only [Option.bind_some]; rw [hb.rd (hlt k hk)]; rfl)
  obtain ⟨b2, T, e2, h2, h3⟩ := hq b1 _ h1
  obtain ⟨x', e3, h4, h5⟩ := forI_zero (hi := N) (s := x) (f := fun j x => (perm.rd j).bind fun k => (b2.rd j).bind fun v => x.wr k v)
    (fun j c => c.size = x.size ∧ ∀ i < j, c.cell (p i) = some (T i)) ⟨rfl, fun i hi => absurd hi (Nat.not_lt_zero i)⟩ (by
      rintro j c hj ⟨g1, g2⟩
      rw [hp.rd hj, h2.rd hj]
      simp only [Option.bind_some]
      rw [Buf.wr_eq (by have := hlt j hj; omega)]
      refine ⟨_, rfl, g1, fun i hi => ?_⟩
      rw [Buf.set_cell]
      by_cases hij : i = j
      · subst hij; rw [if_pos rfl]
      · rw [if_neg (fun h => hij (hinj i (by omega) j hj h))]
        exact g2 i (by omega))
  refine ⟨x', b2, fun k => T (π k), ?_, ⟨by omega, fun k hk => ?_⟩, fun r hr => ?_⟩
  · unfold ldlSolve
    rw [e1]; simp only [Option.bind_some]
    rw [e2]; simp only [Option.bind_some]
    rw [e3]; rfl
  · have := h5 (π k) (q1 k hk)
    rw [q3 k hk] at this; exact this
  · have := h3 (π r) (q1 r hr)
    rw [q3 r hr] at this
    rw [← this]
    refine sum_nbij' π p ?_ ?_ ?_ ?_ ?_
    · intro c hc; rw [mem_range] at hc ⊢; exact q1 c hc
    · intro c hc; rw [mem_range] at hc ⊢; exact hlt c hc
    · intro c hc; rw [mem_range] at hc; exact q3 c hc
    · intro c hc; rw [mem_range] at hc; exact q2 c hc
    · intro c hc; rw [mem_range] at hc; show E r c * T (π c) = E (p (π r)) (p (π c)) * T (π c); rw [q3 c hc, q3 r hr]

end Osqp.Csc
