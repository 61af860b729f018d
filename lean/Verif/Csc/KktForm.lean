import Verif.Csc.KktFill
import Verif.Csc.Norms

/-!
# The assembled KKT matrix
-/

set_option linter.unusedSectionVars false
namespace Osqp.Csc
open Finset

variable {K : Type*} [Field K] [LinearOrder K] {VP VA : View K} {P A : Csc K}

/-- The entries put by `_kkt_assemble_csc`, in order. -/
def entsCsc (VP VA : View K) : List (Ent K) :=
  pre (blk VP 0 0 false) VP.nnz ++ (pre (miss VP) VP.n ++ (pre (blk VA 0 VP.n true) VA.nnz ++ pre (dg VP.n) VA.m))

/-- The entries put by `_kkt_assemble_csr`, in order. -/
def entsCsr (VP VA : View K) : List (Ent K) :=
  pre (miss VP) VP.n ++ (pre (blk VP 0 0 true) VP.nnz ++ (pre (blk VA VP.n 0 false) VA.nnz ++ pre (dg VP.n) VA.m))

theorem ents_length (VP VA : View K) : (entsCsc VP VA).length = VP.nnz + (pre (miss VP) VP.n).length + VA.nnz + VA.m := by
  unfold entsCsc
  simp only [List.length_append, blk_length, dg_length]; omega

theorem entsCsr_length (VP VA : View K) : (entsCsr VP VA).length = VP.nnz + (pre (miss VP) VP.n).length + VA.nnz + VA.m := by
  unfold entsCsr
  simp only [List.length_append, blk_length, dg_length]; omega

theorem countDiagonal_eq (h : Rep P VP) : countDiagonal P = some ((VP.n : ℤ) - ((pre (miss VP) VP.n).length : ℤ)) := by
  unfold countDiagonal
  rw [h.n]
  obtain ⟨c, e, hc⟩ := forI_zero (hi := VP.n) (s := (0 : ℤ)) (f := fun j (c : ℤ) => (P.p.rd (j + 1)).bind fun b => (P.p.rd j).bind fun a =>
    if b ≠ a then (P.i.rd (b - 1)).bind fun r => some (if r = j then c + 1 else c) else some c)
    (fun k c => c = (k : ℤ) - ((pre (miss VP) k).length : ℤ)) (by simp) (by
      intro j c hj hc
      rw [h.p.rd (k := j) (by omega), h.p.rd' (k := j + 1) (by push_cast; ring) (by omega)]
      simp only [Option.bind_some]
      have hm := h.valid.mono j hj
      rw [pre_succ, List.length_append]
      by_cases h1 : VP.p j = VP.p (j + 1)
      · rw [if_neg (by rw [h1]; simp)]
        refine ⟨_, rfl, ?_⟩
        rw [show miss VP j = [⟨j, j, 0⟩] from if_pos (Or.inl h1), hc]
        push_cast [List.length_singleton]; ring
      · rw [if_pos (by intro h2; exact h1 (by exact_mod_cast h2.symm))]
        have h2 : VP.p (j + 1) - 1 < VP.nnz := h.valid.lt_nnz hj (by omega)
        rw [h.i.rd' (k := VP.p (j + 1) - 1) (by omega) h2]
        refine ⟨_, rfl, ?_⟩
        by_cases h3 : VP.i (VP.p (j + 1) - 1) = j
        · rw [if_pos (by rw [h3]), show miss VP j = [] from if_neg (by rintro (h4 | h4); exacts [h1 h4, h4 h3]), hc]
          push_cast [List.length_nil]; ring
        · rw [if_neg (by intro h4; exact h3 (by exact_mod_cast h4)), show miss VP j = [⟨j, j, 0⟩] from if_pos (Or.inr h3), hc]
          push_cast [List.length_singleton]; ring)
  rw [e, hc]

theorem ents_inCols (hP : VP.Valid) (hA : VA.Valid) : InCols (VP.n + VA.m) (entsCsc VP VA) := by
  intro e he
  unfold entsCsc at he
  simp only [List.mem_append] at he
  rcases he with he | he | he | he
  · revert e; exact pre_all fun k hk e he => by
      rw [blk, List.mem_singleton] at he
      rw [he]; have := (hP.col_spec hk).1; simp [blkE]; omega
  · revert e; exact pre_all fun k hk e he => by
      unfold miss at he
      split_ifs at he
      · rw [List.mem_singleton] at he; rw [he]; show k < _; omega
      · simp at he
  · revert e; exact pre_all fun k hk e he => by
      rw [blk, List.mem_singleton] at he
      rw [he]; have := hA.rows k hk; simp [blkE]; omega
  · revert e; exact pre_all fun k hk e he => by
      rw [dg, List.mem_singleton] at he
      rw [he]; show k + VP.n < _; omega

theorem ents_rows (hP : VP.Valid) (hA : VA.Valid) (hsq : VP.m = VP.n) (hn : VA.n = VP.n) : ∀ e ∈ entsCsc VP VA, e.r < VP.n + VA.m := by
  intro e he
  unfold entsCsc at he
  simp only [List.mem_append] at he
  rcases he with he | he | he | he
  · revert e; exact pre_all fun k hk e he => by
      rw [blk, List.mem_singleton] at he
      rw [he]; have := hP.rows k hk; simp [blkE]; omega
  · revert e; exact pre_all fun k hk e he => by
      unfold miss at he
      split_ifs at he
      · rw [List.mem_singleton] at he; rw [he]; show k < _; omega
      · simp at he
  · revert e; exact pre_all fun k hk e he => by
      rw [blk, List.mem_singleton] at he
      rw [he]; have := (hA.col_spec hk).1; simp [blkE]; omega
  · revert e; exact pre_all fun k hk e he => by
      rw [dg, List.mem_singleton] at he
      rw [he]; show k + VP.n < _; omega

theorem InCols.mono {n m : ℕ} {es : List (Ent K)} (h : InCols n es) (hm : n ≤ m) : InCols m es := fun e he => lt_of_lt_of_le (h e he) hm

theorem Filled.mono {n m : ℕ} {all es : List (Ent K)} {s : Slots K} (h : Filled n all es s) (hm : m ≤ n) : Filled m all es s :=
  ⟨h.p.mono hm, h.isz, h.xsz, h.i, h.x⟩

/-- Where the entries of `P`, the missing diagonal zeros, the entries of `A` and the diagonal of the lower block go. -/
def posP (VP VA : View K) (k : ℕ) : ℕ := dest (entsCsc VP VA) (blkE VP 0 0 false k) k
def posA (VP VA : View K) (k : ℕ) : ℕ := dest (entsCsc VP VA) (blkE VA 0 VP.n true k) (VP.nnz + (pre (miss VP) VP.n).length + k)
def posR (VP VA : View K) (t : ℕ) : ℕ := dest (entsCsc VP VA) ⟨t + VP.n, t + VP.n, 0⟩ (VP.nnz + (pre (miss VP) VP.n).length + VA.nnz + t)
def posM (VP VA : View K) (j : ℕ) : ℕ := dest (entsCsc VP VA) ⟨j, j, 0⟩ (VP.nnz + (pre (miss VP) j).length)

theorem assembleCsc_holds (hP : Rep P VP) (hA : Rep A VA) {k : Assembled K} (hps : k.s.p.size = VP.n + VA.m + 1)
    (his : k.s.i.size = (entsCsc VP VA).length) (hxs : k.s.x.size = (entsCsc VP VA).length) (hmP : MapFits k.PtoKKT VP.nnz) (hmA : MapFits k.AtoKKT VA.nnz)
    (hmR : MapFits k.rhotoKKT VA.m) :
    ∃ k', assembleCsc k P A = some k' ∧ Holds k'.s.p (VP.n + VA.m + 1) (fun c => ((start (entsCsc VP VA) c : ℕ) : ℤ)) ∧
      (∃ p, Filled (VP.n + VA.m) (entsCsc VP VA) (entsCsc VP VA) ⟨p, k'.s.i, k'.s.x⟩) ∧ k'.s.i.size = (entsCsc VP VA).length ∧ k'.s.x.size = (entsCsc VP VA).length ∧
      MapSet k.PtoKKT k'.PtoKKT (· < VP.nnz) (posP VP VA) ∧ MapSet k.AtoKKT k'.AtoKKT (· < VA.nnz) (posA VP VA) ∧
      MapSet k.rhotoKKT k'.rhotoKKT (· < VA.m) (posR VP VA) := by
  have hcols := ents_inCols (VA := VA) hP.valid hA.valid
  set all := entsCsc VP VA with hall
  have hN : A.m + P.n = ((VP.n + VA.m : ℕ) : ℤ) := by rw [hA.m, hP.n]; push_cast; ring
  obtain ⟨p0, e0, hp0, hs0⟩ : ∃ p, intSet k.s.p 0 (A.m + P.n + 1) = some p ∧ Holds p (VP.n + VA.m + 1) (fun c => ((cnt ([] : List (Ent K)) c : ℕ) : ℤ)) ∧ p.size = k.s.p.size := by
    unfold intSet
    have := forI_zero (hi := VP.n + VA.m + 1) (f := fun i (v : Buf ℤ) => v.wr i 0) (s := k.s.p)
      (fun j b => Holds b j (fun _ => (0 : ℤ)) ∧ b.size = k.s.p.size) ⟨Holds.zero, rfl⟩
      (fun j b hj h => ⟨b.set j 0, Buf.wr_eq (by rw [h.2, hps]; exact hj), h.1.extend (by rw [h.2, hps]; omega) 0 rfl, h.2⟩)
    push_cast at this
    rw [hN]; push_cast
    exact this
  obtain ⟨p1, e1, hp1, hs1⟩ := colcountBlock_holds hP (c0 := 0) (tr := false) 0 (by simp; omega) hp0
  obtain ⟨p2, e2, hp2, hs2⟩ := colcountMissing_holds hP (by omega) hp1
  obtain ⟨p3, e3, hp3, hs3⟩ := colcountBlock_holds hA (c0 := VP.n) (tr := true) 0 (by simp; omega) hp2
  obtain ⟨p4, e4, hp4, hs4⟩ := colcountDiag_holds (n := VP.n) (m := VA.m) (by omega) hp3
  obtain ⟨p5, e5, hp5, hs5⟩ := colptr_holds hp4
  have hes : [] ++ pre (blk VP 0 0 false) VP.nnz ++ pre (miss VP) VP.n ++ pre (blk VA 0 VP.n true) VA.nnz ++ pre (dg VP.n) VA.m = all := by
    rw [hall]; unfold entsCsc; simp [List.append_assoc]
  rw [hes] at hp5
  have hcols' : InCols (VP.n + VA.m + 1) all := hcols.mono (by omega)
  have f0 : Filling (VP.n + VA.m + 1) all [] ⟨p5, k.s.i, k.s.x⟩ ⟨p5, k.s.i, k.s.x⟩ :=
    ⟨filled_start hp5 (by rw [his]) (by rw [hxs]), rfl, rfl, rfl⟩
  obtain ⟨sP, eP, fP, mP⟩ := fillBlock_holds hP (r0 := 0) (c0 := 0) (tr := false) (rest := pre (miss VP) VP.n ++ (pre (blk VA 0 VP.n true) VA.nnz ++ pre (dg VP.n) VA.m))
    (by rw [hall]; unfold entsCsc; simp) hcols' f0 hmP
  obtain ⟨sM, eM, fM⟩ := fillMissing_holds hP (rest := pre (blk VA 0 VP.n true) VA.nnz ++ pre (dg VP.n) VA.m)
    (by rw [hall]; unfold entsCsc; simp) hcols' fP
  obtain ⟨sA, eA, fA, mA⟩ := fillBlock_holds hA (r0 := 0) (c0 := VP.n) (tr := true) (rest := pre (dg VP.n) VA.m)
    (by rw [hall]; unfold entsCsc; simp [List.append_assoc]) hcols' fM hmA
  obtain ⟨sR, eR, fR, mR⟩ := fillDiag_holds (n := VP.n) (m := VA.m) (rest := []) (by rw [hall]; unfold entsCsc; simp [List.append_assoc]) hcols' fA hmR
  rw [hes] at fR
  obtain ⟨p6, e6, hp6, hs6⟩ := backshift_holds fR.f.p
  refine ⟨⟨⟨p6, sR.1.i, sR.1.x⟩, sP.2, sA.2, sR.2⟩, ?_, hp6, ⟨sR.1.p, fR.f.mono (by omega)⟩, by rw [fR.is]; exact his, by rw [fR.xs]; exact hxs, ?_, ?_, ?_⟩
  · unfold assembleCsc
    simp only [Nat.cast_zero] at e1 eP eA
    simp only [Nat.cast_add] at e5 e6 hN
    simp only [e0, Option.bind_some, e1, e2]
    rw [hN, hP.n, hA.m]
    simp only [e3, e4, e5, eP, eM, eA, eR, e6, Option.bind_some]
  · exact mP.congr (fun _ => Iff.rfl) (fun k _ => by rw [posP]; simp [hall])
  · exact mA.congr (fun _ => Iff.rfl) (fun k _ => by rw [posA, hall]; congr 1; simp [List.length_append, blk_length])
  · exact mR.congr (fun _ => Iff.rfl) (fun k _ => by rw [posR, hall]; congr 1; simp [List.length_append, blk_length]; omega)

/-! ## Diagonal shifts -/

theorem shift_loop {p : Buf ℤ} {x : Buf K} {N a w Z : ℕ} {Q : ℕ → ℕ} {X d : ℕ → K} (hp : Holds p (N + 1) (fun c => ((Q c : ℕ) : ℤ))) (hx : Holds x Z X)
    (haw : a + w ≤ N) (hQ : ∀ c, a ≤ c → c < a + w → 0 < Q (c + 1) ∧ Q (c + 1) ≤ Z)
    (hinj : ∀ c c', a ≤ c → c < a + w → a ≤ c' → c' < a + w → Q (c + 1) = Q (c' + 1) → c = c')
    {f : ℤ → Buf K → Option (Buf K)}
    (hf : ∀ (i : ℕ) (b : Buf K) (v : K), i < w → b.rd ((Q (a + i + 1) - 1 : ℕ) : ℤ) = some v → f (i : ℤ) b = b.wr ((Q (a + i + 1) - 1 : ℕ) : ℤ) (v + d (a + i))) :
    ∃ x', forI 0 (w : ℤ) f x = some x' ∧ x'.size = x.size ∧
      Holds x' Z (fun t => X t + ∑ i ∈ range w, if t + 1 = Q (a + i + 1) then d (a + i) else 0) := by
  obtain ⟨x', e, h1, h2⟩ := forI_zero (hi := w) (s := x) (f := f)
    (fun k b => b.size = x.size ∧ Holds b Z (fun t => X t + ∑ i ∈ range k, if t + 1 = Q (a + i + 1) then d (a + i) else 0))
    ⟨rfl, hx.congr (by simp)⟩ (by
      intro k b hk ⟨h1, h2⟩
      have hq := hQ (a + k) (by omega) (by omega)
      have hlt : Q (a + k + 1) - 1 < Z := by omega
      have hrd := h2.rd hlt
      rw [hf k b _ hk hrd, h2.wr hlt]
      refine ⟨_, rfl, h1, (h2.set _ _).congr fun t _ => ?_⟩
      rw [Function.update_apply, sum_range_succ]
      by_cases h3 : t = Q (a + k + 1) - 1
      · rw [if_pos h3, if_pos (by omega), ← h3, add_assoc]
      · rw [if_neg h3, if_neg (by omega), add_zero])
  exact ⟨x', e, h1, h2⟩

end Osqp.Csc
