import Verif.Csc.KktRun

/-!
# The KKT matrix in compressed rows (`format` 1)

`_kkt_assemble_csr` uses the same pieces as the compressed-column variant, in another order.  The struct it fills is read
here as a compressed-column matrix, so that its "columns" are the rows of the KKT matrix.
-/

set_option linter.unusedSectionVars false
namespace Osqp.Csc
open Finset

variable {K : Type*} [Field K] [LinearOrder K] {VP VA V W : View K} {P A : Csc K}

theorem entsCsr_inCols (hP : VP.Valid) (hA : VA.Valid) (hsq : VP.m = VP.n) (hn : VA.n = VP.n) : InCols (VP.n + VA.m) (entsCsr VP VA) := by
  intro e he
  unfold entsCsr at he
  simp only [List.mem_append] at he
  rcases he with he | he | he | he
  · revert e; exact pre_all fun k hk e he => by
      unfold miss at he
      split_ifs at he
      · rw [List.mem_singleton] at he; rw [he]; show k < _; omega
      · simp at he
  · revert e; exact pre_all fun k hk e he => by
      rw [blk, List.mem_singleton] at he
      rw [he]; have := hP.rows k hk; simp [blkE]; omega
  · revert e; exact pre_all fun k hk e he => by
      rw [blk, List.mem_singleton] at he
      rw [he]; have := (hA.col_spec hk).1; simp [blkE]; omega
  · revert e; exact pre_all fun k hk e he => by
      rw [dg, List.mem_singleton] at he
      rw [he]; show k + VP.n < _; omega

theorem entsCsr_rows (hP : VP.Valid) (hA : VA.Valid) : ∀ e ∈ entsCsr VP VA, e.r < VP.n + VA.m := by
  intro e he
  unfold entsCsr at he
  simp only [List.mem_append] at he
  rcases he with he | he | he | he
  · revert e; exact pre_all fun k hk e he => by
      unfold miss at he
      split_ifs at he
      · rw [List.mem_singleton] at he; rw [he]; show k < _; omega
      · simp at he
  · revert e; exact pre_all fun k hk e he => by
      rw [blk, List.mem_singleton] at he
      rw [he]; have := (hP.col_spec hk).1; simp [blkE]; omega
  · revert e; exact pre_all fun k hk e he => by
      rw [blk, List.mem_singleton] at he
      rw [he]; have := hA.rows k hk; simp [blkE]; omega
  · revert e; exact pre_all fun k hk e he => by
      rw [dg, List.mem_singleton] at he
      rw [he]; show k + VP.n < _; omega

/-- Where the entries of `P`, of `A` and of the diagonal of the lower block go. -/
def rowP (VP VA : View K) (k : ℕ) : ℕ := dest (entsCsr VP VA) (blkE VP 0 0 true k) (nMiss VP + k)
def rowA (VP VA : View K) (k : ℕ) : ℕ := dest (entsCsr VP VA) (blkE VA VP.n 0 false k) (nMiss VP + VP.nnz + k)
def rowR (VP VA : View K) (t : ℕ) : ℕ := dest (entsCsr VP VA) ⟨t + VP.n, t + VP.n, 0⟩ (nMiss VP + VP.nnz + VA.nnz + t)

theorem assembleCsr_holds (hP : Rep P VP) (hA : Rep A VA) (hsq : VP.m = VP.n) (hn : VA.n = VP.n) {k : Assembled K} (hps : k.s.p.size = VP.n + VA.m + 1)
    (his : k.s.i.size = (entsCsr VP VA).length) (hxs : k.s.x.size = (entsCsr VP VA).length) (hmP : MapFits k.PtoKKT VP.nnz) (hmA : MapFits k.AtoKKT VA.nnz)
    (hmR : MapFits k.rhotoKKT VA.m) :
    ∃ k', assembleCsr k P A = some k' ∧ Holds k'.s.p (VP.n + VA.m + 1) (fun c => ((start (entsCsr VP VA) c : ℕ) : ℤ)) ∧
      (∃ p, Filled (VP.n + VA.m) (entsCsr VP VA) (entsCsr VP VA) ⟨p, k'.s.i, k'.s.x⟩) ∧ k'.s.i.size = (entsCsr VP VA).length ∧ k'.s.x.size = (entsCsr VP VA).length ∧
      MapSet k.PtoKKT k'.PtoKKT (· < VP.nnz) (rowP VP VA) ∧ MapSet k.AtoKKT k'.AtoKKT (· < VA.nnz) (rowA VP VA) ∧
      MapSet k.rhotoKKT k'.rhotoKKT (· < VA.m) (rowR VP VA) := by
  have hcols := entsCsr_inCols hP.valid hA.valid hsq hn
  set all := entsCsr VP VA with hall
  have hN : A.m + P.n = ((VP.n + VA.m : ℕ) : ℤ) := by rw [hA.m, hP.n]; push_cast; ring
  obtain ⟨p0, e0, hp0, hs0⟩ : ∃ p, intSet k.s.p 0 (A.m + P.n + 1) = some p ∧ Holds p (VP.n + VA.m + 1) (fun c => ((cnt ([] : List (Ent K)) c : ℕ) : ℤ)) ∧ p.size = k.s.p.size := by
    unfold intSet
    have := forI_zero (hi := VP.n + VA.m + 1) (f := fun i (v : Buf ℤ) => v.wr i 0) (s := k.s.p)
      (fun j b => Holds b j (fun _ => (0 : ℤ)) ∧ b.size = k.s.p.size) ⟨Holds.zero, rfl⟩
      (fun j b hj h => ⟨b.set j 0, Buf.wr_eq (by rw [h.2, hps]; exact hj), h.1.extend (by rw [h.2, hps]; omega) 0 rfl, h.2⟩)
    push_cast at this
    rw [hN]; push_cast
    exact this
  obtain ⟨p1, e1, hp1, hs1⟩ := colcountMissing_holds hP (by omega) hp0
  obtain ⟨p2, e2, hp2, hs2⟩ := colcountBlock_holds hP (c0 := 0) (tr := true) 0 (by simp; omega) hp1
  obtain ⟨p3, e3, hp3, hs3⟩ := colcountBlock_holds hA (c0 := 0) (tr := false) VP.n (by simp; omega) hp2
  obtain ⟨p4, e4, hp4, hs4⟩ := colcountDiag_holds (n := VP.n) (m := VA.m) (by omega) hp3
  obtain ⟨p5, e5, hp5, hs5⟩ := colptr_holds hp4
  have hes : [] ++ pre (miss VP) VP.n ++ pre (blk VP 0 0 true) VP.nnz ++ pre (blk VA VP.n 0 false) VA.nnz ++ pre (dg VP.n) VA.m = all := by
    rw [hall]; unfold entsCsr; simp [List.append_assoc]
  rw [hes] at hp5
  have hcols' : InCols (VP.n + VA.m + 1) all := hcols.mono (by omega)
  have f0 : Filling (VP.n + VA.m + 1) all [] ⟨p5, k.s.i, k.s.x⟩ ⟨p5, k.s.i, k.s.x⟩ :=
    ⟨filled_start hp5 (by rw [his]) (by rw [hxs]), rfl, rfl, rfl⟩
  obtain ⟨sM, eM, fM⟩ := fillMissing_holds hP (rest := pre (blk VP 0 0 true) VP.nnz ++ (pre (blk VA VP.n 0 false) VA.nnz ++ pre (dg VP.n) VA.m))
    (by rw [hall]; unfold entsCsr; simp) hcols' f0
  obtain ⟨sP, eP, fP, mP⟩ := fillBlock_holds hP (r0 := 0) (c0 := 0) (tr := true) (rest := pre (blk VA VP.n 0 false) VA.nnz ++ pre (dg VP.n) VA.m)
    (by rw [hall]; unfold entsCsr; simp) hcols' fM hmP
  obtain ⟨sA, eA, fA, mA⟩ := fillBlock_holds hA (r0 := VP.n) (c0 := 0) (tr := false) (rest := pre (dg VP.n) VA.m)
    (by rw [hall]; unfold entsCsr; simp [List.append_assoc]) hcols' fP hmA
  obtain ⟨sR, eR, fR, mR⟩ := fillDiag_holds (n := VP.n) (m := VA.m) (rest := []) (by rw [hall]; unfold entsCsr; simp [List.append_assoc]) hcols' fA hmR
  rw [hes] at fR
  obtain ⟨p6, e6, hp6, hs6⟩ := backshift_holds fR.f.p
  refine ⟨⟨⟨p6, sR.1.i, sR.1.x⟩, sP.2, sA.2, sR.2⟩, ?_, hp6, ⟨sR.1.p, fR.f.mono (by omega)⟩, by rw [fR.is]; exact his, by rw [fR.xs]; exact hxs, ?_, ?_, ?_⟩
  · unfold assembleCsr
    simp only [Nat.cast_zero] at e2 e3 eP eA
    simp only [Nat.cast_add] at e5 e6 hN
    simp only [e0, Option.bind_some, e1, e2]
    rw [hN, hP.n, hA.m]
    simp only [e3, e4, e5, eP, eM, eA, eR, e6, Option.bind_some]
  · exact mP.congr (fun _ => Iff.rfl) (fun k _ => by rw [rowP, hall]; congr 1)
  · exact mA.congr (fun _ => Iff.rfl) (fun k _ => by rw [rowA, hall]; congr 1; simp [List.length_append, blk_length, nMiss])
  · exact mR.congr (fun _ => Iff.rfl) (fun k _ => by rw [rowR, hall]; congr 1; simp [List.length_append, blk_length, nMiss]; omega)

/-! ## Diagonal shifts -/

theorem shift_loop_first {x : Buf K} {a w Z : ℕ} {Q : ℕ → ℕ} {X d : ℕ → K} (hx : Holds x Z X) (hQ : ∀ c, a ≤ c → c < a + w → Q c < Z)
    {f : ℤ → Buf K → Option (Buf K)}
    (hf : ∀ (i : ℕ) (b : Buf K) (v : K), i < w → b.rd ((Q (a + i) : ℕ) : ℤ) = some v → f (i : ℤ) b = b.wr ((Q (a + i) : ℕ) : ℤ) (v + d (a + i))) :
    ∃ x', forI 0 (w : ℤ) f x = some x' ∧ x'.size = x.size ∧
      Holds x' Z (fun t => X t + ∑ i ∈ range w, if t = Q (a + i) then d (a + i) else 0) := by
  obtain ⟨x', e, h1, h2⟩ := forI_zero (hi := w) (s := x) (f := f)
    (fun k b => b.size = x.size ∧ Holds b Z (fun t => X t + ∑ i ∈ range k, if t = Q (a + i) then d (a + i) else 0))
    ⟨rfl, hx.congr (by simp)⟩ (by
      intro k b hk ⟨h1, h2⟩
      have hlt := hQ (a + k) (by omega) (by omega)
      have hrd := h2.rd hlt
      rw [hf k b _ hk hrd, h2.wr hlt]
      refine ⟨_, rfl, h1, (h2.set _ _).congr fun t _ => ?_⟩
      rw [Function.update_apply, sum_range_succ]
      by_cases h3 : t = Q (a + k)
      · rw [if_pos h3, if_pos h3, ← h3, add_assoc]
      · rw [if_neg h3, if_neg h3, add_zero])
  exact ⟨x', e, h1, h2⟩

/-- What is added to the cell at place `t`: `sigma` or minus the step size if a row of the matrix begins there. -/
def firstShift (VP VA : View K) (sigma : K) (R : ℕ → K) (t : ℕ) : K :=
  ∑ c ∈ range (VP.n + VA.m), if t = start (entsCsr VP VA) c then shiftOf VP.n sigma R c else 0

/-- Every row has an entry. -/
theorem startCsr_strict (hP : VP.Valid) {c : ℕ} (hc : c < VP.n + VA.m) : start (entsCsr VP VA) c < start (entsCsr VP VA) (c + 1) := by
  rw [start_succ]
  have : 0 < cnt (entsCsr VP VA) c := by
    unfold entsCsr
    simp only [cnt_append]
    by_cases h1 : c < VP.n
    · by_cases h2 : Missing VP c
      · have := cnt_miss VP VP.n c
        rw [if_pos ⟨h1, h2⟩] at this; omega
      · have h3 : VP.p c ≠ VP.p (c + 1) := fun h => h2 (Or.inl h)
        have h4 := hP.mono c h1
        have h5 : VP.i (VP.p (c + 1) - 1) = c := by by_contra h6; exact h2 (Or.inr h6)
        have h6 : VP.p (c + 1) - 1 < VP.nnz := hP.lt_nnz h1 (by omega)
        have : 0 < cnt (pre (blk VP 0 0 true) VP.nnz) c := by
          unfold cnt
          rw [List.countP_pos_iff]
          refine ⟨blkE VP 0 0 true (VP.p (c + 1) - 1), ?_, by simp [blkE, h5]⟩
          unfold pre
          rw [List.mem_flatMap]
          exact ⟨_, List.mem_range.2 h6, by simp [blk]⟩
        omega
    · have : 0 < cnt (pre (dg VP.n) VA.m : List (Ent K)) c := by
        unfold cnt
        rw [List.countP_pos_iff]
        refine ⟨⟨(c - VP.n) + VP.n, (c - VP.n) + VP.n, 0⟩, ?_, by simp; omega⟩
        unfold pre
        rw [List.mem_flatMap]
        exact ⟨c - VP.n, List.mem_range.2 (by omega), by simp [dg]⟩
      omega
  omega

theorem form_csr (hP : Rep P VP) (hA : Rep A VA) (hsq : VP.m = VP.n) (hn : VA.n = VP.n) (sigma : K) {param2 : Option (Buf K)} {param2_sc : K} {R : ℕ → K}
    (hR : Param2Is param2 param2_sc VA.m R) {pm am rm : Option (Buf ℤ)} (hmP : MapFits pm VP.nnz) (hmA : MapFits am VA.nnz) (hmR : MapFits rm VA.m) {V0 : View K}
    (hV0 : Laid (VP.n + VA.m) (VP.n + VA.m) (entsCsr VP VA) V0) :
    ∃ F, formKKT P A 1 sigma param2 param2_sc pm am rm = some F ∧ Rep F.KKT (V0.withX fun t => V0.x t + firstShift VP VA sigma R t) ∧
      F.KKT.i.size = V0.nnz ∧ F.KKT.x.size = V0.nnz ∧ F.KKT.nzmax = V0.nnz ∧
      MapSet pm F.PtoKKT (· < VP.nnz) (rowP VP VA) ∧ MapSet am F.AtoKKT (· < VA.nnz) (rowA VP VA) ∧ MapSet rm F.rhotoKKT (· < VA.m) (rowR VP VA) := by
  have hcols := entsCsr_inCols hP.valid hA.valid hsq hn
  have hrows := entsCsr_rows hP.valid hA.valid
  have hst : ∀ c < VP.n + VA.m, start (entsCsr VP VA) c < start (entsCsr VP VA) (c + 1) := fun c hc => startCsr_strict hP.valid hc
  have hlen := entsCsr_length VP VA
  unfold firstShift
  set all := entsCsr VP VA with hall
  set N := VP.n + VA.m with hNd
  have hnz : V0.nnz = all.length := hV0.nnz hcols
  have hN : A.m + P.n = ((N : ℕ) : ℤ) := by rw [hA.m, hP.n, hNd]; push_cast; ring
  obtain ⟨z1, z2, z3, z4⟩ := spalloc_nat (K := K) N N all.length
  set C : Csc K := spalloc (N : ℤ) (N : ℤ) (all.length : ℤ) with hC
  obtain ⟨k, ek, hkp, ⟨pp, hkf⟩, hki, hkx, m1, m2, m3⟩ := assembleCsr_holds hP hA hsq hn (k := ⟨⟨C.p, C.i, C.x⟩, pm, am, rm⟩) z1 z2 z3 hmP hmA hmR
  rw [← hall] at hkp hkf hki hkx
  obtain ⟨di, dx⟩ := hkf.done hcols hrows hV0
  have hQ : ∀ c < N, start all c < V0.nnz := by
    intro c hc
    rw [hnz, ← start_all hcols]; exact lt_of_lt_of_le (hst c hc) (start_mono all hc)
  obtain ⟨x1, e1, s1, hx1⟩ := shift_loop_first (a := 0) (w := VP.n) (Z := V0.nnz) (Q := start all) (d := fun _ => sigma) dx
    (fun c _ h2 => hQ c (by omega))
    (f := fun i x => (k.s.p.rd (i + 0)).bind fun d => (x.rd (d - 0)).bind fun v => x.wr (d - 0) (v + sigma))
    (fun i b v hi hb => by
      rw [Nat.zero_add] at hb ⊢
      rw [add_zero, hkp.rd (k := i) (by omega)]
      simp only [Option.bind_some, sub_zero]
      rw [hb]; rfl)
  have hc2 : ∀ i, i < VA.m → VP.n + i < N := fun i hi => by omega
  have loop2 : ∀ f : ℤ → Buf K → Option (Buf K), (∀ (i : ℕ) (b : Buf K) (v : K), i < VA.m → b.rd ((start all (VP.n + i) : ℕ) : ℤ) = some v →
      f (i : ℤ) b = b.wr ((start all (VP.n + i) : ℕ) : ℤ) (v + (fun c => -R (c - VP.n)) (VP.n + i))) → _ :=
    fun f hf => shift_loop_first (a := VP.n) (w := VA.m) (Z := V0.nnz) (Q := start all) (d := fun c => -R (c - VP.n)) hx1
    (fun c h1 h2 => hQ c (by omega)) (f := f) hf
  obtain ⟨x2, e2, s2, hx2⟩ : ∃ x', shiftsParam2 ⟨k.s.p, k.s.i, x1⟩ param2 param2_sc (VP.n : ℤ) (VA.m : ℤ) 1 = some x' ∧ x'.size = x1.size ∧
      Holds x' V0.nnz (fun t => (V0.x t + ∑ i ∈ range VP.n, if t = start all (0 + i) then sigma else 0) +
        ∑ i ∈ range VA.m, if t = start all (VP.n + i) then -R (VP.n + i - VP.n) else 0) := by
    unfold shiftsParam2
    cases param2 with
    | none =>
      simp only [one_ne_zero, if_false]
      refine loop2 _ fun i b v hi hb => ?_
      have h1 := hc2 i hi
      simp only
      rw [hkp.rd' (k := VP.n + i) (by push_cast; ring) (by omega)]
      simp only [Option.bind_some, sub_zero]
      rw [hb]
      simp only [Option.bind_some]
      rw [Nat.add_sub_cancel_left, hR i hi, sub_eq_add_neg]
    | some q =>
      simp only [one_ne_zero, if_false]
      refine loop2 _ fun i b v hi hb => ?_
      have h1 := hc2 i hi
      simp only
      rw [hkp.rd' (k := VP.n + i) (by push_cast; ring) (by omega)]
      simp only [Option.bind_some, sub_zero]
      have hq : q.rd (i : ℤ) = some (R i) := Holds.rd (show Holds q VA.m R from hR) hi
      rw [hb]
      simp only [Option.bind_some]
      rw [hq]
      simp only [Option.bind_some]
      rw [Nat.add_sub_cancel_left, sub_eq_add_neg]
  have hX : ∀ t, (V0.x t + ∑ i ∈ range VP.n, if t = start all (0 + i) then sigma else 0) +
        (∑ i ∈ range VA.m, if t = start all (VP.n + i) then -R (VP.n + i - VP.n) else 0) =
      V0.x t + ∑ c ∈ range N, if t = start all c then shiftOf VP.n sigma R c else 0 := by
    intro t
    rw [add_assoc]
    congr 1
    rw [hNd, sum_range_add (fun c => if t = start all c then shiftOf VP.n sigma R c else 0)]
    congr 1
    · refine sum_congr rfl fun c hc => ?_
      rw [Nat.zero_add, show shiftOf VP.n sigma R c = sigma from if_pos (mem_range.1 hc)]
    · refine sum_congr rfl fun i _ => ?_
      rw [show shiftOf VP.n sigma R (VP.n + i) = -R (VP.n + i - VP.n) by unfold shiftOf; rw [if_neg (by omega)]]
  refine ⟨⟨{ C with p := k.s.p, i := k.s.i, x := x2 }, k.PtoKKT, k.AtoKKT, k.rhotoKKT⟩, ?_, ?_, ?_, ?_, ?_, m1, m2, m3⟩
  · unfold formKKT
    rw [countDiagonal_eq hP]
    simp only [Option.bind_some]
    have en : A.p.rd P.n = some ((VA.nnz : ℕ) : ℤ) := by rw [hP.n, ← hn, ← hA.n]; exact hA.rdNnz
    rw [hP.rdNnz, en]
    simp only [Option.bind_some]
    have elen : ((VP.nnz : ℕ) : ℤ) + P.n - ((VP.n : ℤ) - ((pre (miss VP) VP.n).length : ℤ)) + ((VA.nnz : ℕ) : ℤ) + A.m = ((all.length : ℕ) : ℤ) := by
      rw [hP.n, hA.m, hlen]; push_cast; ring
    rw [elen, hN, ← hC, if_neg (by decide), ek]
    simp only [Option.bind_some]
    have es1 : shiftsParam1 k.s sigma P.n 1 = some x1 := by
      unfold shiftsParam1
      simp only [one_ne_zero, if_false]
      rw [hP.n]; exact e1
    rw [es1]
    simp only [Option.bind_some]
    rw [hP.n, hA.m, e2]
    rfl
  · exact ⟨by show (N : ℤ) = _; rw [View.withX]; simp [hV0.vm], by show (N : ℤ) = _; rw [View.withX]; simp [hV0.vn],
      ⟨(hV0.valid hcols hrows).zero, (hV0.valid hcols hrows).mono, (hV0.valid hcols hrows).rows⟩,
      (by show Holds k.s.p (V0.n + 1) _; rw [hV0.vn]; exact hkp.congr fun c hc => by show _ = ((V0.p c : ℕ) : ℤ); rw [hV0.p c (by omega)]), di,
      hx2.congr fun t _ => (hX t)⟩
  · show k.s.i.size = V0.nnz
    rw [hki, hnz]
  · show x2.size = V0.nnz
    rw [s2, s1, hkx, hnz]
  · show C.nzmax = (V0.nnz : ℤ)
    rw [z4, hnz]

end Osqp.Csc
