import Verif.Csc.KktEnts

/-!
# `form_KKT` as a whole
-/

set_option linter.unusedSectionVars false
namespace Osqp.Csc
open Finset

variable {K : Type*} [Field K] [LinearOrder K] {VP VA : View K} {P A : Csc K}

/-- The array or scalar passed as `param2` holds `R`. -/
def Param2Is (param2 : Option (Buf K)) (param2_sc : K) (m : ℕ) (R : ℕ → K) : Prop :=
  match param2 with
  | none => ∀ t < m, R t = param2_sc
  | some q => Holds q m R

theorem start_strict (hP : VP.Valid) {c : ℕ} (hc : c < VP.n + VA.m) : start (entsCsc VP VA) c < start (entsCsc VP VA) (c + 1) := by
  rw [start_succ]
  have : 0 < cnt (entsCsc VP VA) c := by
    unfold entsCsc
    simp only [cnt_append]
    by_cases h1 : c < VP.n
    · by_cases h2 : Missing VP c
      · have := cnt_miss VP VP.n c
        rw [if_pos ⟨h1, h2⟩] at this; omega
      · have h3 : VP.p c ≠ VP.p (c + 1) := fun h => h2 (Or.inl h)
        have h4 := hP.mono c h1
        have h5 := cnt_blk_false hP 0 0 h1 c
        rw [if_pos (Nat.add_zero c).symm] at h5
        have h6 : cnt (pre (blk VP 0 0 false) (VP.p (c + 1))) c ≤ cnt (pre (blk VP 0 0 false) VP.nnz) c := by
          rw [cnt_pre, cnt_pre]
          exact sum_le_sum_of_subset (range_mono (hP.le (by omega) (le_refl _)))
        omega
    · have : 0 < cnt (pre (dg VP.n) VA.m : List (Ent K)) c := by
        unfold cnt
        rw [List.countP_pos_iff]
        refine ⟨⟨(c - VP.n) + VP.n, (c - VP.n) + VP.n, 0⟩, ?_, by simp; omega⟩
        unfold pre
        rw [List.mem_flatMap]
        exact ⟨c - VP.n, List.mem_range.2 (by omega), by simp [dg]⟩
      omega
  omega

theorem start_lt_of {N : ℕ} {all : List (Ent K)} (h : ∀ c < N, start all c < start all (c + 1)) {a b : ℕ} (hab : a < b) (hb : b ≤ N) : start all a < start all b :=
  lt_of_lt_of_le (h a (by omega)) (start_mono all hab)

theorem shift_sum {VP VA : View K} (hP : VP.Valid) (hA : VA.Valid) (sigma : K) (R : ℕ → K) {k : ℕ} (hk : k < (entsCsc VP VA).length) :
    (∑ i ∈ range VP.n, if dest (entsCsc VP VA) (entsCsc VP VA)[k] k + 1 = start (entsCsc VP VA) (0 + i + 1) then sigma else 0) +
      (∑ i ∈ range VA.m, if dest (entsCsc VP VA) (entsCsc VP VA)[k] k + 1 = start (entsCsc VP VA) (VP.n + i + 1) then -R i else 0) =
    if dest (entsCsc VP VA) (entsCsc VP VA)[k] k + 1 = start (entsCsc VP VA) ((entsCsc VP VA)[k].c + 1) then shiftOf VP.n sigma R (entsCsc VP VA)[k].c else 0 := by
  have hst : ∀ c < VP.n + VA.m, start (entsCsc VP VA) c < start (entsCsc VP VA) (c + 1) := fun c hc => start_strict hP hc
  have hcols := ents_inCols (VA := VA) hP hA
  set all := entsCsc VP VA
  have hck := hcols _ (List.getElem_mem hk)
  have hlo := dest_ge all all[k] k
  have hhi := dest_lt_succ hk
  have huniq : ∀ c < VP.n + VA.m, dest all all[k] k + 1 = start all (c + 1) → c = all[k].c := by
    intro c hc h
    have := hst c hc
    rcases lt_trichotomy c all[k].c with h1 | h1 | h1
    · have := start_mono all (show c + 1 ≤ all[k].c from h1); omega
    · exact h1
    · have := start_mono all (show all[k].c + 1 ≤ c from h1); omega
  have e1 : (∑ i ∈ range VP.n, if dest all all[k] k + 1 = start all (0 + i + 1) then sigma else 0) =
      ∑ c ∈ range VP.n, if dest all all[k] k + 1 = start all (c + 1) then shiftOf VP.n sigma R c else 0 := by
    refine sum_congr rfl fun c hc => ?_
    rw [Nat.zero_add, show shiftOf VP.n sigma R c = sigma from if_pos (mem_range.1 hc)]
  have e2 : (∑ i ∈ range VA.m, if dest all all[k] k + 1 = start all (VP.n + i + 1) then -R i else 0) =
      ∑ i ∈ range VA.m, if dest all all[k] k + 1 = start all (VP.n + i + 1) then shiftOf VP.n sigma R (VP.n + i) else 0 := by
    refine sum_congr rfl fun i _ => ?_
    rw [show shiftOf VP.n sigma R (VP.n + i) = -R i by unfold shiftOf; rw [if_neg (by omega), Nat.add_sub_cancel_left]]
  rw [e1, e2, ← sum_range_add (fun c => if dest all all[k] k + 1 = start all (c + 1) then shiftOf VP.n sigma R c else 0), sum_eq_single all[k].c]
  · intro c hc hne
    rw [if_neg (fun h => hne (huniq c (mem_range.1 hc) h))]
  · intro h; exact absurd (mem_range.2 hck) h

/-- The layout of the final list is the layout of the first one with the shifted values. -/
theorem laid_shift (hP : VP.Valid) (hA : VA.Valid) (hsq : VP.m = VP.n) (hn : VA.n = VP.n) (sigma : K) (R : ℕ → K) {V0 : View K}
    (h0 : Laid (VP.n + VA.m) (VP.n + VA.m) (entsCsc VP VA) V0) {X : ℕ → K}
    (hX : ∀ t < V0.nnz, X t = V0.x t + (∑ i ∈ range VP.n, if t + 1 = start (entsCsc VP VA) (0 + i + 1) then sigma else 0) +
      ∑ i ∈ range VA.m, if t + 1 = start (entsCsc VP VA) (VP.n + i + 1) then -R i else 0) :
    Laid (VP.n + VA.m) (VP.n + VA.m) (kktEnts VP VA sigma R) (V0.withX X) := by
  have hs := ents_shift hP hA hsq hn sigma R
  have hcols := ents_inCols (VA := VA) hP hA
  have hmap := hs.map_c (fun _ _ _ h => h.1)
  have key : ∀ k (hk : k < (kktEnts VP VA sigma R).length), ∃ hk' : k < (entsCsc VP VA).length,
      dest (kktEnts VP VA sigma R) (kktEnts VP VA sigma R)[k] k = dest (entsCsc VP VA) (entsCsc VP VA)[k] k := by
    intro k hk
    have hk' : k < (entsCsc VP VA).length := by rw [hs.1]; exact hk
    exact ⟨hk', (dest_congr hmap (hs.2 k hk' hk).1 k).symm⟩
  refine ⟨h0.vm, h0.vn, fun c hc => ?_, fun k hk => ?_, fun k hk => ?_⟩
  · show V0.p c = _
    rw [h0.p c hc, start_congr hmap]
  · obtain ⟨hk', e⟩ := key k hk
    rw [e]
    show V0.i _ = _
    rw [h0.i k hk', (hs.2 k hk' hk).2.1]
  · obtain ⟨hk', e⟩ := key k hk
    rw [e]
    show X _ = _
    rw [hX _ (by rw [h0.nnz hcols]; exact dest_lt hcols hk'), h0.x k hk', add_assoc, shift_sum hP hA sigma R hk', (hs.2 k hk' hk).2.2]

theorem form_aux (hP : Rep P VP) (hA : Rep A VA) (hsq : VP.m = VP.n) (hn : VA.n = VP.n) (sigma : K) {param2 : Option (Buf K)} {param2_sc : K} {R : ℕ → K}
    (hR : Param2Is param2 param2_sc VA.m R) {pm am rm : Option (Buf ℤ)} (hmP : MapFits pm VP.nnz) (hmA : MapFits am VA.nnz) (hmR : MapFits rm VA.m) :
    ∃ F V, formKKT P A 0 sigma param2 param2_sc pm am rm = some F ∧ Rep F.KKT V ∧ Laid (VP.n + VA.m) (VP.n + VA.m) (kktEnts VP VA sigma R) V ∧
      F.KKT.i.size = V.nnz ∧ F.KKT.x.size = V.nnz ∧ F.KKT.nzmax = V.nnz ∧
      MapSet pm F.PtoKKT (· < VP.nnz) (posP VP VA) ∧ MapSet am F.AtoKKT (· < VA.nnz) (posA VP VA) ∧ MapSet rm F.rhotoKKT (· < VA.m) (posR VP VA) := by
  have hcols := ents_inCols (VA := VA) hP.valid hA.valid
  have hrows := ents_rows hP.valid hA.valid hsq hn
  have hst : ∀ c < VP.n + VA.m, start (entsCsc VP VA) c < start (entsCsc VP VA) (c + 1) := fun c hc => start_strict hP.valid hc
  have hlen := ents_length VP VA
  set all := entsCsc VP VA with hall
  set N := VP.n + VA.m with hNd
  have hV0 := layout_laid N N hcols
  set V0 := layout N N hcols with hV0d
  have hnz : V0.nnz = all.length := hV0.nnz hcols
  have hN : A.m + P.n = ((N : ℕ) : ℤ) := by rw [hA.m, hP.n, hNd]; push_cast; ring
  obtain ⟨z1, z2, z3, z4⟩ := spalloc_nat (K := K) N N all.length
  set C : Csc K := spalloc (N : ℤ) (N : ℤ) (all.length : ℤ) with hC
  obtain ⟨k, ek, hkp, ⟨pp, hkf⟩, hki, hkx, m1, m2, m3⟩ := assembleCsc_holds hP hA (k := ⟨⟨C.p, C.i, C.x⟩, pm, am, rm⟩) z1 z2 z3 hmP hmA hmR
  rw [← hall] at hkp hkf hki hkx
  obtain ⟨di, dx⟩ := hkf.done hcols hrows hV0
  have hQ : ∀ c < N, 0 < start all (c + 1) ∧ start all (c + 1) ≤ V0.nnz := by
    intro c hc
    refine ⟨lt_of_le_of_lt (Nat.zero_le _) (hst c hc), ?_⟩
    rw [hnz, ← start_all hcols]; exact start_mono all hc
  obtain ⟨x1, e1, s1, hx1⟩ := shift_loop (N := N) (a := 0) (w := VP.n) (Z := V0.nnz) (Q := start all) (d := fun _ => sigma) hkp dx (by omega)
    (fun c _ h2 => hQ c (by omega)) (fun c c' _ h1 _ h2 h => by
      rcases lt_trichotomy c c' with h3 | h3 | h3
      · have := start_lt_of hst (show c + 1 < c' + 1 by omega) (by omega); omega
      · exact h3
      · have := start_lt_of hst (show c' + 1 < c + 1 by omega) (by omega); omega)
    (f := fun i x => (k.s.p.rd (i + 1)).bind fun d => (x.rd (d - 1)).bind fun v => x.wr (d - 1) (v + sigma))
    (fun i b v hi hb => by
      have h1 := hQ i (by omega)
      rw [Nat.zero_add] at hb ⊢
      rw [hkp.rd' (k := i + 1) (by push_cast; ring) (by omega)]
      simp only [Option.bind_some]
      have e : ((start all (i + 1) : ℕ) : ℤ) - 1 = ((start all (i + 1) - 1 : ℕ) : ℤ) := by omega
      rw [e, hb]; rfl)
  have hc2 : ∀ i, i < VA.m → VP.n + i < N := fun i hi => by omega
  have loop2 : ∀ f : ℤ → Buf K → Option (Buf K), (∀ (i : ℕ) (b : Buf K) (v : K), i < VA.m → b.rd ((start all (VP.n + i + 1) - 1 : ℕ) : ℤ) = some v →
      f (i : ℤ) b = b.wr ((start all (VP.n + i + 1) - 1 : ℕ) : ℤ) (v + (fun c => -R (c - VP.n)) (VP.n + i))) → _ :=
    fun f hf => shift_loop (N := N) (a := VP.n) (w := VA.m) (Z := V0.nnz) (Q := start all) (d := fun c => -R (c - VP.n)) hkp hx1 (by omega)
    (fun c h1 h2 => hQ c (by omega)) (fun c c' _ h1 _ h2 h => by
      rcases lt_trichotomy c c' with h3 | h3 | h3
      · have := start_lt_of hst (show c + 1 < c' + 1 by omega) (by omega); omega
      · exact h3
      · have := start_lt_of hst (show c' + 1 < c + 1 by omega) (by omega); omega) (f := f) hf
  obtain ⟨x2, e2, s2, hx2⟩ : ∃ x', shiftsParam2 ⟨k.s.p, k.s.i, x1⟩ param2 param2_sc (VP.n : ℤ) (VA.m : ℤ) 0 = some x' ∧ x'.size = x1.size ∧
      Holds x' V0.nnz (fun t => (V0.x t + ∑ i ∈ range VP.n, if t + 1 = start all (0 + i + 1) then sigma else 0) +
        ∑ i ∈ range VA.m, if t + 1 = start all (VP.n + i + 1) then -R (VP.n + i - VP.n) else 0) := by
    unfold shiftsParam2
    cases param2 with
    | none =>
      simp only [if_true]
      refine loop2 _ fun i b v hi hb => ?_
      have h1 := hQ (VP.n + i) (hc2 i hi)
      simp only
      rw [hkp.rd' (k := VP.n + i + 1) (by push_cast; ring) (by omega)]
      simp only [Option.bind_some]
      have e : ((start all (VP.n + i + 1) : ℕ) : ℤ) - 1 = ((start all (VP.n + i + 1) - 1 : ℕ) : ℤ) := by omega
      rw [e, hb]
      simp only [Option.bind_some]
      rw [Nat.add_sub_cancel_left, hR i hi, sub_eq_add_neg]
    | some q =>
      simp only [if_true]
      refine loop2 _ fun i b v hi hb => ?_
      have h1 := hQ (VP.n + i) (hc2 i hi)
      simp only
      rw [hkp.rd' (k := VP.n + i + 1) (by push_cast; ring) (by omega)]
      simp only [Option.bind_some]
      have e : ((start all (VP.n + i + 1) : ℕ) : ℤ) - 1 = ((start all (VP.n + i + 1) - 1 : ℕ) : ℤ) := by omega
      have hq : q.rd (i : ℤ) = some (R i) := Holds.rd (show Holds q VA.m R from hR) hi
      rw [e, hb]
      simp only [Option.bind_some]
      rw [hq]
      simp only [Option.bind_some]
      rw [Nat.add_sub_cancel_left, sub_eq_add_neg]
  set X : ℕ → K := fun t => (V0.x t + ∑ i ∈ range VP.n, if t + 1 = start all (0 + i + 1) then sigma else 0) +
        ∑ i ∈ range VA.m, if t + 1 = start all (VP.n + i + 1) then -R (VP.n + i - VP.n) else 0 with hXd
  have hL := laid_shift hP.valid hA.valid hsq hn sigma R hV0 (X := X) (fun t _ => by
    rw [hXd]; simp only [Nat.add_sub_cancel_left]; rfl)
  refine ⟨⟨{ C with p := k.s.p, i := k.s.i, x := x2 }, k.PtoKKT, k.AtoKKT, k.rhotoKKT⟩, V0.withX X, ?_, ?_, hL, ?_, ?_, ?_, m1, m2, m3⟩
  · unfold formKKT
    rw [countDiagonal_eq hP]
    simp only [Option.bind_some]
    have en : A.p.rd P.n = some ((VA.nnz : ℕ) : ℤ) := by rw [hP.n, ← hn, ← hA.n]; exact hA.rdNnz
    rw [hP.rdNnz, en]
    simp only [Option.bind_some]
    have elen : ((VP.nnz : ℕ) : ℤ) + P.n - ((VP.n : ℤ) - ((pre (miss VP) VP.n).length : ℤ)) + ((VA.nnz : ℕ) : ℤ) + A.m = ((all.length : ℕ) : ℤ) := by
      rw [hP.n, hA.m, hlen]; push_cast; ring
    rw [elen, hN, ← hC, if_true, ek]
    simp only [Option.bind_some]
    have es1 : shiftsParam1 k.s sigma P.n 0 = some x1 := by
      unfold shiftsParam1
      simp only [if_true]
      rw [hP.n]; exact e1
    rw [es1]
    simp only [Option.bind_some]
    rw [hP.n, hA.m, e2]
    rfl
  · exact ⟨by show (N : ℤ) = _; rw [View.withX]; simp [hV0.vm], by show (N : ℤ) = _; rw [View.withX]; simp [hV0.vn],
      ⟨(hV0.valid hcols hrows).zero, (hV0.valid hcols hrows).mono, (hV0.valid hcols hrows).rows⟩,
      (by show Holds k.s.p (V0.n + 1) _; rw [hV0.vn]; exact hkp.congr fun c hc => by show _ = ((V0.p c : ℕ) : ℤ); rw [hV0.p c (by omega)]), di, hx2⟩
  · show k.s.i.size = V0.nnz
    rw [hki, hnz]
  · show x2.size = V0.nnz
    rw [s2, s1, hkx, hnz]
  · show C.nzmax = (V0.nnz : ℤ)
    rw [z4, hnz]

end Osqp.Csc
