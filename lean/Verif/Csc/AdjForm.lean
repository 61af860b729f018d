import Verif.Csc.AdjFill

/-!
# The matrix of the adjoint system, before and after the perturbation of its diagonal
-/

set_option linter.unusedSectionVars false
namespace Osqp.Csc
open Finset

variable {K : Type*} [Field K] [LinearOrder K]
variable {n x y : ℕ} {VP VG VE VL : View K} {S : ℕ → K}

theorem start_of_cnt {l l' : List (Ent K)} (h : ∀ c, cnt l c = cnt l' c) (c : ℕ) : start l c = start l' c := sum_congr rfl fun j _ => h j

theorem blocks_of {Q : AdjSys K} (hP : Rep Q.Pfull VP) (hG : Rep Q.G VG) (hE : Rep Q.Aeq VE) (hL : Rep Q.GL VL) (h1 : VP.m = n) (h2 : VP.n = n) (h3 : VG.m = x) (h4 : VG.n = n)
    (h5 : VE.m = y) (h6 : VE.n = n) (h7 : VL.m = x) (h8 : VL.n = n) : Blocks n x y VP VG VE VL :=
  ⟨hP.valid, hG.valid, hE.valid, hL.valid, h1, h2, h3, h4, h5, h6, h7, h8⟩

theorem adjAssemble_holds {Q : AdjSys K} (hP : Rep Q.Pfull VP) (hG : Rep Q.G VG) (hE : Rep Q.Aeq VE) (hL : Rep Q.GL VL) (hS : Holds Q.slacks x S)
    (hb : Blocks n x y VP VG VE VL) {D : Slots K} (hps : D.p.size = 2 * (n + x + y) + 1)
    (his : (adjEnts n x y VP VG VE VL S 1 0).length ≤ D.i.size) (hxs : (adjEnts n x y VP VG VE VL S 1 0).length ≤ D.x.size) :
    ∃ s, adjAssemble D Q = some s ∧ Holds s.p (2 * (n + x + y) + 1) (fun c => ((start (adjEnts n x y VP VG VE VL S 1 0) c : ℕ) : ℤ)) ∧
      (∃ p, Filled (2 * (n + x + y)) (adjEnts n x y VP VG VE VL S 1 0) (adjEnts n x y VP VG VE VL S 1 0) ⟨p, s.i, s.x⟩) ∧ s.i.size = D.i.size ∧ s.x.size = D.x.size := by
  have b1 := hb.Pm; have b2 := hb.Pn; have b3 := hb.Gm; have b4 := hb.Gn; have b5 := hb.Em; have b6 := hb.En; have b7 := hb.Lm; have b8 := hb.Ln
  have hcols := adjEnts_inCols (S := S) hb 1 0
  set all := adjEnts n x y VP VG VE VL S 1 0 with hall
  set N := n + x + y with hN
  have q1 : Q.Pfull.m = (n : ℤ) := by rw [hP.m, b1]
  have q2 : Q.G.m = (x : ℤ) := by rw [hG.m, b3]
  have q3 : Q.Aeq.m = (y : ℤ) := by rw [hE.m, b5]
  obtain ⟨p0, e0, hp0, hs0⟩ : ∃ p, intSet D.p 0 (2 * (N : ℤ) + 1) = some p ∧ Holds p (2 * N + 1) (fun c => ((cnt ([] : List (Ent K)) c : ℕ) : ℤ)) ∧ p.size = D.p.size := by
    unfold intSet
    have := forI_zero (hi := 2 * N + 1) (f := fun i (v : Buf ℤ) => v.wr i 0) (s := D.p)
      (fun j b => Holds b j (fun _ => (0 : ℤ)) ∧ b.size = D.p.size) ⟨Holds.zero, rfl⟩
      (fun j b hj h => ⟨b.set j 0, Buf.wr_eq (by rw [h.2, hps]; exact hj), h.1.extend (by rw [h.2, hps]; omega) 0 rfl, h.2⟩)
    push_cast at this
    exact this
  obtain ⟨p1, e1, hp1, -⟩ := colcountDiag_holds (n := 0) (m := N) (by omega) hp0
  obtain ⟨p2, e2, hp2, -⟩ := colcountBlock_holds hP (c0 := N) (tr := false) 0 (by simp; omega) hp1
  obtain ⟨p3, e3, hp3, -⟩ := colcountBlock_holds hG (c0 := N) (tr := false) n (by simp; omega) hp2
  obtain ⟨p4, e4, hp4, -⟩ := colcountBlock_holds hE (c0 := N) (tr := false) (n + x) (by simp; omega) hp3
  obtain ⟨p5, e5, hp5, -⟩ := colcountBlock_holds hL (c0 := N + n) (tr := true) 0 (by simp; omega) hp4
  obtain ⟨p6, e6, hp6, -⟩ := colcountDiag_holds (n := N + n) (m := x) (by omega) hp5
  obtain ⟨p7, e7, hp7, -⟩ := colcountBlock_holds hE (c0 := N + n + x) (tr := true) 0 (by simp; omega) hp6
  obtain ⟨p8, e8, hp8, -⟩ := colcountDiag_holds (n := N) (m := N) (by omega) hp7
  obtain ⟨p9, e9, hp9, -⟩ := colptr_holds hp8
  have hp9' : Holds p9 (2 * N + 1) (fun c => ((start all c : ℕ) : ℤ)) := hp9.congr fun c _ => by
    congr 1
    refine start_of_cnt (fun c => ?_) c
    rw [hall]; unfold adjEnts adjMid
    simp only [cnt_append, cnt_dv, cnt_nil, ← hN]
    omega
  have hcols' : InCols (2 * N + 1) all := hcols.mono (by omega)
  have f0 : Filling (2 * N + 1) all [] ⟨p9, D.i, D.x⟩ ⟨p9, D.i, D.x⟩ := ⟨filled_start hp9' his hxs, rfl, rfl, rfl⟩
  have noMap : ∀ k, MapFits none k := fun k b h => by cases h
  obtain ⟨s1, g1, f1⟩ := fillDiagValues_holds (r0 := 0) (c0 := 0) (m := N) (D := fun _ => (1 : K)) (val := fun _ => some 1)
    (rest := adjMid n x y VP VG VE VL S ++ pre (dv N N fun _ => 0) N) (fun _ _ => rfl) (by rw [hall]; unfold adjEnts; simp [List.append_assoc, hN]) hcols' f0
  obtain ⟨s2, g2, f2, -⟩ := fillBlock_holds hP (r0 := 0) (c0 := N) (tr := false) (rest := pre (blk VG n N false) VG.nnz ++ (pre (blk VE (n + x) N false) VE.nnz ++
    (pre (blk VL 0 (N + n) true) VL.nnz ++ (pre (dv n (N + n) S) x ++ (pre (blk VE 0 (N + n + x) true) VE.nnz ++ pre (dv N N fun _ => 0) N)))))
    (by rw [hall]; unfold adjEnts adjMid; simp [List.append_assoc, hN]) hcols' f1 (noMap _)
  obtain ⟨s3, g3, f3, -⟩ := fillBlock_holds hG (r0 := n) (c0 := N) (tr := false) (rest := (pre (blk VE (n + x) N false) VE.nnz ++
    (pre (blk VL 0 (N + n) true) VL.nnz ++ (pre (dv n (N + n) S) x ++ (pre (blk VE 0 (N + n + x) true) VE.nnz ++ pre (dv N N fun _ => 0) N)))))
    (by rw [hall]; unfold adjEnts adjMid; simp [List.append_assoc, hN]) hcols' f2 (noMap _)
  obtain ⟨s4, g4, f4, -⟩ := fillBlock_holds hE (r0 := n + x) (c0 := N) (tr := false) (rest :=
    (pre (blk VL 0 (N + n) true) VL.nnz ++ (pre (dv n (N + n) S) x ++ (pre (blk VE 0 (N + n + x) true) VE.nnz ++ pre (dv N N fun _ => 0) N))))
    (by rw [hall]; unfold adjEnts adjMid; simp [List.append_assoc, hN]) hcols' f3 (noMap _)
  obtain ⟨s5, g5, f5, -⟩ := fillBlock_holds hL (r0 := 0) (c0 := N + n) (tr := true) (rest :=
    (pre (dv n (N + n) S) x ++ (pre (blk VE 0 (N + n + x) true) VE.nnz ++ pre (dv N N fun _ => 0) N)))
    (by rw [hall]; unfold adjEnts adjMid; simp [List.append_assoc, hN]) hcols' f4 (noMap _)
  obtain ⟨s6, g6, f6⟩ := fillDiagValues_holds (r0 := n) (c0 := N + n) (m := x) (D := S) (val := fun j => Q.slacks.rd j)
    (rest := (pre (blk VE 0 (N + n + x) true) VE.nnz ++ pre (dv N N fun _ => 0) N)) (fun t ht => hS.rd ht)
    (by rw [hall]; unfold adjEnts adjMid; simp [List.append_assoc, hN]) hcols' f5
  obtain ⟨s7, g7, f7, -⟩ := fillBlock_holds hE (r0 := 0) (c0 := N + n + x) (tr := true) (rest := pre (dv N N fun _ => 0) N)
    (by rw [hall]; unfold adjEnts adjMid; simp [List.append_assoc, hN]) hcols' f6 (noMap _)
  obtain ⟨s8, g8, f8⟩ := fillDiagValues_holds (r0 := N) (c0 := N) (m := N) (D := fun _ => (0 : K)) (val := fun _ => some 0)
    (rest := []) (fun _ _ => rfl) (by rw [hall]; unfold adjEnts adjMid; simp [List.append_assoc, hN]) hcols' f7
  have hes : [] ++ pre (dv 0 0 fun _ => (1 : K)) N ++ pre (blk VP 0 N false) VP.nnz ++ pre (blk VG n N false) VG.nnz ++ pre (blk VE (n + x) N false) VE.nnz ++
      pre (blk VL 0 (N + n) true) VL.nnz ++ pre (dv n (N + n) S) x ++ pre (blk VE 0 (N + n + x) true) VE.nnz ++ pre (dv N N fun _ => 0) N = all := by
    rw [hall]; unfold adjEnts adjMid; simp [List.append_assoc, hN]
  rw [hes] at f8
  obtain ⟨p10, e10, hp10, -⟩ := backshift_holds f8.f.p
  refine ⟨⟨p10, s8.i, s8.x⟩, ?_, hp10, ⟨s8.p, f8.f.mono (by omega)⟩, f8.is, f8.xs⟩
  unfold adjAssemble
  rw [q1, q2, q3]
  have hNz : (n : ℤ) + (x : ℤ) + (y : ℤ) = (N : ℤ) := by rw [hN]; push_cast; ring
  simp only [hNz]
  simp only [Nat.cast_zero, Nat.cast_add, Nat.cast_mul, Nat.cast_ofNat] at e1 e2 e3 e4 e5 e6 e7 e8 e9 e10 g1 g2 g3 g4 g5 g6 g7 g8
  exact bindEq e0 <| bindEq e1 <| bindEq e2 <| bindEq e3 <| bindEq e4 <| bindEq e5 <| bindEq e6 <| bindEq e7 <| bindEq e8 <| bindEq e9 <|
    bindEq g1 <| bindEq g2 <| bindEq g3 <| bindEq g4 <| bindEq g5 <| bindEq g6 <| bindEq g7 <| bindEq g8 <| bindEq e10 rfl

/-! ## What the matrix denotes -/

theorem adj_denote (h : Blocks n x y VP VG VE VL) (a b : K) {V : View K} (hL : Laid (2 * (n + x + y)) (2 * (n + x + y)) (adjEnts n x y VP VG VE VL S a b) V) :
    V.Valid ∧ V.Triu ∧ V.nnz = (adjEnts n x y VP VG VE VL S a b).length ∧ ∀ r c, c < 2 * (n + x + y) → V.entry r c = matOf (adjEnts n x y VP VG VE VL S a b) r c := by
  have hcols := adjEnts_inCols (S := S) h a b
  have hrows := adjEnts_rows (S := S) h a b
  have hv := hL.valid hcols hrows
  refine ⟨hv, triu_of_le hv fun t ht' => ?_, hL.nnz hcols, fun r c hc => hL.entry hcols hrows hc⟩
  obtain ⟨k, hk, rfl⟩ := hL.pos hcols ht'
  rw [hL.i k hk, hL.col hcols hrows hk]
  exact (adjEnts_bounds h a b _ (List.getElem_mem hk)).1

theorem adj_sym {p : Prob K} {Q : AdjSys K} (hs : SysRep p Q VP VG VE VL) (hsym : ∀ i < p.n, ∀ j < p.n, p.P i j = p.P j i) (a b : K) {V : View K}
    (hL : Laid (2 * p.N) (2 * p.N) (adjEnts p.n (p.nl + p.nu) p.ne VP VG VE VL p.gS a b) V) {r c : ℕ} (hr : r < 2 * p.N) (hc : c < 2 * p.N) :
    V.symEntry r c = p.adj r c + if r = c then (if r < p.N then a - 1 else b) else 0 := by
  have hb : Blocks p.n (p.nl + p.nu) p.ne VP VG VE VL := blocks_of hs.P hs.G hs.E hs.L hs.Pm hs.Pn hs.Gm hs.Gn hs.Em hs.En hs.Lm hs.Ln
  have hN : p.N = p.n + (p.nl + p.nu) + p.ne := by unfold Prob.N; omega
  rw [hN] at hL
  obtain ⟨-, -, -, he⟩ := adj_denote hb a b hL
  have hup : ∀ r c, r ≤ c → c < 2 * p.N → V.entry r c = p.adj r c + if r = c then (if r < p.N then a - 1 else b) else 0 := by
    intro r c hrc hc
    rw [hN] at hc
    rw [he r c hc, adjEnts_matOf hb a b hrc hc, ← hN]
    unfold Prob.adj Prob.M
    by_cases h1 : r < p.N
    · rw [if_pos h1, if_pos h1, if_pos h1]
      by_cases h2 : c < p.N
      · rw [if_pos h2, if_pos h2]
        by_cases h3 : r = c
        · rw [if_pos h3, if_pos h3, if_pos h3]; ring
        · rw [if_neg h3, if_neg h3, if_neg h3]; ring
      · rw [if_neg h2, if_neg h2, if_neg (show ¬ r = c by omega), add_zero]
        by_cases h4 : r < p.n
        · rw [if_pos h4, if_pos h4]
          by_cases h5 : c - p.N < p.n
          · rw [if_pos h5, if_pos h5, hs.Pe r h4 _ h5]
          · rw [if_neg h5, if_neg h5]
            by_cases h6 : c - p.N < p.n + (p.nl + p.nu)
            · rw [if_pos h6, if_pos (by omega), hs.Le _ (by omega) r h4]
            · rw [if_neg h6, if_neg (by omega), hs.Ee _ (by omega) r h4, ← Nat.add_assoc]
        · rw [if_neg h4, if_neg h4]
          by_cases h5 : r < p.n + (p.nl + p.nu)
          · rw [if_pos h5, if_pos (show r < p.n + p.nl + p.nu by omega)]
            by_cases h6 : c - p.N < p.n
            · rw [if_pos h6, if_pos h6, hs.Ge _ (by omega) _ h6]
            · rw [if_neg h6, if_neg h6]
          · rw [if_neg h5, if_neg (show ¬ r < p.n + p.nl + p.nu by omega)]
            by_cases h6 : c - p.N < p.n
            · rw [if_pos h6, if_pos h6, hs.Ee _ (by omega) _ h6, ← Nat.add_assoc]
            · rw [if_neg h6, if_neg h6]
    · rw [if_neg h1, if_neg h1, if_neg h1, if_neg (show ¬ c < p.N by omega), zero_add]
  unfold View.symEntry
  by_cases h : r ≤ c
  · rw [if_pos h, hup r c h hc]
  · rw [if_neg h, hup c r (by omega) hr, if_neg (show ¬ c = r by omega), if_neg (show ¬ r = c by omega), add_zero, add_zero]
    unfold Prob.adj
    by_cases h1 : r < p.N
    · have h2 : c < p.N := by omega
      rw [if_pos h1, if_pos h2, if_pos h2, if_pos h1, if_neg (show ¬ c = r by omega), if_neg (show ¬ r = c by omega)]
    · rw [if_neg h1, if_neg h1]
      split_ifs <;> first | rfl | omega

/-! ## The perturbation -/

theorem adjEnts_shift (h : Blocks n x y VP VG VE VL) (a b e1 e2 : K) :
    All2 (fun k e e' => e.c = e'.c ∧ e.r = e'.r ∧
      e'.v = e.v + if dest (adjEnts n x y VP VG VE VL S a b) e k + 1 = start (adjEnts n x y VP VG VE VL S a b) (e.c + 1) then (if e.c < n + x + y then e1 else e2) else 0)
      (adjEnts n x y VP VG VE VL S a b) (adjEnts n x y VP VG VE VL S (a + e1) (b + e2)) := by
  set N := n + x + y with hN
  set all := adjEnts n x y VP VG VE VL S a b with hall
  have hmid := adjMid_bounds (S := S) h
  rw [hall]
  unfold adjEnts
  rw [← hN, show pre (dv 0 0 fun _ => a) N ++ (adjMid n x y VP VG VE VL S ++ pre (dv N N fun _ => b) N) = all by rw [hall]; rfl]
  refine All2.append (T := fun k e e' => e.c = e'.c ∧ e.r = e'.r ∧ e'.v = e.v + if dest all e k + 1 = start all (e.c + 1) then (if e.c < N then e1 else e2) else 0)
    (l := pre (dv 0 0 fun _ => a) N) (q := adjMid n x y VP VG VE VL S ++ pre (dv N N fun _ => b) N)
    (All2.pre fun t ht => All2.single ?_) (All2.append ⟨rfl, fun k hk _ => ?_⟩ (All2.pre fun t ht => All2.single ?_))
  · refine ⟨rfl, rfl, ?_⟩
    have hd := dest_end (all := all) (es := pre (dv 0 0 fun _ => a) t) (e := ⟨t + 0, t + 0, a⟩)
      (rest := pre (fun s => dv 0 0 (fun _ => a) (t + 1 + s)) (N - t - 1) ++ (adjMid n x y VP VG VE VL S ++ pre (dv N N fun _ => b) N))
      (by rw [hall]; unfold adjEnts; rw [← hN, pre_drop (dv 0 0 fun _ => a) ht]; simp [dv, List.append_assoc])
    have h0 : cnt (pre (fun s => dv 0 0 (fun _ => a) (t + 1 + s)) (N - t - 1) ++ (adjMid n x y VP VG VE VL S ++ pre (dv N N fun _ => b) N)) (t + 0) = 0 := cnt_zero fun e he => by
      simp only [List.mem_append] at he
      rcases he with he | he | he
      · revert e; exact pre_all fun s _ e he => by
          rw [dv, List.mem_singleton] at he; rw [he]; simp only; omega
      · have := hmid e he; omega
      · revert e; exact pre_all fun s _ e he => by
          rw [dv, List.mem_singleton] at he; rw [he]; simp only; omega
    simp only [h0] at hd
    rw [dv_length] at hd ⊢
    simp only [Nat.add_zero] at hd ⊢
    rw [if_pos hd, if_pos ht]
  · refine ⟨rfl, rfl, ?_⟩
    set e := (adjMid n x y VP VG VE VL S)[k] with he
    have hbd := hmid e (List.getElem_mem hk)
    have hsplit : adjMid n x y VP VG VE VL S = (adjMid n x y VP VG VE VL S).take k ++ e :: (adjMid n x y VP VG VE VL S).drop (k + 1) := by rw [he]; simp
    have hd := dest_end (all := all) (es := pre (dv 0 0 fun _ => a) N ++ (adjMid n x y VP VG VE VL S).take k) (e := e)
      (rest := (adjMid n x y VP VG VE VL S).drop (k + 1) ++ pre (dv N N fun _ => b) N)
      (by rw [hall]; unfold adjEnts; rw [← hN]; conv_lhs => rw [hsplit]
          simp [List.append_assoc])
    have h1 : 0 < cnt (pre (dv N N fun _ => b) N) e.c := by
      unfold cnt
      rw [List.countP_pos_iff]
      refine ⟨⟨e.c - N + N, e.c - N + N, b⟩, ?_, by simp; omega⟩
      unfold pre
      rw [List.mem_flatMap]
      exact ⟨e.c - N, List.mem_range.2 (by omega), by simp [dv]⟩
    rw [cnt_append, List.length_append, dv_length, List.length_take, min_eq_left hk.le] at hd
    rw [dv_length, if_neg (by omega), add_zero]
  · refine ⟨rfl, rfl, ?_⟩
    have hd := dest_end (all := all) (es := pre (dv 0 0 fun _ => a) N ++ (adjMid n x y VP VG VE VL S ++ pre (dv N N fun _ => b) t)) (e := ⟨t + N, t + N, b⟩)
      (rest := pre (fun s => dv N N (fun _ => b) (t + 1 + s)) (N - t - 1))
      (by rw [hall]; unfold adjEnts; rw [← hN, pre_drop (dv N N fun _ => b) ht]; simp [dv, List.append_assoc])
    have h0 : cnt (pre (fun s => dv N N (fun _ => b) (t + 1 + s)) (N - t - 1)) (t + N) = 0 := cnt_zero (pre_all fun s _ e he => by
      rw [dv, List.mem_singleton] at he; rw [he]; simp only; omega)
    simp only [h0, add_zero, List.length_append, dv_length] at hd
    rw [dv_length, dv_length]
    simp only [Nat.add_zero]
    rw [if_pos hd, if_neg (by omega)]

theorem adj_start_strict (h : Blocks n x y VP VG VE VL) (a b : K) {c : ℕ} (hc : c < 2 * (n + x + y)) :
    start (adjEnts n x y VP VG VE VL S a b) c < start (adjEnts n x y VP VG VE VL S a b) (c + 1) := by
  rw [start_succ]
  have : 0 < cnt (adjEnts n x y VP VG VE VL S a b) c := by
    unfold cnt
    rw [List.countP_pos_iff]
    by_cases h1 : c < n + x + y
    · refine ⟨⟨c + 0, c + 0, a⟩, ?_, by simp⟩
      unfold adjEnts pre
      simp only [List.mem_append, List.mem_flatMap]
      exact .inl ⟨c, List.mem_range.2 h1, by simp [dv]⟩
    · refine ⟨⟨c - (n + x + y) + (n + x + y), c - (n + x + y) + (n + x + y), b⟩, ?_, by simp; omega⟩
      unfold adjEnts pre
      simp only [List.mem_append, List.mem_flatMap]
      exact .inr (.inr ⟨c - (n + x + y), List.mem_range.2 (by omega), by simp [dv]⟩)
  omega

theorem shift_one {K : Type*} [Field K] {all : List (Ent K)} {N a w : ℕ} (hst : ∀ c < N, start all c < start all (c + 1)) (haw : a + w ≤ N) (d : K) {c t : ℕ} (hc : c < N)
    (ht1 : start all c ≤ t) (ht2 : t < start all (c + 1)) :
    (∑ i ∈ range w, if t + 1 = start all (a + i + 1) then d else 0) = if t + 1 = start all (c + 1) then (if a ≤ c ∧ c < a + w then d else 0) else 0 := by
  have hmono := fun {i j : ℕ} (h : i ≤ j) => start_mono all h
  have key : ∀ i < w, t + 1 = start all (a + i + 1) → a + i = c := by
    intro i hi h
    rcases Nat.lt_trichotomy (a + i) c with h1 | h1 | h1
    · have := hmono (show a + i + 1 ≤ c by omega); omega
    · exact h1
    · have h2 := hst (a + i) (by omega)
      have := hmono (show c + 1 ≤ a + i by omega); omega
  by_cases h1 : t + 1 = start all (c + 1)
  · rw [if_pos h1]
    by_cases h2 : a ≤ c ∧ c < a + w
    · rw [if_pos h2, sum_eq_single (c - a)]
      · rw [show a + (c - a) + 1 = c + 1 by omega, if_pos h1]
      · intro i hi hne
        rw [if_neg (fun h => hne (by have := key i (mem_range.1 hi) h; omega))]
      · intro h; exact absurd (mem_range.2 (by omega)) h
    · rw [if_neg h2]
      refine sum_eq_zero fun i hi => ?_
      rw [mem_range] at hi
      rw [if_neg (fun h => h2 (by have := key i hi h; omega))]
  · rw [if_neg h1]
    refine sum_eq_zero fun i hi => ?_
    rw [mem_range] at hi
    rw [if_neg (fun h => h1 (by rw [h, key i hi h]))]

theorem forGo_shift {σ : Type*} (f : ℤ → σ → Option σ) (a : ℤ) (w : ℕ) : ∀ (i : ℤ) (s : σ), forGo f w (a + i) s = forGo (fun j => f (a + j)) w i s := by
  induction w with
  | zero => intro i s; rfl
  | succ w ih =>
    intro i s
    unfold forGo
    congr 1
    funext s'
    rw [← ih, add_assoc]

theorem forI_shift {σ : Type*} (f : ℤ → σ → Option σ) (a w : ℕ) (s : σ) : forI (a : ℤ) ((a : ℤ) + (w : ℤ)) f s = forI 0 (w : ℤ) (fun j => f ((a : ℤ) + j)) s := by
  unfold forI
  rw [← forGo_shift, add_zero, add_sub_cancel_left, sub_zero]

/-- The perturbed matrix. -/
theorem adjPerturb_holds (h : Blocks n x y VP VG VE VL) {M : Csc K} {V : View K} (hM : Rep M V)
    (hL : Laid (2 * (n + x + y)) (2 * (n + x + y)) (adjEnts n x y VP VG VE VL S 1 0) V) (eps : K) :
    ∃ M' V', adjPerturb M eps = some M' ∧ Rep M' V' ∧ Laid (2 * (n + x + y)) (2 * (n + x + y)) (adjEnts n x y VP VG VE VL S (1 + eps) (0 + -eps)) V' ∧
      M'.i = M.i ∧ M'.x.size = M.x.size := by
  have hcols := adjEnts_inCols (S := S) h 1 0
  have hrows := adjEnts_rows (S := S) h 1 0
  have hsh := adjEnts_shift (S := S) h 1 0 eps (-eps)
  have hstr : ∀ c < 2 * (n + x + y), _ := fun c hc => adj_start_strict (S := S) h 1 0 hc
  set N := n + x + y with hN
  set all := adjEnts n x y VP VG VE VL S 1 0 with hall
  set all' := adjEnts n x y VP VG VE VL S (1 + eps) (0 + -eps) with hall'
  have hnz : V.nnz = all.length := hL.nnz hcols
  have hkp : Holds M.p (2 * N + 1) (fun c => ((start all c : ℕ) : ℤ)) := by
    have := hM.p
    rw [hL.vn] at this
    exact this.congr fun c hc => by rw [hL.p c (by omega)]
  have hQ : ∀ c < 2 * N, 0 < start all (c + 1) ∧ start all (c + 1) ≤ V.nnz := by
    intro c hc
    refine ⟨lt_of_le_of_lt (Nat.zero_le _) (hstr c hc), ?_⟩
    rw [hnz, ← start_all hcols]; exact start_mono all hc
  have hinj : ∀ c c', c < 2 * N → c' < 2 * N → start all (c + 1) = start all (c' + 1) → c = c' := by
    intro c c' h1 h2 h3
    rcases lt_trichotomy c c' with h4 | h4 | h4
    · have := start_lt_of hstr (show c + 1 < c' + 1 by omega) (by omega); omega
    · exact h4
    · have := start_lt_of hstr (show c' + 1 < c + 1 by omega) (by omega); omega
  obtain ⟨x1, e1, s1, hx1⟩ := shift_loop (N := 2 * N) (a := 0) (w := N) (Z := V.nnz) (Q := start all) (d := fun _ => eps) hkp hM.x (by omega)
    (fun c _ h2 => hQ c (by omega)) (fun c c' _ h1 _ h2 => hinj c c' (by omega) (by omega))
    (f := fun j x => (M.p.rd (j + 1)).bind fun d => (x.rd (d - 1)).bind fun v => x.wr (d - 1) (v + eps))
    (fun i b v hi hb => by
      have h1 := hQ i (by omega)
      rw [Nat.zero_add] at hb ⊢
      rw [hkp.rd' (k := i + 1) (by push_cast; ring) (by omega)]
      simp only [Option.bind_some]
      have e : ((start all (i + 1) : ℕ) : ℤ) - 1 = ((start all (i + 1) - 1 : ℕ) : ℤ) := by omega
      rw [e, hb]; rfl)
  obtain ⟨x2, e2, s2, hx2⟩ := shift_loop (N := 2 * N) (a := N) (w := N) (Z := V.nnz) (Q := start all) (d := fun _ => -eps) hkp hx1 (by omega)
    (fun c _ h2 => hQ c (by omega)) (fun c c' _ h1 _ h2 => hinj c c' (by omega) (by omega))
    (f := fun j x => (M.p.rd ((N : ℤ) + j + 1)).bind fun d => (x.rd (d - 1)).bind fun v => x.wr (d - 1) (v - eps))
    (fun i b v hi hb => by
      have h1 := hQ (N + i) (by omega)
      rw [hkp.rd' (k := N + i + 1) (by push_cast; ring) (by omega)]
      simp only [Option.bind_some]
      have e : ((start all (N + i + 1) : ℕ) : ℤ) - 1 = ((start all (N + i + 1) - 1 : ℕ) : ℤ) := by omega
      rw [e, hb]
      simp only [Option.bind_some]
      rw [sub_eq_add_neg])
  have e2' : forI (N : ℤ) ((2 * N : ℕ) : ℤ) (fun j x => (M.p.rd (j + 1)).bind fun d => (x.rd (d - 1)).bind fun v => x.wr (d - 1) (v - eps)) x1 = some x2 := by
    rw [← e2]
    have := forI_shift (fun j x => (M.p.rd (j + 1)).bind fun d => (x.rd (d - 1)).bind fun v => x.wr (d - 1) (v - eps)) N N x1
    rw [show ((N : ℤ) + (N : ℤ)) = ((2 * N : ℕ) : ℤ) by push_cast; ring] at this
    exact this
  set X : ℕ → K := fun t => (V.x t + ∑ i ∈ range N, if t + 1 = start all (0 + i + 1) then eps else 0) +
        ∑ i ∈ range N, if t + 1 = start all (N + i + 1) then -eps else 0 with hXd
  have hmap := hsh.map_c (fun _ _ _ h => h.1)
  refine ⟨{ M with x := x2 }, V.withX X, ?_, ⟨hM.m, hM.n, ⟨hM.valid.zero, hM.valid.mono, hM.valid.rows⟩, hM.p, hM.i, hx2⟩, ?_, rfl, by show x2.size = _; rw [s2, s1]⟩
  · unfold adjPerturb
    have em : M.m = ((2 * N : ℕ) : ℤ) := by rw [hM.m, hL.vm]
    have em2 : M.m / 2 = (N : ℤ) := by rw [em]; omega
    rw [em2, em]
    exact bindEq e1 <| bindEq e2' rfl
  · have key : ∀ k (hk : k < all'.length), ∃ hk' : k < all.length, dest all' all'[k] k = dest all all[k] k := by
      intro k hk
      have hk' : k < all.length := by rw [hsh.1]; exact hk
      exact ⟨hk', (dest_congr hmap (hsh.2 k hk' hk).1 k).symm⟩
    refine ⟨hL.vm, hL.vn, fun c hc => ?_, fun k hk => ?_, fun k hk => ?_⟩
    · show V.p c = _
      rw [hL.p c hc, start_congr hmap]
    · obtain ⟨hk', e⟩ := key k hk
      rw [e]
      show V.i _ = _
      rw [hL.i k hk', (hsh.2 k hk' hk).2.1]
    · obtain ⟨hk', e⟩ := key k hk
      rw [e]
      show X _ = _
      have hcb := hcols _ (List.getElem_mem hk')
      have d1 := dest_ge all all[k] k
      have d2 := dest_lt_succ hk'
      rw [hXd]
      simp only
      rw [hL.x k hk', add_assoc, shift_one hstr (by omega) eps hcb d1 d2, shift_one hstr (by omega) (-eps) hcb d1 d2, (hsh.2 k hk' hk).2.2]
      congr 1
      by_cases h1 : dest all all[k] k + 1 = start all (all[k].c + 1)
      · rw [if_pos h1, if_pos h1, if_pos h1]
        by_cases h2 : all[k].c < N
        · rw [if_pos h2, if_pos (by omega), if_neg (by omega), add_zero]
        · rw [if_neg h2, if_neg (by omega), if_pos (by omega), zero_add]
      · rw [if_neg h1, if_neg h1, if_neg h1, add_zero]

end Osqp.Csc
