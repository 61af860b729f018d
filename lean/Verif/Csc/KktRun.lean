import Verif.Csc.KktUpd

/-!
# Runs of updates
-/

set_option linter.unusedSectionVars false
namespace Osqp.Csc
open Finset

variable {K : Type*} [Field K] [LinearOrder K] {VP VA V W : View K}

/-- The optional index list, of length `cnt`, holds `ix`; a `NULL` list stands for `0, 1, …`. -/
def IdxIs (idx : Option (Buf ℤ)) (cnt : ℕ) (ix : ℕ → ℕ) : Prop :=
  match idx with
  | none => ∀ j < cnt, ix j = j
  | some b => Holds b cnt fun j => ((ix j : ℕ) : ℤ)

theorem IdxIs.rd {idx : Option (Buf ℤ)} {cnt : ℕ} {ix : ℕ → ℕ} (h : IdxIs idx cnt ix) {j : ℕ} (hj : j < cnt) :
    idxRd idx (j : ℤ) = some ((ix j : ℕ) : ℤ) := by
  unfold idxRd
  cases idx with
  | none => simp only; rw [h j hj]
  | some b => exact Holds.rd (show Holds b cnt _ from h) hj

section
variable {N : ℕ} {π : ℕ → ℕ} (hS : Sized N π VP VA) {sigma : K} {R : ℕ → K} {M : Csc K} {pm am rm : Buf ℤ}
include hS

theorem Kept.updP (h : Kept π sigma VP VA R V W M pm am rm) {P' : Csc K} {X Z : ℕ → K} (hP' : Rep P' (VP.withX Z)) {idx : Option (Buf ℤ)} {cnt : ℕ} {ix : ℕ → ℕ}
    (hix : IdxIs idx cnt ix) (hlt : ∀ j < cnt, ix j < VP.nnz) (hZ : ∀ j < cnt, Z (ix j) = X (ix j)) (hX : ∀ k < VP.nnz, (∀ j < cnt, ix j ≠ k) → X k = VP.x k) :
    ∃ M' V' W', updateKktP M P' idx cnt pm sigma 0 = some M' ∧ Kept π sigma (VP.withX X) VA R V' W' M' pm am rm := by
  have hall := kktEnts_vals VP VA X VA.x sigma R R
  have hlen := kktEnts_length VP VA sigma R
  have hpos : ∀ {k}, k < VP.nnz → ∃ h : k < (kktEnts VP VA sigma R).length, posP VP VA k = dest (kktEnts VP VA sigma R) (kktEnts VP VA sigma R)[k] k :=
    fun hk => posP_eq hS.hP hS.hA hS.sq hS.cols hk
  obtain ⟨x', Y', e, hx', h1, h2⟩ := store_loop (b := M.x) (Z := W.nnz) (C := cnt) (Y := W.x) h.rep.x
    (f := fun j x =>
    (idxRd idx j).bind fun Pidx =>
    (pm.rd Pidx).bind fun Kidx => (P'.x.rd Pidx).bind fun v => (x.wr Kidx v).bind fun x =>
    (P'.i.rd Pidx).bind fun row => (P'.p.rd row).bind fun a => (P'.p.rd (row + 1)).bind fun b =>
    if a < b then (P'.p.rd (row + 1)).bind fun d =>
      if d - 1 = Pidx then (x.rd Kidx).bind fun v => x.wr Kidx (v + sigma) else some x
    else some x) (pos := fun j => symSlot V π (posP VP VA (ix j))) (val := fun j => X (ix j) + if DiagLast VP (ix j) then sigma else 0)
    (by
      intro j hj b Q hb
      have hk := hlt j hj
      obtain ⟨g1, g2⟩ := hpos hk
      have hs : symSlot V π (posP VP VA (ix j)) < W.nnz := by rw [g2]; exact (h.place hS g1).1
      have hrow : VP.i (ix j) < VP.n := hS.sq ▸ hS.hP.rows _ hk
      rw [hix.rd hj]
      simp only [Option.bind_some]
      rw [h.pm.rd hk]
      simp only [Option.bind_some]
      rw [show P'.x.rd ((ix j : ℕ) : ℤ) = some (X (ix j)) from (hP'.x.rd hk).trans (congrArg some (hZ j hj))]
      simp only [Option.bind_some]
      rw [hb.wr hs]
      simp only [Option.bind_some]
      rw [show P'.i.rd ((ix j : ℕ) : ℤ) = some ((VP.i (ix j) : ℕ) : ℤ) from hP'.i.rd hk]
      simp only [Option.bind_some]
      rw [show P'.p.rd ((VP.i (ix j) : ℕ) : ℤ) = some ((VP.p (VP.i (ix j)) : ℕ) : ℤ) from hP'.p.rd (by show _ < VP.n + 1; omega),
        show P'.p.rd (((VP.i (ix j) : ℕ) : ℤ) + 1) = some ((VP.p (VP.i (ix j) + 1) : ℕ) : ℤ) from hP'.p.rd' (by push_cast; ring) (by show _ < VP.n + 1; omega)]
      simp only [Option.bind_some]
      have hb1 := hb.set (symSlot V π (posP VP VA (ix j))) (X (ix j))
      by_cases h3 : VP.p (VP.i (ix j)) < VP.p (VP.i (ix j) + 1)
      · rw [if_pos (by exact_mod_cast h3)]
        by_cases h4 : ix j + 1 = VP.p (VP.i (ix j) + 1)
        · rw [if_pos (by omega), hb1.rd hs]
          simp only [Option.bind_some, Function.update_self]
          rw [hb1.wr hs, if_pos ⟨h3, h4⟩]
          refine ⟨_, rfl, (hb1.set _ _).congr fun t _ => ?_⟩
          rw [Function.update_idem]
        · rw [if_neg (by omega), if_neg (fun h => h4 h.2), add_zero]
          exact ⟨_, rfl, hb1⟩
      · rw [if_neg (by exact_mod_cast h3), if_neg (fun h => h3 h.1), add_zero]
        exact ⟨_, rfl, hb1⟩)
    (by
      intro j hj j' hj' e
      obtain ⟨g1, g2⟩ := hpos (hlt j hj)
      obtain ⟨g3, g4⟩ := hpos (hlt j' hj')
      simp only [g2, g4] at e
      rw [(h.place hS g1).2.2 _ g3 e])
  obtain ⟨V', W', hK⟩ := h.upd hS (X := X) (Y := VA.x) (R' := R) (x' := x') (Z := Y') hx' (by
    intro k hk hk'
    obtain ⟨_, _, v1, v2, v3, v4⟩ := hall.2 k hk hk'
    by_cases h3 : ∃ j < cnt, k = ix j
    · obtain ⟨j, hj, rfl⟩ := h3
      obtain ⟨g1, g2⟩ := hpos (hlt j hj)
      rw [← g2, h1 j hj, (v1 (hlt j hj)).2]
    · have h4 : Y' (symSlot V π (dest (kktEnts VP VA sigma R) (kktEnts VP VA sigma R)[k] k)) = (kktEnts VP VA sigma R)[k].v := by
        rw [h2 _ fun j hj e => h3 ⟨j, hj, ?_⟩, (h.place hS hk).2.1]
        obtain ⟨g1, g2⟩ := hpos (hlt j hj)
        rw [g2] at e
        exact ((h.place hS g1).2.2 _ hk e).symm
      rw [h4]
      rcases Nat.lt_or_ge k VP.nnz with h5 | h5
      · rw [(v1 h5).1, (v1 h5).2, hX k h5 fun j hj e => h3 ⟨j, hj, e.symm⟩]
      · rcases Nat.lt_or_ge k (VP.nnz + nMiss VP) with h6 | h6
        · exact (v2 h5 h6).symm
        · rcases Nat.lt_or_ge k (VP.nnz + nMiss VP + VA.nnz) with h7 | h7
          · obtain ⟨t, rfl⟩ := Nat.exists_eq_add_of_le h6
            have := v3 t rfl (by omega)
            rw [this.1, this.2]
          · obtain ⟨t, rfl⟩ := Nat.exists_eq_add_of_le h7
            have := v4 t rfl
            rw [this.1, this.2])
  by_cases h0 : cnt = 0
  · subst h0
    have ex : x' = M.x := by
      have : some M.x = some x' := e
      exact (Option.some.inj this).symm
    refine ⟨M, V', W', ?_, ?_⟩
    · unfold updateKktP; rw [if_pos (by simp)]
    · rw [ex] at hK; exact hK
  · refine ⟨{ M with x := x' }, V', W', ?_, hK⟩
    unfold updateKktP
    rw [if_neg (by omega)]
    simp only [if_true]
    rw [e]; rfl

theorem Kept.updA (h : Kept π sigma VP VA R V W M pm am rm) {A' : Csc K} {Y Z : ℕ → K} (hA' : Rep A' (VA.withX Z)) {idx : Option (Buf ℤ)} {cnt : ℕ} {ix : ℕ → ℕ}
    (hix : IdxIs idx cnt ix) (hlt : ∀ j < cnt, ix j < VA.nnz) (hZ : ∀ j < cnt, Z (ix j) = Y (ix j)) (hY : ∀ k < VA.nnz, (∀ j < cnt, ix j ≠ k) → Y k = VA.x k) :
    ∃ M' V' W', updateKktA M A' idx cnt am = some M' ∧ Kept π sigma VP (VA.withX Y) R V' W' M' pm am rm := by
  have hall := kktEnts_vals VP VA VP.x Y sigma R R
  have hlen := kktEnts_length VP VA sigma R
  have hpos : ∀ {k}, k < VA.nnz → ∃ h : VP.nnz + nMiss VP + k < (kktEnts VP VA sigma R).length,
      posA VP VA k = dest (kktEnts VP VA sigma R) (kktEnts VP VA sigma R)[VP.nnz + nMiss VP + k] (VP.nnz + nMiss VP + k) :=
    fun hk => posA_eq hS.hP hS.hA hS.sq hS.cols hk
  obtain ⟨x', Y', e, hx', h1, h2⟩ := store_loop (b := M.x) (Z := W.nnz) (C := cnt) (Y := W.x) h.rep.x
    (f := fun j x =>
    (idxRd idx j).bind fun Aidx =>
    (am.rd Aidx).bind fun Kidx => (A'.x.rd Aidx).bind fun v => x.wr Kidx v) (pos := fun j => symSlot V π (posA VP VA (ix j))) (val := fun j => Y (ix j))
    (by
      intro j hj b Q hb
      have hk := hlt j hj
      obtain ⟨g1, g2⟩ := hpos hk
      have hs : symSlot V π (posA VP VA (ix j)) < W.nnz := by rw [g2]; exact (h.place hS g1).1
      rw [hix.rd hj]
      simp only [Option.bind_some]
      rw [h.am.rd hk]
      simp only [Option.bind_some]
      rw [show A'.x.rd ((ix j : ℕ) : ℤ) = some (Y (ix j)) from (hA'.x.rd hk).trans (congrArg some (hZ j hj))]
      simp only [Option.bind_some]
      rw [hb.wr hs]
      exact ⟨_, rfl, hb.set _ _⟩)
    (by
      intro j hj j' hj' e
      obtain ⟨g1, g2⟩ := hpos (hlt j hj)
      obtain ⟨g3, g4⟩ := hpos (hlt j' hj')
      simp only [g2, g4] at e
      have := (h.place hS g1).2.2 _ g3 e
      rw [show ix j = ix j' by omega])
  obtain ⟨V', W', hK⟩ := h.upd hS (X := VP.x) (Y := Y) (R' := R) (x' := x') (Z := Y') hx' (by
    intro k hk hk'
    obtain ⟨_, _, v1, v2, v3, v4⟩ := hall.2 k hk hk'
    by_cases h3 : ∃ j < cnt, k = VP.nnz + nMiss VP + ix j
    · obtain ⟨j, hj, rfl⟩ := h3
      obtain ⟨g1, g2⟩ := hpos (hlt j hj)
      rw [← g2, h1 j hj, (v3 _ rfl (hlt j hj)).2]
    · have h4 : Y' (symSlot V π (dest (kktEnts VP VA sigma R) (kktEnts VP VA sigma R)[k] k)) = (kktEnts VP VA sigma R)[k].v := by
        rw [h2 _ fun j hj e => h3 ⟨j, hj, ?_⟩, (h.place hS hk).2.1]
        obtain ⟨g1, g2⟩ := hpos (hlt j hj)
        rw [g2] at e
        exact ((h.place hS g1).2.2 _ hk e).symm
      rw [h4]
      rcases Nat.lt_or_ge k VP.nnz with h5 | h5
      · rw [(v1 h5).1, (v1 h5).2]
      · rcases Nat.lt_or_ge k (VP.nnz + nMiss VP) with h6 | h6
        · exact (v2 h5 h6).symm
        · rcases Nat.lt_or_ge k (VP.nnz + nMiss VP + VA.nnz) with h7 | h7
          · obtain ⟨t, rfl⟩ := Nat.exists_eq_add_of_le h6
            have := v3 t rfl (by omega)
            rw [this.1, this.2, hY t (by omega) fun j hj e => h3 ⟨j, hj, by rw [e]⟩]
          · obtain ⟨t, rfl⟩ := Nat.exists_eq_add_of_le h7
            have := v4 t rfl
            rw [this.1, this.2])
  by_cases h0 : cnt = 0
  · subst h0
    have ex : x' = M.x := by
      have : some M.x = some x' := e
      exact (Option.some.inj this).symm
    refine ⟨M, V', W', ?_, ?_⟩
    · unfold updateKktA; rw [if_pos (by simp)]
    · rw [ex] at hK; exact hK
  · refine ⟨{ M with x := x' }, V', W', ?_, hK⟩
    unfold updateKktA
    rw [if_neg (by omega), e]; rfl

theorem Kept.updR (h : Kept π sigma VP VA R V W M pm am rm) {q : Option (Buf K)} {sc : K} {R' : ℕ → K} (hR : Param2Is q sc VA.m R') :
    ∃ M' V' W', updateKktParam2 M q sc rm VA.m = some M' ∧ Kept π sigma VP VA R' V' W' M' pm am rm := by
  have hall := kktEnts_vals VP VA VP.x VA.x sigma R R'
  have hlen := kktEnts_length VP VA sigma R
  have hpos : ∀ {k}, k < VA.m → ∃ h : VP.nnz + nMiss VP + VA.nnz + k < (kktEnts VP VA sigma R).length,
      posR VP VA k = dest (kktEnts VP VA sigma R) (kktEnts VP VA sigma R)[VP.nnz + nMiss VP + VA.nnz + k] (VP.nnz + nMiss VP + VA.nnz + k) :=
    fun hk => posR_eq hS.hP hS.hA hS.sq hS.cols hk
  have hs : ∀ {j}, j < VA.m → symSlot V π (posR VP VA j) < W.nnz := fun hj => by
    obtain ⟨g1, g2⟩ := hpos hj; rw [g2]; exact (h.place hS g1).1
  have key : ∀ f : ℤ → Buf K → Option (Buf K), (∀ j < VA.m, ∀ b : Buf K, f (j : ℤ) b = b.wr ((symSlot V π (posR VP VA j) : ℕ) : ℤ) (-R' j)) →
      ∃ x' V' W', forI 0 (VA.m : ℤ) f M.x = some x' ∧ Kept π sigma VP VA R' V' W' { M with x := x' } pm am rm := by
    intro f hf
    obtain ⟨x', Y', e, hx', h1, h2⟩ := store_loop (b := M.x) (Z := W.nnz) (C := VA.m) (Y := W.x) h.rep.x
      (f := f) (pos := fun j => symSlot V π (posR VP VA j)) (val := fun j => -R' j)
      (by
        intro j hj b Q hb
        rw [hf j hj, hb.wr (hs hj)]
        exact ⟨_, rfl, hb.set _ _⟩)
      (by
        intro j hj j' hj' e
        obtain ⟨g1, g2⟩ := hpos hj
        obtain ⟨g3, g4⟩ := hpos hj'
        simp only [g2, g4] at e
        have := (h.place hS g1).2.2 _ g3 e
        rw [show j = j' by omega])
    obtain ⟨V', W', hK⟩ := h.upd hS (X := VP.x) (Y := VA.x) (R' := R') (x' := x') (Z := Y') hx' (by
      intro k hk hk'
      obtain ⟨_, _, v1, v2, v3, v4⟩ := hall.2 k hk hk'
      rcases Nat.lt_or_ge k (VP.nnz + nMiss VP + VA.nnz) with h7 | h7
      · have h4 : Y' (symSlot V π (dest (kktEnts VP VA sigma R) (kktEnts VP VA sigma R)[k] k)) = (kktEnts VP VA sigma R)[k].v := by
          rw [h2 _ fun j hj e => ?_, (h.place hS hk).2.1]
          obtain ⟨g1, g2⟩ := hpos hj
          simp only [g2] at e
          have := (h.place hS g1).2.2 _ hk e
          omega
        rw [h4]
        rcases Nat.lt_or_ge k VP.nnz with h5 | h5
        · rw [(v1 h5).1, (v1 h5).2]
        · rcases Nat.lt_or_ge k (VP.nnz + nMiss VP) with h6 | h6
          · exact (v2 h5 h6).symm
          · obtain ⟨t, rfl⟩ := Nat.exists_eq_add_of_le h6
            have := v3 t rfl (by omega)
            rw [this.1, this.2]
      · obtain ⟨t, rfl⟩ := Nat.exists_eq_add_of_le h7
        obtain ⟨g1, g2⟩ := hpos (show t < VA.m by omega)
        rw [← g2, h1 t (by omega), (v4 t rfl).2])
    exact ⟨x', V', W', e, hK⟩
  unfold updateKktParam2
  cases q with
  | none =>
    obtain ⟨x', V', W', e, hK⟩ := key (fun i x => (rm.rd i).bind fun d => x.wr d (-sc)) (by
      intro j hj b
      rw [h.rm.rd hj]
      simp only [Option.bind_some]
      rw [show R' j = sc from hR j hj])
    refine ⟨_, V', W', ?_, hK⟩
    simp only
    rw [e]; rfl
  | some q =>
    obtain ⟨x', V', W', e, hK⟩ := key (fun i x => (rm.rd i).bind fun d => (q.rd i).bind fun v => x.wr d (-v)) (by
      intro j hj b
      rw [h.rm.rd hj]
      simp only [Option.bind_some]
      rw [show q.rd (j : ℤ) = some (R' j) from Holds.rd (show Holds q VA.m R' from hR) hj]
      rfl)
    refine ⟨_, V', W', ?_, hK⟩
    simp only
    rw [e]; rfl

end

/-! ## Building -/

theorem remap_holds {b kp : Buf ℤ} {C Z : ℕ} {f g : ℕ → ℕ} (hb : Holds b C fun k => ((f k : ℕ) : ℤ)) (hk : Holds kp Z fun k => ((g k : ℕ) : ℤ)) (hf : ∀ k < C, f k < Z) :
    ∃ b', remap (some b) C kp = some (some b') ∧ Holds b' C fun k => ((g (f k) : ℕ) : ℤ) := by
  unfold remap
  obtain ⟨b', e, h1⟩ := forI_zero (hi := C) (s := b) (f := fun i b => (b.rd i).bind fun k => (kp.rd k).bind fun d => b.wr i d)
    (fun c b => Holds b C fun k => if k < c then ((g (f k) : ℕ) : ℤ) else ((f k : ℕ) : ℤ)) (hb.congr fun k _ => by simp) (by
      intro c b hc h
      rw [h.rd hc]
      simp only [Option.bind_some, lt_irrefl, if_false]
      rw [hk.rd (hf c hc)]
      simp only [Option.bind_some]
      rw [h.wr hc]
      refine ⟨_, rfl, (h.set _ _).congr fun k hk => ?_⟩
      rw [Function.update_apply]
      by_cases h1 : k = c
      · subst h1; rw [if_pos rfl, if_pos (by omega)]
      · rw [if_neg h1]
        by_cases h2 : k < c
        · rw [if_pos h2, if_pos (by omega)]
        · rw [if_neg h2, if_neg (by omega)])
  refine ⟨b', ?_, h1.congr fun k hk => by rw [if_pos hk]⟩
  simp only
  rw [e]; rfl

theorem MapSet.holds {N : ℕ} {map' : Option (Buf ℤ)} {f : ℕ → ℕ} (h : MapSet (some (Buf.fresh (N : ℤ))) map' (· < N) f) :
    ∃ b, map' = some b ∧ Holds b N fun k => ((f k : ℕ) : ℤ) := by
  obtain ⟨b, e, h1, h2, _⟩ := h.2 _ rfl
  refine ⟨b, e, by rw [h1]; simp, h2⟩

theorem build_aux {P A : Csc K} {p : ℕ → ℕ} {perm : Buf ℤ} (hP : Rep P VP) (hA : Rep A VA) (hsq : VP.m = VP.n) (hn : VA.n = VP.n) (ht : VP.Triu)
    (hperm : Holds perm (VP.n + VA.m) fun k => ((p k : ℕ) : ℤ)) (hlt : ∀ k < VP.n + VA.m, p k < VP.n + VA.m)
    (hinj : ∀ a < VP.n + VA.m, ∀ b < VP.n + VA.m, p a = p b → a = b) (sigma : K) {q : Option (Buf K)} {sc : K} {R : ℕ → K} (hR : Param2Is q sc VA.m R) {π : ℕ → ℕ}
    (hπ : ∀ k < VP.n + VA.m, π k < VP.n + VA.m ∧ p (π k) = k) :
    Sized (VP.n + VA.m) π VP VA ∧ (∀ V W, Laid (VP.n + VA.m) (VP.n + VA.m) (kktEnts VP VA sigma R) V → Laid V.n V.n (pre (symOne V π) V.nnz) W →
      ∃ G pm am rm, buildKKT P A sigma q sc perm = some G ∧ G.PtoKKT = some pm ∧ G.AtoKKT = some am ∧ G.rhotoKKT = some rm ∧ Kept π sigma VP VA R V W G.KKT pm am rm) := by
  have hS : Sized (VP.n + VA.m) π VP VA := ⟨hP.valid, hA.valid, hsq, hn, ht, rfl, fun j hj => (hπ j hj).1, fun i hi j hj e => by
    rw [← (hπ i hi).2, ← (hπ j hj).2, e]⟩
  refine ⟨hS, fun V W hV hW => ?_⟩
  obtain ⟨F, V0, eF, hF, hL0, hi, hx, hnz, mP, mA, mR⟩ := form_aux hP hA hsq hn sigma hR (pm := some (Buf.fresh (VP.nnz : ℤ))) (am := some (Buf.fresh (VA.nnz : ℤ)))
    (rm := some (Buf.fresh (VA.m : ℤ))) (fun b hb => by obtain rfl := (Option.some.inj hb).symm; simp) (fun b hb => by obtain rfl := (Option.some.inj hb).symm; simp)
    (fun b hb => by obtain rfl := (Option.some.inj hb).symm; simp)
  have hFV : Rep F.KKT V := hL0.agree hV (kktEnts_inCols hS.hP hS.hA hS.sq hS.cols) (kktEnts_rows hS.hP hS.hA hS.sq hS.cols) hF
  obtain ⟨hv, htr, hsqV, hVn, hπV, hinjV⟩ := laid_props hS hV
  obtain ⟨pb, eP, hpb⟩ := mP.holds
  obtain ⟨ab, eA, hab⟩ := mA.holds
  obtain ⟨rb, eR, hrb⟩ := mR.holds
  obtain ⟨b, Q, e1, hQ, hQlt, hQP, hPQ⟩ := pinv_aux hperm hlt hinj
  have hQπ : ∀ k < VP.n + VA.m, Q k = π k := fun k hk => by
    have := hQP (π k) (hπ k hk).1
    rwa [(hπ k hk).2] at this
  have hb : PinvIs (some b) V.n π := by
    show Holds b V.n _
    rw [hVn]; exact hQ.congr fun k hk => by rw [hQπ k hk]
  obtain ⟨C, map', W', e2, hC, hW', _, _, _, hmap⟩ := symperm_aux hFV hsqV htr hb hπV (map := some (Buf.fresh (V.nnz : ℤ))) (fun b hb => by obtain rfl := (Option.some.inj hb).symm; simp)
  obtain ⟨kp, e3, hkp⟩ := hmap.holds
  obtain ⟨hlen, hcols, hrows⟩ := perm_props hS hV
  have hCW : Rep C W := hW'.agree hW hcols hrows hC
  obtain ⟨p2, e4, h4⟩ := remap_holds hpb hkp (locates_P hV hS.hP hS.hA hS.sq hS.cols).lt
  obtain ⟨a2, e5, h5⟩ := remap_holds hab hkp (locates_A hV hS.hP hS.hA hS.sq hS.cols).lt
  obtain ⟨r2, e6, h6⟩ := remap_holds hrb hkp (locates_R hV hS.hP hS.hA hS.sq hS.cols).lt
  refine ⟨⟨C, some p2, some a2, some r2⟩, p2, a2, r2, ?_, rfl, rfl, rfl, hV, hW, hCW, h4, h5, h6⟩
  unfold buildKKT
  have en : A.p.rd P.n = some ((VA.nnz : ℕ) : ℤ) := by rw [hP.n, ← hn, ← hA.n]; exact hA.rdNnz
  rw [hP.rdNnz, en]
  simp only [Option.bind_some]
  rw [hA.m, eF]
  simp only [Option.bind_some]
  unfold permuteKKT
  have hKn : F.KKT.n = ((VP.n + VA.m : ℕ) : ℤ) := by rw [hFV.n, hVn]
  rw [hKn, e1]
  simp only [Option.bind_some, eP, eA, eR]
  rw [← hKn, hFV.rdNnz]
  simp only [Option.bind_some]
  rw [e2]
  simp only [Option.bind_some, e3]
  rw [e4, e5, e6]
  rfl

end Osqp.Csc
