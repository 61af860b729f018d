import Verif.Csc.KktRows

/-!
# In-place updates of the KKT matrix in compressed rows
-/

set_option linter.unusedSectionVars false
namespace Osqp.Csc
open Finset

variable {K : Type*} [Field K] [LinearOrder K] {VP VA V W : View K} {P A : Csc K} {sigma : K} {φ R : ℕ → K}

/-- The data fit together and `P` is an upper triangle. -/
structure Fits (VP VA : View K) : Prop where
  hP : VP.Valid
  hA : VA.Valid
  sq : VP.m = VP.n
  cols : VA.n = VP.n
  triu : VP.Triu

theorem Fits.withX (h : Fits VP VA) (X Y : ℕ → K) : Fits (VP.withX X) (VA.withX Y) :=
  ⟨⟨h.hP.zero, h.hP.mono, h.hP.rows⟩, ⟨h.hA.zero, h.hA.mono, h.hA.rows⟩, h.sq, h.cols, h.triu⟩

section
variable (hF : Fits VP VA)
include hF

theorem rowEnts_map : (entsCsr VP VA).map (·.c) = (rowEnts VP VA sigma φ R).map (·.c) := by
  have h1 := (row_shift hF.hP hF.hA hF.sq hF.cols sigma R).map_c (fun _ _ _ h => h.1)
  have h2 := (rowEnts_same VP VA VP.x VA.x sigma (formShift VP sigma) φ R R).map_c (fun _ _ _ h => h.1)
  exact h1.trans h2

theorem rowEnts_inCols : InCols (VP.n + VA.m) (rowEnts VP VA sigma φ R) := by
  have h1 := (row_shift hF.hP hF.hA hF.sq hF.cols sigma R).inCols (fun _ _ _ h => h.1) (entsCsr_inCols hF.hP hF.hA hF.sq hF.cols)
  exact (rowEnts_same VP VA VP.x VA.x sigma (formShift VP sigma) φ R R).inCols (fun _ _ _ h => h.1) h1

theorem rowEnts_rows : ∀ e ∈ rowEnts VP VA sigma φ R, e.r < VP.n + VA.m := by
  have h1 := (row_shift hF.hP hF.hA hF.sq hF.cols sigma R).rows (fun _ _ _ h => h.2.1) (entsCsr_rows hF.hP hF.hA)
  exact (rowEnts_same VP VA VP.x VA.x sigma (formShift VP sigma) φ R R).rows (fun _ _ _ h => h.2) h1

end

theorem rowAt_P (sigma : K) (φ R : ℕ → K) {k : ℕ} (hk : k < VP.nnz) : ∃ h : nMiss VP + k < (rowEnts VP VA sigma φ R).length,
    (rowEnts VP VA sigma φ R)[nMiss VP + k] = ⟨VP.i k, VP.col k, VP.x k + φ k⟩ :=
  at_len (all := rowEnts VP VA sigma φ R) (es := pre (gM VP sigma) VP.n ++ pre (rP VP φ) k)
    (by unfold rowEnts; rw [pre_drop (rP VP φ) hk, show rP VP φ k = [⟨VP.i k, VP.col k, VP.x k + φ k⟩] from rfl]
        simp only [List.append_assoc, List.singleton_append, List.cons_append, List.nil_append]; rfl)
    (k := nMiss VP + k) (by simp only [List.length_append, rP_length, gM_length, nMiss])

theorem rowAt_A (sigma : K) (φ R : ℕ → K) {k : ℕ} (hk : k < VA.nnz) : ∃ h : nMiss VP + VP.nnz + k < (rowEnts VP VA sigma φ R).length,
    (rowEnts VP VA sigma φ R)[nMiss VP + VP.nnz + k] = blkE VA VP.n 0 false k :=
  at_len (all := rowEnts VP VA sigma φ R) (es := pre (gM VP sigma) VP.n ++ (pre (rP VP φ) VP.nnz ++ pre (blk VA VP.n 0 false) k))
    (by unfold rowEnts; rw [pre_drop (blk VA VP.n 0 false) hk, show blk VA VP.n 0 false k = [blkE VA VP.n 0 false k] from rfl]
        simp only [List.append_assoc, List.singleton_append, List.cons_append, List.nil_append]; rfl)
    (k := nMiss VP + VP.nnz + k) (by simp only [List.length_append, rP_length, gM_length, blk_length, nMiss]; omega)

theorem rowAt_R (sigma : K) (φ R : ℕ → K) {t : ℕ} (ht : t < VA.m) : ∃ h : nMiss VP + VP.nnz + VA.nnz + t < (rowEnts VP VA sigma φ R).length,
    (rowEnts VP VA sigma φ R)[nMiss VP + VP.nnz + VA.nnz + t] = ⟨t + VP.n, t + VP.n, -R t⟩ :=
  at_len (all := rowEnts VP VA sigma φ R) (es := pre (gM VP sigma) VP.n ++ (pre (rP VP φ) VP.nnz ++ (pre (blk VA VP.n 0 false) VA.nnz ++ pre (gR VP.n R) t)))
    (by unfold rowEnts; rw [pre_drop (gR VP.n R) ht, show gR VP.n R t = [⟨t + VP.n, t + VP.n, -R t⟩] from rfl]
        simp only [List.append_assoc, List.singleton_append, List.cons_append, List.nil_append]; rfl)
    (k := nMiss VP + VP.nnz + VA.nnz + t) (by simp only [List.length_append, rP_length, gM_length, blk_length, gR_length, nMiss]; omega)

theorem rowAt_M (sigma : K) (φ R : ℕ → K) {k : ℕ} (hk : k < nMiss VP) : ∃ h : k < (rowEnts VP VA sigma φ R).length, ∃ h' : k < (pre (gM VP sigma) VP.n).length,
    (rowEnts VP VA sigma φ R)[k] = (pre (gM VP sigma) VP.n)[k] := by
  have h' : k < (pre (gM VP sigma) VP.n).length := by rw [gM_length]; exact hk
  refine ⟨by rw [rowEnts_length]; omega, h', ?_⟩
  unfold rowEnts
  rw [List.getElem_append_left h']

/-- The stored matrix and the maps belong to the data; `φ k` has been added to entry `k` of `P`. -/
structure RowKept (sigma : K) (VP VA : View K) (φ R : ℕ → K) (V : View K) (M : Csc K) (pm am rm : Buf ℤ) : Prop where
  fits : Fits VP VA
  laid : Laid (VP.n + VA.m) (VP.n + VA.m) (rowEnts VP VA sigma φ R) V
  rep : Rep M V
  pm : Holds pm VP.nnz fun k => ((rowP VP VA k : ℕ) : ℤ)
  am : Holds am VA.nnz fun k => ((rowA VP VA k : ℕ) : ℤ)
  rm : Holds rm VA.m fun k => ((rowR VP VA k : ℕ) : ℤ)

section
variable (hF : Fits VP VA) (sigma φ R)
include hF

theorem rowP_eq {k : ℕ} (hk : k < VP.nnz) : ∃ h : nMiss VP + k < (rowEnts VP VA sigma φ R).length,
    rowP VP VA k = dest (rowEnts VP VA sigma φ R) (rowEnts VP VA sigma φ R)[nMiss VP + k] (nMiss VP + k) := by
  obtain ⟨h, e⟩ := rowAt_P (VA := VA) sigma φ R hk
  refine ⟨h, ?_⟩
  rw [e, rowP]
  exact dest_congr (rowEnts_map hF) (by simp [blkE]) _

theorem rowA_eq {k : ℕ} (hk : k < VA.nnz) : ∃ h : nMiss VP + VP.nnz + k < (rowEnts VP VA sigma φ R).length,
    rowA VP VA k = dest (rowEnts VP VA sigma φ R) (rowEnts VP VA sigma φ R)[nMiss VP + VP.nnz + k] (nMiss VP + VP.nnz + k) := by
  obtain ⟨h, e⟩ := rowAt_A (VP := VP) sigma φ R hk
  refine ⟨h, ?_⟩
  rw [e, rowA]
  exact dest_congr (rowEnts_map hF) rfl _

theorem rowR_eq {t : ℕ} (ht : t < VA.m) : ∃ h : nMiss VP + VP.nnz + VA.nnz + t < (rowEnts VP VA sigma φ R).length,
    rowR VP VA t = dest (rowEnts VP VA sigma φ R) (rowEnts VP VA sigma φ R)[nMiss VP + VP.nnz + VA.nnz + t] (nMiss VP + VP.nnz + VA.nnz + t) := by
  obtain ⟨h, e⟩ := rowAt_R (VP := VP) sigma φ R ht
  refine ⟨h, ?_⟩
  rw [e, rowR]
  exact dest_congr (rowEnts_map hF) rfl _

end

/-- Places of entries of `P`, `A` and of step sizes. -/
theorem RowKept.places {M : Csc K} {pm am rm : Buf ℤ} (h : RowKept sigma VP VA φ R V M pm am rm) :
    Locates V VP.nnz (rowP VP VA) VP.col VP.i (fun k => VP.x k + φ k) ∧ Locates V VA.nnz (rowA VP VA) (fun k => VA.i k + VP.n) VA.col VA.x ∧
    Locates V VA.m (rowR VP VA) (fun t => t + VP.n) (fun t => t + VP.n) (fun t => -R t) ∧
    (∀ k < VP.nnz, ∀ k' < VA.nnz, rowP VP VA k ≠ rowA VP VA k') ∧ (∀ k < VP.nnz, ∀ t < VA.m, rowP VP VA k ≠ rowR VP VA t) ∧
    (∀ k < VA.nnz, ∀ t < VA.m, rowA VP VA k ≠ rowR VP VA t) := by
  have hc := rowEnts_inCols (sigma := sigma) (φ := φ) (R := R) h.fits
  have hr := rowEnts_rows (sigma := sigma) (φ := φ) (R := R) h.fits
  have key : ∀ k (hk : k < (rowEnts VP VA sigma φ R).length), dest (rowEnts VP VA sigma φ R) (rowEnts VP VA sigma φ R)[k] k < V.nnz := fun k hk => by
    rw [h.laid.nnz hc]; exact dest_lt hc hk
  refine ⟨⟨fun k hk => ?_, fun k hk => ?_, fun k hk => ?_, fun k hk => ?_, fun k hk k' hk' e => ?_⟩, ⟨fun k hk => ?_, fun k hk => ?_, fun k hk => ?_, fun k hk => ?_, fun k hk k' hk' e => ?_⟩,
    ⟨fun k hk => ?_, fun k hk => ?_, fun k hk => ?_, fun k hk => ?_, fun k hk k' hk' e => ?_⟩, fun k hk k' hk' e => ?_, fun k hk k' hk' e => ?_, fun k hk k' hk' e => ?_⟩
  · obtain ⟨g, e⟩ := rowP_eq sigma φ R h.fits hk; rw [e]; exact key _ g
  · obtain ⟨g, e⟩ := rowP_eq sigma φ R h.fits hk; rw [e, h.laid.i _ g, (rowAt_P sigma φ R hk).2]
  · obtain ⟨g, e⟩ := rowP_eq sigma φ R h.fits hk; rw [e, h.laid.col hc hr g, (rowAt_P sigma φ R hk).2]
  · obtain ⟨g, e⟩ := rowP_eq sigma φ R h.fits hk; rw [e, h.laid.x _ g, (rowAt_P sigma φ R hk).2]
  · obtain ⟨g, e1⟩ := rowP_eq sigma φ R h.fits hk; obtain ⟨g', e2⟩ := rowP_eq sigma φ R h.fits hk'
    rw [e1, e2] at e; have := dest_inj g g' e; omega
  · obtain ⟨g, e⟩ := rowA_eq sigma φ R h.fits hk; rw [e]; exact key _ g
  · obtain ⟨g, e⟩ := rowA_eq sigma φ R h.fits hk; rw [e, h.laid.i _ g, (rowAt_A sigma φ R hk).2]; simp [blkE]
  · obtain ⟨g, e⟩ := rowA_eq sigma φ R h.fits hk; rw [e, h.laid.col hc hr g, (rowAt_A sigma φ R hk).2]; simp [blkE]
  · obtain ⟨g, e⟩ := rowA_eq sigma φ R h.fits hk; rw [e, h.laid.x _ g, (rowAt_A sigma φ R hk).2]; simp [blkE]
  · obtain ⟨g, e1⟩ := rowA_eq sigma φ R h.fits hk; obtain ⟨g', e2⟩ := rowA_eq sigma φ R h.fits hk'
    rw [e1, e2] at e; have := dest_inj g g' e; omega
  · obtain ⟨g, e⟩ := rowR_eq sigma φ R h.fits hk; rw [e]; exact key _ g
  · obtain ⟨g, e⟩ := rowR_eq sigma φ R h.fits hk; rw [e, h.laid.i _ g, (rowAt_R sigma φ R hk).2]
  · obtain ⟨g, e⟩ := rowR_eq sigma φ R h.fits hk; rw [e, h.laid.col hc hr g, (rowAt_R sigma φ R hk).2]
  · obtain ⟨g, e⟩ := rowR_eq sigma φ R h.fits hk; rw [e, h.laid.x _ g, (rowAt_R sigma φ R hk).2]
  · obtain ⟨g, e1⟩ := rowR_eq sigma φ R h.fits hk; obtain ⟨g', e2⟩ := rowR_eq sigma φ R h.fits hk'
    rw [e1, e2] at e; have := dest_inj g g' e; omega
  · obtain ⟨g, e1⟩ := rowP_eq sigma φ R h.fits hk; obtain ⟨g', e2⟩ := rowA_eq sigma φ R h.fits hk'
    rw [e1, e2] at e; have := dest_inj g g' e; omega
  · obtain ⟨g, e1⟩ := rowP_eq sigma φ R h.fits hk; obtain ⟨g', e2⟩ := rowR_eq sigma φ R h.fits hk'
    rw [e1, e2] at e; have := dest_inj g g' e; omega
  · obtain ⟨g, e1⟩ := rowA_eq sigma φ R h.fits hk; obtain ⟨g', e2⟩ := rowR_eq sigma φ R h.fits hk'
    rw [e1, e2] at e; have := dest_inj g g' e; omega

/-- New values at the places of the entries give the matrix of the new data. -/
theorem RowKept.upd {M : Csc K} {pm am rm : Buf ℤ} (h : RowKept sigma VP VA φ R V M pm am rm) {X Y ψ R' : ℕ → K} {x' : Buf K} {Z : ℕ → K} (hx : Holds x' V.nnz Z)
    (h1 : ∀ k < VP.nnz, Z (rowP VP VA k) = X k + ψ k) (h2 : ∀ k < VA.nnz, Z (rowA VP VA k) = Y k) (h3 : ∀ t < VA.m, Z (rowR VP VA t) = -R' t)
    (h4 : ∀ u, (∀ k < VP.nnz, rowP VP VA k ≠ u) → (∀ k < VA.nnz, rowA VP VA k ≠ u) → (∀ t < VA.m, rowR VP VA t ≠ u) → Z u = V.x u) :
    RowKept sigma (VP.withX X) (VA.withX Y) ψ R' (V.withX Z) { M with x := x' } pm am rm := by
  have hF := h.fits
  have hF' := hF.withX X Y
  have hall := rowEnts_same VP VA X Y sigma φ ψ R R'
  have hmap := hall.map_c (fun _ _ _ h => h.1)
  have hcs : (entsCsr VP VA).map (·.c) = (entsCsr (VP.withX X) (VA.withX Y)).map (·.c) :=
    (rowEnts_map (sigma := sigma) (φ := φ) (R := R) hF).trans (hmap.trans (rowEnts_map (sigma := sigma) (φ := ψ) (R := R') hF').symm)
  refine ⟨hF', ⟨h.laid.vm, h.laid.vn, fun c hc' => ?_, fun k hk => ?_, fun k hk => ?_⟩, ⟨h.rep.m, h.rep.n, ⟨h.rep.valid.zero, h.rep.valid.mono, h.rep.valid.rows⟩, h.rep.p, h.rep.i, hx⟩,
    h.pm.congr fun k _ => ?_, h.am.congr fun k _ => ?_, h.rm.congr fun k _ => ?_⟩
  · rw [← start_congr hmap]; exact h.laid.p c hc'
  · have hk0 : k < (rowEnts VP VA sigma φ R).length := by rw [hall.1]; exact hk
    have := hall.2 k hk0 hk
    rw [← dest_congr hmap this.1 k, ← this.2]
    exact h.laid.i k hk0
  · have hk0 : k < (rowEnts VP VA sigma φ R).length := by rw [hall.1]; exact hk
    have := hall.2 k hk0 hk
    rw [← dest_congr hmap this.1 k]
    show Z _ = _
    have hlen := rowEnts_length VP VA sigma φ R
    rcases Nat.lt_or_ge k (nMiss VP) with g | g
    · rw [h4 _ (fun k' hk' e => ?_) (fun k' hk' e => ?_) (fun k' hk' e => ?_), h.laid.x k hk0]
      · obtain ⟨_, _, e1⟩ := rowAt_M (VA := VA) sigma φ R g
        obtain ⟨_, _, e2⟩ := rowAt_M (VP := VP.withX X) (VA := VA.withX Y) sigma ψ R' g
        rw [e1, e2]; rfl
      · obtain ⟨g1, e1⟩ := rowP_eq sigma φ R hF hk'
        rw [e1] at e; have := dest_inj g1 hk0 e; omega
      · obtain ⟨g1, e1⟩ := rowA_eq sigma φ R hF hk'
        rw [e1] at e; have := dest_inj g1 hk0 e; omega
      · obtain ⟨g1, e1⟩ := rowR_eq sigma φ R hF hk'
        rw [e1] at e; have := dest_inj g1 hk0 e; omega
    · obtain ⟨a, rfl⟩ := Nat.exists_eq_add_of_le g
      rcases Nat.lt_or_ge a VP.nnz with g' | g'
      · obtain ⟨_, e1⟩ := rowP_eq sigma φ R hF g'
        obtain ⟨_, e2⟩ := rowAt_P (VP := VP.withX X) (VA := VA.withX Y) sigma ψ R' g'
        rw [← e1, h1 a g']
        exact (congrArg Ent.v e2).symm
      · obtain ⟨b, rfl⟩ := Nat.exists_eq_add_of_le g'
        rcases Nat.lt_or_ge b VA.nnz with g2 | g2
        · obtain ⟨_, e1⟩ := rowA_eq sigma φ R hF g2
          obtain ⟨_, e2⟩ := rowAt_A (VP := VP.withX X) (VA := VA.withX Y) sigma ψ R' g2
          simp only [← Nat.add_assoc]
          rw [← e1, h2 b g2]
          refine Eq.trans ?_ (congrArg Ent.v e2).symm
          simp [blkE, View.withX]
        · obtain ⟨t, rfl⟩ := Nat.exists_eq_add_of_le g2
          have ht : t < VA.m := by omega
          obtain ⟨_, e1⟩ := rowR_eq sigma φ R hF ht
          obtain ⟨_, e2⟩ := rowAt_R (VP := VP.withX X) (VA := VA.withX Y) sigma ψ R' ht
          simp only [← Nat.add_assoc]
          rw [← e1, h3 t ht]
          exact (congrArg Ent.v e2).symm
  · unfold rowP; exact congrArg _ (dest_congr hcs rfl _)
  · unfold rowA; exact congrArg _ (dest_congr hcs rfl _)
  · unfold rowR; exact congrArg _ (dest_congr hcs rfl _)

/-- The test of `update_KKT_P` in format 1: entry `k` is the first stored one of column `i k`. -/
def Begins (V : View K) (k : ℕ) : Prop := V.p (V.i k) < V.p (V.i k + 1) ∧ V.p (V.i k) = k

instance (V : View K) (k : ℕ) : Decidable (Begins V k) := by unfold Begins; infer_instance

variable {M : Csc K} {pm am rm : Buf ℤ}

theorem RowKept.updP (h : RowKept sigma VP VA φ R V M pm am rm) {P' : Csc K} {X ψ : ℕ → K} (hP' : Rep P' (VP.withX X)) {idx : Option (Buf ℤ)} {cnt : ℕ} {ix : ℕ → ℕ}
    (hix : IdxIs idx cnt ix) (hlt : ∀ j < cnt, ix j < VP.nnz) (hX : ∀ k < VP.nnz, (∀ j < cnt, ix j ≠ k) → X k = VP.x k)
    (hψ : ∀ j < cnt, ψ (ix j) = if Begins VP (ix j) then sigma else 0) (hψ' : ∀ k < VP.nnz, (∀ j < cnt, ix j ≠ k) → ψ k = φ k) :
    ∃ M' Z, updateKktP M P' idx cnt pm sigma 1 = some M' ∧ RowKept sigma (VP.withX X) VA ψ R (V.withX Z) M' pm am rm := by
  obtain ⟨lP, lA, lR, dPA, dPR, dAR⟩ := h.places
  obtain ⟨x', Y', e, hx', h1, h2⟩ := store_loop (b := M.x) (Z := V.nnz) (C := cnt) (Y := V.x) h.rep.x
    (f := fun j x =>
    (idxRd idx j).bind fun Pidx =>
    (pm.rd Pidx).bind fun Kidx => (P'.x.rd Pidx).bind fun v => (x.wr Kidx v).bind fun x =>
    (P'.i.rd Pidx).bind fun row => (P'.p.rd row).bind fun a => (P'.p.rd (row + 1)).bind fun b =>
    if a < b then (P'.p.rd (row + 0)).bind fun d =>
      if d - 0 = Pidx then (x.rd Kidx).bind fun v => x.wr Kidx (v + sigma) else some x
    else some x) (pos := fun j => rowP VP VA (ix j)) (val := fun j => X (ix j) + if Begins VP (ix j) then sigma else 0)
    (by
      intro j hj b Q hb
      have hk := hlt j hj
      have hs := lP.lt _ hk
      have hrow : VP.i (ix j) < VP.n := h.fits.sq ▸ h.fits.hP.rows _ hk
      rw [hix.rd hj]
      simp only [Option.bind_some]
      rw [h.pm.rd hk]
      simp only [Option.bind_some]
      rw [show P'.x.rd ((ix j : ℕ) : ℤ) = some (X (ix j)) from hP'.x.rd hk]
      simp only [Option.bind_some]
      rw [hb.wr hs]
      simp only [Option.bind_some]
      rw [show P'.i.rd ((ix j : ℕ) : ℤ) = some ((VP.i (ix j) : ℕ) : ℤ) from hP'.i.rd hk]
      simp only [Option.bind_some, add_zero, sub_zero]
      rw [show P'.p.rd ((VP.i (ix j) : ℕ) : ℤ) = some ((VP.p (VP.i (ix j)) : ℕ) : ℤ) from hP'.p.rd (by show _ < VP.n + 1; omega),
        show P'.p.rd (((VP.i (ix j) : ℕ) : ℤ) + 1) = some ((VP.p (VP.i (ix j) + 1) : ℕ) : ℤ) from hP'.p.rd' (by push_cast; ring) (by show _ < VP.n + 1; omega)]
      simp only [Option.bind_some]
      have hb1 := hb.set (rowP VP VA (ix j)) (X (ix j))
      by_cases h3 : VP.p (VP.i (ix j)) < VP.p (VP.i (ix j) + 1)
      · rw [if_pos (by exact_mod_cast h3)]
        by_cases h4 : VP.p (VP.i (ix j)) = ix j
        · rw [if_pos (by exact_mod_cast h4), hb1.rd hs]
          simp only [Option.bind_some, Function.update_self]
          rw [hb1.wr hs, if_pos ⟨h3, h4⟩]
          refine ⟨_, rfl, (hb1.set _ _).congr fun t _ => ?_⟩
          rw [Function.update_idem]
        · rw [if_neg (by exact_mod_cast h4), if_neg (fun h => h4 h.2), add_zero]
          exact ⟨_, rfl, hb1⟩
      · rw [if_neg (by exact_mod_cast h3), if_neg (fun h => h3 h.1), add_zero]
        exact ⟨_, rfl, hb1⟩)
    (by
      intro j hj j' hj' e
      rw [lP.inj _ (hlt j hj) _ (hlt j' hj') e])
  have hK := h.upd (X := X) (Y := VA.x) (ψ := ψ) (R' := R) (x' := x') (Z := Y') hx'
    (by
      intro k hk
      by_cases h3 : ∃ j < cnt, ix j = k
      · obtain ⟨j, hj, rfl⟩ := h3
        rw [h1 j hj, hψ j hj]
      · have h4 : ∀ j < cnt, ix j ≠ k := fun j hj e => h3 ⟨j, hj, e⟩
        rw [h2 _ fun j hj e => h4 j hj (lP.inj _ (hlt j hj) _ hk e), lP.val k hk, hX k hk h4, hψ' k hk h4])
    (by intro k hk; rw [h2 _ fun j hj e => dPA _ (hlt j hj) _ hk e, lA.val k hk])
    (by intro t ht; rw [h2 _ fun j hj e => dPR _ (hlt j hj) _ ht e, lR.val t ht])
    (by intro u g1 _ _; exact h2 u fun j hj => g1 _ (hlt j hj))
  by_cases h0 : cnt = 0
  · subst h0
    have ex : x' = M.x := by
      have : some M.x = some x' := e
      exact (Option.some.inj this).symm
    refine ⟨M, Y', ?_, ?_⟩
    · unfold updateKktP; rw [if_pos (by simp)]
    · rw [ex] at hK; exact hK
  · refine ⟨{ M with x := x' }, _, ?_, hK⟩
    unfold updateKktP
    rw [if_neg (by omega)]
    simp only [one_ne_zero, if_false]
    rw [e]; rfl

theorem RowKept.updA (h : RowKept sigma VP VA φ R V M pm am rm) {A' : Csc K} {Y : ℕ → K} (hA' : Rep A' (VA.withX Y)) {idx : Option (Buf ℤ)} {cnt : ℕ} {ix : ℕ → ℕ}
    (hix : IdxIs idx cnt ix) (hlt : ∀ j < cnt, ix j < VA.nnz) (hY : ∀ k < VA.nnz, (∀ j < cnt, ix j ≠ k) → Y k = VA.x k) :
    ∃ M' Z, updateKktA M A' idx cnt am = some M' ∧ RowKept sigma VP (VA.withX Y) φ R (V.withX Z) M' pm am rm := by
  obtain ⟨lP, lA, lR, dPA, dPR, dAR⟩ := h.places
  obtain ⟨x', Y', e, hx', h1, h2⟩ := store_loop (b := M.x) (Z := V.nnz) (C := cnt) (Y := V.x) h.rep.x
    (f := fun j x =>
    (idxRd idx j).bind fun Aidx =>
    (am.rd Aidx).bind fun Kidx => (A'.x.rd Aidx).bind fun v => x.wr Kidx v) (pos := fun j => rowA VP VA (ix j)) (val := fun j => Y (ix j))
    (by
      intro j hj b Q hb
      have hk := hlt j hj
      rw [hix.rd hj]
      simp only [Option.bind_some]
      rw [h.am.rd hk]
      simp only [Option.bind_some]
      rw [show A'.x.rd ((ix j : ℕ) : ℤ) = some (Y (ix j)) from hA'.x.rd hk]
      simp only [Option.bind_some]
      rw [hb.wr (lA.lt _ hk)]
      exact ⟨_, rfl, hb.set _ _⟩)
    (by
      intro j hj j' hj' e
      rw [lA.inj _ (hlt j hj) _ (hlt j' hj') e])
  have hK := h.upd (X := VP.x) (Y := Y) (ψ := φ) (R' := R) (x' := x') (Z := Y') hx'
    (by intro k hk; rw [h2 _ fun j hj e => dPA _ hk _ (hlt j hj) e.symm, lP.val k hk])
    (by
      intro k hk
      by_cases h3 : ∃ j < cnt, ix j = k
      · obtain ⟨j, hj, rfl⟩ := h3
        rw [h1 j hj]
      · have h4 : ∀ j < cnt, ix j ≠ k := fun j hj e => h3 ⟨j, hj, e⟩
        rw [h2 _ fun j hj e => h4 j hj (lA.inj _ (hlt j hj) _ hk e), lA.val k hk, hY k hk h4])
    (by intro t ht; rw [h2 _ fun j hj e => dAR _ (hlt j hj) _ ht e, lR.val t ht])
    (by intro u _ g1 _; exact h2 u fun j hj => g1 _ (hlt j hj))
  by_cases h0 : cnt = 0
  · subst h0
    have ex : x' = M.x := by
      have : some M.x = some x' := e
      exact (Option.some.inj this).symm
    refine ⟨M, Y', ?_, ?_⟩
    · unfold updateKktA; rw [if_pos (by simp)]
    · rw [ex] at hK; exact hK
  · refine ⟨{ M with x := x' }, _, ?_, hK⟩
    unfold updateKktA
    rw [if_neg (by omega), e]; rfl

theorem RowKept.updR (h : RowKept sigma VP VA φ R V M pm am rm) {q : Option (Buf K)} {sc : K} {R' : ℕ → K} (hR : Param2Is q sc VA.m R') :
    ∃ M' Z, updateKktParam2 M q sc rm VA.m = some M' ∧ RowKept sigma VP VA φ R' (V.withX Z) M' pm am rm := by
  obtain ⟨lP, lA, lR, dPA, dPR, dAR⟩ := h.places
  have key : ∀ f : ℤ → Buf K → Option (Buf K), (∀ j < VA.m, ∀ b : Buf K, f (j : ℤ) b = b.wr ((rowR VP VA j : ℕ) : ℤ) (-R' j)) →
      ∃ x' Z, forI 0 (VA.m : ℤ) f M.x = some x' ∧ RowKept sigma VP VA φ R' (V.withX Z) { M with x := x' } pm am rm := by
    intro f hf
    obtain ⟨x', Y', e, hx', h1, h2⟩ := store_loop (b := M.x) (Z := V.nnz) (C := VA.m) (Y := V.x) h.rep.x
      (f := f) (pos := fun j => rowR VP VA j) (val := fun j => -R' j)
      (by
        intro j hj b Q hb
        rw [hf j hj, hb.wr (lR.lt _ hj)]
        exact ⟨_, rfl, hb.set _ _⟩)
      (by
        intro j hj j' hj' e
        rw [lR.inj _ hj _ hj' e])
    exact ⟨x', _, e, h.upd (X := VP.x) (Y := VA.x) (ψ := φ) (R' := R') (x' := x') (Z := Y') hx'
      (by intro k hk; rw [h2 _ fun j hj e => dPR _ hk _ hj e.symm, lP.val k hk])
      (by intro k hk; rw [h2 _ fun j hj e => dAR _ hk _ hj e.symm, lA.val k hk])
      h1 (by intro u _ _ g1; exact h2 u g1)⟩
  unfold updateKktParam2
  cases q with
  | none =>
    obtain ⟨x', V', e, hK⟩ := key (fun i x => (rm.rd i).bind fun d => x.wr d (-sc)) (by
      intro j hj b
      rw [h.rm.rd hj]
      simp only [Option.bind_some]
      rw [show R' j = sc from hR j hj])
    refine ⟨_, V', ?_, hK⟩
    simp only
    rw [e]; rfl
  | some q =>
    obtain ⟨x', V', e, hK⟩ := key (fun i x => (rm.rd i).bind fun d => (q.rd i).bind fun v => x.wr d (-v)) (by
      intro j hj b
      rw [h.rm.rd hj]
      simp only [Option.bind_some]
      rw [show q.rd (j : ℤ) = some (R' j) from Holds.rd (show Holds q VA.m R' from hR) hj]
      rfl)
    refine ⟨_, V', ?_, hK⟩
    simp only
    rw [e]; rfl

end Osqp.Csc
