import Verif.Csc.KktDenote
import Verif.Csc.Rows

/-!
# In-place updates of the KKT matrix
-/

set_option linter.unusedSectionVars false
namespace Osqp.Csc
open Finset

variable {K : Type*} [Field K] [LinearOrder K] {VP VA V W : View K}

/-! ## Which matrix a list of entries gives -/

theorem Laid.agree {m n : ℕ} {es : List (Ent K)} {V V' : View K} (h : Laid m n es V) (h' : Laid m n es V') (hc : InCols n es) (hr : ∀ e ∈ es, e.r < m) {M : Csc K} (hM : Rep M V) : Rep M V' := by
  have hnz : V.nnz = V'.nnz := by rw [h.nnz hc, h'.nnz hc]
  refine ⟨by rw [hM.m, h.vm, h'.vm], by rw [hM.n, h.vn, h'.vn], h'.valid hc hr, ?_, ?_, ?_⟩
  · rw [h'.vn, ← h.vn]
    refine hM.p.congr fun k hk => ?_
    rw [h.vn] at hk
    rw [h.p k (by omega), h'.p k (by omega)]
  · rw [← hnz]
    refine hM.i.congr fun t ht => ?_
    obtain ⟨k, hk, rfl⟩ := h.pos hc ht
    rw [h.i k hk, h'.i k hk]
  · rw [← hnz]
    refine hM.x.congr fun t ht => ?_
    obtain ⟨k, hk, rfl⟩ := h.pos hc ht
    rw [h.x k hk, h'.x k hk]

theorem at_len {all es rest : List (Ent K)} {e : Ent K} (h : all = es ++ e :: rest) {k : ℕ} (hk : es.length = k) : ∃ h' : k < all.length, all[k] = e := by
  subst hk
  exact ⟨by rw [h]; simp, by simp [h]⟩

section
variable {sigma : K} {R : ℕ → K}

/-- Number of entries put for missing diagonal positions. -/
def nMiss (VP : View K) : ℕ := (pre (miss VP) VP.n).length

theorem kktEnts_length (VP VA : View K) (sigma : K) (R : ℕ → K) : (kktEnts VP VA sigma R).length = VP.nnz + nMiss VP + VA.nnz + VA.m := by
  unfold kktEnts nMiss
  simp only [List.length_append, gP_length, gM_length, blk_length, gR_length]
  omega

variable (hP : VP.Valid) (hA : VA.Valid) (hsq : VP.m = VP.n) (hn : VA.n = VP.n)
include hP hA hsq hn

theorem posP_eq {k : ℕ} (hk : k < VP.nnz) : ∃ h : k < (kktEnts VP VA sigma R).length, posP VP VA k = dest (kktEnts VP VA sigma R) (kktEnts VP VA sigma R)[k] k := by
  have hmap := kktEnts_map (sigma := sigma) (R := R) hP hA hsq hn
  obtain ⟨h, e⟩ := at_len (all := kktEnts VP VA sigma R) (es := pre (gP VP sigma) k) (e := ⟨VP.col k, VP.i k, VP.x k + if DiagLast VP k then sigma else 0⟩)
    (by unfold kktEnts; rw [pre_drop (gP VP sigma) hk, gP]; simp only [List.append_assoc, List.singleton_append, List.cons_append, List.nil_append]; rfl) (gP_length VP sigma k)
  refine ⟨h, ?_⟩
  rw [e, posP]
  exact dest_congr hmap (by simp [blkE]) k

theorem posA_eq {k : ℕ} (hk : k < VA.nnz) : ∃ h : VP.nnz + nMiss VP + k < (kktEnts VP VA sigma R).length,
    posA VP VA k = dest (kktEnts VP VA sigma R) (kktEnts VP VA sigma R)[VP.nnz + nMiss VP + k] (VP.nnz + nMiss VP + k) := by
  have hmap := kktEnts_map (sigma := sigma) (R := R) hP hA hsq hn
  obtain ⟨h, e⟩ := at_len (all := kktEnts VP VA sigma R) (es := pre (gP VP sigma) VP.nnz ++ (pre (gM VP sigma) VP.n ++ pre (blk VA 0 VP.n true) k)) (e := blkE VA 0 VP.n true k)
    (by unfold kktEnts; rw [pre_drop (blk VA 0 VP.n true) hk, show blk VA 0 VP.n true k = [blkE VA 0 VP.n true k] from rfl]; simp only [List.append_assoc, List.singleton_append, List.cons_append, List.nil_append]; rfl)
    (k := VP.nnz + nMiss VP + k) (by simp only [List.length_append, gP_length, gM_length, blk_length, nMiss]; omega)
  refine ⟨h, ?_⟩
  rw [e, posA]
  exact dest_congr hmap rfl _

theorem posR_eq {t : ℕ} (ht : t < VA.m) : ∃ h : VP.nnz + nMiss VP + VA.nnz + t < (kktEnts VP VA sigma R).length,
    posR VP VA t = dest (kktEnts VP VA sigma R) (kktEnts VP VA sigma R)[VP.nnz + nMiss VP + VA.nnz + t] (VP.nnz + nMiss VP + VA.nnz + t) := by
  have hmap := kktEnts_map (sigma := sigma) (R := R) hP hA hsq hn
  obtain ⟨h, e⟩ := at_len (all := kktEnts VP VA sigma R) (es := pre (gP VP sigma) VP.nnz ++ (pre (gM VP sigma) VP.n ++ (pre (blk VA 0 VP.n true) VA.nnz ++ pre (gR VP.n R) t)))
    (e := ⟨t + VP.n, t + VP.n, -R t⟩)
    (by unfold kktEnts; rw [pre_drop (gR VP.n R) ht, gR]; simp only [List.append_assoc, List.singleton_append, List.cons_append, List.nil_append]; rfl)
    (k := VP.nnz + nMiss VP + VA.nnz + t) (by simp only [List.length_append, gP_length, gM_length, blk_length, gR_length, nMiss]; omega)
  refine ⟨h, ?_⟩
  rw [e, posR]
  exact dest_congr hmap rfl _

end

/-- How the values in the list depend on the data. -/
theorem kktEnts_vals (VP VA : View K) (X Y : ℕ → K) (sigma : K) (R R' : ℕ → K) :
    All2 (fun k e e' => e.c = e'.c ∧ e.r = e'.r ∧
      (k < VP.nnz → e.v = VP.x k + (if DiagLast VP k then sigma else 0) ∧ e'.v = X k + (if DiagLast VP k then sigma else 0)) ∧
      (VP.nnz ≤ k → k < VP.nnz + nMiss VP → e'.v = e.v) ∧
      (∀ t, k = VP.nnz + nMiss VP + t → t < VA.nnz → e.v = VA.x t ∧ e'.v = Y t) ∧
      (∀ t, k = VP.nnz + nMiss VP + VA.nnz + t → e.v = -R t ∧ e'.v = -R' t))
      (kktEnts VP VA sigma R) (kktEnts (VP.withX X) (VA.withX Y) sigma R') := by
  unfold kktEnts
  refine All2.append (All2.pre fun k hk => All2.single ?_) (All2.append (All2.pre fun j hj => ?_) (All2.append (All2.pre fun k hk => All2.single ?_) (All2.pre fun t ht => All2.single ?_)))
  · rw [gP_length]
    simp only [Nat.add_zero]
    refine ⟨rfl, rfl, fun _ => ⟨trivial, rfl⟩, fun h _ => by omega, fun t h _ => by omega, fun t h => by omega⟩
  · by_cases hm : Missing VP j
    · rw [show gM VP sigma j = [⟨j, j, sigma⟩] from if_pos hm, show gM (VP.withX X) sigma j = [⟨j, j, sigma⟩] from if_pos hm]
      refine All2.single ?_
      simp only [gP_length, gM_length, Nat.add_zero]
      have : (pre (miss VP) j).length < nMiss VP := by
        unfold nMiss
        rw [pre_drop (miss VP) hj, show miss VP j = [⟨j, j, 0⟩] from if_pos hm]
        simp
      refine ⟨trivial, trivial, fun h => by omega, fun _ _ => trivial, fun t h _ => by omega, fun t h => by omega⟩
    · rw [show gM VP sigma j = [] from if_neg hm, show gM (VP.withX X) sigma j = [] from if_neg hm]
      exact All2.nil _
  · simp only [gP_length, gM_length, blk_length, Nat.add_zero]
    refine ⟨rfl, rfl, fun h => by omega, fun h h' => by unfold nMiss at h'; omega, fun t h _ => ?_, fun t h => by unfold nMiss at h; omega⟩
    obtain rfl : t = k := by unfold nMiss at h; omega
    exact ⟨rfl, rfl⟩
  · simp only [gP_length, gM_length, blk_length, gR_length, Nat.add_zero]
    refine ⟨rfl, rfl, fun h => by omega, fun h h' => by unfold nMiss at h'; omega, fun t' h _ => by unfold nMiss at h; omega, fun t' h => ?_⟩
    obtain rfl : t' = t := by unfold nMiss at h; omega
    exact ⟨rfl, rfl⟩

/-! ## The stored, permuted matrix and its maps -/

/-- The stored matrix and the maps belong to the data: `π` is the inverse of the ordering. -/
structure Kept (π : ℕ → ℕ) (sigma : K) (VP VA : View K) (R : ℕ → K) (V W : View K) (M : Csc K) (pm am rm : Buf ℤ) : Prop where
  laid : Laid (VP.n + VA.m) (VP.n + VA.m) (kktEnts VP VA sigma R) V
  perm : Laid V.n V.n (pre (symOne V π) V.nnz) W
  rep : Rep M W
  pm : Holds pm VP.nnz fun k => ((symSlot V π (posP VP VA k) : ℕ) : ℤ)
  am : Holds am VA.nnz fun k => ((symSlot V π (posA VP VA k) : ℕ) : ℤ)
  rm : Holds rm VA.m fun k => ((symSlot V π (posR VP VA k) : ℕ) : ℤ)

/-- What the data and the ordering must satisfy. -/
structure Sized (N : ℕ) (π : ℕ → ℕ) (VP VA : View K) : Prop where
  hP : VP.Valid
  hA : VA.Valid
  sq : VP.m = VP.n
  cols : VA.n = VP.n
  triu : VP.Triu
  size : VP.n + VA.m = N
  lt : ∀ j < N, π j < N
  inj : ∀ i < N, ∀ j < N, π i = π j → i = j

theorem Sized.withX {N : ℕ} {π : ℕ → ℕ} (h : Sized N π VP VA) (X Y : ℕ → K) : Sized N π (VP.withX X) (VA.withX Y) :=
  ⟨⟨h.hP.zero, h.hP.mono, h.hP.rows⟩, ⟨h.hA.zero, h.hA.mono, h.hA.rows⟩, h.sq, h.cols, h.triu, h.size, h.lt, h.inj⟩

theorem pre_congr {g g' : ℕ → List (Ent K)} : ∀ {N : ℕ}, (∀ k < N, g k = g' k) → pre g N = pre g' N := by
  intro N
  induction N with
  | zero => intro _; rfl
  | succ N ih => intro h; rw [pre_succ, pre_succ, ih fun k hk => h k (by omega), h N (by omega)]

section
variable {N : ℕ} {π : ℕ → ℕ} (hS : Sized N π VP VA) {sigma : K} {R : ℕ → K}
include hS

theorem laid_props (hL : Laid (VP.n + VA.m) (VP.n + VA.m) (kktEnts VP VA sigma R) V) :
    V.Valid ∧ V.Triu ∧ V.m = V.n ∧ V.n = N ∧ (∀ j < V.n, π j < V.n) ∧ (∀ i < V.n, ∀ j < V.n, π i = π j → i = j) := by
  obtain ⟨h1, h2, _⟩ := kkt_denote hS.hP hS.hA hS.sq hS.cols hS.triu hL
  have : V.n = N := by rw [hL.vn, hS.size]
  refine ⟨h1, h2, by rw [hL.vm, hL.vn], this, ?_, ?_⟩
  · rw [this]; exact hS.lt
  · rw [this]; exact hS.inj

theorem perm_props (hL : Laid (VP.n + VA.m) (VP.n + VA.m) (kktEnts VP VA sigma R) V) :
    (∀ k ≤ V.nnz, (pre (symOne V π) k).length = k) ∧ InCols V.n (pre (symOne V π) V.nnz) ∧ (∀ e ∈ pre (symOne V π) V.nnz, e.r < V.n) := by
  obtain ⟨hv, ht, hsq, _, hπ, _⟩ := laid_props hS hL
  have hone : ∀ {k}, k < V.nnz → symOne V π k = [⟨max (π (V.i k)) (π (V.col k)), min (π (V.i k)) (π (V.col k)), V.x k⟩] := fun hk => if_pos (Triu.le hv ht hk)
  have hrow : ∀ {k}, k < V.nnz → V.i k < V.n := fun hk => hsq ▸ hv.rows _ hk
  have hcol : ∀ {k}, k < V.nnz → V.col k < V.n := fun hk => (hv.col_spec hk).1
  refine ⟨?_, ?_, ?_⟩
  · intro k
    induction k with
    | zero => intro _; rfl
    | succ k ih => intro hk; rw [pre_succ, List.length_append, ih (by omega), hone (by omega)]; rfl
  · exact pre_all fun k hk e he => by
      rw [hone hk, List.mem_singleton] at he; rw [he]; exact max_lt (hπ _ (hrow hk)) (hπ _ (hcol hk))
  · exact pre_all fun k hk e he => by
      rw [hone hk, List.mem_singleton] at he; rw [he]; exact lt_of_le_of_lt (min_le_left _ _) (hπ _ (hrow hk))

omit hS in
/-- New values in the permuted matrix. -/
theorem perm_upd (hv : V.Valid) (ht : V.Triu) (hL : Laid V.n V.n (pre (symOne V π) V.nnz) W) {X Z : ℕ → K} (hX : ∀ t < V.nnz, Z (symSlot V π t) = X t) :
    Laid V.n V.n (pre (symOne (V.withX X) π) V.nnz) (W.withX Z) ∧ ∀ k < V.nnz, symSlot (V.withX X) π k = symSlot V π k := by
  have hone : ∀ {k}, k < V.nnz → symOne V π k = [⟨max (π (V.i k)) (π (V.col k)), min (π (V.i k)) (π (V.col k)), V.x k⟩] := fun hk => if_pos (Triu.le hv ht hk)
  have hone' : ∀ {k}, k < V.nnz → symOne (V.withX X) π k = [⟨max (π (V.i k)) (π (V.col k)), min (π (V.i k)) (π (V.col k)), X k⟩] := fun hk => if_pos (Triu.le hv ht hk)
  have hlen : ∀ k ≤ V.nnz, (pre (symOne V π) k).length = k := by
    intro k
    induction k with
    | zero => intro _; rfl
    | succ k ih => intro hk; rw [pre_succ, List.length_append, ih (by omega), hone (by omega)]; rfl
  have hlen' : ∀ k ≤ V.nnz, (pre (symOne (V.withX X) π) k).length = k := by
    intro k
    induction k with
    | zero => intro _; rfl
    | succ k ih => intro hk; rw [pre_succ, List.length_append, ih (by omega), hone' (by omega)]; rfl
  have hpc : All2 (fun k e e' => e.c = e'.c ∧ e.r = e'.r) (pre (symOne V π) V.nnz) (pre (symOne (V.withX X) π) V.nnz) :=
    All2.pre fun k hk => by rw [hone hk, hone' hk]; exact All2.single ⟨rfl, rfl⟩
  have hpm := hpc.map_c (fun _ _ _ h => h.1)
  refine ⟨⟨hL.vm, hL.vn, fun c hc' => ?_, fun k hk => ?_, fun k hk => ?_⟩, fun k hk => ?_⟩
  · rw [← start_congr hpm]; exact hL.p c hc'
  · have hk0 : k < (pre (symOne V π) V.nnz).length := by rw [hpc.1]; exact hk
    have := hpc.2 k hk0 hk
    rw [← dest_congr hpm this.1 k, ← this.2]
    exact hL.i k hk0
  · have hk0 : k < (pre (symOne V π) V.nnz).length := by rw [hpc.1]; exact hk
    have := hpc.2 k hk0 hk
    rw [← dest_congr hpm this.1 k]
    have hkn : k < V.nnz := by rw [hlen _ (le_refl _)] at hk0; exact hk0
    obtain ⟨rest, hs⟩ := pre_split (symOne V π) hkn
    rw [hone hkn] at hs
    obtain ⟨rest', hs'⟩ := pre_split (symOne (V.withX X) π) hkn
    rw [hone' hkn] at hs'
    obtain ⟨_, g1⟩ := at_len hs (hlen k hkn.le)
    obtain ⟨_, g2⟩ := at_len hs' (hlen' k hkn.le)
    rw [g1, g2]
    show Z _ = X k
    rw [← hX k hkn]
    unfold symSlot
    rw [hlen k hkn.le]
  · unfold symSlot
    rw [hlen k hk.le, hlen' k hk.le]
    exact (dest_congr hpm rfl _).symm

/-- New values at the places of the entries give the matrix of the new data. -/
theorem Kept.upd {M : Csc K} {pm am rm : Buf ℤ} (h : Kept π sigma VP VA R V W M pm am rm) {X Y R' : ℕ → K} {x' : Buf K} {Z : ℕ → K} (hx : Holds x' W.nnz Z)
    (hZ : ∀ k (hk : k < (kktEnts VP VA sigma R).length) (hk' : k < (kktEnts (VP.withX X) (VA.withX Y) sigma R').length),
      Z (symSlot V π (dest (kktEnts VP VA sigma R) (kktEnts VP VA sigma R)[k] k)) = (kktEnts (VP.withX X) (VA.withX Y) sigma R')[k].v) :
    ∃ V' W', Kept π sigma (VP.withX X) (VA.withX Y) R' V' W' { M with x := x' } pm am rm := by
  have hall := kktEnts_vals VP VA X Y sigma R R'
  have hc := hall.map_c (fun _ _ _ h => h.1)
  obtain ⟨hv, ht, hsq, hVn, hπ, hinj⟩ := laid_props hS h.laid
  obtain ⟨hperm, hslot⟩ := perm_upd (π := π) (X := fun t => Z (symSlot V π t)) (Z := Z) hv ht h.perm (fun _ _ => rfl)
  refine ⟨V.withX (fun t => Z (symSlot V π t)), W.withX Z, ⟨h.laid.vm, h.laid.vn, fun c hc' => ?_, fun k hk => ?_, fun k hk => ?_⟩,
    hperm, ⟨h.rep.m, h.rep.n, ⟨h.rep.valid.zero, h.rep.valid.mono, h.rep.valid.rows⟩, h.rep.p, h.rep.i, hx⟩, ?_, ?_, ?_⟩
  · rw [← start_congr hc]; exact h.laid.p c hc'
  · have hk0 : k < (kktEnts VP VA sigma R).length := by rw [hall.1]; exact hk
    have := hall.2 k hk0 hk
    rw [← dest_congr hc this.1 k, ← this.2.1]
    exact h.laid.i k hk0
  · have hk0 : k < (kktEnts VP VA sigma R).length := by rw [hall.1]; exact hk
    have := hall.2 k hk0 hk
    rw [← dest_congr hc this.1 k]
    exact hZ k hk0 hk
  · refine h.pm.congr fun k hk => ?_
    have h1 := (locates_P h.laid hS.hP hS.hA hS.sq hS.cols).lt k hk
    have h2 : posP (VP.withX X) (VA.withX Y) k = posP VP VA k := by
      obtain ⟨g1, g2⟩ := posP_eq (sigma := sigma) (R := R) hS.hP hS.hA hS.sq hS.cols hk
      obtain ⟨g3, g4⟩ := posP_eq (sigma := sigma) (R := R') (hS.withX X Y).hP (hS.withX X Y).hA (hS.withX X Y).sq (hS.withX X Y).cols (k := k) hk
      rw [g2, g4]
      exact (dest_congr hc (hall.2 k g1 g3).1 k).symm
    rw [h2, hslot _ h1]
  · refine h.am.congr fun k hk => ?_
    have h1 := (locates_A h.laid hS.hP hS.hA hS.sq hS.cols).lt k hk
    have h2 : posA (VP.withX X) (VA.withX Y) k = posA VP VA k := by
      obtain ⟨g1, g2⟩ := posA_eq (sigma := sigma) (R := R) hS.hP hS.hA hS.sq hS.cols hk
      obtain ⟨g3, g4⟩ := posA_eq (sigma := sigma) (R := R') (hS.withX X Y).hP (hS.withX X Y).hA (hS.withX X Y).sq (hS.withX X Y).cols (k := k) hk
      rw [g2, g4]
      exact (dest_congr hc (hall.2 _ g1 g3).1 _).symm
    rw [h2, hslot _ h1]
  · refine h.rm.congr fun k hk => ?_
    have h1 := (locates_R h.laid hS.hP hS.hA hS.sq hS.cols).lt k hk
    have h2 : posR (VP.withX X) (VA.withX Y) k = posR VP VA k := by
      obtain ⟨g1, g2⟩ := posR_eq (sigma := sigma) (R := R) hS.hP hS.hA hS.sq hS.cols hk
      obtain ⟨g3, g4⟩ := posR_eq (sigma := sigma) (R := R') (hS.withX X Y).hP (hS.withX X Y).hA (hS.withX X Y).sq (hS.withX X Y).cols (t := k) hk
      rw [g2, g4]
      exact (dest_congr hc (hall.2 _ g1 g3).1 _).symm
    rw [h2, hslot _ h1]

/-- Every place of an entry is inside the permuted matrix, and different entries have different places. -/
theorem Kept.place {M : Csc K} {pm am rm : Buf ℤ} (h : Kept π sigma VP VA R V W M pm am rm) {k : ℕ} (hk : k < (kktEnts VP VA sigma R).length) :
    symSlot V π (dest (kktEnts VP VA sigma R) (kktEnts VP VA sigma R)[k] k) < W.nnz ∧
    W.x (symSlot V π (dest (kktEnts VP VA sigma R) (kktEnts VP VA sigma R)[k] k)) = (kktEnts VP VA sigma R)[k].v ∧
    ∀ k' (hk' : k' < (kktEnts VP VA sigma R).length), symSlot V π (dest (kktEnts VP VA sigma R) (kktEnts VP VA sigma R)[k] k) =
      symSlot V π (dest (kktEnts VP VA sigma R) (kktEnts VP VA sigma R)[k'] k') → k = k' := by
  obtain ⟨hv, ht, hsq, hVn, hπ, hinj⟩ := laid_props hS h.laid
  obtain ⟨_, _, hloc⟩ := symOne_laid hv hsq ht hπ hinj h.perm
  have hcols := kktEnts_inCols (sigma := sigma) (R := R) hS.hP hS.hA hS.sq hS.cols
  have hlt : ∀ {k} (hk : k < (kktEnts VP VA sigma R).length), dest (kktEnts VP VA sigma R) (kktEnts VP VA sigma R)[k] k < V.nnz := fun hk => by
    rw [h.laid.nnz hcols]; exact dest_lt hcols hk
  refine ⟨hloc.lt _ (hlt hk), by rw [hloc.val _ (hlt hk), h.laid.x k hk], fun k' hk' e => ?_⟩
  exact dest_inj hk hk' (hloc.inj _ (hlt hk) _ (hlt hk') e)

omit hS in
/-- A loop that stores `val j` at `pos j`. -/
theorem store_loop {b : Buf K} {Z C : ℕ} {Y : ℕ → K} (hb : Holds b Z Y) {f : ℤ → Buf K → Option (Buf K)} {pos : ℕ → ℕ} {val : ℕ → K}
    (hf : ∀ j < C, ∀ b X, Holds b Z X → ∃ b', f (j : ℤ) b = some b' ∧ Holds b' Z (Function.update X (pos j) (val j)))
    (hcons : ∀ j < C, ∀ j' < C, pos j = pos j' → val j = val j') :
    ∃ b' Y', forI 0 (C : ℤ) f b = some b' ∧ Holds b' Z Y' ∧ (∀ j < C, Y' (pos j) = val j) ∧ ∀ t, (∀ j < C, pos j ≠ t) → Y' t = Y t := by
  obtain ⟨b', e, Y', h1, h2, h3⟩ := forI_zero (hi := C) (s := b) (f := f)
    (fun c b => ∃ Y', Holds b Z Y' ∧ (∀ j < c, Y' (pos j) = val j) ∧ ∀ t, (∀ j < c, pos j ≠ t) → Y' t = Y t)
    ⟨Y, hb, fun j hj => absurd hj (Nat.not_lt_zero j), fun _ _ => rfl⟩ (by
      rintro c b hc ⟨Y', h1, h2, h3⟩
      obtain ⟨b', e, h4⟩ := hf c hc b Y' h1
      refine ⟨b', e, _, h4, fun j hj => ?_, fun t ht => ?_⟩
      · rw [Function.update_apply]
        by_cases h5 : pos j = pos c
        · rw [if_pos h5]; exact (hcons j (by omega) c hc h5).symm
        · rw [if_neg h5]
          refine h2 j ?_
          rcases Nat.lt_or_ge j c with h6 | h6
          · exact h6
          · obtain rfl : j = c := by omega
            exact absurd rfl h5
      · rw [Function.update_apply, if_neg (fun h => ht c (by omega) h.symm)]
        exact h3 t fun j hj => ht j (by omega))
  exact ⟨b', Y', e, h1, h2, h3⟩

end

end Osqp.Csc
