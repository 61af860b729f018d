import Verif.Csc.Norms
import Verif.Csc.Validate
import Verif.Csc.Demo
import Verif.Props.Csc
import Verif.Props.Validate
import Verif.Model.Api

/-!
# The raw sparse routines compute what the solver layer assumes

The solver layer (`Model/Mat`, `Model/Api`) sees a sparse matrix as a pattern and a vector of stored values.  Here every raw
routine of `csc_math.c` that the solver calls is proved to compute the corresponding function of that layer, on every matrix
that stores a pattern (`Stores`) and every array that holds a vector (`Arr`), and in particular never to leave its arrays.
This is what allows the theorems about the solver to be read as theorems about the code with arrays.
-/

set_option linter.unusedSectionVars false
namespace Osqp.Csc
open Finset Spec

variable {K : Type*} [Field K] [LinearOrder K] [IsStrictOrderedRing K] {m n : ℕ}

/-- The array `b` holds the vector `v`. -/
def Arr (b : Buf K) (v : Vec K n) : Prop := n ≤ b.size ∧ ∀ k : Fin n, b.cell k = some (v k)

/-- The struct `M` is a well-formed matrix whose stored entries are those of the pattern `p`, in this order, with values `v`. -/
def Stores (M : Csc K) (p : Pat m n) (v : Vec K p.nnz) : Prop :=
  ∃ V : View K, Rep M V ∧ V.m = m ∧ V.n = n ∧ V.nnz = p.nnz ∧
    ∀ k : Fin p.nnz, V.i k = p.row k ∧ V.col k = p.col k ∧ V.x k = v k

/-- A vector as a function on all naturals. -/
def ext (v : Vec K n) (k : ℕ) : K := if h : k < n then v ⟨k, h⟩ else 0

@[simp] theorem ext_val (v : Vec K n) (k : Fin n) : ext v k = v k := by simp [ext]

theorem Arr.holds {b : Buf K} {v : Vec K n} (h : Arr b v) : Holds b n (ext v) :=
  ⟨h.1, fun k hk => by rw [h.2 ⟨k, hk⟩]; simp [ext, hk]⟩

theorem Holds.arr {b : Buf K} {f : ℕ → K} {v : Vec K n} (h : Holds b n f) (e : ∀ k : Fin n, f k = v k) : Arr b v :=
  ⟨h.1, fun k => by rw [h.2 k k.2, e k]⟩

theorem sum_entries {p : Pat m n} {V : View K} (hV : V.Valid) (hn : V.nnz = p.nnz) (g : ℕ → ℕ → K) (f : Fin p.nnz → K)
    (e : ∀ k : Fin p.nnz, g (V.col k) k = f k) : ∑ j ∈ range V.n, ∑ k ∈ Ico (V.p j) (V.p (j + 1)), g j k = ∑ k, f k := by
  rw [← hV.sum_cols g, hn, Finset.sum_range]
  exact sum_congr rfl fun k _ => e k

/-- The pattern of a well-formed matrix. -/
def View.pat (V : View K) (h : V.Valid) : Pat V.m V.n :=
  ⟨V.nnz, fun k => ⟨V.i k, h.rows k k.2⟩, fun k => ⟨V.col k, (h.col_spec k.2).1⟩⟩

/-- Every well-formed matrix stores a pattern. -/
theorem Rep.stores {M : Csc K} {V : View K} (h : Rep M V) : Stores M (V.pat h.valid) (fun k => V.x k) :=
  ⟨V, h, rfl, rfl, rfl, fun _ => ⟨rfl, rfl, rfl⟩⟩

/-- The matrix denoted by the struct is the matrix of the pattern. -/
theorem Stores.entry {M : Csc K} {p : Pat m n} {v : Vec K p.nnz} (h : Stores M p v) :
    ∃ V : View K, Rep M V ∧ ∀ i j, dense p v i j = V.entry i j := by
  obtain ⟨V, hR, hm, hn, hz, he⟩ := h
  refine ⟨V, hR, fun i j => ?_⟩
  have := sum_entries (p := p) hR.valid hz (fun c k => if c = j then (if V.i k = i then V.x k else 0) else 0)
    (fun k => if p.row k = i ∧ p.col k = j then v k else 0) (fun k => by
      obtain ⟨e1, e2, e3⟩ := he k
      simp only [e1, e2, e3, Fin.val_inj]
      by_cases a : p.col k = j <;> by_cases b : p.row k = i <;> simp [a, b])
  unfold dense
  rw [← this, Finset.sum_eq_single (j : ℕ)]
  · simp [View.entry]
  · intro c _ hc; simp [hc]
  · intro hj; exact absurd (mem_range.2 (by rw [hn]; exact j.2)) hj

/-- `csc_Axpy` with alpha = 1, beta = 0 computes `A x`. -/
theorem refine_axpy {M : Csc K} {p : Pat m n} {v : Vec K p.nnz} (h : Stores M p v) {x y : Buf K} {X : Vec K n}
    (hx : Arr x X) (hy : m ≤ y.size) : ∃ y', axpy M x y 1 0 = some y' ∧ Arr y' (spMul p v X) := by
  obtain ⟨V, hR, rfl, rfl, hz, he⟩ := h
  obtain ⟨y', e, h'⟩ := hR.axpy_aux (alpha := 1) (beta := 0) (Y := fun _ => 0) hx.holds hy (.inl rfl)
  refine ⟨y', e, h'.arr fun r => ?_⟩
  rw [if_pos rfl, zero_add, one_mul]
  exact sum_entries hR.valid hz _ _ fun k => by
    obtain ⟨e1, e2, e3⟩ := he k
    simp only [e1, e2, e3, Fin.val_inj, ext_val]

/-- `csc_Atxpy` with alpha = 1, beta = 0 computes `Aᵀ y`. -/
theorem refine_atxpy {M : Csc K} {p : Pat m n} {v : Vec K p.nnz} (h : Stores M p v) {x y : Buf K} {X : Vec K m}
    (hx : Arr x X) (hy : n ≤ y.size) : ∃ y', atxpy M x y 1 0 = some y' ∧ Arr y' (spMulT p v X) := by
  obtain ⟨V, hR, rfl, rfl, hz, he⟩ := h
  obtain ⟨y', e, h'⟩ := hR.atxpy_aux (alpha := 1) (beta := 0) (Y := fun _ => 0) hx.holds hy (.inl rfl)
  refine ⟨y', e, h'.arr fun r => ?_⟩
  rw [if_pos rfl, zero_add, one_mul]
  exact sum_entries hR.valid hz _ _ fun k => by
    obtain ⟨e1, e2, e3⟩ := he k
    simp only [e1, e2, e3, Fin.val_inj, ext_val]

/-- `csc_Axpy_sym_triu` with alpha = 1, beta = 0 computes the product with the symmetric matrix. -/
theorem refine_axpy_sym {M : Csc K} {p : Pat n n} {v : Vec K p.nnz} (h : Stores M p v) {x y : Buf K} {X : Vec K n}
    (hx : Arr x X) (hy : n ≤ y.size) : ∃ y', axpySymTriu M x y 1 0 = some y' ∧ Arr y' (symMul p v X) := by
  obtain ⟨V, hR, hm, rfl, hz, he⟩ := h
  obtain ⟨y', e, h'⟩ := hR.axpySym_aux hm (alpha := 1) (beta := 0) (Y := fun _ => 0) hx.holds hy (.inl rfl)
  refine ⟨y', e, h'.arr fun r => ?_⟩
  rw [if_pos rfl, zero_add, one_mul]
  exact sum_entries hR.valid hz (fun j k => symContrib V (ext X) j k r) _ fun k => by
    obtain ⟨e1, e2, e3⟩ := he k
    simp only [symContrib, e1, e2, e3, Fin.val_inj, ext_val, ne_eq]

theorem mx_fold {N : ℕ} (x : ℕ → K) (hit : ℕ → Prop) [DecidablePred hit] (v : Fin N → K) (c : Fin N → Prop) [DecidablePred c]
    (e : ∀ k : Fin N, x k = v k) (ec : ∀ k : Fin N, hit k ↔ c k) :
    mx x hit N = (List.finRange N).foldl (fun a k => if c k then cMax (cAbs (v k)) a else a) 0 := by
  induction N with
  | zero => rfl
  | succ N ih =>
    rw [List.finRange_succ_last, List.foldl_append, List.foldl_map, List.foldl_cons, List.foldl_nil,
      ← ih (fun k => v k.castSucc) (fun k => c k.castSucc) (fun k => e k.castSucc) (fun k => ec k.castSucc), mx, ← e (Fin.last N)]
    simp only [← ec (Fin.last N), Fin.val_last, cMax_eq, cAbs_eq]

/-- `csc_col_norm_inf`. -/
theorem refine_col_norm {M : Csc K} {p : Pat m n} {v : Vec K p.nnz} (h : Stores M p v) {E : Buf K} (hs : n ≤ E.size) :
    ∃ E', colNormInf M E = some E' ∧ Arr E' (spColNorm p v) := by
  obtain ⟨V, hR, rfl, rfl, hz, he⟩ := h
  obtain ⟨E', e, h'⟩ := hR.colNorm_aux hs
  refine ⟨E', e, h'.arr fun c => ?_⟩
  rw [hz]
  exact mx_fold _ _ _ _ (fun k => (he k).2.2) (fun k => by rw [(he k).2.1, Fin.val_inj])

/-- `csc_row_norm_inf`. -/
theorem refine_row_norm {M : Csc K} {p : Pat m n} {v : Vec K p.nnz} (h : Stores M p v) {E : Buf K} (hs : m ≤ E.size) :
    ∃ E', rowNormInf M E = some E' ∧ Arr E' (spRowNorm p v) := by
  obtain ⟨V, hR, rfl, rfl, hz, he⟩ := h
  obtain ⟨E', e, h'⟩ := hR.rowNorm_aux hs
  refine ⟨E', e, h'.arr fun c => ?_⟩
  rw [hz]
  exact mx_fold _ _ _ _ (fun k => (he k).2.2) (fun k => by rw [(he k).1, Fin.val_inj])

theorem Stores.withX {M : Csc K} {p : Pat m n} {V : View K} (hR : Rep M V) (hm : V.m = m) (hn : V.n = n) (hz : V.nnz = p.nnz)
    {v v' : Vec K p.nnz} (he : ∀ k : Fin p.nnz, V.i k = p.row k ∧ V.col k = p.col k ∧ V.x k = v k)
    {x' : Buf K} {X : ℕ → K} (hx : Holds x' V.nnz X) (e : ∀ k : Fin p.nnz, X k = v' k) : Stores { M with x := x' } p v' :=
  ⟨_, hR.withX hx, hm, hn, hz, fun k => ⟨(he k).1, (he k).2.1, e k⟩⟩

/-- `csc_scale`. -/
theorem refine_scale {M : Csc K} {p : Pat m n} {v : Vec K p.nnz} (h : Stores M p v) (sc : K) :
    ∃ M', scale M sc = some M' ∧ Stores M' p (spScale v sc) := by
  obtain ⟨V, hR, hm, hn, hz, he⟩ := h
  unfold scale
  rw [hR.rdNnz]
  simp only [Option.bind_some]
  obtain ⟨x', e, h'⟩ := map_holds (n := V.nnz) hR.x (fun _ v => v * sc) (f := fun i x => (x.rd i).bind fun a => x.wr i (a * sc))
    (fun k b v _ e _ => by rw [e]; rfl)
  rw [e]
  exact ⟨_, rfl, Stores.withX hR hm hn hz he h' fun k => by simp only [(he k).2.2, spScale]⟩

/-- `csc_lmult_diag`. -/
theorem refine_lmult {M : Csc K} {p : Pat m n} {v : Vec K p.nnz} (h : Stores M p v) {d : Buf K} {D : Vec K m} (hd : Arr d D) :
    ∃ M', lmultDiag M d = some M' ∧ Stores M' p (spLmult p v D) := by
  obtain ⟨V, hR, rfl, hn, hz, he⟩ := h
  unfold lmultDiag
  obtain ⟨x', e, h'⟩ := hR.mulEach (body := fun _ i x => (x.rd i).bind fun a => (M.i.rd i).bind fun r => (d.rd r).bind fun v => x.wr i (a * v))
    (fun _ k => ext D (V.i k)) (fun j k x v hj hk e => by
      rw [e, hR.rdI hk]; simp only [Option.bind_some]; rw [hd.holds.rd (hR.valid.rows k hk)]; rfl)
  rw [e]
  exact ⟨_, rfl, Stores.withX hR rfl hn hz he h' fun k => by simp only [(he k).2.2, (he k).1, ext_val, spLmult]⟩

/-- `csc_rmult_diag`. -/
theorem refine_rmult {M : Csc K} {p : Pat m n} {v : Vec K p.nnz} (h : Stores M p v) {d : Buf K} {D : Vec K n} (hd : Arr d D) :
    ∃ M', rmultDiag M d = some M' ∧ Stores M' p (spRmult p v D) := by
  obtain ⟨V, hR, hm, rfl, hz, he⟩ := h
  unfold rmultDiag
  obtain ⟨x', e, h'⟩ := hR.mulEach (body := fun j i x => (x.rd i).bind fun a => (d.rd j).bind fun v => x.wr i (a * v))
    (fun j _ => ext D j) (fun j k x v hj hk e => by
      rw [e, hd.holds.rd hj]; rfl)
  rw [e]
  exact ⟨_, rfl, Stores.withX hR hm rfl hz he h' fun k => by simp only [(he k).2.2, (he k).2.1, ext_val, spRmult]⟩

/-! ## Value updates -/

theorem buf_rd {α : Type*} (l : List α) (i : ℕ) : (Demo.buf l).rd (i : ℤ) = l[i]? := by
  unfold Buf.rd Demo.buf
  by_cases h : i < l.length
  · simp [h]
  · simp [h]

/-- A C loop and a fold that agree round by round agree. -/
theorem forGo_sim {S T : Type*} (R : S → T → Prop) {f : ℤ → S → Option S} {g : T → ℕ → Option T}
    (step : ∀ (i : ℕ) s t, R s t → (∀ t', g t i = some t' → ∃ s', f i s = some s' ∧ R s' t') ∧ (g t i = none → f i s = none)) :
    ∀ (c lo : ℕ) s t, R s t →
      (∀ t', (List.range' lo c).foldlM g t = some t' → ∃ s', forGo f c lo s = some s' ∧ R s' t') ∧
      ((List.range' lo c).foldlM g t = none → forGo f c lo s = none) := by
  intro c
  induction c with
  | zero => intro lo s t h; exact ⟨fun t' e => ⟨s, rfl, by simpa using (Option.some.inj e) ▸ h⟩, fun e => by simp at e⟩
  | succ c ih =>
    intro lo s t h
    obtain ⟨h1, h2⟩ := step lo s t h
    rw [List.range'_succ]
    simp only [List.foldlM_cons, Option.bind_eq_bind, forGo]
    cases hg : g t lo with
    | none => rw [h2 hg]; exact ⟨fun t' e => by simp at e, fun _ => rfl⟩
    | some t1 =>
      obtain ⟨s1, e1, r1⟩ := h1 t1 hg
      rw [e1]
      simp only [Option.bind_some]
      have := ih (lo + 1) s1 t1 r1
      push_cast at this
      exact this

theorem wr_sim {q : ℕ} {x : Buf K} {v : Vec K q} (hx : Arr x v) (hs : x.size = q) (k : ℤ) (a : K) :
    (∀ v', writeAt v k a = some v' → ∃ x', x.wr k a = some x' ∧ Arr x' v' ∧ x'.size = q) ∧ (writeAt v k a = none → x.wr k a = none) := by
  unfold writeAt Buf.wr
  by_cases h : 0 ≤ k ∧ k.toNat < q
  · have h' : 0 ≤ k ∧ k < (x.size : ℤ) := ⟨h.1, by omega⟩
    rw [dif_pos h, if_pos h']
    refine ⟨fun v' e => ⟨_, rfl, ⟨by simp [hs], fun t => ?_⟩, hs⟩, fun e => by simp at e⟩
    rw [← Option.some.inj e, Buf.set_cell]
    by_cases ht : (t : ℕ) = k.toNat
    · have : t = ⟨k.toNat, h.2⟩ := Fin.ext ht
      rw [if_pos ht, this]; simp
    · have : t ≠ ⟨k.toNat, h.2⟩ := fun e => ht (congrArg Fin.val e)
      rw [if_neg ht, hx.2 t, Function.update_of_ne this]
  · have h' : ¬ (0 ≤ k ∧ k < (x.size : ℤ)) := fun a => h ⟨a.1, by omega⟩
    rw [dif_neg h, if_neg h']
    exact ⟨fun v' e => by simp at e, fun _ => rfl⟩

/-- **C24**, **C53** `csc_update_values` on an array of exactly the stored values: the raw code has defined behaviour exactly when
the solver layer says so, and then the array holds the updated values. -/
theorem refine_update_values {q : ℕ} {Mx : Buf K} {v : Vec K q} (hx : Arr Mx v) (hsz : Mx.size = q) (new : List K)
    (idx : Option (List ℤ)) (cnt : ℕ) :
    (∀ v', Osqp.updateValues v new idx cnt = some v' →
      ∃ x', updateValues Mx (Demo.buf new) (idx.map Demo.buf) cnt = some x' ∧ Arr x' v' ∧ x'.size = q) ∧
    (Osqp.updateValues v new idx cnt = none → updateValues Mx (Demo.buf new) (idx.map Demo.buf) cnt = none) := by
  unfold Osqp.updateValues updateValues
  rw [List.range_eq_range']
  cases idx with
  | none =>
    simp only [Option.map_none, forI, sub_zero, Int.toNat_natCast]
    refine forGo_sim (fun (x : Buf K) v => Arr x v ∧ x.size = q) (fun i x v h => ?_) cnt 0 Mx v ⟨hx, hsz⟩
    simp only [idxAt, buf_rd]
    cases new[i]? with
    | none => exact ⟨fun v' e => by simp at e, fun _ => rfl⟩
    | some a => exact wr_sim h.1 h.2 i a
  | some ix =>
    simp only [Option.map_some, forI, sub_zero, Int.toNat_natCast]
    refine forGo_sim (fun (x : Buf K) v => Arr x v ∧ x.size = q) (fun i x v h => ?_) cnt 0 Mx v ⟨hx, hsz⟩
    simp only [idxAt, buf_rd]
    cases ix[i]? with
    | none => exact ⟨fun v' e => by simp at e, fun _ => rfl⟩
    | some k =>
      cases new[i]? with
      | none => exact ⟨fun v' e => by simp at e, fun _ => rfl⟩
      | some a => exact wr_sim h.1 h.2 k a

/-! ## Data validation -/

/-- **C28** On data stored in arrays of the right sizes the raw check accepts exactly what the solver layer's check accepts. -/
theorem refine_validate {d : Dims} {D : Data d K} {P A : Csc K} {q l u : Buf K} (hP : Stores P d.P D.P) (hA : Stores A d.A D.A)
    (hl : Arr l D.l) (hu : Arr u D.u) :
    validateData (some P) (some q) (some A) (some l) (some u) d.m d.n = some (validateDataBad D) := by
  obtain ⟨V, hR, hm, hn, hz, he⟩ := hP
  obtain ⟨W, hW, hm', hn', -, -⟩ := hA
  obtain ⟨b, e, hb⟩ := validate_spec (P := some P) (q := some q) (A := some A) (l := some l) (u := some u) (m := d.m) (n := d.n)
    (start := fun j => (V.p j.toNat : ℤ)) (row := fun k => (V.i k.toNat : ℤ)) (lv := fun j => ext D.l j.toNat) (uv := fun j => ext D.u j.toNat)
    (by
      intro M hM _ _
      obtain rfl := Option.some.inj hM
      refine ⟨fun j h0 h1 => hR.p.rd' (by omega) (by omega), fun j h0 h1 k h2 h3 => hR.i.rd' (by omega) ?_⟩
      have : (j + 1).toNat = j.toNat + 1 := by omega
      rw [this] at h3
      exact hR.valid.lt_nnz (j := j.toNat) (by omega) (by omega))
    (fun j h0 h1 => hl.holds.rd' (by omega) (by omega)) (fun j h0 h1 => hu.holds.rd' (by omega) (by omega))
  rw [e]
  congr 1
  rw [Bool.eq_iff_iff, hb]
  unfold BadData validateDataBad
  simp only [Bool.or_eq_true, decide_eq_true_eq, List.any_eq_true, List.mem_finRange, true_and]
  constructor
  · rintro (h | h | h | h | h | ⟨M, h, h'⟩ | ⟨j, k, h0, h1, h2, h3, h4⟩ | ⟨M, h, h'⟩ | ⟨j, h0, h1, h2⟩)
    · simp at h
    · simp at h
    · simp at h
    · exact .inl (.inl (by omega))
    · omega
    · obtain rfl := Option.some.inj h
      have := hR.m; have := hR.n; omega
    · have e1 : (j + 1).toNat = j.toNat + 1 := by omega
      rw [e1] at h3
      have hk : k.toNat < V.nnz := hR.valid.lt_nnz (j := j.toNat) (by omega) (by omega)
      obtain ⟨a1, a2, -⟩ := he ⟨k.toNat, by omega⟩
      have hc := hR.valid.col_eq (j := j.toNat) (k := k.toNat) (by omega) (by omega) (by omega)
      refine .inl (.inr ⟨⟨k.toNat, by omega⟩, ?_⟩)
      simp only at a1 a2
      rw [gt_iff_lt, Fin.lt_def, ← a1, ← a2, hc]
      omega
    · obtain rfl := Option.some.inj h
      have := hW.m; have := hW.n; omega
    · refine .inr ⟨⟨j.toNat, by omega⟩, ?_⟩
      have hj : j.toNat < d.m := by omega
      simpa [ext, hj] using h2
  · rintro ((h | ⟨k, h⟩) | ⟨j, h⟩)
    · exact .inr <| .inr <| .inr <| .inl (by omega)
    · refine .inr <| .inr <| .inr <| .inr <| .inr <| .inr <| .inl ⟨(d.P.col k : ℕ), (k : ℕ), by omega, by omega, ?_⟩
      obtain ⟨a1, a2, -⟩ := he k
      obtain ⟨b1, b2, b3⟩ := hR.valid.col_spec (k := k) (by omega)
      rw [a2] at b2 b3
      have e1 : (((d.P.col k : ℕ) : ℤ) + 1).toNat = (d.P.col k : ℕ) + 1 := by omega
      simp only [e1, Int.toNat_natCast]
      rw [gt_iff_lt, Fin.lt_def] at h
      omega
    · refine .inr <| .inr <| .inr <| .inr <| .inr <| .inr <| .inr <| .inr ⟨(j : ℕ), by omega, by omega, ?_⟩
      simpa using h

/-! ## Concrete cases -/

example : Stores Demo.rect (Demo.rectV.pat Demo.rect_rep.valid) (fun k => Demo.rectV.x k) := Demo.rect_rep.stores
example : Stores Demo.triu (Demo.triuV.pat Demo.triu_rep.valid) (fun k => Demo.triuV.x k) := Demo.triu_rep.stores
example : Arr (Demo.buf [(1 : ℚ), 2, 3]) (![1, 2, 3] : Vec ℚ 3) := ⟨le_refl _, by decide⟩
example : ∃ y', axpySymTriu Demo.triu (Demo.buf [(1 : ℚ), 2, 3]) (Demo.buf [0, 0, 0]) 1 0 = some y' ∧
    Arr y' (symMul (Demo.triuV.pat Demo.triu_rep.valid) (fun k => Demo.triuV.x k) (![1, 2, 3] : Vec ℚ 3)) :=
  refine_axpy_sym (n := 3) Demo.triu_rep.stores ⟨le_refl _, by decide⟩ (by decide)
/-- An update with a repeated index (the last value wins) and one with an index outside the array. -/
example : (Osqp.updateValues (![1, 2, 3] : Vec ℚ 3) [7, 8] (some [2, 2]) 2).map (fun v => v 2) = some 8 ∧
    Osqp.updateValues (![1, 2, 3] : Vec ℚ 3) [7, 8] (some [0, 3]) 2 = none := by constructor <;> decide +kernel

end Osqp.Csc
