import Verif.Vm.QdldlSpec
import Verif.Vm.AdmmLemmas
import Verif.Csc.LinLemmas

/-!
# The linear-system object keeps the matrix of the current data
-/

set_option linter.unusedSectionVars false
namespace Osqp.Vm
open Finset Csc Spec
variable {K : Type*} [Field K] [LinearOrder K] [IsStrictOrderedRing K] {d : Dims} {m n : ℕ}

/-! ## Views and patterns -/

theorem lt_p {V : View K} (h : V.Valid) {j k : ℕ} (hj : j ≤ V.n) : k < V.p j ↔ k < V.nnz ∧ V.col k < j := by
  constructor
  · intro hk
    obtain ⟨c, h1, h2, h3⟩ := h.exists_col hj hk
    exact ⟨h.lt_nnz (by omega) h3, by rw [h.col_eq (by omega) h2 h3]; exact h1⟩
  · rintro ⟨hk, hc⟩
    exact lt_of_lt_of_le (h.col_spec hk).2.2 (h.le hc hj)

/-- The view `V` has the pattern `p` and the values `v`. -/
structure ViewOf (V : View K) (p : Pat m n) (v : Vec K p.nnz) : Prop where
  valid : V.Valid
  m : V.m = m
  n : V.n = n
  nnz : V.nnz = p.nnz
  ent : ∀ k : Fin p.nnz, V.i k = p.row k ∧ V.col k = p.col k ∧ V.x k = v k

theorem stores_view {M : Csc K} {p : Pat m n} {v : Vec K p.nnz} : Stores M p v ↔ ∃ V, Rep M V ∧ ViewOf V p v :=
  ⟨fun ⟨V, h, a, b, c, e⟩ => ⟨V, h, h.valid, a, b, c, e⟩, fun ⟨V, h, g⟩ => ⟨V, h, g.m, g.n, g.nnz, g.ent⟩⟩

theorem ViewOf.withX {V : View K} {p : Pat m n} {v v' : Vec K p.nnz} (h : ViewOf V p v) {X : ℕ → K} (hX : ∀ k : Fin p.nnz, X k = v' k) : ViewOf (V.withX X) p v' :=
  ⟨⟨h.valid.zero, h.valid.mono, h.valid.rows⟩, h.m, h.n, h.nnz, fun k => ⟨(h.ent k).1, (h.ent k).2.1, hX k⟩⟩

/-- Two views of one pattern differ in their values only. -/
theorem ViewOf.rep {V V' : View K} {p : Pat m n} {v v' : Vec K p.nnz} (h : ViewOf V p v) (h' : ViewOf V' p v') {M : Csc K} (hM : Rep M V') : Rep M (V.withX V'.x) := by
  have hp : ∀ j ≤ V.n, V.p j = V'.p j := fun j hj => by
    refine Nat.le_antisymm (Nat.le_of_not_lt fun hlt => ?_) (Nat.le_of_not_lt fun hlt => ?_)
    · obtain ⟨g1, g2⟩ := (lt_p h.valid hj).1 hlt
      have g3 : V'.p j < p.nnz := h.nnz ▸ g1
      have := (lt_p (j := j) h'.valid (by rw [h'.n, ← h.n]; exact hj)).2 ⟨by rw [h'.nnz]; exact g3, by
        rw [(h'.ent ⟨_, g3⟩).2.1, ← (h.ent ⟨_, g3⟩).2.1]; exact g2⟩
      omega
    · obtain ⟨g1, g2⟩ := (lt_p h'.valid (by rw [h'.n, ← h.n]; exact hj)).1 hlt
      have g3 : V.p j < p.nnz := h'.nnz ▸ g1
      have := (lt_p (j := j) h.valid hj).2 ⟨by rw [h.nnz]; exact g3, by
        rw [(h.ent ⟨_, g3⟩).2.1, ← (h'.ent ⟨_, g3⟩).2.1]; exact g2⟩
      omega
  refine ⟨by rw [hM.m, h'.m, ← h.m]; rfl, by rw [hM.n, h'.n, ← h.n]; rfl, ⟨h.valid.zero, h.valid.mono, h.valid.rows⟩, ?_, ?_, ?_⟩
  · have := hM.p
    rw [h'.n, ← h.n] at this
    exact this.congr fun j hj => by show ((V'.p j : ℕ) : ℤ) = ((V.p j : ℕ) : ℤ); rw [hp j (by omega)]
  · have := hM.i
    rw [h'.nnz, ← h.nnz] at this
    exact this.congr fun k hk => by
      have hk' : k < p.nnz := h.nnz ▸ hk
      show (V'.i k : ℤ) = (V.i k : ℤ)
      rw [(h.ent ⟨k, hk'⟩).1, (h'.ent ⟨k, hk'⟩).1]
  · have := hM.x
    rw [h'.nnz, ← h.nnz] at this
    exact this

theorem ViewOf.entry {V : View K} {p : Pat m n} {v : Vec K p.nnz} (h : ViewOf V p v) (i : Fin m) (j : Fin n) : V.entry i j = dense p v i j := by
  have := sum_entries (p := p) h.valid h.nnz (fun c k => if c = j then (if V.i k = i then V.x k else 0) else 0)
    (fun k => if p.row k = i ∧ p.col k = j then v k else 0) (fun k => by
      obtain ⟨e1, e2, e3⟩ := h.ent k
      simp only [e1, e2, e3, Fin.val_inj]
      by_cases a : p.col k = j <;> by_cases b : p.row k = i <;> simp [a, b])
  unfold dense
  rw [← this, Finset.sum_eq_single (j : ℕ)]
  · simp [View.entry]
  · intro c _ hc; simp [hc]
  · intro hj; exact absurd (mem_range.2 (by rw [h.n]; exact j.2)) hj

theorem ViewOf.symEntry {V : View K} {p : Pat n n} {v : Vec K p.nnz} (h : ViewOf V p v) (ht : ∀ k, p.row k ≤ p.col k) (i j : Fin n) : V.symEntry i j = denseSym p v i j := by
  have key : ∀ i j : Fin n, i ≤ j → dense p v i j = denseSym p v i j ∧ dense p v i j = denseSym p v j i := by
    intro i j hij
    unfold dense denseSym
    refine ⟨sum_congr rfl fun k _ => if_congr ⟨Or.inl, ?_⟩ rfl rfl, sum_congr rfl fun k _ => if_congr ⟨Or.inr, ?_⟩ rfl rfl⟩
    · rintro (h | ⟨rfl, rfl⟩)
      · exact h
      · have := le_antisymm hij (ht k); exact ⟨this.symm, this⟩
    · rintro (⟨rfl, rfl⟩ | h)
      · have := le_antisymm hij (ht k); exact ⟨this.symm, this⟩
      · exact h
  unfold View.symEntry
  split_ifs with c
  · rw [h.entry]; exact (key i j c).1
  · rw [h.entry]; exact (key j i (le_of_lt (not_le.1 c))).2

theorem ViewOf.triu {V : View K} {p : Pat n n} {v : Vec K p.nnz} (h : ViewOf V p v) (ht : ∀ k, p.row k ≤ p.col k) : V.Triu := by
  intro j hj k h1 h2
  have hk : k < p.nnz := h.nnz ▸ h.valid.lt_nnz hj h2
  have e := (h.ent ⟨k, hk⟩)
  rw [← h.valid.col_eq hj h1 h2, e.1, e.2.1]
  exact ht ⟨k, hk⟩

/-! ## The stored matrix -/

theorem flat_lt (a : Fin d.n ⊕ Fin d.m) : flat a < d.n + d.m := by
  rcases a with a | a <;> simp [flat] <;> omega

theorem held_flat {ls : LinSys d K} {VP VA : View K} (hP : ViewOf VP d.P ls.P) (hA : ViewOf VA d.A ls.A) (ht : ∀ k, d.P.row k ≤ d.P.col k) (a b : Fin d.n ⊕ Fin d.m) :
    kktFull VP VA ls.sigma (ext ls.param2) (flat a) (flat b) = heldMatrix ls a b := by
  unfold kktFull heldMatrix
  rcases a with a | a <;> rcases b with b | b
  · simp [flat, hP.n, hP.symEntry ht, Matrix.diagonal_apply, Fin.val_inj]
  · simp [flat, hP.n, hA.entry]
  · simp [flat, hP.n, hA.entry]
  · simp only [flat, hP.n, Sum.elim_inr, Matrix.fromBlocks_apply₂₂, Matrix.neg_apply, Matrix.diagonal_apply]
    rw [if_neg (by omega), if_neg (by omega)]
    by_cases h : a = b
    · subst h
      rw [if_pos rfl, if_pos rfl, Nat.add_sub_cancel_left, ext_val]
      unfold LinSys.param2
      cases ls.rho_inv_vec <;> rfl
    · rw [if_neg (fun e => h (Fin.ext (by omega))), if_neg h, neg_zero]

/-- The object `q` belongs to the linear system `ls`. -/
structure QIs (env : Env d K) (p : ℕ → ℕ) (ls : LinSys d K) (q : QMem K) : Prop where
  n : q.lin.n = d.n
  m : q.lin.m = d.m
  sigma : q.sigma = ls.sigma
  tri : ∀ k, d.P.row k ≤ d.P.col k
  args : SolveArgs q.lin.perm q.lin.bp q.lin.sol (d.n + d.m) p
  vec : q.lin.rho_inv_vec.isSome = ls.rho_inv_vec.isSome
  steps : Param2Is q.lin.rho_inv_vec q.lin.rho_inv d.m (ext ls.param2)
  held : ∃ VP VA π V W pm am rm, ViewOf VP d.P ls.P ∧ ViewOf VA d.A ls.A ∧ Sized (d.n + d.m) π VP VA ∧
    (∀ k < d.n + d.m, p (π k) = k ∧ π (p k) = k) ∧ q.PtoKKT = some pm ∧ q.AtoKKT = some am ∧ q.rhotoKKT = some rm ∧
    Csc.Kept π ls.sigma VP VA (ext ls.param2) V W q.KKT pm am rm
  solve : SolvesIn env ls p q.lin.qsolve

theorem kept_kktOf {ls : LinSys d K} {p π : ℕ → ℕ} {VP VA V W : View K} {G : Csc K} {pm am rm : Buf ℤ} (hP : ViewOf VP d.P ls.P) (hA : ViewOf VA d.A ls.A)
    (ht : ∀ k, d.P.row k ≤ d.P.col k) (hS : Sized (d.n + d.m) π VP VA) (hp : ∀ k < d.n + d.m, p (π k) = k ∧ π (p k) = k)
    (h : Csc.Kept π ls.sigma VP VA (ext ls.param2) V W G pm am rm) : KktOf ls p G := by
  obtain ⟨hv, htr, hsqV, hVn, hπV, hinjV⟩ := laid_props hS h.laid
  obtain ⟨g1, g2, _⟩ := symOne_laid hv hsqV htr hπV hinjV h.perm
  refine ⟨W, h.rep, g1, by rw [h.perm.vm, hVn], by rw [h.perm.vn, hVn], fun i hi j hj a b ha hb => ?_⟩
  have := g2 (flat a) (by rw [hVn]; exact flat_lt a) (flat b) (by rw [hVn]; exact flat_lt b)
  rw [← ha, ← hb, (hp i hi).2, (hp j hj).2, ha, hb] at this
  rw [this, (kkt_denote hS.hP hS.hA hS.sq hS.cols hS.triu h.laid).2.2 _ (by rw [hS.size]; exact flat_lt a) _ (by rw [hS.size]; exact flat_lt b)]
  exact held_flat hP hA ht a b

theorem QIs.solverIs {env : Env d K} {p : ℕ → ℕ} {ls : LinSys d K} {q : QMem K} (h : QIs env p ls q) : SolverIs env ls q.lin :=
  ⟨h.n, h.m, h.steps, p, h.args, h.solve⟩

theorem recips_ok {rhov b : Buf K} {m : ℕ} {v : Vec K m} (hr : Arr rhov v) (hb : m ≤ b.size) :
    ∃ b', recips rhov b m = some b' ∧ Holds b' m (ext fun i => 1 / v i) := by
  obtain ⟨c', e, _, h⟩ := fill_holds hb (fun k => 1 / ext v k) (f := fun i c => (rhov.rd i).bind fun v => c.wr i (1 / v)) (fun k c hk => by rw [hr.holds.rd hk]; rfl)
  exact ⟨c', e, h.congr fun k hk => by simp [Csc.ext, hk]⟩

/-! ## New step sizes -/

theorem QIs.updateRho {env : Env d K} {p : ℕ → ℕ} {Q : Qdldl K} (hQ : QdldlIs env p Q) {ls : LinSys d K} {q : QMem K} (h : QIs env p ls q) {b : Option (Buf K)}
    {v : Vec K d.m} {rho : K} (hb : ls.rho_inv_vec.isSome → ∃ c, b = some c ∧ Arr c v) :
    ∃ q', qUpdateRho Q q b rho = some (q', (linsysUpdateRho env ls v rho).2) ∧ QIs env p (linsysUpdateRho env ls v rho).1 q' := by
  obtain ⟨VP, VA, π, V, W, pm, am, rm, hP, hA, hS, hp, e1, e2, e3, hK⟩ := h.held
  have key : ∀ (lin : LinMem K) (ls' : LinSys d K), lin.n = q.lin.n → lin.m = q.lin.m → lin.perm = q.lin.perm → lin.bp = q.lin.bp → lin.sol = q.lin.sol →
      ls'.P = ls.P → ls'.A = ls.A → ls'.sigma = ls.sigma → lin.rho_inv_vec.isSome = ls'.rho_inv_vec.isSome → Param2Is lin.rho_inv_vec lin.rho_inv d.m (ext ls'.param2) →
      ∃ q', (q.rhotoKKT.bind fun map => (updateKktParam2 q.KKT lin.rho_inv_vec lin.rho_inv map lin.m).map fun G =>
        ({ q with KKT := G, lin := { lin with qsolve := (Q.factor G).2 } }, if (Q.factor G).1 < 0 then (1 : ℤ) else 0)) = some (q', if env.factor ls' < 0 then 1 else 0) ∧ QIs env p ls' q' := by
    intro lin ls' a1 a2 a3 a4 a5 a6 a7 a8 a9 a10
    have hm : VA.m = d.m := hA.m
    obtain ⟨M', V', W', e, hK'⟩ := hK.updR hS (q := lin.rho_inv_vec) (sc := lin.rho_inv) (R' := ext ls'.param2) (by rw [hm]; exact a10)
    rw [← a8] at hK'
    have hP' : ViewOf VP d.P ls'.P := a6 ▸ hP
    have hA' : ViewOf VA d.A ls'.A := a7 ▸ hA
    have hk := kept_kktOf hP' hA' h.tri hS hp hK'
    refine ⟨{ q with KKT := M', lin := { lin with qsolve := (Q.factor M').2 } }, ?_, ?_⟩
    · rw [e3]
      simp only [Option.bind_some]
      rw [a2, h.m, ← hm, e, ← hQ.count _ _ hk]
      rfl
    · exact ⟨a1.trans h.n, a2.trans h.m, h.sigma.trans a8.symm, h.tri, by simp only [a3, a4, a5]; exact h.args, a9, a10, ⟨VP, VA, π, V', W', pm, am, rm, hP', hA', hS, hp, e1, e2, e3, hK'⟩,
        hQ.solve _ _ hk⟩
  have hv := h.vec
  have hst := h.steps
  unfold qUpdateRho linsysUpdateRho
  cases hq : q.lin.rho_inv_vec with
  | none =>
    rw [hq] at hv
    cases hl : ls.rho_inv_vec with
    | some w => rw [hl] at hv; simp at hv
    | none =>
      simp only [Option.bind_some]
      exact key ⟨q.lin.qsolve, q.lin.n, q.lin.m, q.lin.perm, q.lin.bp, q.lin.sol, q.lin.rho_inv_vec, 1 / rho⟩ ⟨ls.P, ls.A, ls.sigma, none, 1 / rho⟩ rfl rfl rfl rfl rfl rfl rfl rfl (by simp only [hq]; rfl)
        (by rw [hq]; exact fun t ht => by simp [Csc.ext, ht, LinSys.param2])
  | some r =>
    rw [hq] at hv
    cases hl : ls.rho_inv_vec with
    | none => rw [hl] at hv; simp at hv
    | some w =>
      obtain ⟨c, rfl, hc⟩ := hb (by rw [hl]; rfl)
      rw [hq] at hst
      obtain ⟨b', e, hb'⟩ := recips_ok hc (b := r) hst.1
      simp only [Option.bind_some]
      rw [show recips c r q.lin.m = some b' from by rw [h.m]; exact e]
      simp only [Option.map_some, Option.bind_some]
      exact key ⟨q.lin.qsolve, q.lin.n, q.lin.m, q.lin.perm, q.lin.bp, q.lin.sol, some b', q.lin.rho_inv⟩ ⟨ls.P, ls.A, ls.sigma, some fun i => 1 / v i, ls.rho_inv⟩ rfl rfl rfl rfl rfl rfl rfl rfl rfl hb'

/-! ## New matrix values -/

/-- What `copyValues` leaves: the source at the listed positions, the old values elsewhere. -/
theorem copyValues_spec {q : ℕ} (src : Vec K q) (idx : Option (List ℤ)) : ∀ (cnt : ℕ) (dst v' : Vec K q), copyValues dst src idx cnt = some v' →
    ∃ ix : ℕ → ℕ, (∀ j < cnt, idxAt idx j = some ((ix j : ℕ) : ℤ) ∧ ix j < q) ∧ ∀ k : Fin q, v' k = if ∃ j < cnt, ix j = k then src k else dst k := by
  intro cnt
  unfold copyValues
  induction cnt with
  | zero => intro dst v' h; simp at h; subst h; exact ⟨fun _ => 0, fun j hj => absurd hj (Nat.not_lt_zero j), fun k => by simp⟩
  | succ c ih =>
    intro dst v' h
    rw [List.range_succ, List.foldlM_append] at h
    simp only [List.foldlM_cons, List.foldlM_nil, Option.bind_eq_bind] at h
    obtain ⟨v1, h1, h2⟩ := Option.bind_eq_some_iff.1 h
    obtain ⟨ix, g1, g2⟩ := ih dst v1 h1
    simp only [Option.bind_eq_some_iff] at h2
    obtain ⟨v2, h2, h3⟩ := h2
    simp at h3; subst h3
    cases hi : idxAt idx c with
    | none => rw [hi] at h2; simp at h2
    | some k =>
      rw [hi] at h2
      simp only at h2
      split_ifs at h2 with hk
      unfold writeAt at h2
      rw [dif_pos hk] at h2
      obtain rfl := Option.some.inj h2
      refine ⟨fun j => if j = c then k.toNat else ix j, fun j hj => ?_, fun t => ?_⟩
      · by_cases hjc : j = c
        · subst hjc; simp only [if_true]; exact ⟨by rw [hi, Int.toNat_of_nonneg hk.1], hk.2⟩
        · simp only [if_neg hjc]; exact g1 j (by omega)
      · by_cases ht : t = ⟨k.toNat, hk.2⟩
        · subst ht
          rw [Function.update_self, if_pos ⟨c, by omega, by simp⟩]
        · rw [Function.update_of_ne ht, g2 t]
          refine if_congr ⟨fun ⟨j, hj, e⟩ => ⟨j, by omega, (if_neg (by omega)).trans e⟩, fun ⟨j, hj, e⟩ => ?_⟩ rfl rfl
          by_cases hjc : j = c
          · subst hjc; simp only [if_true] at e; exact absurd (Fin.ext e.symm) ht
          · exact ⟨j, by omega, (if_neg hjc).symm.trans e⟩

theorem idxArr_is {idx : Option (List ℤ)} {b : Option (Buf ℤ)} (h : IdxArr idx b) {cnt : ℕ} {ix : ℕ → ℕ} (hi : ∀ j < cnt, idxAt idx j = some ((ix j : ℕ) : ℤ)) : IdxIs b cnt ix := by
  cases idx with
  | none =>
    cases b with
    | none =>
      intro j hj
      have := hi j hj
      simp only [idxAt, Option.some.injEq, Nat.cast_inj] at this
      exact this.symm
    | some b => exact h.elim
  | some l =>
    cases b with
    | none => exact h.elim
    | some b =>
      have h' : Holds b l.length fun j => l.getD j 0 := h
      have hlt : ∀ j < cnt, j < l.length := fun j hj => by
        have := hi j hj
        simp only [idxAt] at this
        exact (List.getElem?_eq_some_iff.1 this).1
      refine ⟨?_, fun j hj => ?_⟩
      · rcases Nat.eq_zero_or_pos cnt with h0 | h0
        · omega
        · have := hlt (cnt - 1) (by omega); have := h'.1; omega
      · rw [h'.2 j (hlt j hj)]
        have := hi j hj
        simp only [idxAt] at this
        show some (l.getD j 0) = _
        rw [List.getD_eq_getElem?_getD, this]; rfl

theorem QIs.updateMat {env : Env d K} {p : ℕ → ℕ} {Q : Qdldl K} (hQ : QdldlIs env p Q) {ls ls' : LinSys d K} {q : QMem K} (h : QIs env p ls q) {D : Data d K}
    {pi ai : Option (List ℤ)} {pn an : ℕ} {ef : ℤ} (hr : linsysUpdateMat env ls D pi pn ai an = some (ls', ef)) {P A : Csc K} (hP : Stores P d.P D.P) (hA : Stores A d.A D.A)
    {pb ab : Option (Buf ℤ)} (hpi : IdxArr pi pb) (hai : IdxArr ai ab) :
    ∃ q', qUpdateMat Q q P pb pn A ab an = some (q', ef) ∧ QIs env p ls' q' := by
  obtain ⟨VP, VA, π, V, W, pm, am, rm, hVP, hVA, hS, hp, e1, e2, e3, hK⟩ := h.held
  unfold linsysUpdateMat at hr
  cases hcp : copyValues ls.P D.P pi pn with
  | none => rw [hcp] at hr; simp at hr
  | some P' =>
  cases hca : copyValues ls.A D.A ai an with
  | none => rw [hcp, hca] at hr; simp at hr
  | some A' =>
  rw [hcp, hca] at hr
  simp only [Option.some.injEq, Prod.mk.injEq] at hr
  obtain ⟨rfl, rfl⟩ := hr
  obtain ⟨ixp, p1, p2⟩ := copyValues_spec _ _ _ _ _ hcp
  obtain ⟨ixa, a1, a2⟩ := copyValues_spec _ _ _ _ _ hca
  obtain ⟨UP, hUP, hVU⟩ := stores_view.1 hP
  obtain ⟨UA, hUA, hVUA⟩ := stores_view.1 hA
  have rP := hVP.rep hVU hUP
  have rA := hVA.rep hVUA hUA
  obtain ⟨M1, V1, W1, f1, hK1⟩ := hK.updP hS (X := ext P') (Z := UP.x) rP (idxArr_is hpi fun j hj => (p1 j hj).1) (fun j hj => by rw [hVP.nnz]; exact (p1 j hj).2)
    (fun j hj => by
      have hj' := (p1 j hj).2
      rw [show ext P' (ixp j) = P' ⟨_, hj'⟩ from by simp [Csc.ext, hj'], p2, if_pos ⟨j, hj, rfl⟩]
      exact (hVU.ent ⟨_, hj'⟩).2.2)
    (fun k hk hne => by
      have hk' : k < d.P.nnz := hVP.nnz ▸ hk
      rw [show ext P' k = P' ⟨_, hk'⟩ from by simp [Csc.ext, hk'], p2, if_neg (fun ⟨j, hj, e⟩ => hne j hj e)]
      exact ((hVP.ent ⟨_, hk'⟩).2.2).symm)
  have hS1 : Sized (d.n + d.m) π (VP.withX (ext P')) VA := hS.withX (ext P') VA.x
  obtain ⟨M2, V2, W2, f2, hK2⟩ := hK1.updA hS1 (Y := ext A') (Z := UA.x) rA (idxArr_is hai fun j hj => (a1 j hj).1) (fun j hj => by rw [hVA.nnz]; exact (a1 j hj).2)
    (fun j hj => by
      have hj' := (a1 j hj).2
      rw [show ext A' (ixa j) = A' ⟨_, hj'⟩ from by simp [Csc.ext, hj'], a2, if_pos ⟨j, hj, rfl⟩]
      exact (hVUA.ent ⟨_, hj'⟩).2.2)
    (fun k hk hne => by
      have hk' : k < d.A.nnz := hVA.nnz ▸ hk
      rw [show ext A' k = A' ⟨_, hk'⟩ from by simp [Csc.ext, hk'], a2, if_neg (fun ⟨j, hj, e⟩ => hne j hj e)]
      exact ((hVA.ent ⟨_, hk'⟩).2.2).symm)
  have hS2 : Sized (d.n + d.m) π (VP.withX (ext P')) (VA.withX (ext A')) := hS.withX _ _
  have hP' : ViewOf (VP.withX (ext P')) d.P P' := hVP.withX fun k => ext_val _ _
  have hA' : ViewOf (VA.withX (ext A')) d.A A' := hVA.withX fun k => ext_val _ _
  have hk := kept_kktOf (ls := { ls with P := P', A := A' }) hP' hA' h.tri hS2 hp hK2
  refine ⟨{ q with KKT := M2, lin := { q.lin with qsolve := (Q.factor M2).2 } }, ?_, h.n, h.m, h.sigma, h.tri, h.args, h.vec, h.steps,
    ⟨_, _, π, V2, W2, pm, am, rm, hP', hA', hS2, hp, e1, e2, e3, hK2⟩, hQ.solve _ _ hk⟩
  unfold qUpdateMat
  rw [e1, e2, h.sigma]
  simp only [Option.bind_some]
  rw [f1]
  simp only [Option.bind_some]
  rw [f2]
  simp only [Option.map_some]
  rw [hQ.count _ _ hk, hUP.n, hVU.n]

/-! ## Initialisation -/

theorem ldlFactor_val {Q : Qdldl K} {G : Csc K} {n : ℕ} {c : ℤ} (h0 : 0 ≤ Q.etree G) (hc : (Q.factor G).1 = c) :
    (c < n → (ldlFactor Q G n).1 < 0) ∧ (¬ c < n → ldlFactor Q G n = (0, (Q.factor G).2)) := by
  unfold ldlFactor
  rw [if_neg (not_lt.2 h0)]
  dsimp only
  subst hc
  constructor
  · intro h
    split_ifs with a
    · exact a
    · show (-2 : ℤ) < 0
      decide
  · intro h
    rw [if_neg (by omega), if_neg h]

theorem init_ok {env : Env d K} {p : ℕ → ℕ} {Q : Qdldl K} (hQ : QdldlIs env p Q) {perm : Buf ℤ} (hp : PermIs perm (d.n + d.m) p) {P A : Csc K}
    {vP : Vec K d.P.nnz} {vA : Vec K d.A.nnz} (hP : Stores P d.P vP) (hA : Stores A d.A vA) (ht : ∀ k, d.P.row k ≤ d.P.col k) (sigma rho : K) {b : Option (Buf K)}
    {v : Option (Vec K d.m)} (hb : match v, b with | none, none => True | some v, some c => Arr c v | _, _ => False) :
    let ls : LinSys d K := ⟨vP, vA, sigma, v.map fun v i => 1 / v i, 1 / rho⟩
    (env.factor ls < d.n → qInit Q perm P A b sigma rho = some (none, Err.nonCvx)) ∧
    (¬ env.factor ls < d.n → ∃ q, qInit Q perm P A b sigma rho = some (some q, 0) ∧ QIs env p ls q) := by
  intro ls
  obtain ⟨VP, rP, hVP⟩ := stores_view.1 hP
  obtain ⟨VA, rA, hVA⟩ := stores_view.1 hA
  have hsz : VP.n + VA.m = d.n + d.m := by rw [hVP.n, hVA.m]
  obtain ⟨_, π, _, _, h1, h2, h3⟩ := pinv_aux hp.1 hp.2.1 hp.2.2
  obtain ⟨riv, eriv, hvec, hst⟩ : ∃ riv, firstSteps b A.m = some riv ∧
      riv.isSome = ls.rho_inv_vec.isSome ∧ Param2Is riv (1 / rho) d.m (ext ls.param2) := by
    cases b with
    | none =>
      cases v with
      | some v => exact hb.elim
      | none => exact ⟨none, rfl, rfl, fun t ht => by simp [Csc.ext, ht, LinSys.param2, ls]⟩
    | some c =>
      cases v with
      | none => exact hb.elim
      | some v =>
        have hm : A.m = (d.m : ℤ) := by rw [rA.m, hVA.m]
        obtain ⟨b', e, hb'⟩ := recips_ok (b := Buf.fresh (d.m : ℤ)) (show Arr c v from hb) (by simp)
        rw [hm]
        exact ⟨some b', by simp only [firstSteps, e]; rfl, rfl, hb'⟩
  obtain ⟨hS, hB⟩ := build_aux rP rA (hVP.m.trans hVP.n.symm) (hVA.n.trans hVP.n.symm) (hVP.triu ht) (by rw [hsz]; exact hp.1) (by rw [hsz]; exact hp.2.1) (by rw [hsz]; exact hp.2.2)
    sigma (q := riv) (sc := 1 / rho) (R := ext ls.param2) (by rw [hVA.m]; exact hst) (π := π) (by rw [hsz]; exact fun k hk => ⟨h1 k hk, h3 k hk⟩)
  have hL := layout_laid (VP.n + VA.m) (VP.n + VA.m) (kktEnts_inCols (sigma := sigma) (R := ext ls.param2) hS.hP hS.hA hS.sq hS.cols)
  set V := layout (VP.n + VA.m) (VP.n + VA.m) (kktEnts_inCols (sigma := sigma) (R := ext ls.param2) hS.hP hS.hA hS.sq hS.cols)
  obtain ⟨_, hcc, _⟩ := perm_props hS hL
  obtain ⟨G, pm, am, rm, e, e1, e2, e3, hK⟩ := hB V _ hL (layout_laid V.n V.n hcc)
  rw [hsz] at hS
  have hpi : ∀ k < d.n + d.m, p (π k) = k ∧ π (p k) = k := fun k hk => ⟨h3 k hk, h2 k hk⟩
  have hk := kept_kktOf (ls := ls) hVP hVA ht hS hpi hK
  have hPn : P.n = (d.n : ℤ) := by rw [rP.n, hVP.n]
  have hAm : A.m = (d.m : ℤ) := by rw [rA.m, hVA.m]
  unfold qInit
  simp only
  rw [eriv]
  simp only [Option.bind_some]
  rw [e]
  simp only [Option.bind_some]
  obtain ⟨l1, l2⟩ := ldlFactor_val (n := d.n) (hQ.etree _ _ hk) (hQ.count _ _ hk)
  rw [hPn, hAm]
  constructor
  · intro hf
    rw [if_pos (l1 hf)]
  · intro hf
    rw [l2 hf, if_neg (by simp)]
    have hfr : d.n + d.m ≤ (Buf.fresh ((d.n : ℤ) + (d.m : ℤ)) : Buf K).size := by
      show _ ≤ ((d.n : ℤ) + (d.m : ℤ)).toNat
      omega
    refine ⟨_, rfl, rfl, rfl, rfl, ht, ⟨hp, hfr, hfr⟩, hvec, hst, ⟨VP, VA, π, _, _, pm, am, rm, hVP, hVA, hS, hpi, e1, e2, e3, hK⟩, hQ.solve _ _ hk⟩

end Osqp.Vm
