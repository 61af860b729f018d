import Verif.Amd.Ghost

/-!
# The quotient graph

`Core` is what holds of the lists throughout a round. `me` is the pivot (or -1 between the rounds), `U` the variables of the new element not yet updated, `D` those that are.
-/

namespace Osqp.Amd
open Csc Finset
set_option linter.unusedSectionVars false

structure Core (n iwlen L0 lemax pfree me nel : ℤ) (M : Mem) (D U : Finset ℤ) : Prop where
  fP : Full M.Pe n
  fL : Full M.Len n
  fNv : Full M.Nv n
  fE : Full M.Elen n
  fW : Full M.W n
  fD : Full M.Degree n
  fI : Full M.Iw pfree
  sI : (M.Iw.size : ℤ) = iwlen
  pf : 0 ≤ pfree ∧ pfree ≤ iwlen
  rng : ∀ p, 0 ≤ p → p < pfree → 0 ≤ M.Iw p ∧ M.Iw p < n
  len : ∀ j, 0 ≤ j → j < n → 0 ≤ M.Pe j → j ≠ me → 1 ≤ M.Len j
  le : ∀ j, 0 ≤ j → j < n → 0 ≤ M.Pe j → M.Pe j + M.Len j ≤ pfree
  disj : ∀ j k, 0 ≤ j → j < n → 0 ≤ k → k < n → j ≠ k → 0 ≤ M.Pe j → 0 ≤ M.Pe k → M.Pe j + M.Len j ≤ M.Pe k ∨ M.Pe k + M.Len k ≤ M.Pe j
  bud : room n M.Pe M.Len ≤ L0
  iw : L0 + n ≤ iwlen
  kvar : ∀ x, isVar n M x → M.Nv x ≠ 0 ∧ 0 ≤ M.Pe x ∧ M.W x ≠ 0 ∧ M.Elen x ≤ M.Len x ∧ 0 ≤ M.Degree x
  knv : ∀ x, isVar n M x → (M.Nv x < 0 ↔ x ∈ D ∨ x ∈ U)
  kelt : ∀ x, 0 ≤ x → x < n → M.Elen x < -1 → x ≠ me → 0 < M.Nv x ∧ ((0 ≤ M.Pe x ∧ M.W x ≠ 0 ∧ 0 ≤ M.Degree x ∧ M.Degree x ≤ lemax) ∨ (M.Pe x < 0 ∧ M.W x = 0))
  kgone : ∀ x, 0 ≤ x → x < n → M.Elen x = -1 → M.Nv x = 0 ∧ M.Pe x < 0
  eE : ∀ x e, isVar n M x → inE M x e → 0 ≤ e ∧ e < n ∧ M.Elen e < -1
  nodup : ∀ x, isVar n M x → ∀ k l, 0 ≤ k → k < M.Elen x → 0 ≤ l → l < M.Elen x → ent M x k = ent M x l → k = l
  eMe : ∀ x, isVar n M x → (inE M x me ↔ x ∈ D)
  eLive : ∀ x e, isVar n M x → x ∉ U → inE M x e → 0 ≤ M.Pe e
  vV : ∀ x y, isVar n M x → inV M x y → -1 ≤ M.Elen y ∨ (x ∈ U ∧ y = me)
  vD : ∀ x y, isVar n M x → x ∈ D → inV M x y → isVar n M y ∧ 0 < M.Nv y
  s1 : ∀ x y, isVar n M x → isVar n M y → ((y ∉ D ∧ y ∉ U) ∨ (x ∉ D ∧ x ∉ U)) → inV M x y → inV M y x
  s2 : ∀ x e, isVar n M x → isElt n M e → e ≠ me → (inE M x e ↔ inL M e x)
  lL : ∀ e y, isElt n M e → e ≠ me → inL M e y → -1 ≤ M.Elen y
  i4 : ∀ e, isElt n M e → e ≠ me → ∃ x, isVar n M x ∧ inE M x e
  i5 : ∀ e, isElt n M e → e ≠ me → wsum n (fun x => isVar n M x ∧ inE M x e) (fun x => av (M.Nv x)) ≤ M.Degree e
  spare : ∀ x, isVar n M x → x ∈ U → (∃ k, 0 ≤ k ∧ k < M.Elen x ∧ M.W (ent M x k) = 0) ∨ ∃ k, M.Elen x ≤ k ∧ k < M.Len x ∧ M.Nv (ent M x k) ≤ 0
  cnt : nel + wsum n (isVar n M) (fun x => av (M.Nv x)) = n

/-- The pivot, which has become an element. -/
structure Me (n me pme1 pme2 degme : ℤ) (M : Mem) (D U : Finset ℤ) : Prop where
  r : 0 ≤ me ∧ me < n
  elen : M.Elen me < -1
  nv : M.Nv me < 0
  pe : M.Pe me = pme1
  p0 : 0 ≤ pme1
  len : M.Len me = pme2 + 1 - pme1
  w : M.W me ≠ 0
  seg : Seg M.Iw pme1 (pme2 + 1) (D ∪ U)
  sep : Disjoint D U
  uvar : ∀ x ∈ U, isVar n M x
  dvar : ∀ x ∈ D, -1 ≤ M.Elen x
  first : ∀ x ∈ D, isVar n M x → ent M x 0 = me
  deg : degme = wsum n (fun x => isVar n M x ∧ (x ∈ D ∨ x ∈ U)) (fun x => av (M.Nv x))

/-- The forest, with the pivot standing for `nvpiv` variables. -/
def Trees (n : ℤ) (M : Mem) (me nvpiv : ℤ) : Prop := ∃ rep rank T, Fo n M.Pe M.Elen (fun x => if x = me then nvpiv else av (M.Nv x)) rep rank T

/-- What holds between two rounds. -/
structure Inv (n iwlen L0 : ℤ) (s : Main) : Prop where
  core : Core n iwlen L0 s.lemax s.pfree (-1) s.nel s.M ∅ ∅
  lists : Lists n s.M (isVar n s.M)
  wlt : ∀ x, 0 ≤ x → x < n → s.M.W x < s.wflg
  wf : 0 < s.wflg
  lemax : 0 ≤ s.lemax
  nel : 0 ≤ s.nel
  mindeg : 0 ≤ s.mindeg ∧ ∀ x, isVar n s.M x → s.mindeg ≤ s.M.Degree x
  trees : Trees n s.M (-1) 0

variable {n iwlen L0 lemax pfree me nel : ℤ} {M : Mem} {D U : Finset ℤ}

theorem Core.rest (h : Core n iwlen L0 lemax pfree me nel M D U) {M' : Mem} (r : Rest M M') : Core n iwlen L0 lemax pfree me nel M' D U := by
  obtain ⟨Pe, Iw, Len, Nv, Next, Last, Head, Elen, Degree, W⟩ := M
  obtain ⟨Pe', Iw', Len', Nv', Next', Last', Head', Elen', Degree', W'⟩ := M'
  obtain ⟨h1, h2, h3, h4, h5, h6, h7⟩ := r
  dsimp only at h1 h2 h3 h4 h5 h6 h7
  subst h1 h2 h3 h4 h5 h6 h7
  exact ⟨h.fP, h.fL, h.fNv, h.fE, h.fW, h.fD, h.fI, h.sI, h.pf, h.rng, h.len, h.le, h.disj, h.bud, h.iw, h.kvar, h.knv, h.kelt, h.kgone, h.eE, h.nodup, h.eMe, h.eLive, h.vV, h.vD, h.s1, h.s2, h.lL, h.i4, h.i5,
    h.spare, h.cnt⟩

/-- An entry of a list is a node. -/
theorem Core.ent_rng (h : Core n iwlen L0 lemax pfree me nel M D U) {j k : ℤ} (j0 : 0 ≤ j) (j1 : j < n) (jp : 0 ≤ M.Pe j) (k0 : 0 ≤ k) (k1 : k < M.Len j) : 0 ≤ ent M j k ∧ ent M j k < n := by
  have := h.le j j0 j1 jp
  exact h.rng _ (by omega) (by omega)

/-- From the invariant to the construction. -/
theorem Core.pre (h : Core n iwlen L0 lemax pfree (-1) nel M ∅ ∅) (hme : isVar n M me) (hl : Lists n M (fun x => isVar n M x ∧ x ≠ me)) :
    Pre n iwlen L0 pfree me { M with Nv := upd M.Nv me (-M.Nv me) } := by
  obtain ⟨m0, m1, m2⟩ := hme
  have hv := h.kvar me ⟨m0, m1, m2⟩
  have hpos : ∀ x, isVar n M x → 0 < M.Nv x := fun x hx => by
    have h1 := (h.kvar x hx).1
    have h2 := (h.knv x hx).not.mpr (by simp)
    omega
  have hm := hpos me ⟨m0, m1, m2⟩
  refine ⟨⟨m0, m1⟩, h.fP, h.fL, h.fNv.upd _ _, h.fE, h.fW, h.fI, h.sI, h.pf, h.rng, ⟨fun j j0 j1 jp => h.len j j0 j1 jp (by omega), h.le, h.disj⟩, h.bud, h.iw, ⟨m2, hv.2.1, hv.2.2.2.1, ?_⟩, fun x hx hxm => ?_,
    fun x x0 x1 hx => ?_, fun e he => ?_, h.nodup me ⟨m0, m1, m2⟩, fun y hy => ?_, fun e y he hy => ?_, ⟨hl.fN, hl.fL, hl.fH, hl.fD, hl.deg, hl.nohash⟩⟩
  · dsimp only; rw [upd_same _ m0]; omega
  · dsimp only; rw [upd_ne _ m0 hxm]; exact hpos x hx
  · dsimp only at hx ⊢; rw [upd_ne _ m0 (by rintro rfl; omega)]; exact (h.kgone x x0 x1 hx).1
  · have a := h.eE me e ⟨m0, m1, m2⟩ he
    exact ⟨a.1, a.2.1, a.2.2, h.eLive me e ⟨m0, m1, m2⟩ (notMem_empty _) he⟩
  · rcases h.vV me y ⟨m0, m1, m2⟩ hy with q | q
    · exact q
    · exact absurd q.1 (notMem_empty _)
  · have a := h.eE me e ⟨m0, m1, m2⟩ he
    exact h.lL e y ⟨a.1, a.2.1, a.2.2, h.eLive me e ⟨m0, m1, m2⟩ (notMem_empty _) he⟩ (by omega) hy

/-- The pivot becomes an element. -/
theorem header_ok (h : Core n iwlen L0 lemax pfree (-1) nel M ∅ ∅) (hme : isVar n M me) (ht : Trees n M (-1) 0) {b : Elt} {S : Finset ℤ} {M0 : Mem}
    (hM0 : M0 = { M with Nv := upd M.Nv me (-M.Nv me) }) (hb : Built n iwlen L0 me M0 b S) :
    Ens (header me (M.Nv me) b) (fun M1 => Core n iwlen L0 lemax b.pfree me (nel + M.Nv me) M1 ∅ S ∧ Me n me b.pme1 b.pme2 b.degme M1 ∅ S ∧ Trees n M1 me (M.Nv me) ∧
      Lists n M1 (fun x => isVar n M1 x ∧ 0 < M1.Nv x) ∧ (∀ x, M1.W x = M.W x ∨ M1.W x = 0) ∧ ∀ x, x ≠ me → M1.Degree x = M.Degree x ∧ M1.Elen x = M.Elen x) := by
  obtain ⟨m0, m1, m2⟩ := hme
  have hme : isVar n M me := ⟨m0, m1, m2⟩
  have hvme := h.kvar me hme
  have hpos : ∀ x, isVar n M x → 0 < M.Nv x := fun x hx => by
    have h1 := (h.kvar x hx).1
    have h2 := (h.knv x hx).not.mpr (by simp)
    omega
  have hmnv := hpos me hme
  have zP : M0.Pe = M.Pe := by rw [hM0]
  have zI : M0.Iw = M.Iw := by rw [hM0]
  have zL : M0.Len = M.Len := by rw [hM0]
  have zE : M0.Elen = M.Elen := by rw [hM0]
  have zD : M0.Degree = M.Degree := by rw [hM0]
  have zW : M0.W = M.W := by rw [hM0]
  have zN : ∀ x, x ≠ me → M0.Nv x = M.Nv x := fun x hx => by rw [hM0]; dsimp only; rw [upd_ne _ m0 hx]
  have zNm : M0.Nv me = -M.Nv me := by rw [hM0]; dsimp only; rw [upd_same _ m0]
  have zent : ∀ x k, ent M0 x k = ent M x k := fun x k => by unfold ent; rw [zP, zI]
  have zinE : ∀ x y, inE M0 x y ↔ inE M x y := fun x y => by unfold inE; simp only [zent, zE]
  have zinV : ∀ x y, inV M0 x y ↔ inV M x y := fun x y => by unfold inV; simp only [zent, zE, zL]
  have zinL : ∀ x y, inL M0 x y ↔ inL M x y := fun x y => by unfold inL; simp only [zent, zL]
  have zvar : ∀ x, isVar n M0 x ↔ isVar n M x := fun x => by unfold isVar; rw [zE]
  have hsel : ∀ j, j ∈ S ↔ isVar n M j ∧ j ≠ me ∧ ((∃ e, inE M me e ∧ inL M e j) ∨ inV M me j) := fun j => by
    rw [hb.sets]; unfold sel; simp only [zvar, zinE, zinL, zinV]
  have hSm : me ∉ S := fun q => ((hsel me).mp q).2.1 rfl
  have hcard := hb.seg.card
  have hdeg0 : 0 ≤ b.degme := by
    rw [hb.degme]
    refine sum_nonneg fun j hj => ?_
    have := (hsel j).mp hj
    rw [zN j this.2.1]; have := hpos j this.1; omega
  have sP := hb.fP.1
  have sL := hb.fL.1
  have fE : Full b.M.Elen n := by rw [hb.got.elen, zE]; exact h.fE
  have fD : Full b.M.Degree n := by rw [hb.got.deg, zD]; exact h.fD
  have sE := fE.1
  have sD := fD.1
  unfold header
  refine Ens.wDegree m0 (by omega) (Ens.wPe m0 (by dsimp only; omega) (Ens.wLen m0 (by dsimp only; omega) (Ens.last (Ens.wElen m0 (by dsimp only; omega) (Ens.some ?_)))))
  obtain ⟨M1, hM1⟩ : ∃ M1 : Mem, M1 = { b.M with Degree := upd b.M.Degree me b.degme, Pe := upd b.M.Pe me b.pme1, Len := upd b.M.Len me (b.pme2 - b.pme1 + 1), Elen := upd b.M.Elen me (flip (M.Nv me + b.degme)) } := ⟨_, rfl⟩
  show (fun M1 => _) ({ b.M with Degree := upd b.M.Degree me b.degme, Pe := upd b.M.Pe me b.pme1, Len := upd b.M.Len me (b.pme2 - b.pme1 + 1), Elen := upd b.M.Elen me (flip (M.Nv me + b.degme)) } : Mem)
  rw [← hM1]
  -- the memory now
  have oP : ∀ x, x ≠ me → M1.Pe x = b.M.Pe x := fun x hx => by rw [hM1]; dsimp only; rw [upd_ne _ m0 hx]
  have oPm : M1.Pe me = b.pme1 := by rw [hM1]; dsimp only; rw [upd_same _ m0]
  have oL : ∀ x, x ≠ me → M1.Len x = b.M.Len x := fun x hx => by rw [hM1]; dsimp only; rw [upd_ne _ m0 hx]
  have oLm : M1.Len me = b.pme2 + 1 - b.pme1 := by rw [hM1]; dsimp only; rw [upd_same _ m0]; omega
  have oE : ∀ x, x ≠ me → M1.Elen x = M.Elen x := fun x hx => by rw [hM1]; dsimp only; rw [upd_ne _ m0 hx, hb.got.elen, zE]
  have oEm : M1.Elen me < -1 := by rw [hM1]; dsimp only; rw [upd_same _ m0]; unfold flip; omega
  have oD : ∀ x, x ≠ me → M1.Degree x = M.Degree x := fun x hx => by rw [hM1]; dsimp only; rw [upd_ne _ m0 hx, hb.got.deg, zD]
  have oI : M1.Iw = b.M.Iw := by rw [hM1]
  have oN : M1.Nv = b.M.Nv := by rw [hM1]
  have oW : M1.W = b.M.W := by rw [hM1]
  have nS : ∀ x, x ∈ S → M1.Nv x = -M.Nv x := fun x hx => by rw [oN, hb.got.nv, if_pos hx, zN x ((hsel x).mp hx).2.1]
  have nO : ∀ x, x ∉ S → x ≠ me → M1.Nv x = M.Nv x := fun x hx hm => by rw [oN, hb.got.nv, if_neg hx, zN x hm]
  have nm : M1.Nv me = -M.Nv me := by rw [oN, hb.got.nv, if_neg hSm, zNm]
  have avN : ∀ x, av (M1.Nv x) = av (M.Nv x) := fun x => by
    by_cases q : x ∈ S
    · rw [nS x q, av_flip]
    · by_cases w : x = me
      · rw [w, nm, av_flip]
      · rw [nO x q w]
  have var : ∀ x, isVar n M1 x ↔ isVar n M x ∧ x ≠ me := fun x => by
    unfold isVar
    by_cases q : x = me
    · subst q; constructor
      · rintro ⟨_, _, w⟩; omega
      · rintro ⟨_, w⟩; exact absurd rfl w
    · rw [oE x q]; tauto
  -- nodes outside the pivot and its elements
  have keep : ∀ x, 0 ≤ x → x < n → x ≠ me → ¬ inE M me x → 0 ≤ M.Pe x → 0 ≤ M1.Pe x ∧ M1.Len x = M.Len x ∧ ∀ t, 0 ≤ t → t < M.Len x → ent M1 x t = ent M x t := fun x x0 x1 xm hx xp => by
    have a := hb.pos x x0 x1 xm (by rw [zinE]; exact hx) (by rw [zP]; exact xp)
    refine ⟨by rw [oP x xm]; exact a.1, by rw [oL x xm, a.2.1, zL], fun t t0 t1 => ?_⟩
    have := hb.val x x0 x1 xm (by rw [zinE]; exact hx) (by rw [zP]; exact xp) t t0 (by rw [zL]; exact t1)
    rw [zent] at this
    rw [← this]; unfold ent; rw [oI, oP x xm]
  have vE : ∀ x, isVar n M x → ∀ e, inE M x e → isElt n M e := fun x hx e he => by
    have a := h.eE x e hx he
    exact ⟨a.1, a.2.1, a.2.2, h.eLive x e hx (notMem_empty _) he⟩
  have notE : ∀ x, isVar n M x → ¬ inE M me x := fun x hx q => by have := (vE me hme x q).2.2.1; have := hx.2.2; omega
  have vkeep : ∀ x, isVar n M x → x ≠ me → 0 ≤ M1.Pe x ∧ M1.Len x = M.Len x ∧ ∀ t, 0 ≤ t → t < M.Len x → ent M1 x t = ent M x t := fun x hx xm =>
    keep x hx.1 hx.2.1 xm (notE x hx) (h.kvar x hx).2.1
  have hinE : ∀ x, isVar n M x → x ≠ me → ∀ y, inE M1 x y ↔ inE M x y := fun x hx xm y => by
    have a := vkeep x hx xm
    have l := (h.kvar x hx).2.2.2.1
    unfold inE
    rw [oE x xm]
    constructor
    · rintro ⟨k, k0, k1, q⟩; exact ⟨k, k0, k1, by rw [← a.2.2 k k0 (by omega)]; exact q⟩
    · rintro ⟨k, k0, k1, q⟩; exact ⟨k, k0, k1, by rw [a.2.2 k k0 (by omega)]; exact q⟩
  have hinV : ∀ x, isVar n M x → x ≠ me → ∀ y, inV M1 x y ↔ inV M x y := fun x hx xm y => by
    have a := vkeep x hx xm
    have l := hx.2.2
    unfold inV
    rw [oE x xm, a.2.1]
    constructor
    · rintro ⟨k, k0, k1, q⟩; exact ⟨k, k0, k1, by rw [← a.2.2 k (by omega) k1]; exact q⟩
    · rintro ⟨k, k0, k1, q⟩; exact ⟨k, k0, k1, by rw [a.2.2 k (by omega) k1]; exact q⟩
  have elt : ∀ e, isElt n M1 e → e ≠ me → isElt n M e ∧ ¬ inE M me e := fun e he em => by
    obtain ⟨e0, e1, e2, e3⟩ := he
    have hno : ¬ inE M me e := fun q => by
      have := (hb.dead e ((zinE me e).mpr q)).1
      rw [oP e em, this] at e3; unfold flip at e3; omega
    refine ⟨⟨e0, e1, by rw [← oE e em]; exact e2, ?_⟩, hno⟩
    by_contra q
    have := hb.none e e0 e1 em (by rw [zinE]; exact hno) (by rw [zP]; omega)
    rw [oP e em, this, zP] at e3; omega
  have hinL : ∀ e, isElt n M1 e → e ≠ me → ∀ y, inL M1 e y ↔ inL M e y := fun e he em y => by
    obtain ⟨a, hno⟩ := elt e he em
    have k := keep e a.1 a.2.1 em hno a.2.2.2
    unfold inL
    rw [k.2.1]
    constructor
    · rintro ⟨t, t0, t1, q⟩; exact ⟨t, t0, t1, by rw [← k.2.2 t t0 t1]; exact q⟩
    · rintro ⟨t, t0, t1, q⟩; exact ⟨t, t0, t1, by rw [k.2.2 t t0 t1]; exact q⟩
  have alive : ∀ j, 0 ≤ j → j < n → 0 ≤ M1.Pe j → j ≠ me → ¬ inE M0 me j ∧ 0 ≤ M0.Pe j := fun j j0 j1 jp jm => by
    rw [oP j jm] at jp
    have hno : ¬ inE M0 me j := fun q => by have := (hb.dead j q).1; rw [this] at jp; unfold flip at jp; omega
    refine ⟨hno, ?_⟩
    by_contra q
    have := hb.none j j0 j1 jm hno (by omega)
    omega
  have hcore : Core n iwlen L0 lemax b.pfree me (nel + M.Nv me) M1 ∅ S := by
    refine ⟨?_, ?_, ?_, ?_, ?_, ?_, ?_, ?_, ⟨?_, hb.pf⟩, ?_, fun j j0 j1 jp jm => ?_, fun j j0 j1 jp => ?_, fun j k j0 j1 k0 k1 hjk jp kp => ?_, ?_, h.iw, fun x hx => ?_, fun x hx => ?_, fun x x0 x1 hx xm => ?_,
      fun x x0 x1 hx => ?_, fun x e hx he => ?_, fun x hx k l k0 k1 l0 l1 q => ?_, fun x hx => ?_, fun x e hx hS he => ?_, fun x y hx hy => ?_, fun x y hx q => absurd q (notMem_empty _), fun x y hx hy hS hxy => ?_,
      fun x e hx he em => ?_, fun e y he em hy => ?_, fun e he em => ?_, fun e he em => ?_, fun x hx hS => ?_, ?_⟩
    · rw [hM1]; exact hb.fP.upd _ _
    · rw [hM1]; exact hb.fL.upd _ _
    · rw [hM1]; exact hb.got.fNv
    · rw [hM1]; exact fE.upd _ _
    · rw [hM1]; exact hb.fW
    · rw [hM1]; exact fD.upd _ _
    · rw [hM1]; exact hb.fI
    · rw [hM1]; exact hb.sI
    · have := hb.pme; omega
    · rw [oI]; exact hb.rng
    · obtain ⟨a, c⟩ := alive j j0 j1 jp jm
      rw [oL j jm, (hb.pos j j0 j1 jm a c).2.1, zL]
      exact h.len j j0 j1 (by rw [← zP]; exact c) (by omega)
    · by_cases jm : j = me
      · rw [jm, oPm, oLm]; have := hb.pme.2; omega
      · obtain ⟨a, c⟩ := alive j j0 j1 jp jm
        rw [oP j jm, oL j jm]; exact (hb.pos j j0 j1 jm a c).2.2.2
    · by_cases jm : j = me
      · subst jm
        obtain ⟨a, c⟩ := alive k k0 k1 kp (Ne.symm hjk)
        rw [oPm, oLm, oP k (Ne.symm hjk), oL k (Ne.symm hjk)]
        have := (hb.pos k k0 k1 (Ne.symm hjk) a c).2.2.1
        omega
      · obtain ⟨a, c⟩ := alive j j0 j1 jp jm
        by_cases km : k = me
        · subst km
          rw [oPm, oLm, oP j jm, oL j jm]
          have := (hb.pos j j0 j1 jm a c).2.2.1
          omega
        · obtain ⟨a', c'⟩ := alive k k0 k1 kp km
          rw [oP j jm, oL j jm, oP k km, oL k km]
          exact hb.disj j k j0 j1 jm a c k0 k1 km a' c' hjk
    · refine le_trans (le_of_eq ?_) hb.bud
      have : (S.card : ℤ) = ∑ j ∈ Ico (0 : ℤ) n, if j = me then (S.card : ℤ) else 0 := by
        rw [sum_ite_eq', if_pos (mem_Ico.mpr ⟨m0, m1⟩)]
      rw [this, ← sum_add_distrib]
      unfold room
      apply sum_congr rfl
      intro j _
      by_cases jm : j = me
      · rw [jm, oPm, oLm, if_pos hb.pme.1, if_neg (fun q => q.1 rfl), if_pos rfl, zero_add]; exact hcard
      · rw [if_neg jm, add_zero, oP j jm, oL j jm]
        by_cases q : 0 ≤ b.M.Pe j
        · rw [if_pos q, if_pos ⟨jm, q⟩]
        · rw [if_neg q, if_neg (fun w => q w.2)]
    · obtain ⟨hx, xm⟩ := (var x).mp hx
      have a := h.kvar x hx
      have k := vkeep x hx xm
      refine ⟨?_, k.1, ?_, by rw [oE x xm, k.2.1]; exact a.2.2.2.1, by rw [oD x xm]; exact a.2.2.2.2⟩
      · by_cases q : x ∈ S
        · rw [nS x q]; omega
        · rw [nO x q xm]; exact a.1
      · rw [oW]
        rcases hb.w x with q | q
        · rw [q, zW]; exact a.2.2.1
        · exact absurd ((zinE me x).mp q.1) (notE x hx)
    · obtain ⟨hx, xm⟩ := (var x).mp hx
      have := hpos x hx
      constructor
      · intro q
        right
        by_contra w
        rw [nO x w xm] at q; omega
      · rintro (q | q)
        · exact absurd q (notMem_empty _)
        · rw [nS x q]; omega
    · rw [oE x xm] at hx
      have a := h.kelt x x0 x1 hx (by omega)
      have hS : x ∉ S := fun q => by have := ((hsel x).mp q).1.2.2; omega
      rw [nO x hS xm]
      refine ⟨a.1, ?_⟩
      rw [oP x xm, oW, oD x xm]
      by_cases q : inE M me x
      · have := hb.dead x ((zinE me x).mpr q)
        right; rw [this.1, this.2]; unfold flip; exact ⟨by omega, rfl⟩
      · have hw : b.M.W x = M.W x := by
          rcases hb.w x with w | w
          · rw [w, zW]
          · exact absurd ((zinE me x).mp w.1) q
        rw [hw]
        rcases a.2 with w | w
        · left; exact ⟨by rw [← oP x xm]; exact (keep x x0 x1 xm q w.1).1, w.2⟩
        · right
          rw [hb.none x x0 x1 xm (by rw [zinE]; exact q) (by rw [zP]; exact w.1), zP]; exact w
    · have xm : x ≠ me := by rintro rfl; omega
      rw [oE x xm] at hx
      have a := h.kgone x x0 x1 hx
      have hS : x ∉ S := fun q => by have := ((hsel x).mp q).1.2.2; omega
      have hno : ¬ inE M me x := fun q => by have := (vE me hme x q).2.2.1; omega
      rw [nO x hS xm, oP x xm, hb.none x x0 x1 xm (by rw [zinE]; exact hno) (by rw [zP]; exact a.2), zP]; exact a
    · obtain ⟨hx, xm⟩ := (var x).mp hx
      have a := h.eE x e hx ((hinE x hx xm e).mp he)
      refine ⟨a.1, a.2.1, ?_⟩
      rw [oE e (by rintro rfl; omega)]; exact a.2.2
    · obtain ⟨hx, xm⟩ := (var x).mp hx
      have a := vkeep x hx xm
      have ll := (h.kvar x hx).2.2.2.1
      rw [oE x xm] at k1 l1
      rw [a.2.2 k k0 (by omega), a.2.2 l l0 (by omega)] at q
      exact h.nodup x hx k l k0 k1 l0 l1 q
    · obtain ⟨hx, xm⟩ := (var x).mp hx
      rw [hinE x hx xm]
      constructor
      · intro q; have := (h.eE x me hx q).2.2; omega
      · intro q; exact absurd q (notMem_empty _)
    · obtain ⟨hx, xm⟩ := (var x).mp hx
      have he' := (hinE x hx xm e).mp he
      have el := vE x hx e he'
      have em : e ≠ me := by rintro rfl; have := el.2.2.1; omega
      have hno : ¬ inE M me e := fun q => hS ((hsel x).mpr ⟨hx, xm, .inl ⟨e, q, (h.s2 x e hx el (by have := el.1; omega)).mp he'⟩⟩)
      exact (keep e el.1 el.2.1 em hno el.2.2.2).1
    · obtain ⟨hx, xm⟩ := (var x).mp hx
      have hy' := (hinV x hx xm y).mp hy
      by_cases ym : y = me
      · subst ym
        right
        exact ⟨(hsel x).mpr ⟨hx, xm, .inr (h.s1 x y hx hme (.inl ⟨notMem_empty _, notMem_empty _⟩) hy')⟩, rfl⟩
      · left
        rw [oE y ym]
        rcases h.vV x y hx hy' with q | q
        · exact q
        · exact absurd q.1 (notMem_empty _)
    · obtain ⟨hx, xm⟩ := (var x).mp hx
      obtain ⟨hy, ym⟩ := (var y).mp hy
      exact (hinV y hy ym x).mpr (h.s1 x y hx hy (.inl ⟨notMem_empty _, notMem_empty _⟩) ((hinV x hx xm y).mp hxy))
    · obtain ⟨hx, xm⟩ := (var x).mp hx
      have a := (elt e he em).1
      rw [hinE x hx xm, hinL e he em]
      exact h.s2 x e hx a (by have := a.1; omega)
    · obtain ⟨a, hno⟩ := elt e he em
      have hy' := (hinL e he em y).mp hy
      have ym : y ≠ me := by rintro rfl; exact hno ((h.s2 y e hme a (by have := a.1; omega)).mpr hy')
      rw [oE y ym]
      exact h.lL e y a (by have := a.1; omega) hy'
    · obtain ⟨a, hno⟩ := elt e he em
      obtain ⟨x, hx, hxe⟩ := h.i4 e a (by have := a.1; omega)
      have xm : x ≠ me := by rintro rfl; exact hno hxe
      exact ⟨x, (var x).mpr ⟨hx, xm⟩, (hinE x hx xm e).mpr hxe⟩
    · obtain ⟨a, hno⟩ := elt e he em
      rw [oD e em]
      refine le_trans ?_ (h.i5 e a (by have := a.1; omega))
      refine wsum_mono (fun x x0 x1 q => ?_) (fun x _ _ => av_nonneg _) fun x _ _ _ => le_of_eq (avN x)
      obtain ⟨hx, xm⟩ := (var x).mp q.1
      exact ⟨hx, (hinE x hx xm e).mp q.2⟩
    · obtain ⟨hx, xm⟩ := (var x).mp hx
      have a := vkeep x hx xm
      have kx := h.kvar x hx
      rcases ((hsel x).mp hS).2.2 with ⟨e, he, hl⟩ | hv
      · left
        have el := vE me hme e he
        obtain ⟨k, k0, k1, q⟩ := (h.s2 x e hx el (by have := el.1; omega)).mpr hl
        exact ⟨k, k0, by rw [oE x xm]; exact k1, by rw [a.2.2 k k0 (by omega), q, oW]; exact (hb.dead e ((zinE me e).mpr he)).2⟩
      · right
        obtain ⟨k, k0, k1, q⟩ := h.s1 me x hme hx (.inl ⟨notMem_empty _, notMem_empty _⟩) hv
        exact ⟨k, by rw [oE x xm]; exact k0, by rw [a.2.1]; exact k1, by rw [a.2.2 k (by have := hx.2.2; omega) k1, q, nm]; omega⟩
    · have := h.cnt
      have e := wsum_add (p := isVar n M1) (p' := isVar n M) (f := fun x => av (M1.Nv x)) (f' := fun x => av (M.Nv x)) m0 m1 (fun q => ((var me).mp q).2 rfl) (fun x _ _ => by
        rw [var]
        by_cases q : x = me
        · subst q; exact ⟨fun _ => .inr rfl, fun _ => hme⟩
        · tauto) (fun x _ _ _ => (avN x).symm)
      have e2 : av (M.Nv me) = M.Nv me := av_pos (by omega)
      rw [e2] at e
      omega
  refine ⟨hcore, ⟨⟨m0, m1⟩, oEm, by rw [nm]; omega, oPm, hb.pme.1, oLm, ?_, ?_, disjoint_empty_left _, fun x hx => ?_, fun x hx => absurd hx (notMem_empty _), fun x hx => absurd hx (notMem_empty _), ?_⟩, ?_, ?_, fun x => ?_, fun x hx => ⟨oD x hx, oE x hx⟩⟩
  · rw [oW]
    rcases hb.w me with q | q
    · rw [q, zW]; exact hvme.2.2.1
    · exact absurd ((zinE me me).mp q.1) (notE me hme)
  · rw [empty_union, oI]; exact hb.seg
  · have := (hsel x).mp hx
    exact (var x).mpr ⟨this.1, this.2.1⟩
  · rw [hb.degme]
    classical
    have hsub : S ⊆ Ico 0 n := fun a ha => by have := ((hsel a).mp ha).1; exact mem_Ico.mpr ⟨this.1, this.2.1⟩
    unfold wsum
    have e1 : ∑ j ∈ S, M0.Nv j = ∑ j ∈ Ico (0 : ℤ) n, if j ∈ S then M0.Nv j else 0 := by
      rw [← sum_filter]; congr 1; ext a; rw [mem_filter]; exact ⟨fun q => ⟨hsub q, q⟩, fun q => q.2⟩
    rw [e1]
    apply sum_congr rfl
    intro x _
    by_cases q : x ∈ S
    · have w := (hsel x).mp q
      rw [if_pos q, if_pos ⟨(var x).mpr ⟨w.1, w.2.1⟩, .inr q⟩]
      show _ = av (M1.Nv x)
      rw [avN, zN x w.2.1, av_pos (by have := hpos x w.1; omega)]
    · rw [if_neg q, if_neg (fun w => w.2.elim (notMem_empty _) q)]
  · obtain ⟨rep, rank, T, F⟩ := ht
    have hE0 : ∀ x, 0 ≤ x → x < n → x ≠ me → M1.Elen x = M.Elen x := fun x _ _ xm => oE x xm
    obtain ⟨rank', T', F'⟩ := F.kill (Pe' := M1.Pe) (Elen' := M1.Elen) (nv' := fun x => if x = me then M.Nv me else av (M1.Nv x)) m0 m1 (by rw [oPm]; exact hb.pme.1) (fun x => inE M me x)
      (fun x q => by
        have a := vE me hme x q
        have xm : x ≠ me := by rintro rfl; have := a.2.2.1; omega
        exact ⟨xm, a.2.2.1, a.2.2.2, by rw [oP x xm]; exact (hb.dead x ((zinE me x).mpr q)).1⟩)
      (fun x x0 x1 hx xp => by
        have xm : x ≠ me := by rintro rfl; omega
        rw [oP x xm, hb.none x x0 x1 xm (by rw [zinE]; exact hx) (by rw [zP]; exact xp), zP])
      (fun x x0 x1 hx xp => by
        by_cases xm : x = me
        · rw [xm, oPm]; exact hb.pme.1
        · exact (keep x x0 x1 xm hx xp).1)
      hE0 ⟨by omega, oEm⟩ (fun x x0 x1 _ => by
        rw [if_neg (show ¬ x = -1 by omega)]
        by_cases xm : x = me
        · rw [if_pos xm, xm, av_pos (by omega)]
        · rw [if_neg xm, avN])
    exact ⟨rep, rank', T', F'⟩
  · obtain ⟨st, d⟩ := hb.got.lists.deg
    have hlk : ∀ x, (isVar n M1 x ∧ 0 < M1.Nv x) ↔ (isVar n M0 x ∧ x ≠ me ∧ x ∉ S) := fun x => by
      rw [var, zvar]
      constructor
      · rintro ⟨⟨a, b⟩, c⟩
        refine ⟨a, b, fun q => ?_⟩
        rw [nS x q] at c; have := hpos x a; omega
      · rintro ⟨a, b, c⟩
        exact ⟨⟨a, b⟩, by rw [nO x c b]; exact hpos x a⟩
    refine ⟨by rw [hM1]; exact hb.got.lists.fN, by rw [hM1]; exact hb.got.lists.fL, by rw [hM1]; exact hb.got.lists.fH, by rw [hM1]; exact fD.upd _ _, ⟨st, ?_⟩, by rw [hM1]; exact hb.got.lists.nohash⟩
    have d' := d.congr (D' := M1.Degree) hlk (fun x hx => by rw [oD x hx.2.1, hb.got.deg, zD])
    rw [hM1] at d' ⊢; exact d'
  · rw [oW]
    rcases hb.w x with q | q
    · left; rw [q, zW]
    · exact .inr q.2

end Osqp.Amd
