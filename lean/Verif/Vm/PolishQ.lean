import Verif.Vm.PolishSpec
import Verif.Vm.PolishArr
import Verif.Vm.QdldlLemmas

/-!
# The QDLDL interface when polishing
-/

set_option linter.unusedSectionVars false
namespace Osqp.Vm
open Finset Csc Spec
variable {K : Type*} [Field K] [LinearOrder K] [IsStrictOrderedRing K] {d : Dims}

theorem flatRed_lt {flags : Fin d.m → ℤ} (a : Fin d.n ⊕ {i // flags i ≠ 0}) : flatRed flags a < d.n + picked flags := by
  rcases a with a | a
  · show (a : ℕ) < _; omega
  · show d.n + Spec.rank flags a.1 < _
    have := rank_picked a.2; omega

theorem red_flat {D : Data d K} {flags : Fin d.m → ℤ} {sigma : K} {VP VA : View K} (hP : ViewOf VP d.P D.P)
    (hA : ∀ i : Fin d.m, flags i ≠ 0 → ∀ j : Fin d.n, VA.entry (Spec.rank flags i) j = (ofData D).A i j) (ht : ∀ k, d.P.row k ≤ d.P.col k) (a b : Fin d.n ⊕ {i // flags i ≠ 0}) :
    kktFull VP VA sigma (fun _ => sigma) (flatRed flags a) (flatRed flags b) = redMatrix D flags sigma a b := by
  have el : ∀ a : Fin d.n, flatRed flags (.inl a) = a := fun _ => rfl
  have er : ∀ a : {i // flags i ≠ 0}, flatRed flags (.inr a) = d.n + Spec.rank flags a.1 := fun _ => rfl
  unfold kktFull
  rcases a with a | a <;> rcases b with b | b
  · rw [el, el, hP.n, if_pos a.2, if_pos b.2, hP.symEntry ht]
    change _ = denseSym d.P D.P a b + Matrix.diagonal (fun _ => sigma) a b
    rw [Matrix.diagonal_apply]
    simp only [Fin.val_inj]
  · rw [el, er, hP.n, if_pos a.2, if_neg (by omega), Nat.add_sub_cancel_left, hA b.1 b.2]
    rfl
  · rw [el, er, hP.n, if_neg (by omega), if_pos b.2, Nat.add_sub_cancel_left, hA a.1 a.2]
    rfl
  · rw [er, er, hP.n, if_neg (by omega), if_neg (by omega)]
    change _ = -(Matrix.diagonal (fun _ : {i // flags i ≠ 0} => sigma) a b)
    rw [Matrix.diagonal_apply]
    by_cases h : a = b
    · subst h
      rw [if_pos rfl, if_pos rfl]
    · rw [if_neg (fun e => h (Subtype.ext (rank_inj a.2 b.2 (by omega)))), if_neg h, neg_zero]

/-- The object that belongs to the reduced system. -/
structure QPolIs (env : Env d K) (D : Data d K) (flags : Fin d.m → ℤ) (sigma : K) (q : QPol K) : Prop where
  n : q.n = d.n
  m : q.m = picked flags
  solve : ∃ p, PermIs q.perm (d.n + picked flags) p ∧ ∀ (bx : Vec K d.n) (bz : ℕ → K) (c : Buf K), (∀ k, picked flags ≤ k → bz k = 0) →
    Holds c (d.n + picked flags) (fun j => cat d.n (ext bx) bz (p j)) →
    ∃ c', q.qsolve c = some c' ∧ Holds c' (d.n + picked flags) fun j => cat d.n (ext (env.polSolve D flags sigma bx bz).1) (env.polSolve D flags sigma bx bz).2 (p j)

theorem qPol_solve {env : Env d K} {D : Data d K} {flags : Fin d.m → ℤ} {sigma : K} {q : QPol K} (h : QPolIs env D flags sigma q) (bx : Vec K d.n) (bz : ℕ → K) (b : Buf K)
    (h0 : ∀ k, picked flags ≤ k → bz k = 0) (hb : Holds b (d.n + picked flags) (cat d.n (ext bx) bz)) :
    ∃ b', qPolSolve q b = some b' ∧ Holds b' (d.n + picked flags) (cat d.n (ext (env.polSolve D flags sigma bx bz).1) (env.polSolve D flags sigma bx bz).2) := by
  obtain ⟨p, hp, hs⟩ := h.solve
  obtain ⟨x', bp', e, hx⟩ := ldlSolve_perm (qsolve := q.qsolve) hp (fun c hc => hs bx bz c h0 hc) hb (x := b) (bp := Buf.fresh ((d.n + picked flags : ℕ) : ℤ)) hb.1 (fresh_le _)
  refine ⟨x', ?_, hx⟩
  unfold qPolSolve solveLinsys
  rw [h.n, h.m, ← Nat.cast_add, if_pos rfl, e]
  rfl

theorem qPol_init {env : Env d K} {amd : Csc K → Buf ℤ} {Q : Qdldl K} (hQ : QdldlPolIs env amd Q) (ht : ∀ k, d.P.row k ≤ d.P.col k) (D : Data d K) (flags : Fin d.m → ℤ) (sigma : K)
    {P A : Csc K} (hP : Stores P d.P D.P) (hA : RedOf D flags A) :
    (env.polFactor D flags sigma < d.n → ∃ o, qPolInit Q amd P A sigma = some (o, Err.nonCvx)) ∧
    (¬ env.polFactor D flags sigma < d.n → ∃ l, qPolInit Q amd P A sigma = some (some l, 0) ∧ QPolIs env D flags sigma l) := by
  obtain ⟨VP, rP, hVP⟩ := stores_view.1 hP
  obtain ⟨VA, rA, a1, a2, a3⟩ := hA
  have hsq := hVP.m.trans hVP.n.symm
  have hcl := a2.trans hVP.n.symm
  have htr := hVP.triu ht
  have hsz : VP.n + VA.m = d.n + picked flags := by rw [hVP.n, a1]
  obtain ⟨H, V, eH, hH, hL, -, -, -, mP, mA, mR⟩ := form_aux rP rA hsq hcl sigma (param2 := none) (param2_sc := sigma) (R := fun _ => sigma) (fun _ _ => rfl)
    (pm := none) (am := none) (rm := none) (fun b hb => by cases hb) (fun b hb => by cases hb) (fun b hb => by cases hb)
  obtain ⟨v1, v2, v3⟩ := kkt_denote rP.valid rA.valid hsq hcl htr hL
  have hVn : V.n = d.n + picked flags := by rw [hL.vn, hsz]
  have hVm : V.m = d.n + picked flags := by rw [hL.vm, hsz]
  have hent : ∀ a b, V.symEntry (flatRed flags a) (flatRed flags b) = redMatrix D flags sigma a b := fun a b => by
    rw [v3 _ (by rw [hsz]; exact flatRed_lt a) _ (by rw [hsz]; exact flatRed_lt b)]
    exact red_flat hVP a3 ht a b
  have hid : RedKkt D flags sigma id H.KKT := ⟨fun _ h => h, fun _ _ _ _ h => h, V, hH, v2, hVm, hVn, fun i hi j hj a b ea eb => by
    rw [show i = _ from ea, show j = _ from eb]; exact hent a b⟩
  obtain ⟨p, hp⟩ := hQ.order D flags sigma _ hid
  obtain ⟨pv, π, epv, hpv, h1, h2, h3⟩ := pinv_aux hp.1 hp.2.1 hp.2.2
  have hπ : ∀ j < V.n, π j < V.n := by rw [hVn]; exact h1
  have hinj : ∀ i < V.n, ∀ j < V.n, π i = π j → i = j := by
    rw [hVn]; exact fun i hi j hj e => by rw [← h3 i hi, ← h3 j hj, e]
  obtain ⟨G, map', W, eG, hG, hW, -, -, -, -⟩ := symperm_aux hH (hVm.trans hVn.symm) v2 (pv := some pv) (π := π) (by show Holds pv V.n _; rw [hVn]; exact hpv) hπ
    (map := none) (fun b hb => by cases hb)
  obtain ⟨w1, w2, -⟩ := symOne_laid v1 (hVm.trans hVn.symm) v2 hπ hinj hW
  have hk : RedKkt D flags sigma p G := ⟨hp.2.1, hp.2.2, W, hG, w1, by rw [hW.vm, hVn], by rw [hW.vn, hVn], fun i hi j hj a b ea eb => by
    have := w2 (p i) (by rw [hVn]; exact hp.2.1 i hi) (p j) (by rw [hVn]; exact hp.2.1 j hj)
    rw [h2 i hi, h2 j hj, ea, eb, hent] at this
    exact this⟩
  have hPn : P.n = (d.n : ℤ) := by rw [rP.n, hVP.n]
  have hAm : A.m = (picked flags : ℤ) := by rw [rA.m, a1]
  have hperm : permuteKKT H (amd H.KKT) 0 0 0 = some ⟨G, none, none, none⟩ := by
    unfold permuteKKT
    rw [hH.n, hVn, epv, mP.1 rfl, mA.1 rfl, mR.1 rfl]
    simp only [Option.bind_some]
    rw [eG]; rfl
  obtain ⟨f1, f2⟩ := ldlFactor_val (n := d.n) (hQ.etree D flags sigma p G hk) (hQ.count D flags sigma p G hk)
  unfold qPolInit
  simp only
  rw [eH]
  simp only [Option.bind_some]
  rw [hperm]
  simp only [Option.bind_some, hPn]
  constructor
  · intro hc
    exact ⟨none, by rw [if_pos (f1 hc)]⟩
  · intro hc
    rw [f2 hc]
    refine ⟨⟨(Q.factor G).2, d.n, picked flags, amd H.KKT⟩, ?_, rfl, rfl, p, hp, fun bx bz c h0 hc => hQ.solve D flags sigma p _ G hp hk bx bz c h0 hc⟩
    rw [if_neg (by simp), hAm]

/-- With AMD and QDLDL as assumed, the linear-system solver of the polishing does what the solver layer assumes. -/
theorem qdldlPol_impl {env : Env d K} {amd : Csc K → Buf ℤ} {Q : Qdldl K} (hQ : QdldlPolIs env amd Q) (ht : ∀ k, d.P.row k ≤ d.P.col k) :
    PolImpl env (qdldlPol Q amd) (QPolIs env) :=
  ⟨fun D flags sigma _ _ hP hA => qPol_init hQ ht D flags sigma hP hA, fun _ _ _ _ h bx bz b h0 hb => qPol_solve h bx bz b h0 hb⟩

end Osqp.Vm
