import Verif.Vm.QdldlLemmas
import Verif.Amd.Link

/-!
# The linear-system object with the ordering inside
-/

set_option linter.unusedSectionVars false
namespace Osqp.Vm
open Csc Amd
variable {K : Type*} [Field K] [LinearOrder K] [IsStrictOrderedRing K] {d : Dims}

/-- qdldl_interface.c:217-378 `init_linsys_solver_qdldl` with `polishing = 0`, as `qInit` (`Vm/Qdldl.lean`), with the call of `amd_order` in `permute_KKT`
(:157-166): if it fails the matrix is not permuted, and the caller (:358) does not look at what `permute_KKT` returns. -/
def qInitAmd (Q : Qdldl K) (c : Machine) (P A : Csc K) (rho_vec : Option (Buf K)) (sigma rho : K) : Option (Option (QMem K) × ℤ) :=
  let n := P.n
  let m := A.m
  (firstSteps rho_vec m).bind fun riv =>
  (P.p.rd P.n).bind fun Pnz => (A.p.rd P.n).bind fun Anz =>
  (formKKT P A 0 sigma riv (1 / rho) (some (Buf.fresh Pnz)) (some (Buf.fresh Anz)) (some (Buf.fresh A.m))).bind fun F =>
  (orderCsc c F.KKT).bind fun r =>
  (if r.1 < 0 then some F else permuteKKT F r.2 Pnz Anz A.m).bind fun G =>
  let f := ldlFactor Q G.KKT n
  if f.1 < 0 then some (none, Err.nonCvx)
  else some (some {
    lin := { qsolve := f.2, n := n, m := m, perm := r.2, bp := Buf.fresh (n + m), sol := Buf.fresh (n + m), rho_inv_vec := riv, rho_inv := 1 / rho }
    sigma := sigma, KKT := G.KKT, PtoKKT := G.PtoKKT, AtoKKT := G.AtoKKT, rhotoKKT := G.rhotoKKT }, 0)

/-- The calls in which `qInit` is used: matrices of the given pattern, and step sizes if there is a vector of them. -/
structure InitArgs (d : Dims) (P A : Csc K) (b : Option (Buf K)) : Prop where
  P : ∃ v, Stores P d.P v
  A : ∃ v, Stores A d.A v
  b : ∀ c, b = some c → ∃ v : Vec K d.m, Arr c v

theorem firstSteps_ok {P A : Csc K} {b : Option (Buf K)} (h : InitArgs d P A b) (sc : K) :
    ∃ riv R, firstSteps b A.m = some riv ∧ Param2Is riv sc d.m R := by
  obtain ⟨_, hA⟩ := h.A
  obtain ⟨VA, rA, hVA⟩ := stores_view.1 hA
  have hm : A.m = (d.m : ℤ) := by rw [rA.m, hVA.m]
  cases b with
  | none => exact ⟨none, fun _ => sc, rfl, fun t ht => rfl⟩
  | some c =>
    obtain ⟨v, hv⟩ := h.b c rfl
    obtain ⟨b', e, hb'⟩ := recips_ok (b := Buf.fresh (d.m : ℤ)) hv (by simp)
    rw [hm]
    exact ⟨some b', _, by simp only [firstSteps, e]; rfl, hb'⟩

theorem le_new {α : Type*} (n : ℕ) : n ≤ (Buf.fresh (n : ℤ) : Buf α).size := by simp

/-- The matrix to be ordered when the object is set up. -/
theorem order_args {P A : Csc K} {b : Option (Buf K)} (h : InitArgs d P A b) {VP VA : View K} {wP : Vec K d.P.nnz} {wA : Vec K d.A.nnz} (hVP : ViewOf VP d.P wP) (hVA : ViewOf VA d.A wA) (sigma rho : K) :
    ∃ riv Pnz Anz F V X Y R, firstSteps b A.m = some riv ∧ P.p.rd P.n = some Pnz ∧ A.p.rd P.n = some Anz ∧
      formKKT P A 0 sigma riv (1 / rho) (some (Buf.fresh Pnz)) (some (Buf.fresh Anz)) (some (Buf.fresh A.m)) = some F ∧ Rep F.KKT V ∧
      Laid (VP.n + VA.m) (VP.n + VA.m) (kktEnts (VP.withX X) (VA.withX Y) sigma R) V := by
  obtain ⟨vP, hP⟩ := h.P
  obtain ⟨vA, hA⟩ := h.A
  obtain ⟨UP, rP, hUP⟩ := stores_view.1 hP
  obtain ⟨UA, rA, hUA⟩ := stores_view.1 hA
  have rP := hVP.rep hUP rP
  have rA := hVA.rep hUA rA
  obtain ⟨riv, R, e, hR⟩ := firstSteps_ok h (1 / rho)
  obtain ⟨F, V, eF, hF, hL, -⟩ := form_aux rP rA (hVP.m.trans hVP.n.symm) (hVA.n.trans hVP.n.symm) sigma (param2 := riv) (param2_sc := 1 / rho) (R := R)
    (by rw [show (VA.withX UA.x).m = d.m from hVA.m]; exact hR) (pm := some (Buf.fresh (VP.nnz : ℤ))) (am := some (Buf.fresh (VA.nnz : ℤ)))
    (rm := some (Buf.fresh (VA.m : ℤ))) (fun b hb => by obtain rfl := (Option.some.inj hb).symm; exact le_new _) (fun b hb => by obtain rfl := (Option.some.inj hb).symm; exact le_new _)
    (fun b hb => by obtain rfl := (Option.some.inj hb).symm; exact le_new _)
  have en : A.p.rd P.n = some ((VA.nnz : ℕ) : ℤ) := by
    rw [show P.n = A.n by rw [rP.n, rA.n]; exact_mod_cast hVP.n.trans hVA.n.symm]; exact rA.rdNnz
  exact ⟨riv, _, _, F, V, UP.x, UA.x, R, e, rP.rdNnz, en, by rw [rA.m]; exact eF, hF, hL⟩

/-- One ordering serves all matrices of the pattern. -/
theorem one_order (d : Dims) (c : Machine) : ∃ perm p, PermIs perm (d.n + d.m) p ∧ ∀ (Q : Qdldl K) (P A : Csc K) (b : Option (Buf K)) (sigma rho : K),
    InitArgs d P A b → qInitAmd Q c P A b sigma rho = qInit Q perm P A b sigma rho := by
  classical
  by_cases hex : ∃ (P A : Csc K) (b : Option (Buf K)), InitArgs d P A b
  swap
  · exact ⟨⟨d.n + d.m, fun k => some (k : ℤ)⟩, id, ⟨⟨le_rfl, fun _ _ => rfl⟩, fun _ h => h, fun _ _ _ _ h => h⟩, fun Q P A b _ _ h => absurd ⟨P, A, b, h⟩ hex⟩
  obtain ⟨P0, A0, b0, h0⟩ := hex
  obtain ⟨_, hP0⟩ := h0.P
  obtain ⟨_, hA0⟩ := h0.A
  obtain ⟨VP, -, hVP⟩ := stores_view.1 hP0
  obtain ⟨VA, -, hVA⟩ := stores_view.1 hA0
  obtain ⟨_, _, _, F0, V0, X0, Y0, R0, -, -, -, -, hF0, hL0⟩ := order_args h0 hVP hVA 0 0
  have sq0 : V0.m = V0.n := by rw [hL0.vm, hL0.vn]
  obtain ⟨st, perm, p, eo, hst, hp⟩ := stored_ok hF0 sq0 c
  have hn0 : V0.n = d.n + d.m := by rw [hL0.vn, hVP.n, hVA.m]
  refine ⟨perm, p, hn0 ▸ hp, fun Q P A b sigma rho h => ?_⟩
  obtain ⟨riv, Pnz, Anz, F, V, X, Y, R, e1, e2, e3, e4, hF, hL⟩ := order_args h hVP hVA sigma rho
  have key : orderCsc c F.KKT = orderCsc c F0.KKT := by
    have hc := kktEnts_inCols (VP := VP.withX X0) (VA := VA.withX Y0) (sigma := 0) (R := R0) (hVP.withX (v' := fun k => X0 k) fun _ => rfl).valid
      (hVA.withX (v' := fun k => Y0 k) fun _ => rfl).valid (hVP.m.trans hVP.n.symm) (hVA.n.trans hVP.n.symm)
    obtain ⟨g1, g2⟩ := laid_pat (kktEnts_pat (VP.withX X0) (VA.withX Y0) X Y 0 sigma R0 R) hL0 hL hc
    exact pattern_ok hF0 hF sq0 (by rw [hL.vm, hL.vn]) (by rw [hL.vn, hL0.vn]) g1 g2 c
  unfold qInitAmd qInit buildKKT
  simp only
  rw [e1, e2, e3]
  simp only [Option.bind_some]
  rw [e4]
  simp only [Option.bind_some]
  rw [key, eo]
  simp only [Option.bind_some]
  rw [if_neg (by omega)]

end Osqp.Vm
