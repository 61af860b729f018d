import Verif.Mkl.VecSpec
import Verif.Vm.AdmmLemmas

/-!
# Lemmas on the vector routines of the MKL back end
-/

set_option linter.unusedSectionVars false
namespace Osqp.MklVec
open Csc Vm
variable {K : Type*} [Field K] [LinearOrder K] [IsStrictOrderedRing K] {lib : Lib K} {sqrt : K → K} {σ σ' : Store K} {x a b c : Ref} {n : ℕ} {f fa fb : Fin n → K}

/-- A call that gives `g` in `x` and changes nothing else has one possible outcome. -/
theorem gives_same {r r' : Option (Store K)} {g : Fin n → K} (h : Gives σ r x n g) (h' : Gives σ r' x n g) : r = r' := by
  obtain ⟨τ, e, h1, h2⟩ := h
  obtain ⟨τ', e', k1, k2⟩ := h'
  rw [e, e']
  refine congrArg some (funext fun t => ?_)
  have hs : (τ t).size = (τ' t).size := by rw [h2.1, k2.1]
  have hc : (τ t).cell = (τ' t).cell := by
    funext k
    by_cases c : t = x.blk ∧ x.off ≤ k ∧ k < x.off + x.len
    · obtain ⟨rfl, c1, c2⟩ := c
      have hk : k - x.off < n := by have := h1.len; omega
      have e1 := h1.val ⟨k - x.off, hk⟩
      have e2 := k1.val ⟨k - x.off, hk⟩
      simp only [Nat.add_sub_cancel' c1] at e1 e2
      rw [e1, e2]
    · rw [h2.2 t k c, k2.2 t k c]
  cases h3 : τ t; cases h4 : τ' t
  rw [h3, h4] at hs hc
  simp only at hs hc
  rw [hs, hc]

theorem gives_congr {r : Option (Store K)} {g g' : Fin n → K} (h : Gives σ r x n g) (e : ∀ i, g i = g' i) : Gives σ r x n g' := by
  rwa [← show g = g' from funext e]

theorem multScalar_holds (hd : Documented lib sqrt) (hx : Has σ x n f) (sc : K) : Gives σ (multScalar lib x sc σ) x n fun i => f i * sc := by
  unfold multScalar; rw [hx.len]; exact gives_congr (hd.scal sc hx) fun i => mul_comm _ _

theorem plus_holds (hd : Documented lib sqrt) (hr : Room σ x n) (ha : Has σ a n fa) (pa : Fits x a) (hb : Has σ b n fb) (pb : Apart x b ∨ Same x b) :
    Gives σ (plus lib x a b σ) x n fun i => fa i + fb i := by
  unfold plus; rw [ha.len]; exact hd.add hr ha pa.1 hb pb

theorem minus_holds (hd : Documented lib sqrt) (hr : Room σ x n) (ha : Has σ a n fa) (pa : Fits x a) (hb : Has σ b n fb) (pb : Apart x b ∨ Same x b) :
    Gives σ (minus lib x a b σ) x n fun i => fa i - fb i := by
  unfold minus; rw [ha.len]; exact hd.sub hr ha pa.1 hb pb

theorem ewProd_holds (hd : Documented lib sqrt) (hr : Room σ x n) (ha : Has σ a n fa) (pa : Fits x a) (hb : Has σ b n fb) (pb : Apart x b ∨ Same x b) :
    Gives σ (ewProd lib x a b σ) x n fun i => fa i * fb i := by
  unfold ewProd; rw [ha.len]; exact hd.mul hr ha pa.1 hb pb

theorem addScaled_holds (hd : Documented lib sqrt) (hr : Room σ x n) (sca : K) (ha : Has σ a n fa) (pa : Fits x a) (scb : K) (hb : Has σ b n fb)
    (pb : Apart x b ∨ (Same x b ∧ ¬ (x.addr = a.addr ∧ sca = 1))) : Gives σ (addScaled lib x sca a scb b σ) x n fun i => sca * fa i + scb * fb i := by
  unfold addScaled
  by_cases c : x.addr = a.addr ∧ sca = 1
  · rw [if_pos c, hr.len]
    have p : Apart x b := pb.resolve_right fun h => h.2 c
    exact gives_congr (hd.axpy scb ((pa.2 c.1).has hr.len ha) hb p) fun i => by rw [c.2]; ring
  · have := Vm.addScaled_holds hr sca ha pa scb hb (pb.imp_right And.left)
    unfold Vm.addScaled at this
    rw [if_neg c] at this ⊢
    exact this

section Steps
variable {d : Dims} {W : Ptrs} {xz : Ref} {s : Solver d K} {c : Scr d K}

theorem computeRhs_goes (hd : Documented lib sqrt) (lay : Layout d.n d.m W xz) (h : Mem σ W (vals s c)) :
    Goes W xz [] (vals s { c with xt := (Osqp.computeRhs s).1, zt := (Osqp.computeRhs s).2 }) σ (computeRhs lib s.settings s.work.rho_inv W σ) := by
  unfold computeRhs
  set bx := vAddScaled s.settings.sigma s.work.x_prev (-1) s.work.data.q with hbx
  have g1 : Goes W xz [.xt] (vals s { c with xt := bx }) σ (addScaled lib (W .xt) s.settings.sigma (W .xPrev) (-1) (W .q) σ) :=
    goes_put lay h (addScaled_holds hd (h .xt _ rfl).toRoom _ (h .xPrev _ rfl) (lay.fits _ _) _ (h .q _ rfl) (.inl (lay.apart (by decide))))
      (by funext k; cases k <;> rfl)
  have hx := lay.len_xt.2.2
  have hz := lay.len_zt.2.2
  by_cases hc : s.settings.rho_is_vec ≠ 0
  · have e : Osqp.computeRhs s = (bx, vAddScaled (-1) (vEwProd s.work.rho_inv_vec s.work.y) 1 s.work.z_prev) := by
      unfold Osqp.computeRhs; simp only [if_pos hc]; rfl
    rw [e]
    refine (g1.bind (L' := [.zt, .zt]) fun τ h => ?_).mono (by simp [hx, hz])
    rw [if_pos hc]
    refine Goes.bind (L := [.zt]) (L' := [.zt]) (V' := vals s { c with xt := bx, zt := vEwProd s.work.rho_inv_vec s.work.y }) ?_ fun τ h => ?_
    · exact goes_put lay h (ewProd_holds hd (h .zt _ rfl).toRoom (h .rhoInv _ (if_pos hc)) (lay.fits _ _) (h .y _ rfl) (lay.use _ _))
        (by funext k; cases k <;> rfl)
    · exact goes_put lay h (addScaled_holds hd (h .zt _ rfl).toRoom _ (h .zt _ rfl) (lay.fits _ _) _ (h .zPrev _ rfl) (.inl (lay.apart (by decide))))
        (by funext k; cases k <;> rfl)
  · have e : Osqp.computeRhs s = (bx, vAddScaled 1 s.work.z_prev (-s.work.rho_inv) s.work.y) := by
      unfold Osqp.computeRhs; simp only [if_neg hc]; rfl
    rw [e]
    refine (g1.bind (L' := [.zt]) fun τ h => ?_).mono (by simp [hx, hz])
    rw [if_neg hc]
    exact goes_put lay h (addScaled_holds hd (h .zt _ rfl).toRoom _ (h .zPrev _ rfl) (lay.fits _ _) _ (h .y _ rfl) (.inl (lay.apart (by decide))))
      (by funext k; cases k <;> rfl)

theorem updateXZTilde_goes (hd : Documented lib sqrt) {env : Env d K} {slv : Buf K → Option (Buf K)} (hl : Solves env s.work.linsys slv) (lay : Layout d.n d.m W xz)
    (h : Mem σ W (vals s c)) :
    Goes W xz [] (vals s { c with xt := (Osqp.updateXZTilde env s).1, zt := (Osqp.updateXZTilde env s).2 }) σ
      (updateXZTilde lib s.settings s.work.rho_inv slv W xz σ) :=
  (computeRhs_goes hd lay h).bind fun _ h => solveIn_goes hl lay h

theorem updateX_goes (hd : Documented lib sqrt) (lay : Layout d.n d.m W xz) (h : Mem σ W (vals s c)) :
    Goes W xz [.x, .dx] (vals (Osqp.updateX c.xt s) c) σ (updateX lib s.settings W σ) := by
  unfold updateX
  refine Goes.bind (L := [.x]) (L' := [.dx])
    (V' := vals { s with work := { s.work with x := vAddScaled s.settings.alpha c.xt (1 - s.settings.alpha) s.work.x_prev } } c) ?_ fun τ h => ?_
  · exact goes_put lay h (addScaled_holds hd (h .x _ rfl).toRoom _ (h .xt _ rfl) (lay.fits _ _) _ (h .xPrev _ rfl) (.inl (lay.apart (by decide))))
      (by funext k; cases k <;> rfl)
  · exact goes_put lay h (minus_holds hd (h .dx _ rfl).toRoom (h .x _ rfl) (lay.fits _ _) (h .xPrev _ rfl) (lay.use _ _))
      (by funext k; cases k <;> rfl)

theorem updateZ_goes (hd : Documented lib sqrt) (lay : Layout d.n d.m W xz) (h : Mem σ W (vals s c)) :
    Goes W xz [.z] (vals (Osqp.updateZ c.zt s) c) σ (updateZ lib s.settings s.work.rho_inv W σ) := by
  unfold updateZ
  have fin : ∀ (z : Vec K d.m) τ, Mem τ W (vals (withZ s z) c) →
      Goes W xz [.z] (vals (withZ s (vBound z s.work.data.l s.work.data.u)) c) τ (boundVec (W .z) (W .z) (W .l) (W .u) τ) := fun z τ h =>
    goes_put lay h (boundVec_holds (h .z _ rfl).toRoom (h .z _ rfl) (lay.use _ _) (h .l _ rfl) (lay.use _ _) (h .u _ rfl) (lay.use _ _))
      (by funext k; cases k <;> rfl)
  by_cases hc : s.settings.rho_is_vec ≠ 0
  · have e : Osqp.updateZ c.zt s = withZ s (vBound (vAddScaled3 1 (vEwProd s.work.rho_inv_vec s.work.y) s.settings.alpha c.zt
        (1 - s.settings.alpha) s.work.z_prev) s.work.data.l s.work.data.u) := by
      unfold Osqp.updateZ; simp only [if_pos hc]
    rw [e, if_pos hc]
    refine Goes.mono (L := ([.z] ++ [.z]) ++ [.z]) (Goes.bind ?_ (fin _)) (by simp)
    refine Goes.bind (V' := vals (withZ s (vEwProd s.work.rho_inv_vec s.work.y)) c) ?_ fun τ h => ?_
    · exact goes_put lay h (ewProd_holds hd (h .z _ rfl).toRoom (h .rhoInv _ (if_pos hc)) (lay.fits _ _) (h .y _ rfl) (lay.use _ _))
        (by funext k; cases k <;> rfl)
    · exact goes_put lay h (addScaled3_holds (h .z _ rfl).toRoom _ (h .z _ rfl) (lay.fits _ _) _ (h .zt _ rfl) (lay.use _ _) _
        (h .zPrev _ rfl) (lay.use _ _)) (by funext k; cases k <;> rfl)
  · have e : Osqp.updateZ c.zt s = withZ s (vBound (vAddScaled3 s.settings.alpha c.zt (1 - s.settings.alpha) s.work.z_prev s.work.rho_inv s.work.y)
        s.work.data.l s.work.data.u) := by
      unfold Osqp.updateZ; simp only [if_neg hc]
    rw [e, if_neg hc]
    refine Goes.mono (L := [.z] ++ [.z]) (Goes.bind ?_ (fin _)) (by simp)
    exact goes_put lay h (addScaled3_holds (h .z _ rfl).toRoom _ (h .zt _ rfl) (lay.fits _ _) _ (h .zPrev _ rfl) (lay.use _ _) _
      (h .y _ rfl) (lay.use _ _)) (by funext k; cases k <;> rfl)

theorem updateY_goes (hd : Documented lib sqrt) (lay : Layout d.n d.m W xz) (h : Mem σ W (vals s c)) :
    Goes W xz [.dy, .y] (vals (Osqp.updateY c.zt s) c) σ (updateY lib s.settings W σ) := by
  unfold updateY
  set dy0 := vAddScaled3 s.settings.alpha c.zt (1 - s.settings.alpha) s.work.z_prev (-1) s.work.z with hdy
  set dy := if s.settings.rho_is_vec ≠ 0 then vEwProd dy0 s.work.rho_vec else vScale dy0 s.settings.rho with hdd
  have e : Osqp.updateY c.zt s = { s with work := { s.work with delta_y := dy, y := vPlus s.work.y dy } } := rfl
  rw [e]
  refine Goes.mono (L := [.dy] ++ ([.dy] ++ [.y])) (Goes.bind (V' := vals (withDy s dy0) c) ?_ fun τ h =>
    Goes.bind (V' := vals (withDy s dy) c) ?_ fun τ h => ?_) (by simp)
  · exact goes_put lay h (addScaled3_holds (h .dy _ rfl).toRoom _ (h .zt _ rfl) (lay.fits _ _) _ (h .zPrev _ rfl) (lay.use _ _) _
      (h .z _ rfl) (lay.use _ _)) (by funext k; cases k <;> rfl)
  · by_cases hc : s.settings.rho_is_vec ≠ 0
    · rw [if_pos hc]
      rw [if_pos hc] at hdd
      rw [hdd]
      exact goes_put lay h (ewProd_holds hd (h .dy _ rfl).toRoom (h .dy _ rfl) (lay.fits _ _) (h .rho _ (if_pos hc)) (lay.use _ _))
        (by funext k; cases k <;> rfl)
    · rw [if_neg hc]
      rw [if_neg hc] at hdd
      rw [hdd]
      exact goes_put lay h (multScalar_holds hd (h .dy _ rfl) _) (by funext k; cases k <;> rfl)
  · exact goes_put lay h (plus_holds hd (h .y _ rfl).toRoom (h .y _ rfl) (lay.fits _ _) (h .dy _ rfl) (lay.use _ _))
      (by funext k; cases k <;> rfl)

theorem iterate_goes (hd : Documented lib sqrt) {env : Env d K} {s : Solver d K} {slv : Buf K → Option (Buf K)} (hl : Solves env s.work.linsys slv) (lay : Layout d.n d.m W xz)
    (h : Holding σ W xz s) :
    ∃ σ', iterate lib s.settings s.work.rho_inv slv xz W σ = some (fun k => W (mate k), σ') ∧
      Holding σ' (fun k => W (mate k)) xz (admmStep env s) ∧ OnlyVectors W xz σ σ' := by
  obtain ⟨hsz, c, h⟩ := h
  have lay' : Layout d.n d.m (fun k => W (mate k)) xz := lay.perm mate mate_inj rfl rfl
  have h0 : Mem σ (fun k => W (mate k)) (vals (swapIterates s) c) := by
    intro k f hk
    cases k with
    | x => exact h .xPrev f hk
    | y => exact h .y f hk
    | z => exact h .zPrev f hk
    | xPrev => exact h .x f hk
    | zPrev => exact h .z f hk
    | dx => exact h .dx f hk
    | dy => exact h .dy f hk
    | xt => exact h .xt f hk
    | zt => exact h .zt f hk
    | q => exact h .q f hk
    | l => exact h .l f hk
    | u => exact h .u f hk
    | rho => exact h .rho f hk
    | rhoInv => exact h .rhoInv f hk
    | Ax => exact h .Ax f hk
    | Px => exact h .Px f hk
    | Aty => exact h .Aty f hk
    | Atdy => exact h .Atdy f hk
    | Pdx => exact h .Pdx f hk
    | Adx => exact h .Adx f hk
    | D => exact h .D f hk
    | Dinv => exact h .Dinv f hk
    | E => exact h .E f hk
    | Einv => exact h .Einv f hk
    | solX => exact h .solX f hk
    | solY => exact h .solY f hk
    | solPc => exact h .solPc f hk
    | solDc => exact h .solDc f hk
    | Dt => exact h .Dt f hk
    | DtA => exact h .DtA f hk
    | Et => exact h .Et f hk
    | pX => exact h .pX f hk
    | pZ => exact h .pZ f hk
    | pY => exact h .pY f hk
  have g := (updateXZTilde_goes hd (s := swapIterates s) (env := env) (slv := slv) hl lay' h0).bind fun τ h => (updateX_goes hd lay' h).bind fun τ h =>
    (updateZ_goes hd lay' h).bind fun τ h => updateY_goes hd lay' h
  obtain ⟨σ', e, h1, h2, h3⟩ := g
  refine ⟨σ', ?_, ⟨h2 hsz, _, h1⟩, fun b hb hk => h3 b hb fun k hk' => ?_⟩
  · unfold iterate
    rw [swap_eq]
    have e' := congrArg (Option.map fun σ => ((fun k => W (mate k) : Ptrs), σ)) e
    rw [Option.map_some] at e'
    rw [← e', Option.map_bind]
    refine Option.bind_congr fun a _ => ?_
    show _ = Option.map _ _
    rw [Option.map_bind]
    refine Option.bind_congr fun a _ => ?_
    show _ = Option.map _ _
    rw [Option.map_bind]
    refine Option.bind_congr fun a _ => ?_
    show _ = Option.map _ _
    exact (Option.map_eq_bind ..).symm
  · refine hk (mate k) ?_
    revert hk'; cases k <;> simp [mate]

end Steps

end Osqp.MklVec
