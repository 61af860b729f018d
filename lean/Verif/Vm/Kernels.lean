import Verif.Vm.Lemmas

/-!
# Each vector routine computes the vector function of the solver layer
-/

set_option linter.unusedSectionVars false
namespace Osqp.Vm
open Csc
variable {K : Type*} [Field K] [LinearOrder K] {σ : Store K} {x a b c l u : Ref} {n : ℕ} {f fa fb fc fl fu : Fin n → K}

theorem Same.has (h : Same x a) (hx : x.len = n) (ha : Has σ a n fa) : Has σ x n fa :=
  ⟨hx, by rw [h.1, h.2]; exact ha.room, fun i => by rw [h.1, h.2]; exact ha.val i⟩

theorem same_refl : Apart x x ∨ Same x x := .inr ⟨rfl, rfl⟩

/-- Loop reading one operand. -/
theorem map1 (hr : Room σ x n) (ha : Has σ a n fa) (pa : Apart x a ∨ Same x a) (op : K → K) :
    ∃ σ', forI 0 (n : ℤ) (fun i σ => (rd σ a i).bind fun v => wr σ x i (op v)) σ = some σ' ∧
      Has σ' x n (fun i => op (fa i)) ∧ OnlyAt x σ σ' :=
  map_loop hr fun k hk τ h => by
    simp only [h.rd hr.len ha pa hk, Option.bind_some]
    exact h.write hr hk rfl

/-- Loop reading two operands. -/
theorem map2 (hr : Room σ x n) (ha : Has σ a n fa) (pa : Apart x a ∨ Same x a) (hb : Has σ b n fb)
    (pb : Apart x b ∨ Same x b) (op : K → K → K) :
    ∃ σ', forI 0 (n : ℤ) (fun i σ => (rd σ a i).bind fun v => (rd σ b i).bind fun w => wr σ x i (op v w)) σ = some σ' ∧
      Has σ' x n (fun i => op (fa i) (fb i)) ∧ OnlyAt x σ σ' :=
  map_loop hr fun k hk τ h => by
    simp only [h.rd hr.len ha pa hk, h.rd hr.len hb pb hk, Option.bind_some]
    exact h.write hr hk rfl

/-- Loop reading three operands. -/
theorem map3 (hr : Room σ x n) (ha : Has σ a n fa) (pa : Apart x a ∨ Same x a) (hb : Has σ b n fb)
    (pb : Apart x b ∨ Same x b) (hc : Has σ c n fc) (pc : Apart x c ∨ Same x c) (op : K → K → K → K) :
    ∃ σ', forI 0 (n : ℤ) (fun i σ => (rd σ a i).bind fun v => (rd σ b i).bind fun w => (rd σ c i).bind fun t =>
        wr σ x i (op v w t)) σ = some σ' ∧
      Has σ' x n (fun i => op (fa i) (fb i) (fc i)) ∧ OnlyAt x σ σ' :=
  map_loop hr fun k hk τ h => by
    simp only [h.rd hr.len ha pa hk, h.rd hr.len hb pb hk, h.rd hr.len hc pc hk, Option.bind_some]
    exact h.write hr hk rfl

theorem copy_holds (hr : Room σ x n) (ha : Has σ a n fa) (pa : Apart x a ∨ Same x a) :
    ∃ σ', copy x a σ = some σ' ∧ Has σ' x n fa ∧ OnlyAt x σ σ' := by
  unfold copy; rw [hr.len]; exact map1 hr ha pa id

theorem toRaw_holds (hr : Room σ x n) (ha : Has σ a n fa) (pa : Apart x a ∨ Same x a) :
    ∃ σ', toRaw x a σ = some σ' ∧ Has σ' x n fa ∧ OnlyAt x σ σ' := by
  unfold toRaw; rw [ha.len]; exact map1 hr ha pa id

theorem setScalar_holds (hr : Room σ x n) (sc : K) :
    ∃ σ', setScalar x sc σ = some σ' ∧ Has σ' x n (vSet sc) ∧ OnlyAt x σ σ' := by
  unfold setScalar; rw [hr.len]
  exact map_loop hr fun k hk τ h => h.write hr hk rfl

theorem setCond_holds (hr : Room σ x n) {test : Buf ℤ} {ft : Fin n → ℤ} (ht : n ≤ test.size ∧ ∀ i : Fin n, test.cell i = some (ft i))
    (neg zero pos : K) :
    ∃ σ', setCond x test neg zero pos σ = some σ' ∧ Has σ' x n (vSetCond ft neg zero pos) ∧ OnlyAt x σ σ' := by
  unfold setCond; rw [hr.len]
  refine map_loop hr fun k hk τ h => ?_
  have e : test.rd (k : ℤ) = some (ft ⟨k, hk⟩) := by
    unfold Buf.rd
    rw [if_pos ⟨by omega, by omega⟩, Int.toNat_natCast]; exact ht.2 ⟨k, hk⟩
  simp only [e, Option.bind_some]
  split_ifs with c1 c2
  · exact h.write hr hk (by simp [vSetCond, c1])
  · exact h.write hr hk (by simp [vSetCond, c1, c2])
  · exact h.write hr hk (by simp [vSetCond, c1, c2])

theorem roundToZero_holds (hx : Has σ x n f) (tol : K) :
    ∃ σ', roundToZero x tol σ = some σ' ∧ Has σ' x n (vRoundToZero f tol) ∧ OnlyAt x σ σ' := by
  unfold roundToZero; rw [hx.len]
  refine map_loop hx.toRoom fun k hk τ h => ?_
  simp only [h.rd hx.len hx same_refl hk, Option.bind_some]
  split_ifs with c1
  · exact h.write hx.toRoom hk (by simp [vRoundToZero, c1])
  · exact ⟨τ, rfl, h.keep hx hk (by simp [vRoundToZero, c1])⟩

theorem multScalar_holds (hx : Has σ x n f) (sc : K) :
    ∃ σ', multScalar x sc σ = some σ' ∧ Has σ' x n (vScale f sc) ∧ OnlyAt x σ σ' := by
  unfold multScalar; rw [hx.len]; exact map1 hx.toRoom hx same_refl (fun v => v * sc)

theorem plus_holds (hr : Room σ x n) (ha : Has σ a n fa) (pa : Fits x a) (hb : Has σ b n fb) (pb : Apart x b ∨ Same x b) :
    ∃ σ', plus x a b σ = some σ' ∧ Has σ' x n (vPlus fa fb) ∧ OnlyAt x σ σ' := by
  unfold plus; rw [ha.len]
  split_ifs with e
  · exact map2 hr ((pa.2 e).has hr.len ha) same_refl hb pb (· + ·)
  · exact map2 hr ha pa.1 hb pb (· + ·)

theorem minus_holds (hr : Room σ x n) (ha : Has σ a n fa) (pa : Fits x a) (hb : Has σ b n fb) (pb : Apart x b ∨ Same x b) :
    ∃ σ', minus x a b σ = some σ' ∧ Has σ' x n (vMinus fa fb) ∧ OnlyAt x σ σ' := by
  unfold minus; rw [ha.len]
  split_ifs with e
  · exact map2 hr ((pa.2 e).has hr.len ha) same_refl hb pb (· - ·)
  · exact map2 hr ha pa.1 hb pb (· - ·)

theorem addScaled_holds (hr : Room σ x n) (sca : K) (ha : Has σ a n fa) (pa : Fits x a) (scb : K) (hb : Has σ b n fb)
    (pb : Apart x b ∨ Same x b) :
    ∃ σ', addScaled x sca a scb b σ = some σ' ∧ Has σ' x n (vAddScaled sca fa scb fb) ∧ OnlyAt x σ σ' := by
  unfold addScaled; rw [hr.len]
  split_ifs with e
  · obtain ⟨σ', h1, h2, h3⟩ := map2 hr ((pa.2 e.1).has hr.len ha) same_refl hb pb (fun v w => v + scb * w)
    refine ⟨σ', h1, ?_, h3⟩
    have : vAddScaled sca fa scb fb = fun i => fa i + scb * fb i := by funext i; simp [vAddScaled, e.2]
    rw [this]; exact h2
  · exact map2 hr ha pa.1 hb pb (fun v w => sca * v + scb * w)

theorem addScaled3_holds (hr : Room σ x n) (sca : K) (ha : Has σ a n fa) (pa : Fits x a) (scb : K) (hb : Has σ b n fb)
    (pb : Apart x b ∨ Same x b) (scc : K) (hc : Has σ c n fc) (pc : Apart x c ∨ Same x c) :
    ∃ σ', addScaled3 x sca a scb b scc c σ = some σ' ∧ Has σ' x n (vAddScaled3 sca fa scb fb scc fc) ∧ OnlyAt x σ σ' := by
  unfold addScaled3; rw [hr.len]
  split_ifs with e
  · obtain ⟨σ', h1, h2, h3⟩ := map3 hr ((pa.2 e.1).has hr.len ha) same_refl hb pb hc pc (fun v w t => v + (scb * w + scc * t))
    refine ⟨σ', h1, ?_, h3⟩
    have : vAddScaled3 sca fa scb fb scc fc = fun i => fa i + (scb * fb i + scc * fc i) := by
      funext i; simp [vAddScaled3, e.2]; ring
    rw [this]; exact h2
  · exact map3 hr ha pa.1 hb pb hc pc (fun v w t => sca * v + scb * w + scc * t)

theorem ewProd_holds (hr : Room σ x n) (ha : Has σ a n fa) (pa : Fits x a) (hb : Has σ b n fb) (pb : Apart x b ∨ Same x b) :
    ∃ σ', ewProd x a b σ = some σ' ∧ Has σ' x n (vEwProd fa fb) ∧ OnlyAt x σ σ' := by
  unfold ewProd; rw [ha.len]
  split_ifs with e
  · exact map2 hr ((pa.2 e).has hr.len ha) same_refl hb pb (· * ·)
  · exact map2 hr ha pa.1 hb pb (· * ·)

theorem boundVec_holds (hr : Room σ x n) (ha : Has σ a n fa) (pa : Apart x a ∨ Same x a) (hl : Has σ l n fl) (pl : Apart x l ∨ Same x l)
    (hu : Has σ u n fu) (pu : Apart x u ∨ Same x u) :
    ∃ σ', boundVec x a l u σ = some σ' ∧ Has σ' x n (vBound fa fl fu) ∧ OnlyAt x σ σ' := by
  unfold boundVec; rw [hr.len]
  exact map3 hr ha pa hl pl hu pu (fun v w t => cMin (cMax v w) t)

theorem projectPolar_holds (hx : Has σ x n f) (hl : Has σ l n fl) (pl : Apart x l) (hu : Has σ u n fu) (pu : Apart x u) (infval : K) :
    ∃ σ', projectPolar x l u infval σ = some σ' ∧ Has σ' x n (vProjectPolar f fl fu infval) ∧ OnlyAt x σ σ' := by
  unfold projectPolar; rw [hx.len]
  refine map_loop hx.toRoom fun k hk τ h => ?_
  simp only [h.rd hx.len hx same_refl hk, h.rd hx.len hl (.inl pl) hk, h.rd hx.len hu (.inl pu) hk, Option.bind_some]
  split_ifs with c1 c2 c2
  · exact h.write hx.toRoom hk (by simp only [vProjectPolar]; rw [if_pos c1, if_pos c2])
  · exact h.write hx.toRoom hk (by simp only [vProjectPolar]; rw [if_pos c1, if_neg c2])
  · exact h.write hx.toRoom hk (by simp only [vProjectPolar]; rw [if_neg c1, if_pos c2])
  · exact ⟨τ, rfl, h.keep hx hk (by simp only [vProjectPolar]; rw [if_neg c1, if_neg c2])⟩

theorem reciprocal_holds (hr : Room σ x n) (ha : Has σ a n fa) (pa : Apart x a ∨ Same x a) (hz : ∀ i, fa i ≠ 0) :
    ∃ σ', reciprocal x a σ = some σ' ∧ Has σ' x n (vRecip fa) ∧ OnlyAt x σ σ' := by
  unfold reciprocal; rw [ha.len]
  refine map_loop hr fun k hk τ h => ?_
  simp only [h.rd hr.len ha pa hk, Option.bind_some, hz, if_false]
  exact h.write hr hk rfl

theorem ewSqrt_holds (sqrt : K → K) (hx : Has σ x n f) :
    ∃ σ', ewSqrt sqrt x σ = some σ' ∧ Has σ' x n (fun i => sqrt (f i)) ∧ OnlyAt x σ σ' := by
  unfold ewSqrt; rw [hx.len]; exact map1 hx.toRoom hx same_refl sqrt

theorem maxVec_holds (hr : Room σ x n) (ha : Has σ a n fa) (pa : Apart x a ∨ Same x a) (hb : Has σ b n fb) (pb : Apart x b ∨ Same x b) :
    ∃ σ', maxVec x a b σ = some σ' ∧ Has σ' x n (vMaxVec fa fb) ∧ OnlyAt x σ σ' := by
  unfold maxVec; rw [ha.len]; exact map2 hr ha pa hb pb cMax

theorem minVec_holds (hr : Room σ x n) (ha : Has σ a n fa) (pa : Apart x a ∨ Same x a) (hb : Has σ b n fb) (pb : Apart x b ∨ Same x b) :
    ∃ σ', minVec x a b σ = some σ' ∧ Has σ' x n (fun i => cMin (fa i) (fb i)) ∧ OnlyAt x σ σ' := by
  unfold minVec; rw [ha.len]; exact map2 hr ha pa hb pb cMin

theorem setIfLt_holds (hr : Room σ x n) (ha : Has σ a n fa) (pa : Apart x a ∨ Same x a) (test new : K) :
    ∃ σ', setIfLt x a test new σ = some σ' ∧ Has σ' x n (vSetIfLt fa test new) ∧ OnlyAt x σ σ' := by
  unfold setIfLt; rw [hr.len]; exact map1 hr ha pa (fun v => if v < test then new else v)

theorem setIfGt_holds (hr : Room σ x n) (ha : Has σ a n fa) (pa : Apart x a ∨ Same x a) (test new : K) :
    ∃ σ', setIfGt x a test new σ = some σ' ∧ Has σ' x n (vSetIfGt fa test new) ∧ OnlyAt x σ σ' := by
  unfold setIfGt; rw [hr.len]; exact map1 hr ha pa (fun v => if v > test then new else v)

/-- Assignment of a part of a vector: the part is `view addr x start length`. -/
theorem subAssign_holds {start addr : ℕ} (hr : Room σ (view addr x start n) n) (hb : Has σ b n fb)
    (pb : Apart (view addr x start n) b ∨ Same (view addr x start n) b) (mult : K) :
    ∃ σ', subAssign x b start n mult σ = some σ' ∧ Has σ' (view addr x start n) n (fun i => mult * fb i) ∧
      OnlyAt (view addr x start n) σ σ' := by
  have e : ∀ (τ : Store K) (i : ℤ) (v : K), wr τ x (start + i) v = wr τ (view addr x start n) i v := by
    intro τ i v; unfold wr view; simp only [Nat.cast_add, add_assoc]
  unfold subAssign
  simp only [e]
  exact map1 hr hb pb (fun v => mult * v)

theorem subAssignScalar_holds {start addr : ℕ} (hr : Room σ (view addr x start n) n) (sc : K) :
    ∃ σ', subAssignScalar x sc start n σ = some σ' ∧ Has σ' (view addr x start n) n (vSet sc) ∧
      OnlyAt (view addr x start n) σ σ' := by
  have e : ∀ (τ : Store K) (i : ℤ) (v : K), wr τ x (start + i) v = wr τ (view addr x start n) i v := by
    intro τ i v; unfold wr view; simp only [Nat.cast_add, add_assoc]
  unfold subAssignScalar
  simp only [e]
  exact map_loop hr fun k hk τ h => h.write hr hk rfl

/-! ## Routines that only read -/

theorem normInf_holds (hx : Has σ x n f) : normInf x σ = some (vNormInf f) := by
  unfold normInf; rw [hx.len]
  exact fold_loop _ 0 fun k hk r => by simp only [hx.rd ⟨k, hk⟩, Option.bind_some]

theorem scaledNormInf_holds (ha : Has σ a n fa) (hx : Has σ x n f) : scaledNormInf a x σ = some (vScaledNormInf fa f) := by
  unfold scaledNormInf; rw [hx.len]
  exact fold_loop _ 0 fun k hk r => by simp only [hx.rd ⟨k, hk⟩, ha.rd ⟨k, hk⟩, Option.bind_some]

theorem normInfDiff_holds (ha : Has σ a n fa) (hb : Has σ b n fb) : normInfDiff a b σ = some (vNormInf fun i => fa i - fb i) := by
  unfold normInfDiff; rw [ha.len]
  exact fold_loop _ 0 fun k hk r => by simp only [ha.rd ⟨k, hk⟩, hb.rd ⟨k, hk⟩, Option.bind_some]

theorem norm1_holds (ha : Has σ a n fa) : norm1 a σ = some (vNorm1 fa) := by
  unfold norm1; rw [ha.len]
  exact fold_loop _ 0 fun k hk r => by simp only [ha.rd ⟨k, hk⟩, Option.bind_some]

theorem dotProd_holds (ha : Has σ a n fa) (hb : Has σ b n fb) : dotProd a b σ = some (vDot fa fb) := by
  unfold dotProd; rw [ha.len]
  exact fold_loop _ 0 fun k hk r => by simp only [ha.rd ⟨k, hk⟩, hb.rd ⟨k, hk⟩, Option.bind_some]

theorem dotSigned_holds (ha : Has σ a n fa) (hb : Has σ b n fb) (sign : ℤ) : dotSigned a b sign σ =
    some (if sign = 1 then vDotPos fa fb else if sign = -1 then vDotNeg fa fb else vDot fa fb) := by
  unfold dotSigned; rw [ha.len]
  split_ifs
  · exact fold_loop _ 0 fun k hk r => by simp only [ha.rd ⟨k, hk⟩, hb.rd ⟨k, hk⟩, Option.bind_some]
  · exact fold_loop _ 0 fun k hk r => by simp only [ha.rd ⟨k, hk⟩, hb.rd ⟨k, hk⟩, Option.bind_some]
  · exact dotProd_holds ha hb

theorem foldl_all {ι : Type*} (p : ι → Bool) (L : List ι) (r : Bool) :
    L.foldl (fun r i => if r then p i else false) r = (r && L.all p) := by
  induction L generalizing r with
  | nil => simp
  | cons i L ih => rw [List.foldl_cons, ih]; cases r <;> simp

theorem allLeq_holds (ha : Has σ l n fl) (hb : Has σ u n fu) : allLeq l u σ = some (vAllLeq fl fu) := by
  unfold allLeq; rw [ha.len]
  rw [fold_loop (fun r i => if r then !decide (fl i > fu i) else false) true fun k hk r => by
    simp only [ha.rd ⟨k, hk⟩, hb.rd ⟨k, hk⟩, Option.bind_some]
    cases r
    · rfl
    · by_cases h : fl ⟨k, hk⟩ > fu ⟨k, hk⟩ <;> simp [h], foldl_all]
  simp [vAllLeq]

theorem inReccone_holds (hx : Has σ x n f) (hl : Has σ l n fl) (hu : Has σ u n fu) (infval tol : K) :
    inReccone x l u infval tol σ = some (vInReccone f fl fu infval tol) := by
  unfold inReccone; rw [hx.len]
  rw [fold_loop (fun r i => if r then !(decide (fu i < infval) && decide (f i > tol) || decide (fl i > -infval) && decide (f i < -tol)) else false)
    true fun k hk r => by
      simp only [hx.rd ⟨k, hk⟩, hl.rd ⟨k, hk⟩, hu.rd ⟨k, hk⟩, Option.bind_some]
      cases r <;> rfl, foldl_all]
  simp [vInReccone]

theorem boundsType_holds {q : Buf ℤ} {old : Fin n → ℤ} (hq : n ≤ q.size ∧ ∀ i : Fin n, q.cell i = some (old i))
    (hl : Has σ l n fl) (hu : Has σ u n fu) (tol infval : K) :
    ∃ q', boundsType q n l u tol infval σ = some (q', vTypeChanged old (vBoundsType fl fu tol infval)) ∧
      q'.size = q.size ∧ (∀ i : Fin n, q'.cell i = some (vBoundsType fl fu tol infval i)) ∧ ∀ k, n ≤ k → q'.cell k = q.cell k := by
  set w := vBoundsType fl fu tol infval with hw
  unfold boundsType
  obtain ⟨r, e, h1, h2, h3, h4⟩ := forI_zero (hi := n) (s := (q, false)) (f := fun i r => (r.1.rd i).bind fun o => (rd σ l i).bind fun a =>
      (rd σ u i).bind fun b => (let t : ℤ := if a < -infval ∧ b > infval then -1 else if b - a < tol then 1 else 0
        (r.1.wr i t).bind fun q => some (q, r.2 || decide (t ≠ o))))
    (fun k r => r.1.size = q.size ∧ (∀ i : Fin n, (i : ℕ) < k → r.1.cell i = some (w i)) ∧
      (∀ j, k ≤ j → r.1.cell j = q.cell j) ∧
      r.2 = ((List.finRange n).take k).foldl (fun ch i => ch || decide (w i ≠ old i)) false)
    ⟨rfl, fun i hi => absurd hi (Nat.not_lt_zero _), fun _ _ => rfl, by simp⟩ (fun k r hk h => by
      obtain ⟨h1, h2, h3, h4⟩ := h
      have er : r.1.rd (k : ℤ) = some (old ⟨k, hk⟩) := by
        unfold Buf.rd
        rw [if_pos ⟨by omega, by have := hq.1; omega⟩, Int.toNat_natCast, h3 k le_rfl]; exact hq.2 ⟨k, hk⟩
      have ew : r.1.wr (k : ℤ) (w ⟨k, hk⟩) = some (r.1.set k (w ⟨k, hk⟩)) := Buf.wr_eq (by have := hq.1; omega)
      refine ⟨(r.1.set k (w ⟨k, hk⟩), r.2 || decide (w ⟨k, hk⟩ ≠ old ⟨k, hk⟩)), ?_, h1, ?_, ?_, ?_⟩
      · simp only [er, hl.rd ⟨k, hk⟩, hu.rd ⟨k, hk⟩, Option.bind_some]
        have : (if fl ⟨k, hk⟩ < -infval ∧ fu ⟨k, hk⟩ > infval then (-1 : ℤ) else if fu ⟨k, hk⟩ - fl ⟨k, hk⟩ < tol then 1 else 0) = w ⟨k, hk⟩ := rfl
        rw [this, ew]; rfl
      · intro i hi
        rw [Buf.set_cell]
        by_cases e : (i : ℕ) = k
        · rw [if_pos e]; congr 2; exact Fin.ext e.symm
        · rw [if_neg e]; exact h2 i (by omega)
      · intro j hj
        rw [Buf.set_cell, if_neg (by omega)]; exact h3 j (by omega)
      · rw [List.take_succ_eq_append_getElem (by simpa using hk), List.foldl_append, ← h4]
        simp)
  refine ⟨r.1, ?_, h1, fun i => h2 i i.2, h3⟩
  rw [e]
  rw [List.take_of_length_le (by simp)] at h4
  unfold vTypeChanged
  rw [← h4]

end Osqp.Vm
