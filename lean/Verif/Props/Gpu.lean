import Verif.Cuda.EqKernel
import Verif.Spec.Gpu

/-!
# C73: vector operations on a GPU

Whatever the order in which the threads of a kernel make their accesses, the kernel ends, makes no invalid access, and leaves what
the routine of the built-in back end leaves. `Agrees` and `Always` are in `Spec/Gpu.lean`; the routines of the built-in back end are
in `Vm/Model.lean`; a vector is a part of an array in memory (`Has`, `Vm/Spec.lean`).
-/

namespace Osqp.Gpu
open Csc Vm
variable {K : Type} [Field K] [LinearOrder K] [IsStrictOrderedRing K]
variable {σ : Store K} {ζ : Store ℤ} {x a b c l u y z q ch res : Ref} {n : ℕ} {f fa fb fc fl fu : Fin n → K}

/-! Two memories for the examples: every array has four elements; element `k` of array `b` is `b - k`. -/

/-- Numbers. -/
def exF : Store ℚ := fun b => ⟨4, fun k => if k < 4 then some ((b : ℚ) - k) else none⟩
/-- Integers: array 7 holds ones, array 8 zeros. -/
def exZ : Store ℤ := fun b => ⟨4, fun k => if k < 4 then some (if b = 7 then 1 else if b = 8 then 0 else (b : ℤ) - k) else none⟩
/-- Three elements of array `b`, from element `o`. -/
def ex (b o : ℕ) : Ref := ⟨b, b, o, 3⟩
/-- One element of array `b`. -/
def ex1 (b : ℕ) : Ref := ⟨b, b, 2, 1⟩

theorem exF_has (b o : ℕ) (ho : o ≤ 1) : Has exF (ex b o) 3 fun i => (b : ℚ) - (o + (i : ℕ) : ℕ) :=
  ⟨rfl, by show o + 3 ≤ 4; omega, fun i => by show (if o + (i : ℕ) < 4 then _ else _) = _; rw [if_pos (by have := i.2; omega)]; rfl⟩
theorem exZ_has (b o : ℕ) (ho : o ≤ 1) : Has exZ (ex b o) 3 fun i => if b = 7 then 1 else if b = 8 then 0 else (b : ℤ) - (o + (i : ℕ) : ℕ) :=
  ⟨rfl, by show o + 3 ≤ 4; omega, fun i => by show (if o + (i : ℕ) < 4 then _ else _) = _; rw [if_pos (by have := i.2; omega)]; rfl⟩
theorem exZ_one : Has exZ (ex1 7) 1 fun _ => 1 := ⟨rfl, by decide, fun i => by fin_cases i; rfl⟩
theorem exZ_zero : Has exZ (ex1 8) 1 fun _ => 0 := ⟨rfl, by decide, fun i => by fin_cases i; rfl⟩

/-! ## Assignments -/

/-- `OSQPVectorf_set_scalar`. -/
theorem c73_set (hx : Room σ x n) (sc : K) : Agrees (setScalar x sc σ) (grid n (setScK x sc)) σ ζ := setSc_kernel hx sc
example : Agrees (setScalar (ex 5 1) 9 exF) (grid 3 (setScK (ex 5 1) 9)) exF exZ := c73_set (exF_has 5 1 le_rfl).toRoom 9

/-- `OSQPVectorf_set_scalar_conditional`. -/
theorem c73_set_conditional (hx : Room σ x n) {ft : Fin n → ℤ} (ht : Has ζ q n ft) (h0 : q.off = 0) (neg zero pos : K) :
    Agrees (setCond x (ζ q.blk) neg zero pos σ) (grid n (setScCondK x q neg zero pos)) σ ζ := setScCond_kernel hx ht h0 neg zero pos
example : Agrees (setCond (ex 5 1) (exZ 1) 7 8 9 exF) (grid 3 (setScCondK (ex 5 1) (ex 1 0) 7 8 9)) exF exZ :=
  c73_set_conditional (exF_has 5 1 le_rfl).toRoom (exZ_has 1 0 (by decide)) rfl 7 8 9

/-- `OSQPVectorf_round_to_zero`. -/
theorem c73_round (hx : Has σ x n f) (tol : K) : Agrees (roundToZero x tol σ) (grid n (roundK x tol)) σ ζ := round_kernel hx tol
example : Agrees (roundToZero (ex 2 1) 1 exF) (grid 3 (roundK (ex 2 1) 1)) exF exZ := c73_round (exF_has 2 1 le_rfl) 1

/-- `OSQPVectorf_set_scalar_if_lt`. -/
theorem c73_set_if_lt (hx : Room σ x n) (hz : Has σ z n f) (pz : Apart x z ∨ Same x z) (test new : K) :
    Agrees (setIfLt x z test new σ) (grid n (setIfLtK x z test new)) σ ζ := setIfLt_kernel hx hz pz test new
/-- `OSQPVectorf_set_scalar_if_gt`. -/
theorem c73_set_if_gt (hx : Room σ x n) (hz : Has σ z n f) (pz : Apart x z ∨ Same x z) (test new : K) :
    Agrees (setIfGt x z test new σ) (grid n (setIfGtK x z test new)) σ ζ := setIfGt_kernel hx hz pz test new
example : Agrees (setIfLt (ex 2 1) (ex 2 1) 0 5 exF) (grid 3 (setIfLtK (ex 2 1) (ex 2 1) 0 5)) exF exZ ∧
    Agrees (setIfGt (ex 2 1) (ex 3 0) 1 5 exF) (grid 3 (setIfGtK (ex 2 1) (ex 3 0) 1 5)) exF exZ :=
  ⟨c73_set_if_lt (exF_has 2 1 le_rfl).toRoom (exF_has 2 1 le_rfl) (.inr ⟨rfl, rfl⟩) 0 5,
   c73_set_if_gt (exF_has 2 1 le_rfl).toRoom (exF_has 3 0 (by decide)) (.inl (.inl (by decide))) 1 5⟩

/-! ## Element by element -/

/-- `OSQPVectorf_ew_prod`. -/
theorem c73_prod (hx : Room σ x n) (ha : Has σ a n fa) (pa : Fits x a) (hb : Has σ b n fb) (pb : Apart x b ∨ Same x b) :
    Agrees (ewProd x a b σ) (grid n (ewProdK x a b)) σ ζ := ewProd_kernel hx ha pa hb pb
/-- `OSQPVectorf_ew_max_vec`. -/
theorem c73_max (hx : Room σ x n) (ha : Has σ a n fa) (pa : Apart x a ∨ Same x a) (hb : Has σ b n fb) (pb : Apart x b ∨ Same x b) :
    Agrees (maxVec x a b σ) (grid n (maxK x a b)) σ ζ := max_kernel hx ha pa hb pb
/-- `OSQPVectorf_ew_min_vec`. -/
theorem c73_min (hx : Room σ x n) (ha : Has σ a n fa) (pa : Apart x a ∨ Same x a) (hb : Has σ b n fb) (pb : Apart x b ∨ Same x b) :
    Agrees (minVec x a b σ) (grid n (minK x a b)) σ ζ := min_kernel hx ha pa hb pb
example : Agrees (ewProd (ex 2 1) (ex 2 1) (ex 3 0) exF) (grid 3 (ewProdK (ex 2 1) (ex 2 1) (ex 3 0))) exF exZ :=
  c73_prod (exF_has 2 1 le_rfl).toRoom (exF_has 2 1 le_rfl) ⟨.inr ⟨rfl, rfl⟩, fun _ => ⟨rfl, rfl⟩⟩ (exF_has 3 0 (by decide)) (.inl (.inl (by decide)))
example : Agrees (maxVec (ex 2 1) (ex 2 1) (ex 3 0) exF) (grid 3 (maxK (ex 2 1) (ex 2 1) (ex 3 0))) exF exZ ∧
    Agrees (minVec (ex 2 1) (ex 2 1) (ex 3 0) exF) (grid 3 (minK (ex 2 1) (ex 2 1) (ex 3 0))) exF exZ :=
  ⟨c73_max (exF_has 2 1 le_rfl).toRoom (exF_has 2 1 le_rfl) (.inr ⟨rfl, rfl⟩) (exF_has 3 0 (by decide)) (.inl (.inl (by decide))),
   c73_min (exF_has 2 1 le_rfl).toRoom (exF_has 2 1 le_rfl) (.inr ⟨rfl, rfl⟩) (exF_has 3 0 (by decide)) (.inl (.inl (by decide)))⟩

/-- `OSQPVectorf_ew_sqrt`, the square root being any function. -/
theorem c73_sqrt (sqrt : K → K) (hx : Has σ x n f) : Agrees (ewSqrt sqrt x σ) (grid n (sqrtK sqrt x)) σ ζ := sqrt_kernel sqrt hx
example : Agrees (ewSqrt (fun v => v / 2) (ex 2 1) exF) (grid 3 (sqrtK (fun v => v / 2) (ex 2 1))) exF exZ := c73_sqrt _ (exF_has 2 1 le_rfl)

/-- `OSQPVectorf_ew_reciprocal`. -/
theorem c73_reciprocal (hx : Room σ x n) (ha : Has σ a n fa) (pa : Apart x a ∨ Same x a) (hz : ∀ i, fa i ≠ 0) :
    Agrees (reciprocal x a σ) (grid n (reciprocalK x a)) σ ζ := reciprocal_kernel hx ha pa hz
example : Agrees (reciprocal (ex 2 1) (ex 5 0) exF) (grid 3 (reciprocalK (ex 2 1) (ex 5 0))) exF exZ :=
  c73_reciprocal (exF_has 2 1 le_rfl).toRoom (exF_has 5 0 (by decide)) (.inl (.inl (by decide))) (fun i => by fin_cases i <;> norm_num)

/-! ## Projections -/

/-- `OSQPVectorf_ew_bound_vec`: the projection onto `[l, u]`. -/
theorem c73_bound (hx : Room σ x n) (hz : Has σ z n f) (pz : Apart x z ∨ Same x z) (hl : Has σ l n fl) (pl : Apart x l ∨ Same x l)
    (hu : Has σ u n fu) (pu : Apart x u ∨ Same x u) : Agrees (boundVec x z l u σ) (grid n (boundK x z l u)) σ ζ := bound_kernel hx hz pz hl pl hu pu
example : Agrees (boundVec (ex 2 1) (ex 2 1) (ex 1 0) (ex 3 0) exF) (grid 3 (boundK (ex 2 1) (ex 2 1) (ex 1 0) (ex 3 0))) exF exZ :=
  c73_bound (exF_has 2 1 le_rfl).toRoom (exF_has 2 1 le_rfl) (.inr ⟨rfl, rfl⟩) (exF_has 1 0 (by decide)) (.inl (.inl (by decide)))
    (exF_has 3 0 (by decide)) (.inl (.inl (by decide)))

/-- `OSQPVectorf_project_polar_reccone`. -/
theorem c73_project_polar (hy : Has σ y n f) (hl : Has σ l n fl) (pl : Apart y l) (hu : Has σ u n fu) (pu : Apart y u) (infval : K) :
    Agrees (projectPolar y l u infval σ) (grid n (projectPolarK y l u infval)) σ ζ := projectPolar_kernel hy hl pl hu pu infval
example : Agrees (projectPolar (ex 2 1) (ex 1 0) (ex 3 0) 2 exF) (grid 3 (projectPolarK (ex 2 1) (ex 1 0) (ex 3 0) 2)) exF exZ :=
  c73_project_polar (exF_has 2 1 le_rfl) (exF_has 1 0 (by decide)) (.inl (by decide)) (exF_has 3 0 (by decide)) (.inl (by decide)) 2

/-! ## Tests -/

/-- `OSQPVectorf_all_leq`: the flag ends as the answer of the built-in back end. -/
theorem c73_all_leq (hl : Has σ l n fl) (hu : Has σ u n fu) (hres : Has ζ res 1 fun _ => 1) :
    ∃ r, allLeq l u σ = some r ∧ Always (grid n (leqK l u res)) (⟨σ, ζ⟩ : Dev K)
      fun m => m.f = σ ∧ (Has m.z res 1 fun _ => if r then 1 else 0) ∧ OnlyAt res ζ m.z := leq_kernel hl hu hres
example : ∃ r, allLeq (ex 1 0) (ex 3 0) exF = some r ∧ Always (grid 3 (leqK (ex 1 0) (ex 3 0) (ex1 7))) (⟨exF, exZ⟩ : Dev ℚ)
      fun m => m.f = exF ∧ (Has m.z (ex1 7) 1 fun _ => if r then 1 else 0) ∧ OnlyAt (ex1 7) exZ m.z :=
  c73_all_leq (exF_has 1 0 (by decide)) (exF_has 3 0 (by decide)) exZ_one

/-- `OSQPVectorf_in_reccone`. -/
theorem c73_in_reccone (hy : Has σ y n f) (hl : Has σ l n fl) (hu : Has σ u n fu) (infval tol : K) (hres : Has ζ res 1 fun _ => 1) :
    ∃ r, inReccone y l u infval tol σ = some r ∧ Always (grid n (inRecconeK y l u infval tol res)) (⟨σ, ζ⟩ : Dev K)
      fun m => m.f = σ ∧ (Has m.z res 1 fun _ => if r then 1 else 0) ∧ OnlyAt res ζ m.z := inReccone_kernel hy hl hu infval tol hres
example : ∃ r, inReccone (ex 2 1) (ex 1 0) (ex 3 0) 2 (1 / 2) exF = some r ∧
    Always (grid 3 (inRecconeK (ex 2 1) (ex 1 0) (ex 3 0) 2 (1 / 2) (ex1 7))) (⟨exF, exZ⟩ : Dev ℚ)
      fun m => m.f = exF ∧ (Has m.z (ex1 7) 1 fun _ => if r then 1 else 0) ∧ OnlyAt (ex1 7) exZ m.z :=
  c73_in_reccone (exF_has 2 1 le_rfl) (exF_has 1 0 (by decide)) (exF_has 3 0 (by decide)) 2 (1 / 2) exZ_one

/-- `OSQPVectorf_ew_bounds_type`: the array of types and the answer whether it has changed are those of the built-in back end. The
kernel asks for equality before it asks for looseness, the built-in back end the other way round, hence the condition on the two
constants; the solver calls it with `tol` 1e-4 and `infval` 1e26. -/
theorem c73_bounds_type {old : Fin n → ℤ} (hq : Has ζ q n old) (h0 : q.off = 0) (hc : Has ζ ch 1 fun _ => 0) (hqc : q.blk ≠ ch.blk)
    (hl : Has σ l n fl) (hu : Has σ u n fu) (infval tol : K) (ht : tol ≤ 2 * infval) :
    ∃ q' r, boundsType (ζ q.blk) n l u tol infval σ = some (q', r) ∧
      Always (grid n (boundsTypeK q l u infval tol ch)) (⟨σ, ζ⟩ : Dev K) fun m => m.f = σ ∧ m.z q.blk = q' ∧
        (Has m.z ch 1 fun _ => if r then 1 else 0) ∧ ∀ b, b ≠ q.blk → b ≠ ch.blk → m.z b = ζ b := by
  have hlen := hq.len
  obtain ⟨q', e, h1, h2, h3⟩ := boundsType_holds (q := ζ q.blk) (old := old)
    ⟨by have := hq.room; omega, fun i => by have := hq.val i; rw [h0, Nat.zero_add] at this; exact this⟩ hl hu tol infval
  have hal := boundsType_kernel hq hc hqc hl hu infval tol ht
  refine ⟨q', _, e, hal.safe, fun s c e' hf => ?_, hal.ends⟩
  obtain ⟨k1, k2, k3, k4, k5⟩ := hal.result s c e' hf
  have ext : ∀ {p p' : Buf ℤ}, p.size = p'.size → (∀ k, p.cell k = p'.cell k) → p = p' := by
    intro p p' e1 e2
    cases p; cases p'
    simp only at e1 e2
    rw [e1, funext e2]
  refine ⟨k1, ext (by rw [k4, h1]) fun k => ?_, ?_, fun b hb hb' => ext (k4 b) fun k => k5 b k (fun h => hb h.1) fun h => hb' h.1⟩
  · by_cases hk : k < n
    · have := k2.val ⟨k, hk⟩
      rw [h0, Nat.zero_add] at this
      exact this.trans (h2 ⟨k, hk⟩).symm
    · rw [h3 k (by omega), k5 _ _ (by rintro ⟨_, _, h⟩; omega) fun h => hqc h.1]
  · convert k3 using 2
    have hor : ∀ (L : List (Fin n)) (z : Bool), (L.foldl (fun c i => c || decide (vBoundsType fl fu tol infval i ≠ old i)) z = true ↔
        z = true ∨ ∃ i ∈ L, vBoundsType fl fu tol infval i ≠ old i) := by
      intro L
      induction L with
      | nil => simp
      | cons i L ih => intro z; rw [List.foldl_cons, ih]; simp [or_assoc]
    unfold raised vTypeChanged
    have := hor (List.finRange n) false
    by_cases hch : ∃ i, vBoundsType fl fu tol infval i ≠ old i
    · rw [if_pos hch, if_pos (this.2 (.inr (by simpa using hch)))]
    · rw [if_neg hch, if_neg (fun h => hch (by simpa using this.1 h))]
example : ∃ q' r, boundsType (exZ 5) 3 (ex 1 0) (ex 3 0) 1 2 exF = some (q', r) ∧
      Always (grid 3 (boundsTypeK (ex 5 0) (ex 1 0) (ex 3 0) 2 1 (ex1 8))) (⟨exF, exZ⟩ : Dev ℚ) fun m => m.f = exF ∧ m.z 5 = q' ∧
        (Has m.z (ex1 8) 1 fun _ => if r then 1 else 0) ∧ ∀ b, b ≠ 5 → b ≠ 8 → m.z b = exZ b :=
  c73_bounds_type (exZ_has 5 0 (by decide)) rfl exZ_zero (by decide) (exF_has 1 0 (by decide)) (exF_has 3 0 (by decide)) 2 1 (by norm_num)

/-! ## Sums -/

/-- `OSQPVectorf_dot_prod_signed`, `sign` 1 and -1. -/
theorem c73_dot_signed (ha : Has σ a n fa) (hb : Has σ b n fb) (hra : Apart res a) (hrb : Apart res b) (hres : Has σ res 1 fun _ => 0) :
    (∃ r, dotSigned a b 1 σ = some r ∧ Always (prodK (fun w => cMax w 0) a b res n (blocks n) threadsPerBlock) (⟨σ, ζ⟩ : Dev K) fun m =>
      (Has m.f res 1 fun _ => r) ∧ OnlyAt res σ m.f ∧ m.z = ζ) ∧
    ∃ r, dotSigned a b (-1) σ = some r ∧ Always (prodK (fun w => cMin w 0) a b res n (blocks n) threadsPerBlock) (⟨σ, ζ⟩ : Dev K) fun m =>
      (Has m.f res 1 fun _ => r) ∧ OnlyAt res σ m.f ∧ m.z = ζ := by
  refine ⟨⟨_, dotSigned_holds ha hb 1, ?_⟩, _, dotSigned_holds ha hb (-1), ?_⟩
  · rw [if_pos rfl, vDotPos, foldl_add_finRange]
    exact prod_kernel ha hb hra hrb hres
  · rw [if_neg (by decide), if_pos rfl, vDotNeg, foldl_add_finRange]
    exact prod_kernel ha hb hra hrb hres
example : (∃ r, dotSigned (ex 5 1) (ex 1 0) 1 exF = some r ∧
      Always (prodK (fun w => cMax w 0) (ex 5 1) (ex 1 0) (ex1 2) 3 (blocks 3) threadsPerBlock) (⟨exF, exZ⟩ : Dev ℚ) fun m =>
        (Has m.f (ex1 2) 1 fun _ => r) ∧ OnlyAt (ex1 2) exF m.f ∧ m.z = exZ) ∧
    ∃ r, dotSigned (ex 5 1) (ex 1 0) (-1) exF = some r ∧
      Always (prodK (fun w => cMin w 0) (ex 5 1) (ex 1 0) (ex1 2) 3 (blocks 3) threadsPerBlock) (⟨exF, exZ⟩ : Dev ℚ) fun m =>
        (Has m.f (ex1 2) 1 fun _ => r) ∧ OnlyAt (ex1 2) exF m.f ∧ m.z = exZ :=
  c73_dot_signed (exF_has 5 1 le_rfl) (exF_has 1 0 (by decide)) (.inl (by decide)) (.inl (by decide))
    ⟨rfl, by decide, fun i => by fin_cases i; decide +kernel⟩

/-! ## Linear combinations -/

/-- `OSQPVectorf_add_scaled`, when the result is not the second operand. -/
theorem c73_add_scaled_partial (hx : Room σ x n) (sca : K) (ha : Has σ a n fa) (pa : Fits x a) (scb : K) (hb : Has σ b n fb) (pb : Apart x b) :
    ∃ σ', addScaled x sca a scb b σ = some σ' ∧ addScaledG n x a b sca scb σ = some σ' := addScaled_gpu hx sca ha pa scb hb pb
/-- `OSQPVectorf_add_scaled3`, when the result is neither the second nor the third operand. -/
theorem c73_add_scaled3_partial (hx : Room σ x n) (sca : K) (ha : Has σ a n fa) (pa : Fits x a) (scb : K) (hb : Has σ b n fb) (pb : Apart x b)
    (scc : K) (hc : Has σ c n fc) (pc : Apart x c) :
    ∃ σ', addScaled3 x sca a scb b scc c σ = some σ' ∧ addScaled3G n x a b c sca scb scc σ = some σ' := addScaled3_gpu hx sca ha pa scb hb pb scc hc pc
example : (∃ σ', addScaled (ex 2 1) 4 (ex 2 1) 5 (ex 3 0) exF = some σ' ∧ addScaledG 3 (ex 2 1) (ex 2 1) (ex 3 0) 4 5 exF = some σ') ∧
    ∃ σ', addScaled3 (ex 2 1) 4 (ex 2 1) 5 (ex 3 0) 6 (ex 3 1) exF = some σ' ∧ addScaled3G 3 (ex 2 1) (ex 2 1) (ex 3 0) (ex 3 1) 4 5 6 exF = some σ' :=
  ⟨c73_add_scaled_partial (exF_has 2 1 le_rfl).toRoom 4 (exF_has 2 1 le_rfl) ⟨.inr ⟨rfl, rfl⟩, fun _ => ⟨rfl, rfl⟩⟩ 5 (exF_has 3 0 (by decide)) (.inl (by decide)),
   c73_add_scaled3_partial (exF_has 2 1 le_rfl).toRoom 4 (exF_has 2 1 le_rfl) ⟨.inr ⟨rfl, rfl⟩, fun _ => ⟨rfl, rfl⟩⟩ 5 (exF_has 3 0 (by decide)) (.inl (by decide))
    6 (exF_has 3 1 le_rfl) (.inl (by decide))⟩

/-- `OSQPVectorf_plus` and `OSQPVectorf_minus`, when the result is not the second operand. -/
theorem c73_plus_minus_partial (hx : Room σ x n) (ha : Has σ a n fa) (pa : Fits x a) (hb : Has σ b n fb) (pb : Apart x b) :
    (∃ σ', plus x a b σ = some σ' ∧ addScaledG n x a b 1 1 σ = some σ') ∧ ∃ σ', minus x a b σ = some σ' ∧ addScaledG n x a b 1 (-1) σ = some σ' := by
  have hab : ∀ s : K, ∃ σ', addScaledG n x a b 1 s σ = some σ' ∧ Has σ' x n (vAddScaled 1 fa s fb) ∧ OnlyAt x σ σ' := fun s => by
    obtain ⟨σ', e, e'⟩ := addScaled_gpu hx 1 ha pa s hb pb
    obtain ⟨σ1, e1, h1⟩ := addScaled_holds hx 1 ha pa s hb (.inl pb)
    rw [e] at e1; cases e1
    exact ⟨_, e', h1⟩
  have e1 : vPlus fa fb = vAddScaled 1 fa 1 fb := by funext i; simp [vPlus, vAddScaled]
  have e2 : vMinus fa fb = vAddScaled 1 fa (-1) fb := by funext i; simp [vMinus, vAddScaled, sub_eq_add_neg]
  constructor
  · obtain ⟨σ1, w1, h1⟩ := plus_holds hx ha pa hb (.inl pb)
    obtain ⟨σ2, w2, h2⟩ := hab 1
    rw [e1] at h1
    exact ⟨σ1, w1, by rw [w2, gives_unique hx h1 h2]⟩
  · obtain ⟨σ1, w1, h1⟩ := minus_holds hx ha pa hb (.inl pb)
    obtain ⟨σ2, w2, h2⟩ := hab (-1)
    rw [e2] at h1
    exact ⟨σ1, w1, by rw [w2, gives_unique hx h1 h2]⟩
example : (∃ σ', plus (ex 2 1) (ex 2 1) (ex 3 0) exF = some σ' ∧ addScaledG 3 (ex 2 1) (ex 2 1) (ex 3 0) 1 1 exF = some σ') ∧
    ∃ σ', minus (ex 2 1) (ex 2 1) (ex 3 0) exF = some σ' ∧ addScaledG 3 (ex 2 1) (ex 2 1) (ex 3 0) 1 (-1) exF = some σ' :=
  c73_plus_minus_partial (exF_has 2 1 le_rfl).toRoom (exF_has 2 1 le_rfl) ⟨.inr ⟨rfl, rfl⟩, fun _ => ⟨rfl, rfl⟩⟩ (exF_has 3 0 (by decide)) (.inl (by decide))

/-- `x = a - x`: the built-in back end computes it, the GPU back end overwrites `x` with `a` first and gets zero. -/
theorem c73_minus_counterexample : ∃ (σ : Store ℚ) (x a : Ref), Has σ x 1 ![3] ∧ Has σ a 1 ![5] ∧ Apart x a ∧
    (∃ σ', minus x a x σ = some σ' ∧ Has σ' x 1 ![2]) ∧ ∃ σ', addScaledG 1 x a x 1 (-1) σ = some σ' ∧ Has σ' x 1 ![0] := by
  refine ⟨fun b => ⟨1, fun _ => if b = 0 then some 3 else some 5⟩, ⟨0, 0, 0, 1⟩, ⟨1, 1, 0, 1⟩,
    ⟨rfl, by decide, fun i => by fin_cases i; rfl⟩, ⟨rfl, by decide, fun i => by fin_cases i; rfl⟩, .inl (by decide),
    ⟨_, rfl, rfl, by decide, fun i => ?_⟩, _, rfl, rfl, by decide, fun i => ?_⟩
  · fin_cases i; decide +kernel
  · fin_cases i; decide +kernel

/-! ## Equality -/

/-- `OSQPVectorf_is_eq`: no schedule makes an invalid access or runs forever, and the answer 0 is only given if some elements differ by
more than `tol`. So vectors that are equal are always found equal. Missing: that unequal vectors are found unequal, which is false. -/
theorem c73_is_eq_partial (ha : Has σ a n fa) (hb : Has σ b n fb) (tol : K) (hres : Has ζ res 1 fun _ => 1) :
    Always (eqK a b tol res n (blocks n) threadsPerBlock) (⟨σ, ζ⟩ : Dev K) fun m => m.f = σ ∧
      (∃ v, (Has m.z res 1 fun _ => v) ∧ (v = 1 ∨ v = 0 ∧ ∃ i, |fa i - fb i| > tol)) ∧ OnlyAt res ζ m.z := by
  have := eq_kernel ha hb tol hres
  simpa only [cAbs_eq] using this
example : Always (eqK (ex 2 1) (ex 3 0) 1 (ex1 7) 3 (blocks 3) threadsPerBlock) (⟨exF, exZ⟩ : Dev ℚ) fun m => m.f = exF ∧
    (∃ v, (Has m.z (ex1 7) 1 fun _ => v) ∧ (v = 1 ∨ v = 0 ∧ ∃ i : Fin 3, |((2 : ℕ) : ℚ) - (1 + (i : ℕ) : ℕ) - (((3 : ℕ) : ℚ) - (0 + (i : ℕ) : ℕ))| > 1)) ∧
    OnlyAt (ex1 7) exZ m.z :=
  c73_is_eq_partial (exF_has 2 1 le_rfl) (exF_has 3 0 (by decide)) 1 exZ_one

/-- Two different vectors of one element. A thread with nothing to compare may set the flag back to 1 after the thread that found the
difference has cleared it: every thread starts with `*res = 1`. All threads finish and the answer is that the vectors are equal. -/
theorem c73_is_eq_counterexample : ∃ (σ : Store ℚ) (ζ : Store ℤ) (a b res : Ref), Has σ a 1 ![0] ∧ Has σ b 1 ![1] ∧ (Has ζ res 1 fun _ => 1) ∧
    ∃ s c, run (eqK a b (1 / 1000) res 1 (blocks 1) threadsPerBlock) s (⟨σ, ζ⟩ : Dev ℚ) = some c ∧ Finished c.1 ∧ Has c.2.z res 1 fun _ => 1 := by
  have ha : Has (fun b => ⟨1, fun _ => if b = 0 then some 0 else some 1⟩ : Store ℚ) ⟨0, 0, 0, 1⟩ 1 ![0] := ⟨rfl, by decide, fun i => by fin_cases i; rfl⟩
  have hb : Has (fun b => ⟨1, fun _ => if b = 0 then some 0 else some 1⟩ : Store ℚ) ⟨1, 1, 0, 1⟩ 1 ![1] := ⟨rfl, by decide, fun i => by fin_cases i; rfl⟩
  have hr : Has (fun _ => ⟨1, fun _ => some 1⟩ : Store ℤ) ⟨0, 0, 0, 1⟩ 1 fun _ => 1 := ⟨rfl, by decide, fun i => by fin_cases i; rfl⟩
  exact ⟨_, _, _, _, _, ha, hb, hr, eq_race ha hb (by decide +kernel) hr⟩

end Osqp.Gpu
