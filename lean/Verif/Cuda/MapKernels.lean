import Verif.Cuda.MapLemmas
import Verif.Vm.Kernels

/-!
# The element-by-element kernels
-/

set_option linter.unusedSectionVars false
namespace Osqp.Gpu
open Csc Vm
variable {K : Type} [Field K] [LinearOrder K]
variable {σ : Store K} {ζ : Store ℤ} {x a b c l u y : Ref} {n : ℕ} {f fa fb fc fl fu : Fin n → K}

/-- A round that writes. -/
theorem Done.st {g : Fin n → K} {S : Set ℕ} {τ : Store K} (h : Done σ x n g S τ) (hr : Room σ x n) {k : ℕ} (hk : k < n) {v : K} (hv : v = g ⟨k, hk⟩) :
    ∃ τ', seq (st x k v) (⟨τ, ζ⟩ : Dev K) = some ((), ⟨τ', ζ⟩) ∧ Done σ x n g (insert k S) τ' := by
  obtain ⟨τ', e, h'⟩ := h.write hr hk hv
  exact ⟨τ', by rw [seq_st]; simp only [e, Option.map_some], h'⟩

theorem round_kernel (hx : Has σ x n f) (tol : K) :
    ∃ σ', roundToZero x tol σ = some σ' ∧ Always (grid n (roundK x tol)) (⟨σ, ζ⟩ : Dev K) (· = ⟨σ', ζ⟩) := by
  refine kernel_gives hx.toRoom (roundToZero_holds hx tol) (fun i hi => ?_) fun i hi S τ hS hn h => ?_
  · refine all_bind (all_ld (reads hi hx.toRoom hx same_refl)) fun v => ?_
    split_ifs
    · exact all_st ⟨rfl, rfl⟩
    · trivial
  · simp only [roundK, bind_eq, seq_ld, h.rd hS hx.len hx same_refl hi hn, Option.bind_some]
    split_ifs with e
    · exact h.st hx.toRoom hi (by simp [vRoundToZero, e])
    · exact ⟨τ, rfl, h.keep hS hx hi hn (by simp [vRoundToZero, e])⟩

theorem setSc_kernel (hr : Room σ x n) (sc : K) :
    ∃ σ', setScalar x sc σ = some σ' ∧ Always (grid n (setScK x sc)) (⟨σ, ζ⟩ : Dev K) (· = ⟨σ', ζ⟩) :=
  kernel_gives hr (setScalar_holds hr sc) (fun i hi => all_st ⟨rfl, rfl⟩) fun i hi S τ hS hn h => h.st hr hi rfl

theorem setScCond_kernel (hr : Room σ x n) {test : Ref} {ft : Fin n → ℤ} (ht : Has ζ test n ft) (h0 : test.off = 0) (neg zero pos : K) :
    ∃ σ', setCond x (ζ test.blk) neg zero pos σ = some σ' ∧ Always (grid n (setScCondK x test neg zero pos)) (⟨σ, ζ⟩ : Dev K) (· = ⟨σ', ζ⟩) := by
  refine kernel_gives hr (setCond_holds hr ⟨by have := ht.room; omega, fun i => by have := ht.val i; rw [h0, Nat.zero_add] at this; exact this⟩ neg zero pos) (fun i hi => ?_) fun i hi S τ hS hn h => ?_
  · refine all_bind (all_ldz (.inl trivial)) fun v => ?_
    split_ifs
    · exact all_st ⟨rfl, rfl⟩
    · refine all_bind (all_ldz (.inl trivial)) fun v => ?_
      split_ifs <;> exact all_st ⟨rfl, rfl⟩
  · have e : rd ζ test (i : ℤ) = some (ft ⟨i, hi⟩) := ht.rd ⟨i, hi⟩
    simp only [setScCondK, bind_eq, seq_ldz, e, Option.bind_some]
    split_ifs with e1
    · exact h.st hr hi (by simp [vSetCond, e1])
    · simp only [seq_ldz, e, Option.bind_some]
      split_ifs with e2
      · exact h.st hr hi (by simp [vSetCond, e1, e2])
      · exact h.st hr hi (by simp [vSetCond, e1, e2])

theorem two {k : K → K → K} {body : ℕ → Prog (Dev K) Unit} {r : Option (Store K)} (hbody : ∀ i, body i = (ld a i).bind fun v => (ld b i).bind fun w => st x i (k v w))
    (hr : Room σ x n) (ha : Has σ a n fa) (pa : Apart x a ∨ Same x a) (hb : Has σ b n fb) (pb : Apart x b ∨ Same x b)
    (hG : Gives σ r x n fun i => k (fa i) (fb i)) : ∃ σ', r = some σ' ∧ Always (grid n body) (⟨σ, ζ⟩ : Dev K) (· = ⟨σ', ζ⟩) := by
  refine kernel_gives hr hG (fun i hi => ?_) fun i hi S τ hS hn h => ?_
  · rw [hbody]
    exact all_bind (all_ld (reads hi hr ha pa)) fun v => all_bind (all_ld (reads hi hr hb pb)) fun w => all_st ⟨rfl, rfl⟩
  · simp only [hbody, seq_ld, h.rd hS hr.len ha pa hi hn, h.rd hS hr.len hb pb hi hn, Option.bind_some]
    exact h.st hr hi rfl

theorem one {k : K → K} {body : ℕ → Prog (Dev K) Unit} {r : Option (Store K)} (hbody : ∀ i, body i = (ld a i).bind fun v => st x i (k v))
    (hr : Room σ x n) (ha : Has σ a n fa) (pa : Apart x a ∨ Same x a)
    (hG : Gives σ r x n fun i => k (fa i)) : ∃ σ', r = some σ' ∧ Always (grid n body) (⟨σ, ζ⟩ : Dev K) (· = ⟨σ', ζ⟩) := by
  refine kernel_gives hr hG (fun i hi => ?_) fun i hi S τ hS hn h => ?_
  · rw [hbody]
    exact all_bind (all_ld (reads hi hr ha pa)) fun v => all_st ⟨rfl, rfl⟩
  · simp only [hbody, seq_ld, h.rd hS hr.len ha pa hi hn, Option.bind_some]
    exact h.st hr hi rfl

theorem ewProd_kernel (hr : Room σ x n) (ha : Has σ a n fa) (pa : Fits x a) (hb : Has σ b n fb) (pb : Apart x b ∨ Same x b) :
    ∃ σ', ewProd x a b σ = some σ' ∧ Always (grid n (ewProdK x a b)) (⟨σ, ζ⟩ : Dev K) (· = ⟨σ', ζ⟩) :=
  two (fun _ => rfl) hr ha pa.1 hb pb (ewProd_holds hr ha pa hb pb)

theorem max_kernel (hr : Room σ x n) (ha : Has σ a n fa) (pa : Apart x a ∨ Same x a) (hb : Has σ b n fb) (pb : Apart x b ∨ Same x b) :
    ∃ σ', maxVec x a b σ = some σ' ∧ Always (grid n (maxK x a b)) (⟨σ, ζ⟩ : Dev K) (· = ⟨σ', ζ⟩) :=
  two (fun _ => rfl) hr ha pa hb pb (maxVec_holds hr ha pa hb pb)

theorem min_kernel (hr : Room σ x n) (ha : Has σ a n fa) (pa : Apart x a ∨ Same x a) (hb : Has σ b n fb) (pb : Apart x b ∨ Same x b) :
    ∃ σ', minVec x a b σ = some σ' ∧ Always (grid n (minK x a b)) (⟨σ, ζ⟩ : Dev K) (· = ⟨σ', ζ⟩) :=
  two (fun _ => rfl) hr ha pa hb pb (minVec_holds hr ha pa hb pb)

theorem sqrt_kernel (sqrt : K → K) (hx : Has σ x n f) :
    ∃ σ', ewSqrt sqrt x σ = some σ' ∧ Always (grid n (sqrtK sqrt x)) (⟨σ, ζ⟩ : Dev K) (· = ⟨σ', ζ⟩) :=
  one (fun _ => rfl) hx.toRoom hx same_refl (ewSqrt_holds sqrt hx)

theorem setIfLt_kernel (hr : Room σ x n) (ha : Has σ a n fa) (pa : Apart x a ∨ Same x a) (test new : K) :
    ∃ σ', setIfLt x a test new σ = some σ' ∧ Always (grid n (setIfLtK x a test new)) (⟨σ, ζ⟩ : Dev K) (· = ⟨σ', ζ⟩) :=
  one (k := fun v => if v < test then new else v) (fun _ => rfl) hr ha pa (setIfLt_holds hr ha pa test new)

theorem setIfGt_kernel (hr : Room σ x n) (ha : Has σ a n fa) (pa : Apart x a ∨ Same x a) (test new : K) :
    ∃ σ', setIfGt x a test new σ = some σ' ∧ Always (grid n (setIfGtK x a test new)) (⟨σ, ζ⟩ : Dev K) (· = ⟨σ', ζ⟩) :=
  one (k := fun v => if v > test then new else v) (fun _ => rfl) hr ha pa (setIfGt_holds hr ha pa test new)

theorem reciprocal_kernel (hr : Room σ x n) (ha : Has σ a n fa) (pa : Apart x a ∨ Same x a) (hz : ∀ i, fa i ≠ 0) :
    ∃ σ', reciprocal x a σ = some σ' ∧ Always (grid n (reciprocalK x a)) (⟨σ, ζ⟩ : Dev K) (· = ⟨σ', ζ⟩) := by
  refine kernel_gives hr (reciprocal_holds hr ha pa hz) (fun i hi => ?_) fun i hi S τ hS hn h => ?_
  · refine all_bind (all_ld (reads hi hr ha pa)) fun v => ?_
    split_ifs
    · exact all_fail
    · exact all_st ⟨rfl, rfl⟩
  · simp only [reciprocalK, bind_eq, seq_ld, h.rd hS hr.len ha pa hi hn, Option.bind_some, hz, if_false]
    exact h.st hr hi rfl

theorem bound_kernel (hr : Room σ x n) (ha : Has σ a n fa) (pa : Apart x a ∨ Same x a) (hl : Has σ l n fl) (pl : Apart x l ∨ Same x l)
    (hu : Has σ u n fu) (pu : Apart x u ∨ Same x u) :
    ∃ σ', boundVec x a l u σ = some σ' ∧ Always (grid n (boundK x a l u)) (⟨σ, ζ⟩ : Dev K) (· = ⟨σ', ζ⟩) := by
  refine kernel_gives hr (boundVec_holds hr ha pa hl pl hu pu) (fun i hi => ?_) fun i hi S τ hS hn h => ?_
  · exact all_bind (all_ld (reads hi hr ha pa)) fun v => all_bind (all_ld (reads hi hr hl pl)) fun w =>
      all_bind (all_ld (reads hi hr hu pu)) fun w' => all_st ⟨rfl, rfl⟩
  · simp only [boundK, bind_eq, seq_ld, h.rd hS hr.len ha pa hi hn, h.rd hS hr.len hl pl hi hn, h.rd hS hr.len hu pu hi hn, Option.bind_some]
    exact h.st hr hi rfl

theorem projectPolar_kernel (hx : Has σ x n f) (hl : Has σ l n fl) (pl : Apart x l) (hu : Has σ u n fu) (pu : Apart x u) (infval : K) :
    ∃ σ', projectPolar x l u infval σ = some σ' ∧ Always (grid n (projectPolarK x l u infval)) (⟨σ, ζ⟩ : Dev K) (· = ⟨σ', ζ⟩) := by
  refine kernel_gives hx.toRoom (projectPolar_holds hx hl pl hu pu infval) (fun i hi => ?_) fun i hi S τ hS hn h => ?_
  · have ry := all_ld (K := K) (ownZ := fun _ _ => False) (reads (K := K) hi hx.toRoom hx same_refl)
    have rl := all_ld (K := K) (ownZ := fun _ _ => False) (reads (K := K) hi hx.toRoom hl (.inl pl))
    have ru := all_ld (K := K) (ownZ := fun _ _ => False) (reads (K := K) hi hx.toRoom hu (.inl pu))
    refine all_bind ru fun v => ?_
    split_ifs
    · refine all_bind rl fun w => ?_
      split_ifs
      · exact all_st ⟨rfl, rfl⟩
      · exact all_bind ry fun _ => all_st ⟨rfl, rfl⟩
    · refine all_bind rl fun w => ?_
      split_ifs
      · exact all_bind ry fun _ => all_st ⟨rfl, rfl⟩
      · trivial
  · have ry := h.rd hS hx.len hx same_refl hi hn
    have rl := h.rd hS hx.len hl (.inl pl) hi hn
    have ru := h.rd hS hx.len hu (.inl pu) hi hn
    simp only [projectPolarK, bind_eq, seq_ld, ru, Option.bind_some]
    split_ifs with e1
    · simp only [seq_ld, rl, Option.bind_some]
      split_ifs with e2
      · exact h.st hx.toRoom hi (by simp [vProjectPolar, e1, e2])
      · simp only [seq_ld, ry, Option.bind_some]
        exact h.st hx.toRoom hi (by simp [vProjectPolar, e1, e2])
    · simp only [seq_ld, rl, Option.bind_some]
      split_ifs with e2
      · simp only [seq_ld, ry, Option.bind_some]
        exact h.st hx.toRoom hi (by simp [vProjectPolar, e1, e2])
      · exact ⟨τ, rfl, h.keep hS hx hi hn (by simp [vProjectPolar, e1, e2])⟩

end Osqp.Gpu
