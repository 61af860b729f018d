import Verif.Vm.AdmmLemmas
import Verif.Lemmas.Num
import Verif.Lemmas.Step
import Verif.Csc.Demo
import Verif.Spec.Rho
import Verif.Demo.Runs

/-!
# C58: vector routines and the iteration on shared memory

The library's vectors are pointers into arrays. Routines are called with the same vector as result and operand, two vectors of the
workspace are parts of one array, and the iteration exchanges pointers instead of copying. Each routine is proved to compute its
mathematical result whenever the result vector and each operand are either the same elements or share none, to stay within the
arrays and to change nothing else; and the iteration is proved to carry out the ADMM recurrence on memory.

`Vm/Spec.lean` and `Vm/AdmmSpec.lean` have the vocabulary: `Has`, `Room`, `Apart`, `Same`, `Fits`, `Gives`, `Layout`, `Holding`.
-/

set_option linter.unusedSectionVars false
namespace Osqp.Vm
open Csc Spec Matrix
variable {K : Type*} [Field K] [LinearOrder K] [IsStrictOrderedRing K]
variable {σ : Store K} {x a b c l u y : Ref} {n : ℕ} {f fa fb fc fl fu : Fin n → K}

/-! ## Assignments -/

/-- **C58**. Copying in and out, and filling. -/
theorem c58_copy (hr : Room σ x n) (ha : Has σ a n fa) (pa : Apart x a ∨ Same x a) (sc : K) :
    Gives σ (copy x a σ) x n fa ∧ Gives σ (toRaw x a σ) x n fa ∧ Gives σ (setScalar x sc σ) x n fun _ => sc :=
  ⟨copy_holds hr ha pa, toRaw_holds hr ha pa, setScalar_holds hr sc⟩

/-- **C58**. Assignment to the `n` elements of `x` from `start` on: only they change. -/
theorem c58_part {addr start : ℕ} (hr : Room σ (view addr x start n) n) (hb : Has σ b n fb)
    (pb : Apart (view addr x start n) b ∨ Same (view addr x start n) b) (mult : K) :
    Gives σ (subAssign x b start n mult σ) (view addr x start n) n (fun i => mult * fb i) ∧
    Gives σ (subAssignScalar x mult start n σ) (view addr x start n) n fun _ => mult :=
  ⟨subAssign_holds hr hb pb mult, subAssignScalar_holds hr mult⟩

/-- **C58**. One of three values by the sign of an integer vector. -/
theorem c58_set_cond (hr : Room σ x n) {test : Buf ℤ} {ft : Fin n → ℤ} (ht : n ≤ test.size ∧ ∀ i : Fin n, test.cell i = some (ft i))
    (neg zero pos : K) :
    Gives σ (setCond x test neg zero pos σ) x n fun i => if ft i < 0 then neg else if ft i = 0 then zero else pos := by
  obtain ⟨σ', e, h1, h2⟩ := setCond_holds hr ht neg zero pos
  refine ⟨σ', e, ?_, h2⟩
  have : vSetCond ft neg zero pos = fun i => if ft i < 0 then neg else if ft i = 0 then zero else pos := by
    funext i
    unfold vSetCond
    rcases lt_trichotomy (ft i) 0 with h | h | h
    · rw [if_neg h.ne, if_neg (by omega), if_pos h]
    · rw [if_pos h, if_neg (by omega), if_pos h]
    · rw [if_neg h.ne', if_pos h, if_neg (by omega), if_neg h.ne']
  rw [← this]; exact h1

/-! ## Element by element -/

/-- **C58**. Sum, difference and product; the result may be either operand or both. -/
theorem c58_arith (hr : Room σ x n) (ha : Has σ a n fa) (pa : Fits x a) (hb : Has σ b n fb) (pb : Apart x b ∨ Same x b) :
    Gives σ (plus x a b σ) x n (fun i => fa i + fb i) ∧ Gives σ (minus x a b σ) x n (fun i => fa i - fb i) ∧
    Gives σ (ewProd x a b σ) x n fun i => fa i * fb i :=
  ⟨plus_holds hr ha pa hb pb, minus_holds hr ha pa hb pb, ewProd_holds hr ha pa hb pb⟩

/-- **C58**. Linear combinations; the shortcut taken when the result is the first operand gives the same numbers. -/
theorem c58_combine (hr : Room σ x n) (ha : Has σ a n fa) (pa : Fits x a) (hb : Has σ b n fb) (pb : Apart x b ∨ Same x b)
    (hc : Has σ c n fc) (pc : Apart x c ∨ Same x c) (sca scb scc : K) :
    Gives σ (addScaled x sca a scb b σ) x n (fun i => sca * fa i + scb * fb i) ∧
    Gives σ (addScaled3 x sca a scb b scc c σ) x n fun i => sca * fa i + scb * fb i + scc * fc i :=
  ⟨addScaled_holds hr sca ha pa scb hb pb, addScaled3_holds hr sca ha pa scb hb pb scc hc pc⟩

/-- **C58**. Multiplication by a number, square root and rounding small elements to zero, in place. -/
theorem c58_in_place (hx : Has σ x n f) (sc : K) (sqrt : K → K) :
    Gives σ (multScalar x sc σ) x n (fun i => f i * sc) ∧ Gives σ (ewSqrt sqrt x σ) x n (fun i => sqrt (f i)) ∧
    Gives σ (roundToZero x sc σ) x n fun i => if |f i| < sc then 0 else f i := by
  refine ⟨multScalar_holds hx sc, ewSqrt_holds sqrt hx, ?_⟩
  have := roundToZero_holds hx sc
  unfold vRoundToZero at this
  simp only [cAbs_eq] at this
  exact this

/-- **C58**. Larger and smaller elements, and replacement of elements beyond a limit. -/
theorem c58_select (hr : Room σ x n) (ha : Has σ a n fa) (pa : Apart x a ∨ Same x a) (hb : Has σ b n fb) (pb : Apart x b ∨ Same x b)
    (test new : K) :
    Gives σ (maxVec x a b σ) x n (fun i => max (fa i) (fb i)) ∧ Gives σ (minVec x a b σ) x n (fun i => min (fa i) (fb i)) ∧
    Gives σ (setIfLt x a test new σ) x n (fun i => if fa i < test then new else fa i) ∧
    Gives σ (setIfGt x a test new σ) x n fun i => if test < fa i then new else fa i := by
  have h1 := maxVec_holds hr ha pa hb pb
  have h2 := minVec_holds hr ha pa hb pb
  unfold vMaxVec at h1
  simp only [cMax_eq] at h1
  simp only [cMin_eq] at h2
  exact ⟨h1, h2, setIfLt_holds hr ha pa test new, setIfGt_holds hr ha pa test new⟩

/-- **C58**. Reciprocals, of vectors without zeros. -/
theorem c58_reciprocal (hr : Room σ x n) (ha : Has σ a n fa) (pa : Apart x a ∨ Same x a) (hz : ∀ i, fa i ≠ 0) :
    Gives σ (reciprocal x a σ) x n fun i => (fa i)⁻¹ := by
  have := reciprocal_holds hr ha pa hz
  unfold vRecip at this
  simp only [one_div] at this
  exact this

/-- **C58**. Projection onto a box: each element is within its bounds (if they are in order), and is the element given if that is
within them. -/
theorem c58_project (hr : Room σ x n) (ha : Has σ a n fa) (pa : Apart x a ∨ Same x a) (hl : Has σ l n fl) (pl : Apart x l ∨ Same x l)
    (hu : Has σ u n fu) (pu : Apart x u ∨ Same x u) :
    ∃ g, Gives σ (boundVec x a l u σ) x n g ∧ (∀ i, g i = min (max (fa i) (fl i)) (fu i)) ∧
      ∀ i, fl i ≤ fu i → fl i ≤ g i ∧ g i ≤ fu i ∧ ∀ t, fl i ≤ t → t ≤ fu i → |fa i - g i| ≤ |fa i - t| := by
  refine ⟨_, boundVec_holds hr ha pa hl pl hu pu, fun i => vBound_apply _ _ _ i, fun i h => ?_⟩
  rw [vBound_apply]
  refine ⟨le_min (le_max_right _ _) h, min_le_right _ _, fun t h1 h2 => ?_⟩
  rcases le_total (fa i) (fl i) with c1 | c1
  · rw [max_eq_right c1, min_eq_left h, abs_of_nonpos (by linarith), abs_of_nonpos (by linarith)]; linarith
  · rw [max_eq_left c1]
    rcases le_total (fa i) (fu i) with c2 | c2
    · rw [min_eq_left c2]; simp
    · rw [min_eq_right c2, abs_of_nonneg (by linarith), abs_of_nonneg (by linarith)]; linarith

/-- **C58**. Projection onto the polar of the recession cone of the box: positive elements vanish where there is no upper bound,
negative ones where there is no lower bound. -/
theorem c58_polar (hy : Has σ y n f) (hl : Has σ l n fl) (pl : Apart y l) (hu : Has σ u n fu) (pu : Apart y u) (inf : K) :
    Gives σ (projectPolar y l u inf σ) y n fun i => if (inf < fu i ∧ 0 < f i) ∨ (fl i < -inf ∧ f i < 0) then 0 else f i := by
  obtain ⟨σ', e, h1, h2⟩ := projectPolar_holds hy hl pl hu pu inf
  refine ⟨σ', e, ?_, h2⟩
  have : vProjectPolar f fl fu inf = fun i => if (inf < fu i ∧ 0 < f i) ∨ (fl i < -inf ∧ f i < 0) then 0 else f i :=
    funext fun i => vProjectPolar_apply _ _ _ _ i
  rw [← this]; exact h1

/-! ## Routines that return a value: they leave the memory as it is -/

/-- **C58**. Norms. -/
theorem c58_norms (ha : Has σ a n fa) (hb : Has σ b n fb) :
    normInf a σ = some (Spec.normInf fa) ∧ scaledNormInf a b σ = some (Spec.normInf fun i => fa i * fb i) ∧
    normInfDiff a b σ = some (Spec.normInf fun i => fa i - fb i) ∧ norm1 a σ = some (Spec.norm1 fa) := by
  rw [normInf_holds ha, scaledNormInf_holds ha hb, normInfDiff_holds ha hb, norm1_holds ha, vNormInf_eq, vScaledNormInf_eq, vNormInf_eq,
    vNorm1_eq]
  exact ⟨rfl, rfl, rfl, rfl⟩

/-- **C58**. Inner products; with sign `1` only the positive elements of the second operand count, with `-1` only the negative. -/
theorem c58_dot (ha : Has σ a n fa) (hb : Has σ b n fb) :
    dotProd a b σ = some (∑ i, fa i * fb i) ∧ dotSigned a b 1 σ = some (∑ i, fa i * max (fb i) 0) ∧
    dotSigned a b (-1) σ = some (∑ i, fa i * min (fb i) 0) := by
  refine ⟨by rw [dotProd_holds ha hb, vDot_eq]; rfl, ?_, ?_⟩
  · rw [dotSigned_holds ha hb, if_pos rfl, vDotPos_eq]
  · rw [dotSigned_holds ha hb, if_neg (by decide), if_pos rfl, vDotNeg_eq]

/-- **C58**. Comparison of bounds and membership in the recession cone. -/
theorem c58_tests (hy : Has σ y n f) (hl : Has σ l n fl) (hu : Has σ u n fu) (inf tol : K) :
    (∃ r, allLeq l u σ = some r ∧ (r = true ↔ ∀ i, fl i ≤ fu i)) ∧
    ∃ r, inReccone y l u inf tol σ = some r ∧ (r = true ↔ ∀ i, (fu i < inf → f i ≤ tol) ∧ (-inf < fl i → -tol ≤ f i)) :=
  ⟨⟨_, allLeq_holds hl hu, vAllLeq_iff _ _⟩, ⟨_, inReccone_holds hy hl hu inf tol, vInReccone_iff _ _ _ _ _⟩⟩

/-- **C58**. Constraint types: `-1` for a row with no bounds, `1` for bounds closer than `tol`, otherwise `0`; the result says whether
any changed. -/
theorem c58_types {q : Buf ℤ} {old : Fin n → ℤ} (hq : n ≤ q.size ∧ ∀ i : Fin n, q.cell i = some (old i))
    (hl : Has σ l n fl) (hu : Has σ u n fu) (tol inf : K) :
    ∃ (q' : Buf ℤ) (r : Bool) (new : Fin n → ℤ), boundsType q n l u tol inf σ = some (q', r) ∧ q'.size = q.size ∧ (∀ i : Fin n, q'.cell i = some (new i)) ∧
      (∀ k, n ≤ k → q'.cell k = q.cell k) ∧
      (∀ i, new i = if fl i < -inf ∧ inf < fu i then -1 else if fu i - fl i < tol then 1 else 0) ∧ (r = true ↔ ∃ i, new i ≠ old i) := by
  obtain ⟨q', e, h1, h2, h3⟩ := boundsType_holds hq hl hu tol inf
  exact ⟨q', _, _, e, h1, h2, h3, fun i => rfl, vTypeChanged_iff _ _⟩

/-! ## The iteration -/

section Iteration
variable {d : Dims} {env : Env d K} {s : Solver d K} {lin : LinMem K} {W : Ptrs} {xz : Ref}

/-- **C58** (iteration). From any memory that holds the workspace of `s`, laid out as setup does, with the vectors `x`, `z`, `y`: the
iteration succeeds, and afterwards the pointers `x`, `x_prev`, `z`, `z_prev`, `y`, `delta_x`, `delta_y` lead to the vectors of the
ADMM recurrence, where `x~`, `z~` come from the linear system with right-hand side `(sigma x - q, z - y / rho)`. No array other than
those of these vectors and of `x~`, `z~` has changed. -/
theorem c58_iteration (hl : SolverIs env s.work.linsys lin) (lay : Layout d.n d.m W xz) (h : Holding σ W xz s) :
    ∃ σ' W', iterate s.settings s.work.rho_inv lin.solve xz W σ = some (W', σ') ∧ Layout d.n d.m W' xz ∧ OnlyVectors W xz σ σ' ∧
      ∃ (bz : Vec K d.m) (sol : Vec K d.n × Vec K d.m) (zt z' dy : Vec K d.m) (x' : Vec K d.n),
        (∀ i, bz i = s.work.z i - invSteps s i * s.work.y i) ∧
        sol = env.kktSolve s.work.linsys (fun j => s.settings.sigma * s.work.x j - s.work.data.q j) bz ∧
        (∀ i, zt i = bz i + s.work.linsys.param2 i * sol.2 i) ∧
        (∀ j, x' j = s.settings.alpha * sol.1 j + (1 - s.settings.alpha) * s.work.x j) ∧
        (∀ i, z' i = min (max (s.settings.alpha * zt i + (1 - s.settings.alpha) * s.work.z i + invSteps s i * s.work.y i) (s.work.data.l i))
          (s.work.data.u i)) ∧
        (∀ i, dy i = Spec.steps s i * (s.settings.alpha * zt i + (1 - s.settings.alpha) * s.work.z i - z' i)) ∧
        Has σ' (W' .x) d.n x' ∧ Has σ' (W' .xPrev) d.n s.work.x ∧ Has σ' (W' .z) d.m z' ∧ Has σ' (W' .zPrev) d.m s.work.z ∧
        Has σ' (W' .y) d.m (fun i => s.work.y i + dy i) ∧ Has σ' (W' .dx) d.n (fun j => x' j - s.work.x j) ∧ Has σ' (W' .dy) d.m dy := by
  obtain ⟨σ', e, ⟨_, _, hm⟩, ho⟩ := iterate_goes hl.solves lay h
  set t := Osqp.updateXZTilde env (swapIterates s) with ht
  have hb : Osqp.computeRhs (swapIterates s) = (fun j => s.settings.sigma * s.work.x j - s.work.data.q j, fun i => s.work.z i - invSteps s i * s.work.y i) := by
    refine Prod.ext ?_ ?_
    · funext j; simp only [Osqp.computeRhs, swapIterates, vAddScaled]; ring
    · funext i
      show (if s.settings.rho_is_vec ≠ 0 then vAddScaled (-1) (vEwProd s.work.rho_inv_vec s.work.y) 1 s.work.z
        else vAddScaled 1 s.work.z (-s.work.rho_inv) s.work.y) i = _
      simp only [invSteps]
      split_ifs <;> simp only [vAddScaled, vEwProd] <;> ring
  have et : t = linsysSolve env s.work.linsys (fun j => s.settings.sigma * s.work.x j - s.work.data.q j, fun i => s.work.z i - invSteps s i * s.work.y i) := by
    rw [ht, ← hb]; rfl
  have ez : ∀ i, (admmStep env s).work.z i = min (max (s.settings.alpha * t.2 i + (1 - s.settings.alpha) * s.work.z i + invSteps s i * s.work.y i)
      (s.work.data.l i)) (s.work.data.u i) := fun i => by
    rw [admmStep_z]; simp only [invSteps]; congr 2; rw [← ht]; ring
  have ed : ∀ i, (admmStep env s).work.delta_y i = Spec.steps s i *
      (s.settings.alpha * t.2 i + (1 - s.settings.alpha) * s.work.z i - (admmStep env s).work.z i) := fun i => by
    have : (admmStep env s).work.delta_y i = (if s.settings.rho_is_vec ≠ 0 then
        vEwProd (vAddScaled3 s.settings.alpha t.2 (1 - s.settings.alpha) s.work.z (-1) (admmStep env s).work.z) s.work.rho_vec else
        vScale (vAddScaled3 s.settings.alpha t.2 (1 - s.settings.alpha) s.work.z (-1) (admmStep env s).work.z) s.settings.rho) i := rfl
    rw [this]
    simp only [Spec.steps]
    split_ifs <;> simp only [vEwProd, vScale, vAddScaled3] <;> ring
  refine ⟨σ', _, e, lay.perm mate mate_inj rfl rfl, ho, fun i => s.work.z i - invSteps s i * s.work.y i, _, t.2, (admmStep env s).work.z,
    (admmStep env s).work.delta_y, (admmStep env s).work.x, fun _ => rfl, rfl, fun i => by rw [et]; rfl, fun j => ?_, ez, ed,
    hm .x _ rfl, hm .xPrev _ rfl, hm .z _ rfl, hm .zPrev _ rfl, hm .y _ rfl, hm .dx _ rfl, hm .dy _ rfl⟩
  show vAddScaled s.settings.alpha t.1 (1 - s.settings.alpha) s.work.x j = _
  rw [et]; rfl

/-- `k` iterations with the same settings and factorisation. -/
def iterates (st : Settings K) (rho_inv : K) (lin : LinMem K) (xz : Ref) : ℕ → Ptrs → Store K → Option (Ptrs × Store K)
  | 0, W, σ => some (W, σ)
  | k + 1, W, σ => (iterate st rho_inv lin.solve xz W σ).bind fun r => iterates st rho_inv lin xz k r.1 r.2

/-- **C58** (many iterations). Any number of iterations on memory stays within the arrays, and the memory then holds what that many steps of
the solver layer (the model of the other theorems about iterations, `Model/Auxil.lean`) compute. -/
theorem c58_iterations (hl : SolverIs env s.work.linsys lin) (lay : Layout d.n d.m W xz) (h : Holding σ W xz s) (k : ℕ) :
    ∃ σ' W', iterates s.settings s.work.rho_inv lin xz k W σ = some (W', σ') ∧ Layout d.n d.m W' xz ∧ Holding σ' W' xz ((admmStep env)^[k] s) := by
  induction k generalizing s σ W with
  | zero => exact ⟨σ, W, rfl, lay, h⟩
  | succ k ih =>
    obtain ⟨τ, e, h1, _⟩ := iterate_goes hl.solves lay h
    obtain ⟨σ', W', e', h2, h3⟩ := ih (s := admmStep env s) hl (lay.perm mate mate_inj rfl rfl) h1
    refine ⟨σ', W', ?_, h2, h3⟩
    unfold iterates
    rw [e]; exact e'

end Iteration

/-! ## The hypotheses are met -/

namespace Demo

/-- Two arrays. -/
def mem : Store ℚ := fun b => if b = 0 then Csc.Demo.buf [1, 2, 3, 4] else if b = 1 then Csc.Demo.buf [5, -6, 7] else Buf.fresh 3

/-- The first three elements of array 0, the last three, array 1, and the uninitialised array 2. -/
def v : Ref := ⟨0, 0, 0, 3⟩
def tail : Ref := view 1 v 1 3
def w : Ref := ⟨2, 1, 0, 3⟩
def new : Ref := ⟨3, 2, 0, 3⟩

theorem v_has : Has mem v 3 ![1, 2, 3] := ⟨rfl, by decide, by decide⟩
theorem w_has : Has mem w 3 ![5, -6, 7] := ⟨rfl, by decide, by decide⟩
theorem tail_has : Has mem tail 3 ![2, 3, 4] := ⟨rfl, by decide, by decide⟩
theorem new_room : Room mem new 3 := ⟨rfl, by decide⟩

/-- `v = v + w` in place, a copy into uninitialised memory, and `new = v + v`. -/
example : Gives mem (plus v v w mem) v 3 (fun i => (![1, 2, 3] : Fin 3 → ℚ) i + ![5, -6, 7] i) :=
  (c58_arith v_has.toRoom v_has ⟨.inr ⟨rfl, rfl⟩, fun _ => ⟨rfl, rfl⟩⟩ w_has (.inl (.inl (by decide)))).1
example : Gives mem (copy new w mem) new 3 ![5, -6, 7] := (c58_copy new_room w_has (.inl (.inl (by decide))) 0).1
example : Gives mem (plus new v v mem) new 3 (fun i => (![1, 2, 3] : Fin 3 → ℚ) i + ![1, 2, 3] i) :=
  (c58_arith new_room v_has ⟨.inl (.inl (by decide)), fun h => absurd h (by decide)⟩ v_has (.inl (.inl (by decide)))).1
/-- `v = 1 * v + 2 * w + 3 * v` takes the shortcut. -/
example : Gives mem (addScaled3 v 1 v 2 w 3 v mem) v 3 (fun i => 1 * (![1, 2, 3] : Fin 3 → ℚ) i + 2 * ![5, -6, 7] i + 3 * ![1, 2, 3] i) :=
  (c58_combine v_has.toRoom v_has ⟨.inr ⟨rfl, rfl⟩, fun _ => ⟨rfl, rfl⟩⟩ w_has (.inl (.inl (by decide))) v_has (.inr ⟨rfl, rfl⟩) 1 2 3).2
/-- Elements 1 and 2 of array 0. -/
example : Gives mem (subAssignScalar v 9 (1 : ℕ) (2 : ℕ) mem) (view 7 v 1 2) 2 fun _ => 9 :=
  (c58_part (b := ⟨8, 1, 0, 2⟩) (fb := ![5, -6]) (addr := 7) (start := 1) ⟨rfl, by decide⟩ ⟨rfl, by decide, by decide⟩ (.inl (.inl (by decide))) 9).2
example : ∃ g, Gives mem (boundVec new w v tail mem) new 3 g ∧ g 0 = 2 ∧ g 1 = 2 ∧ g 2 = 4 := by
  obtain ⟨g, h1, h2, _⟩ := c58_project new_room w_has (.inl (.inl (by decide))) v_has (.inl (.inl (by decide))) tail_has (.inl (.inl (by decide)))
  exact ⟨g, h1, by rw [h2]; decide, by rw [h2]; decide, by rw [h2]; decide⟩
example : ∃ g, Gives mem (projectPolar w v tail 3 mem) w 3 g ∧ g 0 = 5 ∧ g 1 = -6 ∧ g 2 = 0 :=
  ⟨_, c58_polar w_has v_has (.inl (by decide)) tail_has (.inl (by decide)) 3, by decide +kernel, by decide +kernel, by decide +kernel⟩
example : ∀ i, (![5, -6, 7] : Fin 3 → ℚ) i ≠ 0 := by decide
example : normInfDiff v w mem = some 8 := by rw [(c58_norms v_has w_has).2.2.1]; decide +kernel
example : dotSigned v w (-1) mem = some (-12) := by rw [(c58_dot v_has w_has).2.2]; decide +kernel

end Demo

/-- The condition on operands is needed: with a result that overlaps an operand without being it, `x = a + b` gives other numbers. (No
call in the library does this.) -/
theorem c58_overlap_counterexample :
    ¬ ∀ (σ : Store ℚ) (x a b : Ref) (fa fb : Fin 3 → ℚ), Room σ x 3 → Has σ a 3 fa → Has σ b 3 fb → x.addr ≠ a.addr → Apart x b →
      Gives σ (plus x a b σ) x 3 fun i => fa i + fb i := by
  intro h
  obtain ⟨σ', e, h1, _⟩ := h Demo.mem Demo.tail Demo.v Demo.w _ _ Demo.tail_has.toRoom Demo.v_has Demo.w_has (by decide) (.inl (by decide))
  have h2 := h1.val 2
  have e' : (plus Demo.tail Demo.v Demo.w Demo.mem).bind (fun τ => (τ 0).cell 3) = some 7 := by decide +kernel
  rw [e] at e'
  have : (σ' 0).cell 3 = some 7 := e'
  rw [show (σ' Demo.tail.blk).cell (Demo.tail.off + ((2 : Fin 3) : ℕ)) = (σ' 0).cell 3 from rfl, this] at h2
  exact absurd h2 (by decide +kernel)

section Exists
variable {d : Dims}

/-- A number for every vector. -/
def Name.idx : Name → ℕ
  | .x => 0 | .y => 1 | .z => 2 | .xPrev => 3 | .zPrev => 4 | .dx => 5 | .dy => 6 | .xt => 7 | .zt => 8 | .q => 9 | .l => 10 | .u => 11
  | .rho => 12 | .rhoInv => 13 | .Ax => 14 | .Px => 15 | .Aty => 16 | .Atdy => 17 | .Pdx => 18 | .Adx => 19 | .D => 20 | .Dinv => 21 | .E => 22 | .Einv => 23
  | .solX => 24 | .solY => 25 | .solPc => 26 | .solDc => 27 | .Dt => 28 | .DtA => 29 | .Et => 30 | .pX => 31 | .pZ => 32 | .pY => 33

theorem Name.idx_inj : Function.Injective Name.idx := by intro a b; cases a <;> cases b <;> simp [Name.idx]

/-- Array and first element of every vector. -/
def anyPtrs (n m : ℕ) : Ptrs := fun k => ⟨k.idx, if k = .zt then 7 else k.idx, if k = .zt then n else 0, k.dim n m⟩

def nameAt (b : ℕ) : Name :=
  ([.x, .y, .z, .xPrev, .zPrev, .dx, .dy, .xt, .zt, .q, .l, .u, .rho, .rhoInv, .Ax, .Px, .Aty, .Atdy, .Pdx, .Adx, .D, .Dinv, .E,
    .Einv, .solX, .solY, .solPc, .solDc, .Dt, .DtA, .Et, .pX, .pZ, .pY] : List Name).getD b .x

theorem nameAt_idx (k : Name) : nameAt k.idx = k := by cases k <;> rfl

def noScr : Scr d K := ⟨fun _ => 0, fun _ => 0, fun _ => 0, fun _ => 0, fun _ => 0, fun _ => 0, fun _ => 0, fun _ => 0, none, none, none⟩

/-- Memory that holds the workspace of `s`. -/
def anyMem (s : Solver d K) : Store K := fun b =>
  if b = 7 then ⟨d.n + d.m, fun _ => some 0⟩
  else ⟨d.n + d.m, fun j => (vals s noScr (nameAt b)).map fun f => ext f j⟩

theorem dim_le (k : Name) (n m : ℕ) : k.dim n m ≤ n + m := by cases k <;> simp [Name.dim]

theorem any_layout (n m : ℕ) : Layout n m (anyPtrs n m) ⟨34, 7, 0, n + m⟩ := by
  refine ⟨⟨rfl, rfl⟩, ⟨7, rfl⟩, ⟨8, by simp [anyPtrs, view, Name.idx, Name.dim]⟩, fun k hk => by simp [anyPtrs, hk], fun a b h1 h2 h3 => ?_, fun a b h e => h (Name.idx_inj e)⟩
  cases a <;> cases b <;> simp_all [anyPtrs, Name.idx]

theorem any_room (s : Solver d K) (k : Name) : Room (anyMem s) (anyPtrs d.n d.m k) (k.dim d.n d.m) := by
  refine ⟨rfl, ?_⟩
  have h1 : ∀ b, (anyMem s b).size = d.n + d.m := fun b => by unfold anyMem; split_ifs <;> rfl
  rw [h1]
  cases k <;> simp [anyPtrs, Name.dim]

theorem any_holding (s : Solver d K) : Holding (anyMem s) (anyPtrs d.n d.m) ⟨34, 7, 0, d.n + d.m⟩ s := by
  refine ⟨le_rfl, noScr, fun k f hk => ?_⟩
  by_cases c1 : k = .zt
  · subst c1
    rw [← Option.some.inj hk]
    exact ⟨rfl, le_rfl, fun i => rfl⟩
  by_cases c2 : k = .xt
  · subst c2
    rw [← Option.some.inj hk]
    exact ⟨rfl, by show 0 + d.n ≤ d.n + d.m; omega, fun i => rfl⟩
  have e : (anyPtrs d.n d.m k).blk = k.idx := by simp [anyPtrs, c1]
  have e' : (anyPtrs d.n d.m k).off = 0 := by simp [anyPtrs, c1]
  have h7 : k.idx ≠ 7 := fun h => c2 (Name.idx_inj h)
  have hs : anyMem s k.idx = ⟨d.n + d.m, fun j => some (ext f j)⟩ := by
    unfold anyMem
    rw [if_neg h7, nameAt_idx]
    simp only [hk]; rfl
  refine ⟨rfl, by rw [e, e', hs]; have := dim_le k d.n d.m; show 0 + _ ≤ d.n + d.m; omega, fun i => ?_⟩
  rw [e, e', hs, Nat.zero_add]
  simp [ext]

/-- A solver object for `env`. -/
def anyLin (env : Env d K) (ls : LinSys d K) : LinMem K where
  qsolve c := let r := env.kktSolve ls (fun j => (c.cell j).getD 0) (fun i => (c.cell (d.n + i)).getD 0)
    some ⟨d.n + d.m, fun j => some (cat d.n (ext r.1) (ext r.2) j)⟩
  n := d.n
  m := d.m
  perm := ⟨d.n + d.m, fun j => some (j : ℤ)⟩
  bp := Buf.fresh (d.n + d.m)
  sol := Buf.fresh (d.n + d.m)
  rho_inv_vec := some ⟨d.m, fun j => some (ext ls.param2 j)⟩
  rho_inv := 0

theorem any_solver (env : Env d K) (ls : LinSys d K) : SolverIs env ls (anyLin env ls) := by
  refine ⟨rfl, rfl, ⟨le_rfl, fun _ _ => rfl⟩, id, ⟨⟨⟨le_rfl, fun _ _ => rfl⟩, fun _ h => h, fun _ _ _ _ h => h⟩, le_rfl, le_rfl⟩, fun bx bz c hc => ?_⟩
  have e1 : (fun j : Fin d.n => (c.cell j).getD 0) = bx := by
    funext j; rw [hc.2 j (by omega)]; simp [cat, ext]
  have e2 : (fun i : Fin d.m => (c.cell (d.n + i)).getD 0) = bz := by
    funext i; rw [hc.2 (d.n + i) (by omega)]; simp [cat, ext]
  refine ⟨_, rfl, le_rfl, fun j _ => ?_⟩
  simp only [anyLin, id, e1, e2]

/-- Every solver state can be laid out in memory and meets the hypotheses of `c58_iteration`. -/
example (env : Env d K) (s : Solver d K) : ∃ σ W xz lin, SolverIs env s.work.linsys lin ∧ Layout d.n d.m W xz ∧ Holding σ W xz s :=
  ⟨_, _, _, _, any_solver env _, any_layout _ _, any_holding s⟩

end Exists

end Osqp.Vm
