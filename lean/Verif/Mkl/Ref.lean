import Verif.Mkl.CgLemmas

/-!
# A conjugate-gradient routine with the interface of `dcg`

Not a model of MKL's code, which is not part of the repository: it shows that the contract `Spec.Honest` can be met, and serves in examples.
-/

set_option linter.unusedSectionVars false

namespace Osqp.Mkl
open Matrix Spec
universe u
variable {K : Type u} [Field K] [LinearOrder K] {n : ℕ}

/-- Where the routine goes on when it is called again. -/
inductive Phase
  | start | first | tested | prec | mul

/-- The memory of the routine. -/
structure RefMem (n : ℕ) (K : Type u) where
  phase : Phase
  limit : ℤ
  pre : Bool
  it : ℤ
  r : Vec K n
  p : Vec K n
  rz : K

/-- The next direction. -/
def refDir (mem : RefMem n K) (sh : Shared n K) (z : Vec K n) : ℤ × RefMem n K × Shared n K :=
  let rz := ∑ i, mem.r i * z i
  let beta := if mem.it = 0 then 0 else rz / mem.rz
  let p : Vec K n := fun i => z i + beta * mem.p i
  (1, { mem with phase := .mul, p := p, rz := rz }, { sh with mvmPre := p })

/-- One call. -/
def refCall (mem : RefMem n K) (sh : Shared n K) (b : Vec K n) : ℤ × RefMem n K × Shared n K :=
  match mem.phase with
  | .start => (1, { mem with phase := .first }, { sh with mvmPre := sh.x })
  | .first =>
    let r : Vec K n := fun i => b i - sh.mvmPost i
    (2, { mem with phase := .tested, r := r }, { sh with precPre := r })
  | .tested => if mem.it ≥ mem.limit then (-1, mem, sh) else if mem.pre then (3, { mem with phase := .prec }, sh) else refDir mem sh mem.r
  | .prec => refDir mem sh sh.precPost
  | .mul =>
    let pq := ∑ i, mem.p i * sh.mvmPost i
    if pq = 0 then (-2, mem, sh)
    else
      let alpha := mem.rz / pq
      let r : Vec K n := fun i => mem.r i - alpha * sh.mvmPost i
      (2, { mem with phase := .tested, it := mem.it + 1, r := r }, { sh with x := fun i => sh.x i + alpha * mem.p i, precPre := r })

/-- The routine. -/
def refDcg (n : ℕ) (K : Type u) [Field K] [LinearOrder K] : Dcg n K where
  Mem := RefMem n K
  start limit pre := ⟨.start, limit, pre, 0, fun _ => 0, fun _ => 0, 0⟩
  call := refCall
  iters mem := mem.it

/-- What holds between two calls. -/
def RefInv (pre : Bool) (B : Matrix (Fin n) (Fin n) K) (b : Vec K n) (mem : RefMem n K) (sh : Shared n K) : Prop :=
  mem.pre = pre ∧
  match mem.phase with
  | .start => True
  | .first => sh.mvmPost = B *ᵥ sh.x
  | .tested => mem.r = b - B *ᵥ sh.x
  | .prec => mem.r = b - B *ᵥ sh.x
  | .mul => mem.r = b - B *ᵥ sh.x ∧ sh.mvmPost = B *ᵥ mem.p

theorem ref_step {pre : Bool} {B : Matrix (Fin n) (Fin n) K} {b : Vec K n} {mem mem' : RefMem n K} {sh sh' : Shared n K} {req : ℤ} (h : RefInv pre B b mem sh)
    (call : refCall mem sh b = (req, mem', sh')) :
    (req = 1 → RefInv pre B b mem' { sh' with mvmPost := B *ᵥ sh'.mvmPre }) ∧ (req = 2 → RefInv pre B b mem' sh' ∧ sh'.precPre = b - B *ᵥ sh'.x) ∧
    (req = 3 → pre = true ∧ ∀ v, RefInv pre B b mem' { sh' with precPost := v }) := by
  obtain ⟨hp, h⟩ := h
  unfold refCall at call
  cases hph : mem.phase with
  | start =>
    simp only [hph, Prod.mk.injEq] at call
    obtain ⟨rfl, rfl, rfl⟩ := call
    exact ⟨fun _ => ⟨hp, rfl⟩, by simp, by simp⟩
  | first =>
    simp only [hph] at h
    simp only [hph, Prod.mk.injEq] at call
    obtain ⟨rfl, rfl, rfl⟩ := call
    have e : (fun i => b i - sh.mvmPost i) = b - B *ᵥ sh.x := by rw [← h]; rfl
    exact ⟨by simp, fun _ => ⟨⟨hp, e⟩, e⟩, by simp⟩
  | tested =>
    simp only [hph] at h
    simp only [hph] at call
    by_cases h1 : mem.it ≥ mem.limit
    · rw [if_pos h1] at call
      simp only [Prod.mk.injEq] at call
      obtain ⟨rfl, rfl, rfl⟩ := call
      exact ⟨by simp, by simp, by simp⟩
    · rw [if_neg h1] at call
      by_cases h2 : mem.pre = true
      · rw [if_pos h2] at call
        simp only [Prod.mk.injEq] at call
        obtain ⟨rfl, rfl, rfl⟩ := call
        exact ⟨by simp, by simp, fun _ => ⟨hp ▸ h2, fun v => ⟨hp, h⟩⟩⟩
      · rw [if_neg h2] at call
        unfold refDir at call
        simp only [Prod.mk.injEq] at call
        obtain ⟨rfl, rfl, rfl⟩ := call
        exact ⟨fun _ => ⟨hp, h, rfl⟩, by simp, by simp⟩
  | prec =>
    simp only [hph] at h
    simp only [hph] at call
    unfold refDir at call
    simp only [Prod.mk.injEq] at call
    obtain ⟨rfl, rfl, rfl⟩ := call
    exact ⟨fun _ => ⟨hp, h, rfl⟩, by simp, by simp⟩
  | mul =>
    simp only [hph] at h
    simp only [hph] at call
    by_cases h1 : ∑ i, mem.p i * sh.mvmPost i = 0
    · rw [if_pos h1] at call
      simp only [Prod.mk.injEq] at call
      obtain ⟨rfl, rfl, rfl⟩ := call
      exact ⟨by simp, by simp, by simp⟩
    · rw [if_neg h1] at call
      simp only [Prod.mk.injEq] at call
      obtain ⟨rfl, rfl, rfl⟩ := call
      have e : (fun i => mem.r i - mem.rz / (∑ i, mem.p i * sh.mvmPost i) * sh.mvmPost i) =
          b - B *ᵥ fun i => sh.x i + mem.rz / (∑ i, mem.p i * sh.mvmPost i) * mem.p i := by
        have e2 : (fun i => sh.x i + mem.rz / (∑ i, mem.p i * sh.mvmPost i) * mem.p i) = sh.x + (mem.rz / (∑ i, mem.p i * sh.mvmPost i)) • mem.p := rfl
        rw [e2, mulVec_add, mulVec_smul, ← h.2, h.1]
        funext i
        simp only [Pi.sub_apply, Pi.add_apply, Pi.smul_apply, smul_eq_mul]
        ring
      exact ⟨by simp, fun _ => ⟨⟨hp, e⟩, e⟩, by simp⟩

theorem ref_inv {limit : ℤ} {pre : Bool} {B : Matrix (Fin n) (Fin n) K} {M : (Fin n → K) → Fin n → K} {b : Fin n → K} {mem : (refDcg n K).Mem} {sh : Shared n K}
    (h : Session (refDcg n K) limit pre B M b mem sh) : RefInv (n := n) pre B b mem sh := by
  induction h with
  | start sh => exact ⟨rfl, trivial⟩
  | multiply before call ih => exact (ref_step ih call).1 rfl
  | test before call ih => exact ((ref_step ih call).2.1 rfl).1
  | precondition before call ih => exact ((ref_step ih call).2.2 rfl).2 _

/-- The contract can be met. -/
theorem refDcg_honest : Honest (refDcg n K) where
  residual h call := ((ref_step (ref_inv h) call).2.1 rfl).2
  quiet h call := by have := ((ref_step (ref_inv h) call).2.2 rfl).1; simp at this

/-! ## Running the loop -/

variable {m : ℕ} {P : Pat n n} {A : Pat m n}

/-- The loop, at most `fuel` turns. -/
def runLoop (d : Dcg n K) (s : Solver P A K) (rhs : Vec K n) (eps : K) : ℕ → d.Mem → Shared n K → Option (Turn d)
  | 0, _, _ => none
  | f + 1, mem, sh =>
    match turn d s rhs eps mem sh with
    | .again mem' sh' => runLoop d s rhs eps f mem' sh'
    | t => some t

theorem runLoop_loop {d : Dcg n K} {s : Solver P A K} {rhs : Vec K n} {eps : K} : ∀ {fuel : ℕ} {mem : d.Mem} {sh : Shared n K} {t : Turn d},
    runLoop d s rhs eps fuel mem sh = some t → Loop d s rhs eps mem sh t
  | 0, _, _, _, h => by simp [runLoop] at h
  | f + 1, mem, sh, t, h => by
    unfold runLoop at h
    cases ht : turn d s rhs eps mem sh with
    | again mem' sh' => rw [ht] at h; exact .again ht (runLoop_loop h)
    | leave code mem' sh' => rw [ht] at h; simp only [Option.some.injEq] at h; subst h; exact .leave ht
    | undefined => rw [ht] at h; simp only [Option.some.injEq] at h; subst h; exact .undefined ht

end Osqp.Mkl
