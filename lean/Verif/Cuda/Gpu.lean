import Verif.Vm.Model
import Mathlib.Data.Int.Bitwise

/-!
# Kernels of the CUDA back end

`algebra/cuda/src/cuda_lin_alg.cu`: a kernel is one program run by many threads at once. A program is a tree of memory accesses; a
run is any interleaving of the accesses of the threads. Every access is checked as in `Csc/Mem.lean`; `none` is undefined behaviour.

Simplifications: accesses take effect one after the other (CUDA promises this for programs without data races; where there is a
race, this is one of the behaviours it allows); `OSQPInt` does not overflow; floating-point numbers are the elements of a field.
-/

namespace Osqp.Gpu
open Csc Vm

/-- The arrays in device memory, of `OSQPFloat` and of `OSQPInt`. -/
structure Dev (K : Type) where
  f : Store K
  z : Store ℤ

/-- The rest of a thread's program: finished with a value, or an access `a` that gives a value of some type and a new memory, and what
comes after it. -/
inductive Prog (M : Type) (α : Type) : Type 1
  | ret (a : α)
  | act {β : Type} (a : M → Option (β × M)) (k : β → Prog M α)

/-- One program after the other. -/
def Prog.bind {M α γ : Type} : Prog M α → (α → Prog M γ) → Prog M γ
  | .ret a, f => f a
  | .act a k, f => .act a fun b => (k b).bind f

instance {M : Type} : Monad (Prog M) where
  pure := .ret
  bind := .bind

/-- One access of a thread. A finished thread does nothing. -/
def step {M α : Type} : Prog M α → M → Option (Prog M α × M)
  | .ret a, m => some (.ret a, m)
  | .act a k, m => (a m).map fun r => (k r.1, r.2)

/-- Threads `ts` take turns as `s` says: what is left of their programs, and the memory. -/
def run {M ι : Type} [DecidableEq ι] (ts : ι → Prog M Unit) : List ι → M → Option ((ι → Prog M Unit) × M)
  | [], m => some (ts, m)
  | t :: s, m => (step (ts t) m).bind fun r => run (Function.update ts t r.1) s r.2

variable {K : Type}

/-! ## Accesses -/

/-- `v[i]` as an rvalue. -/
def ld (v : Ref) (i : ℤ) : Prog (Dev K) K := .act (fun m => (rd m.f v i).map fun x => (x, m)) .ret
/-- `v[i] = x`. -/
def st (v : Ref) (i : ℤ) (x : K) : Prog (Dev K) Unit := .act (fun m => (wr m.f v i x).map fun s => ((), { m with f := s })) .ret
/-- `v[i]` as an rvalue, integers. -/
def ldz (v : Ref) (i : ℤ) : Prog (Dev K) ℤ := .act (fun m => (rd m.z v i).map fun x => (x, m)) .ret
/-- `v[i] = x`, integers. -/
def stz (v : Ref) (i : ℤ) (x : ℤ) : Prog (Dev K) Unit := .act (fun m => (wr m.z v i x).map fun s => ((), { m with z := s })) .ret
/-- `atomicAdd(v, x)`: read, add and write as one access. -/
def atomicAdd [Add K] (v : Ref) (x : K) : Prog (Dev K) Unit :=
  .act (fun m => (rd m.f v 0).bind fun o => (wr m.f v 0 (o + x)).map fun s => ((), { m with f := s })) .ret
/-- `atomicAnd(v, x)`. -/
def atomicAnd (v : Ref) (x : ℤ) : Prog (Dev K) Unit :=
  .act (fun m => (rd m.z v 0).bind fun o => (wr m.z v 0 (Int.land o x)).map fun s => ((), { m with z := s })) .ret
/-- `atomicOr(v, x)`. -/
def atomicOr (v : Ref) (x : ℤ) : Prog (Dev K) Unit :=
  .act (fun m => (rd m.z v 0).bind fun o => (wr m.z v 0 (Int.lor o x)).map fun s => ((), { m with z := s })) .ret

/-! ## Threads and loops -/

/-- `idx = threadIdx.x + blockDim.x * blockIdx.x` with `G` blocks of `B` threads (cuda_lin_alg.cu:42, the same in every kernel). -/
def idx {G B : ℕ} (t : Fin G × Fin B) : ℕ := t.2 + B * t.1

/-- `for (i = …; i < n; i += g) s = body(i, s)` (cuda_lin_alg.cu:45, the same in every kernel). The first argument bounds the number of
rounds; `n` is enough (`mem_visits`). -/
def gridLoop {M σ : Type} (g n : ℕ) (body : ℕ → σ → Prog M σ) : ℕ → ℕ → σ → Prog M σ
  | 0, _, s => .ret s
  | k + 1, i, s => if i < n then do gridLoop g n body k (i + g) (← body i s) else .ret s

/-- A kernel whose threads go through the elements with stride `grid_size = blockDim.x * gridDim.x`. -/
def strided {M : Type} (n : ℕ) (body : ℕ → Prog M Unit) (G B : ℕ) (t : Fin G × Fin B) : Prog M Unit :=
  gridLoop (B * G) n (fun i _ => body i) n (idx t) ()

/-- `THREADS_PER_BLOCK` (cuda_configure.h:29). -/
def threadsPerBlock : ℕ := 1024
/-- `number_of_blocks = (n / THREADS_PER_BLOCK) + 1` (cuda_lin_alg.cu:585, the same in every routine for vectors). -/
def blocks (n : ℕ) : ℕ := n / threadsPerBlock + 1

/-- `kernel<<<number_of_blocks, THREADS_PER_BLOCK>>>` for `n` elements. -/
abbrev Thread (n : ℕ) : Type := Fin (blocks n) × Fin threadsPerBlock

/-- The threads of a kernel that goes through `n` elements. -/
def grid {M : Type} (n : ℕ) (body : ℕ → Prog M Unit) : Thread n → Prog M Unit := strided n body (blocks n) threadsPerBlock

section Kernels
variable [Field K] [LinearOrder K]

/-! ## Kernels that change a vector -/

/-- cuda_lin_alg.cu:38-50 `vec_round_kernel`. -/
def roundK (a : Ref) (tol : K) (i : ℕ) : Prog (Dev K) Unit := do
  let v ← ld a i
  if cAbs v < tol then st a i 0 else pure ()

/-- cuda_lin_alg.cu:52-62 `vec_set_sc_kernel`. -/
def setScK (a : Ref) (sc : K) (i : ℕ) : Prog (Dev K) Unit := st a i sc

/-- cuda_lin_alg.cu:64-79 `vec_set_sc_cond_kernel`. The element of `test` is read once or twice. -/
def setScCondK (a test : Ref) (neg zero pos : K) (i : ℕ) : Prog (Dev K) Unit := do
  if (← ldz test i) = 0 then st a i zero
  else if (← ldz test i) > 0 then st a i pos
  else st a i neg

/-- cuda_lin_alg.cu:113-128 `vec_ew_prod_kernel`. -/
def ewProdK (c a b : Ref) (i : ℕ) : Prog (Dev K) Unit := do
  let v ← ld a i
  let w ← ld b i
  st c i (v * w)

/-- cuda_lin_alg.cu:180-192 `vec_bound_kernel`. -/
def boundK (x z l u : Ref) (i : ℕ) : Prog (Dev K) Unit := do
  let v ← ld z i
  let a ← ld l i
  let b ← ld u i
  st x i (cMin (cMax v a) b)

/-- cuda_lin_alg.cu:194-219 `vec_project_polar_reccone_kernel`. -/
def projectPolarK (y l u : Ref) (infval : K) (i : ℕ) : Prog (Dev K) Unit := do
  if (← ld u i) > infval then
    if (← ld l i) < -infval then st y i 0
    else st y i (cMin (← ld y i) 0)
  else if (← ld l i) < -infval then st y i (cMax (← ld y i) 0)
  else pure ()

/-- cuda_lin_alg.cu:239-253 `vec_reciprocal_kernel`. Division by zero gives an infinity, which is not a number of the model: `none`. -/
def reciprocalK (b a : Ref) (i : ℕ) : Prog (Dev K) Unit := do
  let v ← ld a i
  if v = 0 then .act (β := Unit) (fun _ => none) .ret else st b i (1 / v)

/-- cuda_lin_alg.cu:255-268 `vec_sqrt_kernel`, with the square root as a parameter. -/
def sqrtK (sqrt : K → K) (a : Ref) (i : ℕ) : Prog (Dev K) Unit := do st a i (sqrt (← ld a i))

/-- cuda_lin_alg.cu:270-281 `vec_max_kernel`. -/
def maxK (c a b : Ref) (i : ℕ) : Prog (Dev K) Unit := do
  let v ← ld a i
  let w ← ld b i
  st c i (cMax v w)

/-- cuda_lin_alg.cu:283-294 `vec_min_kernel`. -/
def minK (c a b : Ref) (i : ℕ) : Prog (Dev K) Unit := do
  let v ← ld a i
  let w ← ld b i
  st c i (cMin v w)

/-- cuda_lin_alg.cu:332-344 `vec_set_sc_if_lt_kernel`. Simplification: the element is read once. -/
def setIfLtK (x z : Ref) (test new : K) (i : ℕ) : Prog (Dev K) Unit := do
  let v ← ld z i
  st x i (if v < test then new else v)

/-- cuda_lin_alg.cu:346-358 `vec_set_sc_if_gt_kernel`. Simplification: the element is read once. -/
def setIfGtK (x z : Ref) (test new : K) (i : ℕ) : Prog (Dev K) Unit := do
  let v ← ld z i
  st x i (if v > test then new else v)

/-! ## Kernels that compute one number -/

/-- cuda_lin_alg.cu:167-178 `vec_leq_kernel`. -/
def leqK (l u res : Ref) (i : ℕ) : Prog (Dev K) Unit := do
  let a ← ld l i
  let b ← ld u i
  if a > b then atomicAnd res 0 else pure ()

/-- cuda_lin_alg.cu:221-237 `vec_in_reccone_kernel`. Simplification: all three operands are read even where `&&` and `||` would skip
one. -/
def inRecconeK (y l u : Ref) (infval tol : K) (res : Ref) (i : ℕ) : Prog (Dev K) Unit := do
  let b ← ld u i
  let v ← ld y i
  let a ← ld l i
  if (b < infval ∧ v > tol) ∨ (a > -infval ∧ v < -tol) then atomicAnd res 0 else pure ()

/-- cuda_lin_alg.cu:296-330 `vec_bounds_type_kernel`, its three branches as one. -/
def boundsTypeK (iseq l u : Ref) (infval tol : K) (changed : Ref) (i : ℕ) : Prog (Dev K) Unit := do
  let b ← ld u i
  let a ← ld l i
  let t : ℤ := if b - a < tol then 1 else if a < -infval ∧ b > infval then -1 else 0
  if (← ldz iseq i) ≠ t then do
    stz iseq i t
    atomicOr changed 1
  else pure ()

/-- cuda_lin_alg.cu:81-95 and 97-111 `vec_prod_pos_kernel` (`part` is `c_max(·, 0.0)`) and `vec_prod_neg_kernel` (`c_min(·, 0.0)`):
a sum in a local variable, then one atomic addition. -/
def prodK (part : K → K) (a b res : Ref) (n G B : ℕ) (t : Fin G × Fin B) : Prog (Dev K) Unit := do
  let s ← gridLoop (B * G) n (fun i s => do
    let v ← ld a i
    let w ← ld b i
    pure (s + v * part w)) n (idx t) (0 : K)
  atomicAdd res s

/-- The loop of `vec_eq_kernel` (cuda_lin_alg.cu:141-146): it ends at the first difference. -/
def eqLoop (g n : ℕ) (a b : Ref) (tol : K) (res : Ref) : ℕ → ℕ → Prog (Dev K) Unit
  | 0, _ => pure ()
  | k + 1, i => if i < n then do
      let v ← ld a i
      let w ← ld b i
      if cAbs (v - w) > tol then stz res 0 0 else eqLoop g n a b tol res k (i + g)
    else pure ()

/-- cuda_lin_alg.cu:130-147 `vec_eq_kernel`: every thread first writes `*res = 1`. -/
def eqK (a b : Ref) (tol : K) (res : Ref) (n G B : ℕ) (t : Fin G × Fin B) : Prog (Dev K) Unit := do
  stz res 0 1
  eqLoop (B * G) n a b tol res n (idx t)

/-! ## Linear combinations

These call `cudaMemcpy`, `cudaMemset`, `cublasTscal` and `cublasTaxpy`, each modelled as the loop its documentation describes. -/

/-- `cublasTaxpy(n, &s, d_b, 1, d_x, 1)`: `x += s * b`. -/
def axpy (n : ℕ) (s : K) (b x : Ref) (σ : Store K) : Option (Store K) :=
  forI 0 n (fun i σ => (rd σ b i).bind fun w => (rd σ x i).bind fun v => wr σ x i (v + s * w)) σ

/-- cuda_lin_alg.cu:623-639 = 654-670, the part of `cuda_vec_add_scaled` and `cuda_vec_add_scaled3` that computes `x = sca * a`. Two
device pointers are equal if they are the same place of the same array. -/
def scaledTo (n : ℕ) (x a : Ref) (sca : K) (σ : Store K) : Option (Store K) :=
  if ¬ (x.blk = a.blk ∧ x.off = a.off) ∨ sca ≠ 1 then
    if sca = 1 then forI 0 n (fun i σ => (rd σ a i).bind fun v => wr σ x i v) σ
    else if x.blk = a.blk ∧ x.off = a.off then forI 0 n (fun i σ => (rd σ x i).bind fun v => wr σ x i (sca * v)) σ
    else (forI 0 n (fun i σ => wr σ x i 0) σ).bind (axpy n sca a x)
  else some σ

/-- cuda_lin_alg.cu:616-643 `cuda_vec_add_scaled`, as called by vector.cu:283-290 `OSQPVectorf_add_scaled`, vector.cu:268-273
`OSQPVectorf_plus` (`sca` and `scb` 1) and vector.cu:275-280 `OSQPVectorf_minus` (1 and -1). -/
def addScaledG (n : ℕ) (x a b : Ref) (sca scb : K) (σ : Store K) : Option (Store K) := (scaledTo n x a sca σ).bind (axpy n scb b x)

/-- cuda_lin_alg.cu:645-677 `cuda_vec_add_scaled3`, as called by vector.cu:292-301 `OSQPVectorf_add_scaled3`. -/
def addScaled3G (n : ℕ) (x a b c : Ref) (sca scb scc : K) (σ : Store K) : Option (Store K) :=
  ((scaledTo n x a sca σ).bind (axpy n scb b x)).bind (axpy n scc c x)

end Kernels

end Osqp.Gpu
