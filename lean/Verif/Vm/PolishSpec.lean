import Verif.Vm.Polish
import Verif.Vm.ApiSpec
import Verif.Spec.Polish

/-!
# Specification: the linear-system solver of the polishing

`Spec.rank flags i` is the position of constraint `i` among the selected ones (`flags i ≠ 0`).
-/

namespace Osqp.Vm
open Csc Spec
variable {L' K : Type*} [Field K] [LinearOrder K] {d : Dims}

/-- The number of selected constraints. -/
def picked (flags : Fin d.m → ℤ) : ℕ := (Finset.univ.filter fun i => flags i ≠ 0).card

/-- `R` is a stored matrix with the selected rows of `A`, in order. -/
def RedOf (D : Data d K) (flags : Fin d.m → ℤ) (R : Csc K) : Prop :=
  ∃ W, Rep R W ∧ W.m = picked flags ∧ W.n = d.n ∧ ∀ i : Fin d.m, flags i ≠ 0 → ∀ j : Fin d.n, W.entry (rank flags i) j = (ofData D).A i j

/-- The linear-system solver of the polishing does what the solver layer assumes; `T D flags sigma l` says that the object `l` is the solver for the
reduced system of the problem `D` with the constraints `flags`. Creating it fails exactly if there are too few positive pivots. A right-hand
side is an array with the part for `x` first and the part for the selected constraints behind it. -/
structure PolImpl (env : Env d K) (G : PolLib L' K) (T : Data d K → (Fin d.m → ℤ) → K → L' → Prop) : Prop where
  init : ∀ (D : Data d K) flags sigma {P R : Csc K}, Stores P d.P D.P → RedOf D flags R →
    (env.polFactor D flags sigma < d.n → ∃ o, G.init P R sigma = some (o, Err.nonCvx)) ∧
    (¬ env.polFactor D flags sigma < d.n → ∃ l, G.init P R sigma = some (some l, 0) ∧ T D flags sigma l)
  solve : ∀ (D : Data d K) flags sigma l, T D flags sigma l → ∀ (bx : Vec K d.n) (bz : ℕ → K) (b : Buf K), (∀ k, picked flags ≤ k → bz k = 0) →
    Holds b (d.n + picked flags) (cat d.n (ext bx) bz) →
    ∃ b', G.solve l b = some b' ∧
      Holds b' (d.n + picked flags) (cat d.n (ext (env.polSolve D flags sigma bx bz).1) (env.polSolve D flags sigma bx bz).2)

/-- The matrix `[P + sigma*I, A'; A, -sigma*I]` with the selected rows of `A`. -/
def redMatrix (D : Data d K) (flags : Fin d.m → ℤ) (sigma : K) : Matrix (Fin d.n ⊕ {i // flags i ≠ 0}) (Fin d.n ⊕ {i // flags i ≠ 0}) K :=
  let B : Matrix {i // flags i ≠ 0} (Fin d.n) K := fun i j => (ofData D).A i j
  .fromBlocks ((ofData D).P + .diagonal fun _ => sigma) B.transpose B (-.diagonal fun _ => sigma)

/-- The position of a row of the reduced system: the rows of `x` come first. -/
def flatRed (flags : Fin d.m → ℤ) : Fin d.n ⊕ {i // flags i ≠ 0} → ℕ := Sum.elim (fun j => (j : ℕ)) fun i => d.n + rank flags i

/-- `G` is a stored upper triangle of the reduced matrix, its rows and columns in the order `p`, which is a permutation. -/
def RedKkt (D : Data d K) (flags : Fin d.m → ℤ) (sigma : K) (p : ℕ → ℕ) (G : Csc K) : Prop :=
  (∀ k < d.n + picked flags, p k < d.n + picked flags) ∧ (∀ a < d.n + picked flags, ∀ b < d.n + picked flags, p a = p b → a = b) ∧
  ∃ W, Rep G W ∧ W.Triu ∧ W.m = d.n + picked flags ∧ W.n = d.n + picked flags ∧
    ∀ i < d.n + picked flags, ∀ j < d.n + picked flags, ∀ a b, p i = flatRed flags a → p j = flatRed flags b → W.symEntry i j = redMatrix D flags sigma a b

/-- AMD and QDLDL do what the solver layer assumes of them when polishing: AMD leaves a permutation; on a stored reduced matrix, in any order, QDLDL
counts the positive pivots and solves as `env` says. -/
structure QdldlPolIs (env : Env d K) (amd : Csc K → Buf ℤ) (Q : Qdldl K) : Prop where
  order : ∀ (D : Data d K) flags sigma G, RedKkt D flags sigma id G → ∃ p, PermIs (amd G) (d.n + picked flags) p
  etree : ∀ (D : Data d K) flags sigma p G, RedKkt D flags sigma p G → 0 ≤ Q.etree G
  count : ∀ (D : Data d K) flags sigma p G, RedKkt D flags sigma p G → (Q.factor G).1 = env.polFactor D flags sigma
  solve : ∀ (D : Data d K) flags sigma p perm G, PermIs perm (d.n + picked flags) p → RedKkt D flags sigma p G →
    ∀ (bx : Vec K d.n) (bz : ℕ → K) (c : Buf K), (∀ k, picked flags ≤ k → bz k = 0) → Holds c (d.n + picked flags) (fun j => cat d.n (ext bx) bz (p j)) →
    ∃ c', (Q.factor G).2 c = some c' ∧
      Holds c' (d.n + picked flags) fun j => cat d.n (ext (env.polSolve D flags sigma bx bz).1) (env.polSolve D flags sigma bx bz).2 (p j)

end Osqp.Vm
