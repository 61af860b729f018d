import Verif.Csc.Spec
import Mathlib.Algebra.Order.Ring.Rat
import Mathlib.Data.Rat.Defs

/-!
# A concrete matrix for the examples

```
[ 4  1  0 ]
[ .  2 -1 ]
[ .  .  . ]
```
The last column has no diagonal entry.
-/

namespace Osqp.Csc.Demo

/-- An array holding the elements of a list. -/
def buf {α : Type*} (l : List α) : Buf α := ⟨l.length, fun k => l[k]?⟩

theorem buf_holds {α : Type*} [Inhabited α] (l : List α) : Holds (buf l) l.length (fun k => l.getD k default) := by
  refine ⟨le_refl _, fun k hk => ?_⟩
  show l[k]? = _
  simp [List.getD, hk]

/-- The view of three lists. -/
def view {K : Type*} [Inhabited K] (m n : ℕ) (p i : List ℕ) (x : List K) : View K :=
  ⟨m, n, fun k => p.getD k 0, fun k => i.getD k 0, fun k => x.getD k default⟩

/-- Naturals as C integers. -/
def ints (l : List ℕ) : List ℤ := l.map Int.ofNat

/-- The C struct of three lists. -/
def csc {K : Type*} (m n : ℕ) (p i : List ℕ) (x : List K) : Csc K :=
  ⟨m, n, buf (ints p), buf (ints i), buf x, x.length, -1⟩

theorem csc_rep {K : Type*} [Inhabited K] {m n : ℕ} {p i : List ℕ} {x : List K} (hv : (view m n p i x).Valid) (h1 : n + 1 ≤ p.length)
    (h2 : (view m n p i x).nnz ≤ i.length) (h3 : (view m n p i x).nnz ≤ x.length) : Rep (csc m n p i x) (view m n p i x) := by
  refine ⟨rfl, rfl, hv, ?_, ?_, ?_⟩
  · show Holds _ (n + 1) _
    refine ((buf_holds (ints p)).mono (by simpa [ints] using h1)).congr fun k hk => ?_
    have hk : k < n + 1 := hk
    simp [ints, view, List.getD, show k < p.length by omega]
  · refine ((buf_holds (ints i)).mono (by simpa [ints] using h2)).congr fun k hk => ?_
    simp [ints, view, List.getD, show k < i.length by omega]
  · exact (buf_holds x).mono h3

def triuV : View ℚ := view 3 3 [0, 1, 3, 4] [0, 0, 1, 1] [4, 1, 2, -1]
def triu : Csc ℚ := csc 3 3 [0, 1, 3, 4] [0, 0, 1, 1] [4, 1, 2, -1]

theorem triu_valid : triuV.Valid := ⟨by decide, by decide, by decide⟩
theorem triu_rep : Rep triu triuV := csc_rep triu_valid (by decide) (by decide) (by decide)

theorem bounded {V : View ℚ} {Q : ℕ → ℕ → Prop} (h : ∀ j < V.n, ∀ k < V.p (j + 1), V.p j ≤ k → Q j k) :
    ∀ j < V.n, ∀ k, V.p j ≤ k → k < V.p (j + 1) → Q j k := fun j hj k h1 h2 => h j hj k h2 h1

theorem triu_triu : triuV.Triu := bounded (by decide)
theorem triu_nodup : triuV.NoDup := fun j hj k k' h1 h2 h3 h4 =>
  fun e => (by decide : ∀ j < 3, ∀ k < triuV.p (j + 1), ∀ k' < triuV.p (j + 1), triuV.p j ≤ k ∧ triuV.p j ≤ k' ∧ triuV.i k = triuV.i k' → k = k')
    j hj k h2 k' h4 ⟨h1, h3, e⟩

/-- A rectangular matrix, 2 rows and 3 columns, with an empty column: `[5 0 0; 0 0 7]`. -/
def rectV : View ℚ := view 2 3 [0, 1, 1, 2] [0, 1] [5, 7]
def rect : Csc ℚ := csc 2 3 [0, 1, 1, 2] [0, 1] [5, 7]
theorem rect_valid : rectV.Valid := ⟨by decide, by decide, by decide⟩
theorem rect_rep : Rep rect rectV := csc_rep rect_valid (by decide) (by decide) (by decide)
theorem rect_nodup : rectV.NoDup := fun j hj k k' h1 h2 h3 h4 =>
  fun e => (by decide : ∀ j < 3, ∀ k < rectV.p (j + 1), ∀ k' < rectV.p (j + 1), rectV.p j ≤ k ∧ rectV.p j ≤ k' ∧ rectV.i k = rectV.i k' → k = k')
    j hj k h2 k' h4 ⟨h1, h3, e⟩

/-- Vectors of lengths 3 and 2. -/
def v3 : Buf ℚ := buf [1, 2, 3]
def v2 : Buf ℚ := buf [1, 2]
def f3 (k : ℕ) : ℚ := [1, 2, 3].getD k default
def f2 (k : ℕ) : ℚ := [1, 2].getD k default
theorem v3_holds : Holds v3 3 f3 := buf_holds _
theorem v2_holds : Holds v2 2 f2 := buf_holds _

end Osqp.Csc.Demo
