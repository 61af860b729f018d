import Verif.Csc.AdjSolve
import Verif.Csc.DerivPair
import Verif.Csc.Demo

/-!
# An exact linear solver and small problems for the examples
-/

set_option linter.unusedSectionVars false
namespace Osqp.Csc
open Finset

section
variable {K : Type*} [Field K] [LinearOrder K]

theorem Rep.entry_uniq {M : Csc K} {V W : View K} (hV : Rep M V) (hW : Rep M W) {r c : ℕ} (hc : c < V.n) : V.entry r c = W.entry r c := by
  have hn : V.n = W.n := by have := hV.n; have := hW.n; omega
  have hp : ∀ j ≤ V.n, V.p j = W.p j := fun j hj => by
    have h2 := hW.p
    rw [← hn] at h2
    have := hV.p.uniq h2 (k := j) (by omega)
    exact_mod_cast this
  have hz : V.nnz = W.nnz := by unfold View.nnz; rw [← hn]; exact hp _ (le_refl _)
  unfold View.entry
  rw [hp c (by omega), hp (c + 1) (by omega)]
  refine sum_congr rfl fun k hk => ?_
  have hk' : k < W.nnz := hW.valid.lt_nnz (by rw [← hn]; exact hc) (mem_Ico.1 hk).2
  have h1 := hV.i
  have h2 := hV.x
  rw [hz] at h1 h2
  have e1 : V.i k = W.i k := by exact_mod_cast h1.uniq hW.i hk'
  rw [e1, h2.uniq hW.x hk']

theorem Rep.symEntry_uniq {M : Csc K} {V W : View K} (hV : Rep M V) (hW : Rep M W) {r c : ℕ} (hr : r < V.n) (hc : c < V.n) : V.symEntry r c = W.symEntry r c := by
  unfold View.symEntry
  rw [hV.entry_uniq hW hc, hV.entry_uniq hW hr]

/-- The vector, zero from position `dim` on. -/
def cut (dim : ℕ) (f : ℕ → K) (r : ℕ) : K := if r < dim then f r else 0

open Classical in
/-- A solution of the symmetric system whose upper triangle is `M`, if there is one. -/
noncomputable def anySv (dim : ℕ) (M : Csc K) (f : ℕ → K) : ℕ → K :=
  if h : ∃ z : ℕ → K, ∀ W, Rep M W → W.m = dim → W.n = dim → ∀ r < dim, ∑ c ∈ range dim, W.symEntry r c * z c = f r then h.choose else fun _ => 0
noncomputable def exactSv (dim : ℕ) (M : Csc K) (f : ℕ → K) : ℕ → K := anySv dim M (cut dim f)

/-- An ordering that reverses the unknowns, an exact solver, and a square root. -/
noncomputable def exactEnv (dim : ℕ) (sqrt : K → K) : AdjEnv K where
  perm := fun _ => ⟨dim, fun k => if k < dim then some ((dim - 1 - k : ℕ) : ℤ) else none⟩
  qsolve := fun M w => ⟨dim, fun k => some (exactSv dim M (fun k => (w.cell k).getD 0) k)⟩
  sqrt := sqrt

theorem exactSv_congr {dim : ℕ} {M : Csc K} {f g : ℕ → K} (h : ∀ k < dim, f k = g k) : exactSv dim M f = exactSv dim M g := by
  have : cut dim f = cut dim g := by
    funext r
    unfold cut
    by_cases hr : r < dim
    · rw [if_pos hr, if_pos hr, h r hr]
    · rw [if_neg hr, if_neg hr]
  unfold exactSv
  rw [this]

theorem exactEnv_ok (dim : ℕ) (sqrt : K → K) : SolverOk (exactEnv dim sqrt) dim (exactSv dim) := by
  refine ⟨fun M _ _ _ _ => ⟨fun k => dim - 1 - k, ⟨le_refl _, fun k hk => if_pos hk⟩, fun k hk => by dsimp only; omega, fun a ha b hb h => by dsimp only at h; omega⟩, fun M w f _ _ => rfl, fun M w f hw hf => ⟨le_refl _, fun k hk => ?_⟩⟩
  show some _ = _
  rw [exactSv_congr (g := f) fun k hk => by rw [hf.2 k hk]; rfl]

theorem exactEnv_exact (dim : ℕ) : ExactSolver dim (exactSv (K := K) dim) := by
  intro M W hW hm hn ht hns f r hr
  obtain ⟨B, hB, -⟩ := hns.inv
  have hex : ∃ z : ℕ → K, ∀ W, Rep M W → W.m = dim → W.n = dim → ∀ r < dim, ∑ c ∈ range dim, W.symEntry r c * z c = cut dim f r := by
    refine ⟨fun c => ∑ j ∈ range dim, B c j * f j, fun W' hW' _ hn' r hr => ?_⟩
    rw [show cut dim f r = f r from if_pos hr]
    have e : ∀ c ∈ range dim, W'.symEntry r c * ∑ j ∈ range dim, B c j * f j = ∑ j ∈ range dim, (W.symEntry r c * B c j) * f j := fun c hc => by
      rw [hW'.symEntry_uniq hW (by omega) (by have := mem_range.1 hc; omega), mul_sum]
      exact sum_congr rfl fun j _ => by ring
    rw [sum_congr rfl e, sum_comm]
    have e2 : ∀ j ∈ range dim, ∑ c ∈ range dim, (W.symEntry r c * B c j) * f j = if r = j then f j else 0 := fun j hj => by
      rw [← sum_mul, hB r hr j (mem_range.1 hj), ite_mul, one_mul, zero_mul]
    rw [sum_congr rfl e2, sum_ite_eq, if_pos (mem_range.2 hr)]
  have : exactSv dim M f = hex.choose := dif_pos hex
  rw [this]
  have := hex.choose_spec W hW hm hn r hr
  rwa [show cut dim f r = f r from if_pos hr] at this

end

end Osqp.Csc
