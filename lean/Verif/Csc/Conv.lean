import Verif.Csc.Fill
import Verif.Csc.Prod

/-!
# Conversions: triplets, permutation, symmetrisation, stacking, copies
-/

set_option linter.unusedSectionVars false
namespace Osqp.Csc
open Finset

variable {K : Type*} [Field K] [LinearOrder K]

/-- The list of one entry. -/
def one (I J : ℕ → ℕ) (X : ℕ → K) (k : ℕ) : List (Ent K) := [⟨J k, I k, X k⟩]

theorem pre_one_length (I J : ℕ → ℕ) (X : ℕ → K) (k : ℕ) : (pre (one I J X) k).length = k := pre_length_one (fun _ => rfl) k

theorem matOf_pre_one (I J : ℕ → ℕ) (X : ℕ → K) (N r c : ℕ) :
    matOf (pre (one I J X) N) r c = ∑ k ∈ range N, if I k = r ∧ J k = c then X k else 0 := by
  rw [matOf_pre]; exact sum_congr rfl fun k _ => by simp [one]

/-- Where the `k`-th of `N` entries goes. -/
def slotOne (I J : ℕ → ℕ) (X : ℕ → K) (N k : ℕ) : ℕ := dest (pre (one I J X) N) ⟨J k, I k, X k⟩ k

theorem Laid.locates {m n N : ℕ} {I J : ℕ → ℕ} {X : ℕ → K} {V : View K} (h : Laid m n (pre (one I J X) N) V) (hI : ∀ k < N, I k < m)
    (hJ : ∀ k < N, J k < n) : Locates V N (slotOne I J X N) I J X := by
  have hc : InCols n (pre (one I J X) N) := pre_all fun k hk e he => by
    rw [one, List.mem_singleton] at he; rw [he]; exact hJ k hk
  have hr : ∀ e ∈ pre (one I J X) N, e.r < m := pre_all fun k hk e he => by
    rw [one, List.mem_singleton] at he; rw [he]; exact hI k hk
  have key : ∀ k < N, dest (pre (one I J X) N) ⟨J k, I k, X k⟩ k < V.nnz ∧ V.i (dest (pre (one I J X) N) ⟨J k, I k, X k⟩ k) = I k ∧
      V.col (dest (pre (one I J X) N) ⟨J k, I k, X k⟩ k) = J k ∧ V.x (dest (pre (one I J X) N) ⟨J k, I k, X k⟩ k) = X k := fun k hk => by
    obtain ⟨rest, hs⟩ := pre_split (one I J X) hk
    have := h.at hc hr (es := pre (one I J X) k) (e := ⟨J k, I k, X k⟩) (rest := rest) hs
    rw [pre_one_length] at this
    exact this
  refine ⟨fun k hk => (key k hk).1, fun k hk => (key k hk).2.1, fun k hk => (key k hk).2.2.1, fun k hk => (key k hk).2.2.2, ?_⟩
  intro k hk k' hk' he
  obtain ⟨rest, hs⟩ := pre_split (one I J X) hk
  obtain ⟨rest', hs'⟩ := pre_split (one I J X) hk'
  have := dest_at_inj (es := pre (one I J X) k) (e := ⟨J k, I k, X k⟩) (rest := rest) (es' := pre (one I J X) k') (e' := ⟨J k', I k', X k'⟩) (rest' := rest') hs hs'
    (by rw [pre_one_length, pre_one_length]; exact he)
  rwa [pre_one_length, pre_one_length] at this

theorem triplet_aux {T : Csc K} {m n N : ℕ} {I J : ℕ → ℕ} {X : ℕ → K} (hm : T.m = m) (hn : T.n = n) (hz : T.nz = N)
    (hi : Holds T.i N (fun k => (I k : ℤ))) (hj : Holds T.p N (fun k => (J k : ℤ))) (hx : Holds T.x N X)
    (hI : ∀ k < N, I k < m) (hJ : ∀ k < N, J k < n) {map : Option (Buf ℤ)} (hmap : MapFits map N) :
    ∃ C map' V, tripletToCsc T map = some (C, map') ∧ Rep C V ∧ Laid m n (pre (one I J X) N) V ∧
      C.i.size = N ∧ C.x.size = N ∧ C.nzmax = N ∧ MapSet map map' (· < N) (slotOne I J X N) := by
  set all := pre (one I J X) N with hall
  have hlen : all.length = N := pre_one_length I J X N
  have hc : InCols n all := pre_all fun k hk e he => by
    rw [one, List.mem_singleton] at he; rw [he]; exact hJ k hk
  have hr : ∀ e ∈ all, e.r < m := pre_all fun k hk e he => by
    rw [one, List.mem_singleton] at he; rw [he]; exact hI k hk
  obtain ⟨hs1, hs2, hs3, hs4⟩ := spalloc_nat (K := K) m n N
  -- counting
  obtain ⟨w, ew, hw⟩ := forI_zero (hi := N) (s := (Buf.zeroed (n : ℤ) 0 : Buf ℤ)) (f := fun k w => (T.p.rd k).bind fun j => incr w j)
    (fun k w => Holds w n (fun c => ((cnt (pre (one I J X) k) c : ℕ) : ℤ))) ((zeroed_holds n 0).congr (by simp)) (by
      intro k w hk hw
      obtain ⟨w', e, h', _⟩ := incr_holds hw (e := ⟨J k, I k, X k⟩) (hJ k hk) rfl
      refine ⟨w', ?_, ?_⟩
      · rw [hj.rd hk]; exact e
      · rw [pre_succ]; exact h')
  obtain ⟨p, w', t, ec, hp, hf0⟩ := bucket_start (m := m) (all := all) hw
  rw [hlen] at ec hf0
  -- filling
  obtain ⟨s, es, hf, hms, hsi, hsx⟩ := forI_zero (hi := N)
    (s := (⟨w', (spalloc (m : ℤ) (n : ℤ) (N : ℤ) : Csc K).i, (spalloc (m : ℤ) (n : ℤ) (N : ℤ) : Csc K).x⟩, map))
    (f := fun k (s : Slots K × Option (Buf ℤ)) => (T.p.rd k).bind fun j => (T.i.rd k).bind fun ti => (T.x.rd k).bind fun tx =>
      (put s.1 j ti tx).bind fun d => (wrOpt s.2 k d.2).bind fun m => some (d.1, m))
    (fun k s => Filled n all (pre (one I J X) k) s.1 ∧ MapSet map s.2 (· < k) (slotOne I J X N) ∧ s.1.i.size = N ∧ s.1.x.size = N)
    ⟨hf0, MapSet.refl _ (fun k => Nat.not_lt_zero k) _, hs2, hs3⟩ (by
      intro k s hk ⟨h1, h2, h3, h4⟩
      obtain ⟨rest, hsp⟩ := pre_split (one I J X) hk
      obtain ⟨s', e, hf', _, e2, e3, _⟩ := h1.put hc (e := ⟨J k, I k, X k⟩) (rest := rest) hsp (col := J k) (row := I k) rfl rfl
      have hd : (dest all ⟨J k, I k, X k⟩ (pre (one I J X) k).length) = slotOne I J X N k := by
        rw [pre_one_length]; rfl
      rw [hd] at e
      obtain ⟨mp, em, hmp⟩ := h2.step hmap hk (d := ((slotOne I J X N k : ℕ) : ℤ)) rfl
      refine ⟨(s', mp), ?_, ?_, hmp.congr (fun t => by omega) (fun _ _ => rfl), by rw [e2, h3], by rw [e3, h4]⟩
      · rw [hj.rd hk, hi.rd hk, hx.rd hk]
        simp only [Option.bind_some]
        rw [e]
        simp only [Option.bind_some]
        rw [em]
        rfl
      · rw [pre_succ]; exact hf')
  let C : Csc K := { (spalloc (m : ℤ) (n : ℤ) (N : ℤ) : Csc K) with p := p, i := s.1.i, x := s.1.x }
  have hL := layout_laid m n hc (K := K)
  refine ⟨C, s.2, layout m n hc, ?_, bucket_done (C := C) hp hf hc hr hL rfl rfl rfl rfl rfl, hL, hsi, hsx, hs4, hms⟩
  unfold tripletToCsc
  rw [hm, hn, hz]
  simp only [ew, Option.bind_some, ec, es, C]

/-! ## Symmetric permutation -/

theorem cMaxZ (a b : ℕ) : cMax (a : ℤ) (b : ℤ) = ((max a b : ℕ) : ℤ) := by unfold cMax; split_ifs <;> omega
theorem cMinZ (a b : ℕ) : cMin (a : ℤ) (b : ℤ) = ((min a b : ℕ) : ℤ) := by unfold cMin; split_ifs <;> omega

/-- `π` is the permutation described by `pv` (identity if `pv` is NULL). -/
def PinvIs (pv : Option (Buf ℤ)) (n : ℕ) (π : ℕ → ℕ) : Prop :=
  match pv with
  | none => ∀ j < n, π j = j
  | some b => Holds b n (fun j => (π j : ℤ))

theorem PinvIs.rd {pv : Option (Buf ℤ)} {n : ℕ} {π : ℕ → ℕ} (h : PinvIs pv n π) {j : ℕ} (hj : j < n) : pinvAt pv (j : ℤ) = some ((π j : ℕ) : ℤ) := by
  cases pv with
  | none => unfold pinvAt; simp only; rw [h j hj]
  | some b => exact Holds.rd (show Holds b n _ from h) hj

/-- The permuted entry of a stored entry of the upper triangle; entries below the diagonal are dropped. -/
def symOne (V : View K) (π : ℕ → ℕ) (k : ℕ) : List (Ent K) :=
  if V.i k ≤ V.col k then [⟨max (π (V.i k)) (π (V.col k)), min (π (V.i k)) (π (V.col k)), V.x k⟩] else []

def symSlot (V : View K) (π : ℕ → ℕ) (k : ℕ) : ℕ :=
  dest (pre (symOne V π) V.nnz) ⟨max (π (V.i k)) (π (V.col k)), min (π (V.i k)) (π (V.col k)), V.x k⟩ (pre (symOne V π) k).length

theorem symperm_aux {A : Csc K} {V : View K} (h : Rep A V) (hsq : V.m = V.n) (ht : V.Triu) {pv : Option (Buf ℤ)} {π : ℕ → ℕ}
    (hpv : PinvIs pv V.n π) (hπ : ∀ j < V.n, π j < V.n) {map : Option (Buf ℤ)} (hmap : MapFits map V.nnz) :
    ∃ C map' W, symperm A pv map = some (C, map') ∧ Rep C W ∧ Laid V.n V.n (pre (symOne V π) V.nnz) W ∧ C.i.size = V.nnz ∧ C.x.size = V.nnz ∧
      C.nzmax = V.nnz ∧ MapSet map map' (· < V.nnz) (symSlot V π) := by
  have hle : ∀ {k}, k < V.nnz → V.i k ≤ V.col k := fun hk => by
    obtain ⟨h1, h2, h3⟩ := h.valid.col_spec hk; exact ht _ h1 _ h2 h3
  have hone : ∀ {k}, k < V.nnz → symOne V π k = [⟨max (π (V.i k)) (π (V.col k)), min (π (V.i k)) (π (V.col k)), V.x k⟩] := fun hk => if_pos (hle hk)
  have hlen : ∀ k ≤ V.nnz, (pre (symOne V π) k).length = k := by
    intro k
    induction k with
    | zero => intro _; rfl
    | succ k ih => intro hk; rw [pre_succ, List.length_append, ih (by omega), hone (by omega)]; rfl
  have hrow : ∀ {k}, k < V.nnz → V.i k < V.n := fun hk => hsq ▸ h.valid.rows _ hk
  have hcol : ∀ {k}, k < V.nnz → V.col k < V.n := fun hk => (h.valid.col_spec hk).1
  set all := pre (symOne V π) V.nnz with hall
  have hN : all.length = V.nnz := hlen _ (le_refl _)
  have hc : InCols V.n all := pre_all fun k hk e he => by
    rw [hone hk, List.mem_singleton] at he; rw [he]; exact max_lt (hπ _ (hrow hk)) (hπ _ (hcol hk))
  have hr : ∀ e ∈ all, e.r < V.n := pre_all fun k hk e he => by
    rw [hone hk, List.mem_singleton] at he; rw [he]; exact lt_of_le_of_lt (min_le_left _ _) (hπ _ (hrow hk))
  obtain ⟨hs1, hs2, hs3, hs4⟩ := spalloc_nat (K := K) V.n V.n V.nnz
  obtain ⟨w, ew, hw⟩ := h.forColsPre_rule (prec := pinvAt pv) (t := fun j => ((π j : ℕ) : ℤ)) (fun j hj => hpv.rd hj)
    (s := (Buf.zeroed (V.n : ℤ) 0 : Buf ℤ))
    (body := fun j j2 p w => (A.i.rd p).bind fun i => if i > j then some w else (pinvAt pv i).bind fun i2 => incr w (cMax i2 j2))
    (fun k w => Holds w V.n (fun c => ((cnt (pre (symOne V π) k) c : ℕ) : ℤ))) ((zeroed_holds V.n 0).congr (by simp)) (by
      intro j k w hj h1 h2 hk hcj hw
      rw [h.rdI hk]
      simp only [Option.bind_some]
      have hij : V.i k ≤ j := by have := hle hk; omega
      rw [if_neg (by omega), hpv.rd (hrow hk)]
      simp only [Option.bind_some]
      rw [cMaxZ]
      obtain ⟨w', e, h', _⟩ := incr_holds hw (e := ⟨max (π (V.i k)) (π (V.col k)), min (π (V.i k)) (π (V.col k)), V.x k⟩)
        (max_lt (hπ _ (hrow hk)) (hπ _ (hcol hk))) (i := ((max (π (V.i k)) (π j) : ℕ) : ℤ)) (by rw [hcj])
      exact ⟨w', e, by rw [pre_succ, hone hk]; exact h'⟩)
  obtain ⟨p, w', t, ec, hp, hf0⟩ := bucket_start (m := V.n) (all := all) hw
  rw [hN] at ec hf0
  obtain ⟨s, es, hf, hms, hsi, hsx⟩ := h.forColsPre_rule (prec := pinvAt pv) (t := fun j => ((π j : ℕ) : ℤ)) (fun j hj => hpv.rd hj)
    (s := (⟨w', (spalloc (V.n : ℤ) (V.n : ℤ) (V.nnz : ℤ) : Csc K).i, (spalloc (V.n : ℤ) (V.n : ℤ) (V.nnz : ℤ) : Csc K).x⟩, map))
    (body := fun j j2 p (s : Slots K × Option (Buf ℤ)) => (A.i.rd p).bind fun i =>
      if i > j then some s else (pinvAt pv i).bind fun i2 => (A.x.rd p).bind fun v =>
        (put s.1 (cMax i2 j2) (cMin i2 j2) v).bind fun d => (wrOpt s.2 p d.2).bind fun m => some (d.1, m))
    (fun k s => Filled V.n all (pre (symOne V π) k) s.1 ∧ MapSet map s.2 (· < k) (symSlot V π) ∧ s.1.i.size = V.nnz ∧ s.1.x.size = V.nnz)
    ⟨hf0, MapSet.refl _ (fun k => Nat.not_lt_zero k) _, hs2, hs3⟩ (by
      intro j k s hj h1 h2 hk hcj ⟨h3, h4, h5, h6⟩
      rw [h.rdI hk]
      simp only [Option.bind_some]
      have hij : V.i k ≤ j := by have := hle hk; omega
      rw [if_neg (by omega), hpv.rd (hrow hk), h.rdX hk]
      simp only [Option.bind_some]
      rw [cMaxZ, cMinZ]
      obtain ⟨rest, hsp⟩ := pre_split (symOne V π) hk
      rw [hone hk] at hsp
      obtain ⟨s', e, hf', _, e2, e3, _⟩ := h3.put hc (rest := rest) hsp (col := ((max (π (V.i k)) (π j) : ℕ) : ℤ)) (row := ((min (π (V.i k)) (π j) : ℕ) : ℤ))
        (by rw [hcj]) (by rw [hcj])
      obtain ⟨mp, em, hmp⟩ := h4.step hmap hk (d := ((symSlot V π k : ℕ) : ℤ)) rfl
      refine ⟨(s', mp), ?_, ?_, hmp.congr (fun t => by omega) (fun _ _ => rfl), by rw [e2, h5], by rw [e3, h6]⟩
      · rw [e]
        simp only [Option.bind_some]
        have : ((dest all ⟨max (π (V.i k)) (π (V.col k)), min (π (V.i k)) (π (V.col k)), V.x k⟩ (pre (symOne V π) k).length : ℕ) : ℤ) = ((symSlot V π k : ℕ) : ℤ) := rfl
        rw [this, em]
        rfl
      · rw [pre_succ, hone hk]; exact hf')
  let C : Csc K := { (spalloc (V.n : ℤ) (V.n : ℤ) (V.nnz : ℤ) : Csc K) with p := p, i := s.1.i, x := s.1.x }
  have hL := layout_laid V.n V.n hc (K := K)
  refine ⟨C, s.2, layout V.n V.n hc, ?_, bucket_done (C := C) hp hf hc hr hL rfl rfl rfl rfl rfl, hL, hsi, hsx, hs4, hms⟩
  unfold symperm
  rw [h.n] at es ew
  rw [h.rdNnz, h.n]
  simp only [Option.bind_some, ew, ec, es, C]

end Osqp.Csc
