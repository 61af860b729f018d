import Verif.Csc.Utils

/-!
# Loops that count and put entries
-/

set_option linter.unusedSectionVars false
namespace Osqp.Csc
open Finset

variable {K : Type*}

/-! ## Prefixes of the list of entries -/

/-- The entries contributed by rounds `0 … k-1`. -/
def pre (g : ℕ → List (Ent K)) (k : ℕ) : List (Ent K) := (List.range k).flatMap g

@[simp] theorem pre_zero (g : ℕ → List (Ent K)) : pre g 0 = [] := rfl
theorem pre_succ (g : ℕ → List (Ent K)) (k : ℕ) : pre g (k + 1) = pre g k ++ g k := by
  simp [pre, List.range_succ, List.flatMap_append]

theorem pre_split (g : ℕ → List (Ent K)) {k N : ℕ} (h : k < N) : ∃ rest, pre g N = pre g k ++ (g k ++ rest) := by
  induction N with
  | zero => omega
  | succ N ih =>
    rcases Nat.lt_or_ge k N with h1 | h1
    · obtain ⟨rest, hr⟩ := ih h1
      exact ⟨rest ++ g N, by rw [pre_succ, hr]; simp [List.append_assoc]⟩
    · have : k = N := by omega
      subst this
      exact ⟨[], by rw [pre_succ]; simp⟩

theorem pre_length_one {g : ℕ → List (Ent K)} (h : ∀ k, (g k).length = 1) (k : ℕ) : (pre g k).length = k := by
  induction k with
  | zero => rfl
  | succ k ih => rw [pre_succ, List.length_append, ih, h]

theorem pre_all {g : ℕ → List (Ent K)} {P : Ent K → Prop} {N : ℕ} (h : ∀ k < N, ∀ e ∈ g k, P e) : ∀ e ∈ pre g N, P e := by
  intro e he
  unfold pre at he
  rw [List.mem_flatMap] at he
  obtain ⟨k, hk, hm⟩ := he
  exact h k (List.mem_range.1 hk) e hm

theorem matOf_pre [AddCommMonoid K] (g : ℕ → List (Ent K)) (N r c : ℕ) : matOf (pre g N) r c = ∑ k ∈ range N, matOf (g k) r c := by
  induction N with
  | zero => rfl
  | succ N ih => rw [pre_succ, matOf_append, ih, sum_range_succ]

theorem cnt_pre (g : ℕ → List (Ent K)) (N c : ℕ) : cnt (pre g N) c = ∑ k ∈ range N, cnt (g k) c := by
  induction N with
  | zero => rfl
  | succ N ih => rw [pre_succ, cnt_append, ih, sum_range_succ]

/-! ## Counting -/

theorem incr_holds {w : Buf ℤ} {n : ℕ} {es : List (Ent K)} (h : Holds w n (fun c => ((cnt es c : ℕ) : ℤ))) {e : Ent K} (he : e.c < n) {i : ℤ} (hi : i = e.c) :
    ∃ w', incr w i = some w' ∧ Holds w' n (fun c => ((cnt (es ++ [e]) c : ℕ) : ℤ)) ∧ w'.size = w.size := by
  refine ⟨w.set e.c ((cnt es e.c : ℕ) + 1), ?_, (h.set e.c _).congr fun c _ => ?_, rfl⟩
  · unfold incr; rw [hi, h.rd he]; exact h.wr he _
  · rw [Function.update_apply, cnt_append, cnt_cons, cnt_nil]
    by_cases h1 : c = e.c
    · rw [if_pos h1, if_pos h1.symm, h1]; push_cast; ring
    · rw [if_neg h1, if_neg (fun h => h1 h.symm)]; simp

theorem cumsum_holds {p c : Buf ℤ} {n : ℕ} {C : ℕ → ℕ} (hc : Holds c n (fun j => ((C j : ℕ) : ℤ))) (hp : n + 1 ≤ p.size) :
    ∃ p' c', cumsum p c (n : ℤ) = some (p', c', ((∑ j ∈ range n, C j : ℕ) : ℤ)) ∧
      Holds p' (n + 1) (fun j => ((∑ t ∈ range j, C t : ℕ) : ℤ)) ∧ Holds c' n (fun j => ((∑ t ∈ range j, C t : ℕ) : ℤ)) ∧
      p'.size = p.size ∧ c'.size = c.size := by
  unfold cumsum
  obtain ⟨s, e, h1, h2, h3, h4, h5⟩ := forI_zero (hi := n) (s := (p, c, (0 : ℤ)))
    (f := fun i (s : Buf ℤ × Buf ℤ × ℤ) =>
      (s.1.wr i s.2.2).bind fun p => (s.2.1.rd i).bind fun ci => (p.rd i).bind fun pi => (s.2.1.wr i pi).bind fun c =>
        some (p, c, s.2.2 + ci))
    (fun k s => s.1.size = p.size ∧ s.2.1.size = c.size ∧ Holds s.1 k (fun j => ((∑ t ∈ range j, C t : ℕ) : ℤ)) ∧
      Holds s.2.1 n (fun j => if j < k then ((∑ t ∈ range j, C t : ℕ) : ℤ) else ((C j : ℕ) : ℤ)) ∧
      s.2.2 = ((∑ t ∈ range k, C t : ℕ) : ℤ)) ⟨rfl, rfl, Holds.zero, hc.congr (by simp), by simp⟩ (by
      intro k s hk ⟨h1, h2, h3, h4, h5⟩
      have hps : k < s.1.size := by rw [h1]; omega
      have e2 : s.2.1.rd (k : ℤ) = some ((C k : ℕ) : ℤ) := by rw [h4.rd hk]; simp
      have e3 : (s.1.set k s.2.2).rd (k : ℤ) = some s.2.2 := by
        unfold Buf.rd; rw [if_pos ⟨by omega, by simp; omega⟩]; simp [Buf.set_cell]
      have e4 : s.2.1.wr (k : ℤ) s.2.2 = some (s.2.1.set k s.2.2) := h4.wr hk _
      refine ⟨(s.1.set k s.2.2, s.2.1.set k s.2.2, s.2.2 + (C k : ℕ)), ?_, h1, h2, h3.extend hps _ h5.symm, ?_, ?_⟩
      · show ((s.1.wr (k : ℤ) s.2.2).bind fun p => _) = _
        rw [Buf.wr_eq hps]
        simp only [Option.bind_some]
        rw [e2]
        simp only [Option.bind_some]
        rw [e3]
        simp only [Option.bind_some]
        rw [e4]
        rfl
      · refine (h4.set k s.2.2).congr fun j _ => ?_
        rw [Function.update_apply]
        by_cases h6 : j = k
        · subst h6; rw [if_pos rfl, if_pos (by omega), h5]
        · rw [if_neg h6]
          by_cases h7 : j < k
          · rw [if_pos h7, if_pos (by omega)]
          · rw [if_neg h7, if_neg (by omega)]
      · rw [h5, sum_range_succ]; push_cast; ring)
  rw [e]
  simp only [Option.bind_some]
  have hw : s.1.wr (n : ℤ) s.2.2 = some (s.1.set n s.2.2) := Buf.wr_eq (by rw [h1]; omega)
  rw [hw]
  refine ⟨s.1.set n s.2.2, s.2.1, by simp [h5], h3.extend (by rw [h1]; omega) _ h5.symm, h4.congr fun j hj => by simp [hj], h1, h2⟩

/-! ## Index maps -/

/-- The optional array has at least `N` cells. -/
def MapFits (map : Option (Buf ℤ)) (N : ℕ) : Prop := ∀ b, map = some b → N ≤ b.size

/-- After the loop the optional array holds `f k` in the cells selected by `S`; other cells are unchanged. -/
def MapSet (map map' : Option (Buf ℤ)) (S : ℕ → Prop) (f : ℕ → ℕ) : Prop :=
  (map = none → map' = none) ∧ ∀ b, map = some b → ∃ b', map' = some b' ∧ b'.size = b.size ∧
    (∀ k, S k → b'.cell k = some ((f k : ℕ) : ℤ)) ∧ ∀ k, ¬ S k → b'.cell k = b.cell k

theorem MapSet.refl (map : Option (Buf ℤ)) {S : ℕ → Prop} (hS : ∀ k, ¬ S k) (f : ℕ → ℕ) : MapSet map map S f :=
  ⟨fun h => h, fun b h => ⟨b, h, rfl, fun k hk => absurd hk (hS k), fun _ _ => rfl⟩⟩

theorem MapSet.congr {map map' : Option (Buf ℤ)} {S S' : ℕ → Prop} {f f' : ℕ → ℕ} (h : MapSet map map' S f) (hS : ∀ k, S k ↔ S' k)
    (hf : ∀ k, S k → f k = f' k) : MapSet map map' S' f' :=
  ⟨h.1, fun b hb => by
    obtain ⟨b', e, h1, h2, h3⟩ := h.2 b hb
    exact ⟨b', e, h1, fun k hk => by rw [h2 k ((hS k).2 hk), hf k ((hS k).2 hk)], fun k hk => h3 k (fun h => hk ((hS k).1 h))⟩⟩

theorem MapSet.step {map map' : Option (Buf ℤ)} {S : ℕ → Prop} {f : ℕ → ℕ} (h : MapSet map map' S f) {N k : ℕ} (hN : MapFits map N) (hk : k < N)
    {d : ℤ} (hd : d = f k) : ∃ m, wrOpt map' (k : ℤ) d = some m ∧ MapSet map m (fun t => S t ∨ t = k) f := by
  cases map with
  | none =>
    rw [h.1 rfl]
    exact ⟨none, rfl, fun _ => rfl, fun b hb => by simp at hb⟩
  | some b =>
    obtain ⟨b', e, h1, h2, h3⟩ := h.2 b rfl
    rw [e]
    refine ⟨some (b'.set k d), ?_, by simp, fun b2 hb => ?_⟩
    · unfold wrOpt; simp only; rw [Buf.wr_eq (by rw [h1]; have := hN b rfl; omega)]; rfl
    · obtain rfl : b = b2 := by simpa using hb
      refine ⟨_, rfl, h1, fun t ht => ?_, fun t ht => ?_⟩
      · rw [Buf.set_cell]
        by_cases e1 : t = k
        · rw [if_pos e1, hd, e1]
        · rw [if_neg e1]; exact h2 t (ht.resolve_right e1)
      · rw [Buf.set_cell, if_neg (fun h => ht (Or.inr h))]; exact h3 t (fun h => ht (Or.inl h))

/-! ## Positions -/

section
variable {m n : ℕ} {all es rest : List (Ent K)} {e : Ent K} {V : View K}

theorem Laid.at (h : Laid m n all V) (hc : InCols n all) (hr : ∀ e ∈ all, e.r < m) (hall : all = es ++ e :: rest) :
    dest all e es.length < V.nnz ∧ V.i (dest all e es.length) = e.r ∧ V.col (dest all e es.length) = e.c ∧ V.x (dest all e es.length) = e.v := by
  have hk : es.length < all.length := by rw [hall]; simp
  have hget : all[es.length] = e := by simp [hall]
  have h1 := dest_lt hc hk
  have h2 := h.i _ hk
  have h3 := h.col hc hr hk
  have h4 := h.x _ hk
  rw [hget] at h1 h2 h3 h4
  exact ⟨by rw [h.nnz hc]; exact h1, h2, h3, h4⟩

theorem dest_at_inj {es' rest' : List (Ent K)} {e' : Ent K} (h1 : all = es ++ e :: rest) (h2 : all = es' ++ e' :: rest')
    (h : dest all e es.length = dest all e' es'.length) : es.length = es'.length := by
  have hk : es.length < all.length := by rw [h1]; simp
  have hk' : es'.length < all.length := by rw [h2]; simp
  have hget : all[es.length] = e := by simp [h1]
  have hget' : all[es'.length] = e' := by simp [h2]
  exact dest_inj hk hk' (by rw [hget, hget', h])

end

/-- `f` tells where the entries `0 … N-1` with rows `I`, columns `J` and values `X` are stored in `V`. -/
structure Locates (V : View K) (N : ℕ) (f I J : ℕ → ℕ) (X : ℕ → K) : Prop where
  lt : ∀ k < N, f k < V.nnz
  row : ∀ k < N, V.i (f k) = I k
  col : ∀ k < N, V.col (f k) = J k
  val : ∀ k < N, V.x (f k) = X k
  inj : ∀ k < N, ∀ k' < N, f k = f k' → k = k'

/-! ## Shared frame of the conversions -/

theorem spalloc_nat (m n N : ℕ) : (spalloc (m : ℤ) (n : ℤ) (N : ℤ) : Csc K).p.size = n + 1 ∧ (spalloc (m : ℤ) (n : ℤ) (N : ℤ) : Csc K).i.size = N ∧
    (spalloc (m : ℤ) (n : ℤ) (N : ℤ) : Csc K).x.size = N ∧ (spalloc (m : ℤ) (n : ℤ) (N : ℤ) : Csc K).nzmax = N := by
  have : max (N : ℤ) 0 = N := max_eq_left (Int.natCast_nonneg _)
  refine ⟨?_, ?_, ?_, ?_⟩ <;> simp [spalloc, Buf.fresh] <;> omega

/-- State after the counting and the cumulative sum, and what the finished fill represents. -/
theorem bucket_start {m n : ℕ} {all : List (Ent K)} {w : Buf ℤ} (hw : Holds w n (fun c => ((cnt all c : ℕ) : ℤ))) :
    ∃ p w' t, cumsum (spalloc (m : ℤ) (n : ℤ) (all.length : ℤ) : Csc K).p w (n : ℤ) = some (p, w', t) ∧
      Holds p (n + 1) (fun j => ((start all j : ℕ) : ℤ)) ∧
      Filled n all [] ⟨w', (spalloc (m : ℤ) (n : ℤ) (all.length : ℤ) : Csc K).i, (spalloc (m : ℤ) (n : ℤ) (all.length : ℤ) : Csc K).x⟩ := by
  obtain ⟨h1, h2, h3, _⟩ := spalloc_nat (K := K) m n all.length
  obtain ⟨p, w', e, hp, hw', _, _⟩ := cumsum_holds (p := (spalloc (m : ℤ) (n : ℤ) (all.length : ℤ) : Csc K).p) hw (by rw [h1])
  exact ⟨p, w', _, e, hp, filled_start hw' (by simp only; rw [h2]) (by simp only; rw [h3])⟩

theorem bucket_done {m n : ℕ} {all : List (Ent K)} {p : Buf ℤ} {s : Slots K} (hp : Holds p (n + 1) (fun j => ((start all j : ℕ) : ℤ)))
    (hf : Filled n all all s) (hc : InCols n all) (hr : ∀ e ∈ all, e.r < m) {V : View K} (hV : Laid m n all V) {C : Csc K} (hm : C.m = m) (hn : C.n = n)
    (hCp : C.p = p) (hCi : C.i = s.i) (hCx : C.x = s.x) : Rep C V := by
  obtain ⟨h1, h2⟩ := hf.done hc hr hV
  refine ⟨by rw [hm, hV.vm], by rw [hn, hV.vn], hV.valid hc hr, ?_, by rw [hCi]; exact h1, by rw [hCx]; exact h2⟩
  rw [hCp, hV.vn]
  exact hp.congr fun j hj => by rw [hV.p j (by omega)]

/-- Rule for the loop over the entries with a precomputed value per column. -/
theorem Rep.forColsPre_rule {σ τ : Type*} {M : Csc K} {V : View K} (h : Rep M V) {prec : ℤ → Option τ} {t : ℕ → τ} (hpre : ∀ j < V.n, prec (j : ℤ) = some (t j))
    {body : ℤ → τ → ℤ → σ → Option σ} {s : σ} (I : ℕ → σ → Prop) (h0 : I 0 s)
    (hs : ∀ j k s, j < V.n → V.p j ≤ k → k < V.p (j + 1) → k < V.nnz → V.col k = j → I k s →
      ∃ s', body (j : ℤ) (t j) (k : ℤ) s = some s' ∧ I (k + 1) s') :
    ∃ s', forColsPre M.p M.n prec body s = some s' ∧ I V.nnz s' := by
  unfold forColsPre
  rw [h.n]
  refine forI_zero (fun j s => I (V.p j) s) (by rw [h.valid.zero]; exact h0) (fun j s hj hI => ?_)
  obtain ⟨s', e, h'⟩ := forI_nat (f := body (j : ℤ) (t j)) (lo := V.p j) (hi := V.p (j + 1)) I (h.valid.mono j hj) hI
    (fun k s h1 h2 h3 => hs j k s hj h1 h2 (h.valid.lt_nnz hj h2) (h.valid.col_eq hj h1 h2) h3)
  refine ⟨s', ?_, h'⟩
  rw [hpre j hj, h.p.rd (k := j) (by omega), h.p.rd' (k := j + 1) (by push_cast; ring) (by omega)]
  exact e

end Osqp.Csc
