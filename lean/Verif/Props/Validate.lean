import Verif.Csc.Validate
import Verif.Csc.Demo

/-!
# C28: problem data validation
-/

namespace Osqp.Csc

variable {K : Type*} [LinearOrder K]

theorem anyGo_spec {f : ℤ → Option Bool} {g : ℤ → Bool} (k : ℕ) (i : ℤ) (h : ∀ j, i ≤ j → j < i + k → f j = some (g j)) :
    ∃ b, anyGo f k i = some b ∧ (b = true ↔ ∃ j, i ≤ j ∧ j < i + k ∧ g j = true) := by
  induction k generalizing i with
  | zero => exact ⟨false, rfl, by simp only [Bool.false_eq_true, false_iff]; rintro ⟨j, a, b, _⟩; omega⟩
  | succ k ih =>
    have h0 := h i le_rfl (by omega)
    unfold anyGo
    rw [h0]
    simp only [Option.bind_some]
    by_cases hg : g i = true
    · exact ⟨true, by simp [hg], by simp only [true_iff]; exact ⟨i, le_rfl, by omega, hg⟩⟩
    · simp only [hg, if_false, Bool.false_eq_true]
      obtain ⟨b, e, hb⟩ := ih (i + 1) (fun j a c => h j (by omega) (by push_cast at c ⊢; omega))
      refine ⟨b, e, hb.trans ?_⟩
      constructor
      · rintro ⟨j, a, c, d⟩; exact ⟨j, by omega, by push_cast; omega, d⟩
      · rintro ⟨j, a, c, d⟩
        rcases eq_or_lt_of_le a with rfl | a
        · exact absurd d hg
        · exact ⟨j, by omega, by push_cast at c; omega, d⟩

theorem anyI_spec {f : ℤ → Option Bool} {g : ℤ → Bool} (lo hi : ℤ) (h : ∀ j, lo ≤ j → j < hi → f j = some (g j)) :
    ∃ b, anyI lo hi f = some b ∧ (b = true ↔ ∃ j, lo ≤ j ∧ j < hi ∧ g j = true) := by
  obtain ⟨b, e, hb⟩ := anyGo_spec (f := f) (g := g) (hi - lo).toNat lo (fun j a c => h j a (by omega))
  refine ⟨b, e, hb.trans ?_⟩
  constructor
  · rintro ⟨j, a, c, d⟩; exact ⟨j, a, by omega, d⟩
  · rintro ⟨j, a, c, d⟩; exact ⟨j, a, by omega, d⟩

/-- The column starts and row indices of an `n`-column matrix can be read: `start` and `row` are what is read. -/
structure Readable (M : Csc K) (n : ℤ) (start row : ℤ → ℤ) : Prop where
  p : ∀ j, 0 ≤ j → j ≤ n → M.p.rd j = some (start j)
  i : ∀ j, 0 ≤ j → j < n → ∀ k, start j ≤ k → k < start (j + 1) → M.i.rd k = some (row k)

/-- An array of at least `m` numbers. -/
def HasNumbers (v : Option (Buf K)) (m : ℤ) (f : ℤ → K) : Prop := ∀ j, 0 ≤ j → j < m → rdPtr v j = some (f j)

/-- The documented reasons for rejecting the data (docs/interfaces and the header): a missing argument, wrong sizes, an entry
of `P` below the diagonal, crossing bounds. -/
def BadData (P : Option (Csc K)) (q : Option (Buf K)) (A : Option (Csc K)) (m n : ℤ) (start row : ℤ → ℤ) (l u : ℤ → K) : Prop :=
  P = none ∨ A = none ∨ q = none ∨ n ≤ 0 ∨ m < 0 ∨ (∃ M, P = some M ∧ (M.m ≠ n ∨ M.n ≠ n)) ∨
  (∃ j k, 0 ≤ j ∧ j < n ∧ start j ≤ k ∧ k < start (j + 1) ∧ row k > j) ∨
  (∃ M, A = some M ∧ (M.m ≠ m ∨ M.n ≠ n)) ∨ ∃ j, 0 ≤ j ∧ j < m ∧ l j > u j

theorem validate_spec {P : Option (Csc K)} {q : Option (Buf K)} {A : Option (Csc K)} {l u : Option (Buf K)} {m n : ℤ}
    {start row : ℤ → ℤ} {lv uv : ℤ → K} (hP : ∀ M, P = some M → M.m = n → M.n = n → Readable M n start row) (hl : HasNumbers l m lv) (hu : HasNumbers u m uv) :
    ∃ b, validateData P q A l u m n = some b ∧ (b = true ↔ BadData P q A m n start row lv uv) := by
  unfold BadData
  cases P with
  | none => exact ⟨true, by simp [validateData], by simp⟩
  | some P =>
    cases A with
    | none => exact ⟨true, by simp [validateData], by simp⟩
    | some A =>
      cases q with
      | none => exact ⟨true, by simp [validateData], by simp⟩
      | some q =>
        unfold validateData
        by_cases h1 : n ≤ 0 ∨ m < 0
        · refine ⟨true, by simp only [if_pos h1], iff_of_true rfl ?_⟩
          exact h1.elim (fun h => .inr <| .inr <| .inr <| .inl h) (fun h => .inr <| .inr <| .inr <| .inr <| .inl h)
        by_cases h2 : P.m ≠ n
        · exact ⟨true, by simp only [if_neg h1, if_pos h2],
            iff_of_true rfl (.inr <| .inr <| .inr <| .inr <| .inr <| .inl ⟨P, rfl, .inl h2⟩)⟩
        by_cases h3 : P.m ≠ P.n
        · refine ⟨true, by simp only [if_neg h1, if_neg h2, if_pos h3], ?_⟩
          have : P.n ≠ n := fun e => h3 (by rw [e]; exact not_not.1 h2)
          exact iff_of_true rfl (.inr <| .inr <| .inr <| .inr <| .inr <| .inl ⟨P, rfl, .inr this⟩)
        simp only [if_neg h1, if_neg h2, if_neg h3]
        have h3' : P.n = n := by rw [← not_not.1 h3]; exact not_not.1 h2
        have hr := hP P rfl (not_not.1 h2) h3'
        obtain ⟨b, e, hb⟩ := anyI_spec (f := fun j => (P.p.rd j).bind fun a => (P.p.rd (j + 1)).bind fun b => anyI a b fun ptr =>
            (P.i.rd ptr).bind fun r => some (decide (r > j)))
          (g := fun j => (anyI (start j) (start (j + 1)) fun ptr => (P.i.rd ptr).bind fun r => some (decide (r > j))).getD false) 0 n
          (fun j a c => by
            rw [hr.p j a (by omega), hr.p (j + 1) (by omega) (by omega)]
            simp only [Option.bind_some]
            obtain ⟨b, e, -⟩ := anyI_spec (f := fun ptr => (P.i.rd ptr).bind fun r => some (decide (r > j)))
              (g := fun k => decide (row k > j)) (start j) (start (j + 1)) (fun k a' c' => by rw [hr.i j a c k a' c']; rfl)
            rw [e]; rfl)
        have hb' : b = true ↔ ∃ j k, 0 ≤ j ∧ j < n ∧ start j ≤ k ∧ k < start (j + 1) ∧ row k > j := by
          rw [hb]
          constructor
          · rintro ⟨j, a, c, d⟩
            obtain ⟨b', e', hb'⟩ := anyI_spec (f := fun ptr => (P.i.rd ptr).bind fun r => some (decide (r > j)))
              (g := fun k => decide (row k > j)) (start j) (start (j + 1)) (fun k a' c' => by rw [hr.i j a c k a' c']; rfl)
            rw [e'] at d
            obtain ⟨k, x, y, z⟩ := hb'.1 d
            exact ⟨j, k, a, c, x, y, by simpa using z⟩
          · rintro ⟨j, k, a, c, x, y, z⟩
            refine ⟨j, a, c, ?_⟩
            obtain ⟨b', e', hb'⟩ := anyI_spec (f := fun ptr => (P.i.rd ptr).bind fun r => some (decide (r > j)))
              (g := fun k => decide (row k > j)) (start j) (start (j + 1)) (fun k a' c' => by rw [hr.i j a c k a' c']; rfl)
            rw [e']
            exact hb'.2 ⟨k, x, y, by simpa using z⟩
        have e2 : belowDiagonal P n = some b := e
        rw [e2]
        simp only [Option.bind_some]
        by_cases h4 : b = true
        · refine ⟨true, by simp only [h4, if_true], ?_⟩
          exact iff_of_true rfl (.inr <| .inr <| .inr <| .inr <| .inr <| .inr <| .inl <| hb'.1 h4)
        rw [if_neg h4]
        by_cases h5 : A.m ≠ m ∨ A.n ≠ n
        · refine ⟨true, by simp only [if_pos h5], ?_⟩
          exact iff_of_true rfl (.inr <| .inr <| .inr <| .inr <| .inr <| .inr <| .inr <| .inl ⟨A, rfl, h5⟩)
        rw [if_neg h5]
        obtain ⟨b3, e3, hb3⟩ := anyI_spec (f := fun j => (rdPtr l j).bind fun a => (rdPtr u j).bind fun b => some (decide (a > b)))
          (g := fun j => decide (lv j > uv j)) 0 m (fun j a c => by rw [hl j a c, hu j a c]; rfl)
        refine ⟨b3, e3, hb3.trans ?_⟩
        simp only [decide_eq_true_eq]
        rw [hb'] at h4
        constructor
        · exact fun h => .inr <| .inr <| .inr <| .inr <| .inr <| .inr <| .inr <| .inr h
        · rintro (h | h | h | h | h | h | h | h | h)
          · exact absurd h (by simp)
          · exact absurd h (by simp)
          · exact absurd h (by simp)
          · exact absurd (Or.inl h) h1
          · exact absurd (Or.inr h) h1
          · obtain ⟨M, e, h⟩ := h
            obtain rfl := Option.some.inj e
            exact absurd h (not_or.2 ⟨h2, not_not.2 h3'⟩)
          · exact absurd h h4
          · obtain ⟨M, e, h⟩ := h
            obtain rfl := Option.some.inj e
            exact absurd h h5
          · exact h

/-- **C28.**  For arguments whose memory can be read (what a null, a wrong size or a wrong order makes unreadable is not
looked at), `osqp_setup` rejects the data exactly for the documented reasons; it then returns
`OSQP_DATA_VALIDATION_ERROR` whatever the settings are, before writing the caller's solver pointer. -/
theorem c28_partial {P : Option (Csc K)} {q : Option (Buf K)} {A : Option (Csc K)} {l u : Option (Buf K)} {m n : ℤ}
    {start row : ℤ → ℤ} {lv uv : ℤ → K} (readable : ∀ M, P = some M → M.m = n → M.n = n → Readable M n start row) (lower : HasNumbers l m lv)
    (upper : HasNumbers u m uv) (settingsBad : Bool) :
    ∃ out, setupFront P q A l u m n settingsBad = some out ∧
      (out = .returns 1 ↔ BadData P q A m n start row lv uv) ∧
      (out = .proceeds ↔ ¬BadData P q A m n start row lv uv ∧ settingsBad = false) := by
  obtain ⟨b, e, hb⟩ := validate_spec (q := q) (A := A) readable lower upper
  unfold setupFront
  rw [e]
  simp only [Option.bind_some]
  rw [← hb]
  cases b <;> cases settingsBad <;>
    simp [Err.dataValidation, Err.settingsValidation]

/-- The tests that come first protect the later ones: with a missing argument or wrong sizes nothing else is read. -/
theorem c28_no_read {P : Option (Csc K)} {q : Option (Buf K)} {A : Option (Csc K)} {l u : Option (Buf K)} {m n : ℤ}
    (bad : P = none ∨ A = none ∨ q = none ∨ n ≤ 0 ∨ m < 0 ∨ ∃ M, P = some M ∧ (M.m ≠ n ∨ M.n ≠ n)) (settingsBad : Bool) :
    setupFront P q A l u m n settingsBad = some (.returns 1) := by
  have : validateData P q A l u m n = some true := by
    unfold validateData
    cases P with
    | none => rfl
    | some P =>
      cases A with
      | none => rfl
      | some A =>
        cases q with
        | none => rfl
        | some q =>
          simp only
          by_cases h1 : n ≤ 0 ∨ m < 0
          · rw [if_pos h1]
          rw [if_neg h1]
          by_cases h2 : P.m ≠ n
          · rw [if_pos h2]
          rw [if_neg h2]
          by_cases h3 : P.m ≠ P.n
          · rw [if_pos h3]
          · exfalso
            have h2' := not_not.1 h2
            have h3' := not_not.1 h3
            rcases bad with h | h | h | h | h | ⟨M, h, h'⟩
            · simp at h
            · simp at h
            · simp at h
            · exact h1 (Or.inl h)
            · exact h1 (Or.inr h)
            · simp only [Option.some.injEq] at h
              subst h
              rcases h' with h' | h'
              · exact h' h2'
              · exact h' (h3' ▸ h2')
  unfold setupFront
  rw [this]; rfl

/-- What C28 does not say: a missing bound vector is not reported but read through. -/
theorem c28_counterexample :
    setupFront (some Demo.triu) (some Demo.v3) (some Demo.rect) none (some Demo.v2) 2 3 false = none := by decide +kernel

/-- Row indices of `P` and `A` are not checked against the sizes: this 2 by 3 matrix with a row index 7 is accepted. -/
theorem c28_unchecked_rows :
    setupFront (some Demo.triu) (some Demo.v3) (some { Demo.rect with i := Demo.buf [0, 7] }) (some Demo.v2) (some Demo.v2) 2 3 false
      = some .proceeds := by decide +kernel

/-- A matrix that reads as a view is readable. -/
theorem Rep.readable {M : Csc K} {V : View K} (h : Rep M V) (n : ℤ) (hn : n = V.n) :
    Readable M n (fun j => (V.p j.toNat : ℤ)) (fun k => (V.i k.toNat : ℤ)) := by
  have hmono : ∀ j ≤ V.n, V.p j ≤ V.nnz := by
    intro j hj
    have : ∀ d, j + d ≤ V.n → V.p j ≤ V.p (j + d) := by
      intro d
      induction d with
      | zero => intro _; exact le_rfl
      | succ d ih => intro hd; exact (ih (by omega)).trans (h.valid.mono (j + d) (by omega))
    have := this (V.n - j) (by omega)
    rwa [Nat.add_sub_cancel' hj] at this
  constructor
  · intro j h0 h1
    rw [h.p.rd' (k := j.toNat) (by omega) (by omega)]
  · intro j h0 h1 k h2 h3
    have := hmono (j.toNat + 1) (by omega)
    have e : (j + 1).toNat = j.toNat + 1 := by omega
    rw [e] at h3
    rw [h.i.rd' (k := k.toNat) (by omega) (by omega)]

/-- The hypotheses are met by a 3-variable problem with 2 constraints, accepted as it is and rejected with swapped bounds, with a lower
triangle or with the wrong number of variables. -/
example : (∀ M, some Demo.triu = some M → M.m = 3 → M.n = 3 → Readable M 3 (fun j => (Demo.triuV.p j.toNat : ℤ)) (fun k => (Demo.triuV.i k.toNat : ℤ))) ∧
    HasNumbers (some (Demo.buf [0, 0])) 2 (fun _ => (0 : ℚ)) ∧ HasNumbers (some Demo.v2) 2 (fun j => Demo.f2 j.toNat) ∧
    setupFront (some Demo.triu) (some Demo.v3) (some Demo.rect) (some (Demo.buf [0, 0])) (some Demo.v2) 2 3 false = some .proceeds ∧
    setupFront (some Demo.triu) (some Demo.v3) (some Demo.rect) (some Demo.v2) (some (Demo.buf [0, 0])) 2 3 false = some (.returns 1) ∧
    setupFront (some { Demo.triu with i := Demo.buf [2, 0, 1, 1] }) (some Demo.v3) (some Demo.rect) (some (Demo.buf [0, 0])) (some Demo.v2) 2 3 false
      = some (.returns 1) ∧
    setupFront (some Demo.triu) (some Demo.v3) (some Demo.rect) (some (Demo.buf [0, 0])) (some Demo.v2) 2 4 false = some (.returns 1) := by
  refine ⟨?_, ?_, ?_, ?_, ?_, ?_, ?_⟩
  · intro M h _ _
    obtain rfl := Option.some.inj h
    exact Demo.triu_rep.readable 3 rfl
  · intro j h0 h1
    obtain rfl | rfl : j = 0 ∨ j = 1 := by omega
    all_goals decide +kernel
  · intro j h0 h1
    obtain rfl | rfl : j = 0 ∨ j = 1 := by omega
    all_goals decide +kernel
  all_goals decide +kernel

end Osqp.Csc
