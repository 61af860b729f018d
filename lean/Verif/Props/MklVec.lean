import Verif.Mkl.VecLemmas
import Verif.Props.Vec

/-!
# The vector routines of the MKL back end (C81)

`Documented` (`Mkl/VecSpec.lean`) is what MKL's documentation says of its routines; `Has`, `Room`, `Apart`, `Same`, `Fits`, `Gives` are the vocabulary of C58 (`Vm/Spec.lean`).
-/

set_option linter.unusedSectionVars false
namespace Osqp.MklVec
open Csc Vm
variable {K : Type*} [Field K] [LinearOrder K] [IsStrictOrderedRing K] {lib : Lib K} {sqrt : K → K} {σ : Store K} {x a b : Ref} {n : ℕ} {f fa fb : Fin n → K}

/-- **C81**.  Copying and filling; the result and the source share no element. -/
theorem c81_copy (hd : Documented lib sqrt) (hr : Room σ x n) (ha : Has σ a n fa) (pa : Apart x a) (sc : K) :
    Gives σ (copy lib x a σ) x n fa ∧ Gives σ (fromRaw lib x a σ) x n fa ∧ Gives σ (toRaw lib x a σ) x n fa ∧ Gives σ (setScalar lib x sc σ) x n fun _ => sc := by
  unfold copy fromRaw toRaw setScalar
  rw [ha.len, hr.len]
  exact ⟨hd.copy hr ha pa, hd.copy hr ha pa, hd.copy hr ha pa, hd.fill sc hr⟩

/-- **C81**.  Sum, difference, product, larger and smaller elements; the result may be either operand or both. -/
theorem c81_arith (hd : Documented lib sqrt) (hr : Room σ x n) (ha : Has σ a n fa) (pa : Apart x a ∨ Same x a) (hb : Has σ b n fb) (pb : Apart x b ∨ Same x b) :
    Gives σ (plus lib x a b σ) x n (fun i => fa i + fb i) ∧ Gives σ (minus lib x a b σ) x n (fun i => fa i - fb i) ∧ Gives σ (ewProd lib x a b σ) x n (fun i => fa i * fb i) ∧
      Gives σ (maxVec lib x a b σ) x n (fun i => max (fa i) (fb i)) ∧ Gives σ (minVec lib x a b σ) x n fun i => min (fa i) (fb i) := by
  unfold plus minus ewProd maxVec minVec
  rw [ha.len]
  exact ⟨hd.add hr ha pa hb pb, hd.sub hr ha pa hb pb, hd.mul hr ha pa hb pb, hd.fmax hr ha pa hb pb, hd.fmin hr ha pa hb pb⟩

/-- **C81**.  Linear combination.  The second operand may be the result only where the shortcut (result is the first operand, factor 1) is not taken. -/
theorem c81_combine (hd : Documented lib sqrt) (hr : Room σ x n) (ha : Has σ a n fa) (pa : Fits x a) (hb : Has σ b n fb) (sca scb : K)
    (pb : Apart x b ∨ (Same x b ∧ ¬ (x.addr = a.addr ∧ sca = 1))) : Gives σ (addScaled lib x sca a scb b σ) x n fun i => sca * fa i + scb * fb i :=
  addScaled_holds hd hr sca ha pa scb hb pb

/-- **C81**.  Multiplication by a number and, for elements that are not negative, square root, in place. -/
theorem c81_in_place (hd : Documented lib sqrt) (hx : Has σ x n f) (sc : K) :
    Gives σ (multScalar lib x sc σ) x n (fun i => f i * sc) ∧ ((∀ i, 0 ≤ f i) → Gives σ (ewSqrt lib x σ) x n fun i => sqrt (f i)) := by
  refine ⟨multScalar_holds hd hx sc, fun h => ?_⟩
  unfold ewSqrt; rw [hx.len]; exact hd.sqrt hx.toRoom hx same_refl h

/-- **C81**.  Reciprocals of elements that are not zero, and limits. -/
theorem c81_limits (hd : Documented lib sqrt) (hr : Room σ x n) (ha : Has σ a n fa) (pa : Apart x a ∨ Same x a) (v : K) :
    ((∀ i, fa i ≠ 0) → Gives σ (reciprocal lib x a σ) x n fun i => (fa i)⁻¹) ∧ Gives σ (ewMax lib x a v σ) x n (fun i => max (fa i) v) ∧
      Gives σ (ewMin lib x a v σ) x n fun i => min (fa i) v := by
  unfold reciprocal ewMax ewMin
  rw [ha.len]
  exact ⟨fun h => gives_congr (hd.inv hr ha pa h) fun i => one_div _, hd.fmaxI v hr ha pa, hd.fminI v hr ha pa⟩

/-- **C81**.  Norms and inner products, also of vectors without elements. -/
theorem c81_values (hd : Documented lib sqrt) (ha : Has σ a n fa) (hb : Has σ b n fb) :
    normInf lib a σ = some (Spec.normInf fa) ∧ norm1 lib a σ = some (Spec.norm1 fa) ∧ dotProd lib a b σ = some (∑ i, fa i * fb i) ∧
      dotSigned lib a b 1 σ = some (∑ i, fa i * max (fb i) 0) ∧ dotSigned lib a b (-1) σ = some (∑ i, fa i * min (fb i) 0) ∧
      ∀ sign, sign ≠ 1 → sign ≠ -1 → dotSigned lib a b sign σ = some (∑ i, fa i * fb i) := by
  have hdot : dotProd lib a b σ = some (∑ i, fa i * fb i) := by unfold dotProd; rw [ha.len]; exact hd.dot ha hb
  refine ⟨?_, ?_, hdot, (Vm.c58_dot ha hb).2.1, (Vm.c58_dot ha hb).2.2, fun s h1 h2 => ?_⟩
  · unfold normInf
    rw [ha.len]
    by_cases c : n ≠ 0
    · rw [if_pos c]
      obtain ⟨i, e, h⟩ := hd.iamax ha (Nat.pos_of_ne_zero c)
      rw [e]
      simp only [Option.bind_some]
      rw [ha.rd i]
      simp only [Option.bind_some]
      rw [normInf_eq_of fa |fa i| (abs_nonneg _) h (.inr ⟨i, rfl⟩), cAbs_eq]
    · rw [if_neg c]
      have hn : n = 0 := not_not.1 c
      subst hn
      rw [normInf_eq_of fa 0 le_rfl (fun i => i.elim0) (.inl rfl)]
  · unfold norm1
    rw [ha.len]
    by_cases c : n ≠ 0
    · rw [if_pos c]; exact hd.asum ha (Nat.pos_of_ne_zero c)
    · rw [if_neg c]
      have hn : n = 0 := not_not.1 c
      subst hn
      rfl
  · unfold dotSigned; rw [if_neg h1, if_neg h2]; exact hdot

/-- **C81** (same memory).  Wherever both are defined, the routines leave exactly the memory that those of the built-in algebra leave, and return the same numbers. -/
theorem c81_same (hd : Documented lib sqrt) (hr : Room σ x n) (ha : Has σ a n fa) (pa : Fits x a) (hb : Has σ b n fb) (pb : Apart x b) (sca scb : K) :
    (Apart x a → copy lib x a σ = Vm.copy x a σ) ∧ setScalar lib x sca σ = Vm.setScalar x sca σ ∧ multScalar lib a sca σ = Vm.multScalar a sca σ ∧
    plus lib x a b σ = Vm.plus x a b σ ∧ minus lib x a b σ = Vm.minus x a b σ ∧ ewProd lib x a b σ = Vm.ewProd x a b σ ∧ addScaled lib x sca a scb b σ = Vm.addScaled x sca a scb b σ ∧
    maxVec lib x a b σ = Vm.maxVec x a b σ ∧ minVec lib x a b σ = Vm.minVec x a b σ ∧ ((∀ i, fa i ≠ 0) → reciprocal lib x a σ = Vm.reciprocal x a σ) ∧
    normInf lib a σ = Vm.normInf a σ ∧ norm1 lib a σ = Vm.norm1 a σ ∧ dotProd lib a b σ = Vm.dotProd a b σ ∧ ∀ sign, dotSigned lib a b sign σ = Vm.dotSigned a b sign σ := by
  obtain ⟨a1, a2, a3, a4, a5⟩ := c81_arith hd hr ha pa.1 hb (.inl pb)
  obtain ⟨b1, b2, b3⟩ := Vm.c58_arith hr ha pa hb (.inl pb)
  obtain ⟨v1, v2, v3, -⟩ := c81_values hd ha hb
  obtain ⟨s1, s2, -⟩ := Vm.c58_select hr ha pa.1 hb (.inl pb) 0 0
  have hdot : dotProd lib a b σ = Vm.dotProd a b σ := v3.trans (Vm.c58_dot ha hb).1.symm
  refine ⟨fun p => gives_same (c81_copy hd hr ha p 0).1 (Vm.c58_copy hr ha (.inl p) 0).1, ?_, gives_same (c81_in_place hd ha sca).1 (Vm.c58_in_place ha sca id).1,
    gives_same a1 b1, gives_same a2 b2, gives_same a3 b3, gives_same (c81_combine hd hr ha pa hb sca scb (.inl pb)) (Vm.addScaled_holds hr sca ha pa scb hb (.inl pb)),
    gives_same a4 s1, gives_same a5 s2, fun h => gives_same ((c81_limits hd hr ha pa.1 0).1 h) (Vm.c58_reciprocal hr ha pa.1 h),
    v1.trans (Vm.c58_norms ha hb).1.symm, v2.trans (Vm.c58_norms ha hb).2.2.2.symm, hdot, fun s => ?_⟩
  · refine gives_same (n := n) ?_ (Vm.setScalar_holds hr sca)
    unfold setScalar; rw [hr.len]; exact hd.fill sca hr
  · unfold dotSigned Vm.dotSigned
    rw [hdot]

/-! ## The iteration -/

section Iteration
variable {d : Dims} {env : Env d K} {s : Solver d K} {slv : Buf K → Option (Buf K)} {W : Ptrs} {xz : Ref}

/-- **C81** (iterations).  From any memory that holds the workspace of `s`, laid out as set-up does, any number of iterations with MKL's routines stays within the arrays, and the memory then
holds what that many steps of the solver layer compute; only the arrays of the vectors of the iteration change. -/
theorem c81_iterations (hd : Documented lib sqrt) (hl : Vm.Solves env s.work.linsys slv) (lay : Layout d.n d.m W xz) (h : Holding σ W xz s) (k : ℕ) :
    ∃ σ' W', iterates lib s.settings s.work.rho_inv slv xz k W σ = some (W', σ') ∧ Layout d.n d.m W' xz ∧ Holding σ' W' xz ((admmStep env)^[k] s) ∧ OnlyVectors W xz σ σ' := by
  induction k generalizing s σ W with
  | zero => exact ⟨σ, W, rfl, lay, h, fun _ _ _ => rfl⟩
  | succ k ih =>
    obtain ⟨τ, e, h1, h4⟩ := iterate_goes hd hl lay h
    obtain ⟨σ', W', e', h2, h3, h5⟩ := ih (s := admmStep env s) hl (lay.perm mate mate_inj rfl rfl) h1
    refine ⟨σ', W', ?_, h2, h3, fun b hb hk => ?_⟩
    · unfold iterates
      rw [e]; exact e'
    · rw [h5 b hb fun k hk' => hk (mate k) (by revert hk'; cases k <;> simp [mate]), h4 b hb hk]

end Iteration

/-! ## A library that keeps to the documentation, and refuses overlapping operands of BLAS -/

/-- The vector of `n` elements at `p`. -/
def mk (addr : ℕ) (p : Ptr) (n : ℕ) : Ref := ⟨addr, p.1, p.2, n⟩

instance (a b : Ref) : Decidable (Apart a b) := by unfold Apart; infer_instance

/-- Not MKL's code: it shows that `Documented` can be met. -/
def strict (sqrt : K → K) : Lib K where
  copy n a x σ := if Apart (mk 0 x n) (mk 1 a n) then Vm.copy (mk 0 x n) (mk 1 a n) σ else none
  fill n sc x := Vm.setScalar (mk 0 x n) sc
  scal n sc x := Vm.multScalar (mk 0 x n) sc
  axpy n sc a x σ := if Apart (mk 0 x n) (mk 1 a n) then Vm.addScaled (mk 0 x n) 1 (mk 0 x n) sc (mk 1 a n) σ else none
  add n a b x := Vm.plus (mk 0 x n) (mk 1 a n) (mk 2 b n)
  sub n a b x := Vm.minus (mk 0 x n) (mk 1 a n) (mk 2 b n)
  mul n a b x := Vm.ewProd (mk 0 x n) (mk 1 a n) (mk 2 b n)
  fmax n a b x := Vm.maxVec (mk 0 x n) (mk 1 a n) (mk 2 b n)
  fmin n a b x := Vm.minVec (mk 0 x n) (mk 1 a n) (mk 2 b n)
  fmaxI n a v x := Vm.setIfLt (mk 0 x n) (mk 1 a n) v v
  fminI n a v x := Vm.setIfGt (mk 0 x n) (mk 1 a n) v v
  inv n a x := Vm.reciprocal (mk 0 x n) (mk 1 a n)
  sqrt n a x := forI 0 (n : ℤ) fun i σ => (rd σ (mk 1 a n) i).bind fun v => wr σ (mk 0 x n) i (sqrt v)
  dot n a b := Vm.dotProd (mk 0 a n) (mk 1 b n)
  asum n a := Vm.norm1 (mk 0 a n)
  iamax n a σ := forI 0 (n : ℤ) (fun i r => (rd σ (mk 0 a n) i).bind fun v => (rd σ (mk 0 a n) (r : ℕ)).bind fun w => some (if |w| < |v| then i.toNat else r)) 0

theorem mk_has (k : ℕ) (h : Has σ x n f) : Has σ (mk k (ptr x) n) n f := ⟨rfl, h.room, h.val⟩
theorem mk_room (k : ℕ) (h : Room σ x n) : Room σ (mk k (ptr x) n) n := ⟨rfl, h.room⟩
theorem mk_apart (k j : ℕ) (hx : x.len = n) (ha : a.len = n) (h : Apart x a) : Apart (mk k (ptr x) n) (mk j (ptr a) n) := by
  unfold Apart at h; rw [hx, ha] at h; exact h
theorem mk_use (k j : ℕ) (hx : x.len = n) (ha : a.len = n) (h : Apart x a ∨ Same x a) : Apart (mk k (ptr x) n) (mk j (ptr a) n) ∨ Same (mk k (ptr x) n) (mk j (ptr a) n) :=
  h.imp (mk_apart k j hx ha) id
theorem mk_gives {k : ℕ} {r : Option (Store K)} {g : Fin n → K} (hx : x.len = n) (h : Gives σ r (mk k (ptr x) n) n g) : Gives σ r x n g := by
  obtain ⟨σ', e, h1, h2⟩ := h
  refine ⟨σ', e, ⟨hx, h1.room, h1.val⟩, h2.1, fun b k hk => h2.2 b k ?_⟩
  rw [hx] at hk
  exact hk

theorem strict_documented (sqrt : K → K) : Documented (strict sqrt) sqrt where
  copy hr ha p := by
    have p' := mk_apart 0 1 hr.len ha.len p
    show Gives _ (if _ then _ else _) _ _ _
    rw [if_pos p']
    exact mk_gives hr.len (Vm.c58_copy (mk_room 0 hr) (mk_has 1 ha) (.inl p') 0).1
  fill sc hr := mk_gives hr.len (Vm.setScalar_holds (mk_room 0 hr) sc)
  scal sc hx := gives_congr (mk_gives hx.len (Vm.multScalar_holds (mk_has 0 hx) sc)) fun i => mul_comm _ _
  axpy sc hx ha p := by
    have p' := mk_apart 0 1 hx.len ha.len p
    show Gives _ (if _ then _ else _) _ _ _
    rw [if_pos p']
    exact gives_congr (mk_gives hx.len (Vm.addScaled_holds (mk_room 0 hx.toRoom) 1 (mk_has 0 hx) ⟨.inr ⟨rfl, rfl⟩, fun _ => ⟨rfl, rfl⟩⟩ sc (mk_has 1 ha) (.inl p'))) fun i => by
      simp only [vAddScaled]; ring
  add hr ha pa hb pb := mk_gives hr.len (Vm.c58_arith (mk_room 0 hr) (mk_has 1 ha) ⟨mk_use 0 1 hr.len ha.len pa, fun h => absurd h Nat.zero_ne_one⟩ (mk_has 2 hb) (mk_use 0 2 hr.len hb.len pb)).1
  sub hr ha pa hb pb := mk_gives hr.len (Vm.c58_arith (mk_room 0 hr) (mk_has 1 ha) ⟨mk_use 0 1 hr.len ha.len pa, fun h => absurd h Nat.zero_ne_one⟩ (mk_has 2 hb) (mk_use 0 2 hr.len hb.len pb)).2.1
  mul hr ha pa hb pb := mk_gives hr.len (Vm.c58_arith (mk_room 0 hr) (mk_has 1 ha) ⟨mk_use 0 1 hr.len ha.len pa, fun h => absurd h Nat.zero_ne_one⟩ (mk_has 2 hb) (mk_use 0 2 hr.len hb.len pb)).2.2
  fmax hr ha pa hb pb := mk_gives hr.len (Vm.c58_select (mk_room 0 hr) (mk_has 1 ha) (mk_use 0 1 hr.len ha.len pa) (mk_has 2 hb) (mk_use 0 2 hr.len hb.len pb) 0 0).1
  fmin hr ha pa hb pb := mk_gives hr.len (Vm.c58_select (mk_room 0 hr) (mk_has 1 ha) (mk_use 0 1 hr.len ha.len pa) (mk_has 2 hb) (mk_use 0 2 hr.len hb.len pb) 0 0).2.1
  fmaxI v hr ha pa := gives_congr (mk_gives hr.len (Vm.c58_select (mk_room 0 hr) (mk_has 1 ha) (mk_use 0 1 hr.len ha.len pa) (mk_has 1 ha) (mk_use 0 1 hr.len ha.len pa) v v).2.2.1) fun i => by
    split_ifs with h
    · exact (max_eq_right h.le).symm
    · exact (max_eq_left (not_lt.1 h)).symm
  fminI v hr ha pa := gives_congr (mk_gives hr.len (Vm.c58_select (mk_room 0 hr) (mk_has 1 ha) (mk_use 0 1 hr.len ha.len pa) (mk_has 1 ha) (mk_use 0 1 hr.len ha.len pa) v v).2.2.2) fun i => by
    split_ifs with h
    · exact (min_eq_right h.le).symm
    · exact (min_eq_left (not_lt.1 h)).symm
  inv hr ha pa hz := gives_congr (mk_gives hr.len (Vm.c58_reciprocal (mk_room 0 hr) (mk_has 1 ha) (mk_use 0 1 hr.len ha.len pa) hz)) fun i => (one_div _).symm
  sqrt hr ha pa _ := mk_gives hr.len (Vm.map1 (mk_room 0 hr) (mk_has 1 ha) (mk_use 0 1 hr.len ha.len pa) sqrt)
  dot ha hb := (Vm.c58_dot (mk_has 0 ha) (mk_has 1 hb)).1
  asum ha _ := (Vm.c58_norms (mk_has 0 ha) (mk_has 0 ha)).2.2.2
  iamax {σ a n fa} ha hn := by
    obtain ⟨r, e, h1, h2⟩ := forI_zero (hi := n) (s := 0)
      (f := fun i r => (rd σ (mk 0 (ptr a) n) i).bind fun v => (rd σ (mk 0 (ptr a) n) (r : ℕ)).bind fun w => some (if |w| < |v| then i.toNat else r))
      (fun k r => r < n ∧ ∀ (h : r < n) (j : Fin n), (j : ℕ) < k → |fa j| ≤ |fa ⟨r, h⟩|) ⟨hn, fun _ j hj => absurd hj (Nat.not_lt_zero _)⟩ (by
        rintro k r hk ⟨h1, h2⟩
        have e1 := (mk_has 0 ha).rd ⟨k, hk⟩
        have e2 := (mk_has 0 ha).rd ⟨r, h1⟩
        simp only at e1 e2
        simp only [e1, e2, Option.bind_some]
        refine ⟨_, rfl, ?_⟩
        by_cases c : |fa ⟨r, h1⟩| < |fa ⟨k, hk⟩|
        · rw [if_pos c]
          refine ⟨by simpa using hk, fun h j hj => ?_⟩
          simp only [Int.toNat_natCast]
          rcases Nat.lt_succ_iff_lt_or_eq.1 hj with h' | h'
          · exact (h2 h1 j h').trans c.le
          · rw [show j = ⟨k, hk⟩ from Fin.ext h']
        · rw [if_neg c]
          refine ⟨h1, fun h j hj => ?_⟩
          rcases Nat.lt_succ_iff_lt_or_eq.1 hj with h' | h'
          · exact h2 h1 j h'
          · rw [show j = ⟨k, hk⟩ from Fin.ext h']; exact not_lt.1 c)
    exact ⟨⟨r, h1⟩, e, fun j => h2 h1 j j.2⟩

/-- **C81** (limit of the routines).  With the built-in algebra `x = x + 2 x` in place gives `3 x`; with MKL the shortcut passes overlapping operands to `daxpy`, and a library that keeps to the
documentation may fail. (No call in the library does this.) -/
theorem c81_axpy_counterexample : Documented (strict (K := ℚ) id) id ∧ Gives Vm.Demo.mem (Vm.addScaled Vm.Demo.v 1 Vm.Demo.v 2 Vm.Demo.v Vm.Demo.mem) Vm.Demo.v 3 ![3, 6, 9] ∧
    addScaled (strict id) Vm.Demo.v 1 Vm.Demo.v 2 Vm.Demo.v Vm.Demo.mem = none := by
  refine ⟨strict_documented id, ?_, ?_⟩
  · have := Vm.addScaled_holds Vm.Demo.v_has.toRoom 1 Vm.Demo.v_has ⟨.inr ⟨rfl, rfl⟩, fun _ => ⟨rfl, rfl⟩⟩ 2 Vm.Demo.v_has (.inr ⟨rfl, rfl⟩)
    exact gives_congr this (by decide +kernel)
  · unfold addScaled
    rw [if_pos ⟨rfl, rfl⟩]
    have h : ¬ Apart (mk 0 (ptr Vm.Demo.v) 3) (mk 1 (ptr Vm.Demo.v) 3) := by unfold Apart; decide
    unfold strict
    dsimp only
    exact if_neg h

/-! ## The hypotheses are met -/

example : Gives Vm.Demo.mem (plus (strict id) Vm.Demo.v Vm.Demo.v Vm.Demo.w Vm.Demo.mem) Vm.Demo.v 3 (fun i => (![1, 2, 3] : Fin 3 → ℚ) i + ![5, -6, 7] i) :=
  (c81_arith (strict_documented id) Vm.Demo.v_has.toRoom Vm.Demo.v_has (.inr ⟨rfl, rfl⟩) Vm.Demo.w_has (.inl (.inl (by decide)))).1

example : Gives Vm.Demo.mem (addScaled (strict id) Vm.Demo.v 1 Vm.Demo.v 2 Vm.Demo.w Vm.Demo.mem) Vm.Demo.v 3 (fun i => 1 * (![1, 2, 3] : Fin 3 → ℚ) i + 2 * ![5, -6, 7] i) :=
  c81_combine (strict_documented id) Vm.Demo.v_has.toRoom Vm.Demo.v_has ⟨.inr ⟨rfl, rfl⟩, fun _ => ⟨rfl, rfl⟩⟩ Vm.Demo.w_has 1 2 (.inl (.inl (by decide)))

example : Gives Vm.Demo.mem (copy (strict id) Vm.Demo.new Vm.Demo.w Vm.Demo.mem) Vm.Demo.new 3 (![5, -6, 7] : Fin 3 → ℚ) :=
  (c81_copy (strict_documented id) Vm.Demo.new_room Vm.Demo.w_has (.inl (by decide)) 0).1

example : normInf (strict id) Vm.Demo.w Vm.Demo.mem = some (7 : ℚ) := by
  rw [(c81_values (strict_documented id) Vm.Demo.w_has Vm.Demo.v_has).1]; decide +kernel

example : copy (strict id) Vm.Demo.new Vm.Demo.w Vm.Demo.mem = Vm.copy Vm.Demo.new Vm.Demo.w (Vm.Demo.mem) :=
  (c81_same (strict_documented id) Vm.Demo.new_room Vm.Demo.w_has ⟨.inl (.inl (by decide)), fun h => absurd h (by decide)⟩ Vm.Demo.v_has (.inl (by decide)) 1 1).1 (.inl (by decide))

example : Gives Vm.Demo.mem (ewSqrt (strict id) Vm.Demo.v Vm.Demo.mem) Vm.Demo.v 3 (fun i => id ((![1, 2, 3] : Fin 3 → ℚ) i)) :=
  (c81_in_place (strict_documented id) Vm.Demo.v_has 1).2 (by decide +kernel)

example : Gives Vm.Demo.mem (reciprocal (strict id) Vm.Demo.w Vm.Demo.v Vm.Demo.mem) Vm.Demo.w 3 (fun i => ((![1, 2, 3] : Fin 3 → ℚ) i)⁻¹) :=
  (c81_limits (strict_documented id) Vm.Demo.w_has.toRoom Vm.Demo.v_has (.inl (.inl (by decide))) 0).1 (by decide +kernel)

example {d : Dims} (env : Env d K) (s : Solver d K) (sqrt : K → K) (k : ℕ) : ∃ σ W xz slv σ' W', Holding σ W xz s ∧
    iterates (strict sqrt) s.settings s.work.rho_inv slv xz k W σ = some (W', σ') ∧ Holding σ' W' xz ((admmStep env)^[k] s) := by
  obtain ⟨σ', W', h1, _, h2, _⟩ := c81_iterations (strict_documented sqrt) (any_solver env s.work.linsys).solves (any_layout d.n d.m) (any_holding s) k
  exact ⟨_, _, _, _, σ', W', any_holding s, h1, h2⟩

end Osqp.MklVec
