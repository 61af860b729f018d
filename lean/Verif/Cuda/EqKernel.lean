import Verif.Cuda.SumKernels

/-!
# The comparison kernel, and linear combinations
-/

set_option linter.unusedSectionVars false
namespace Osqp.Gpu
open Csc Vm
variable {K : Type} {M ι α : Type}

/-! ## Invariants -/

/-- From every memory satisfying `I`, each access succeeds and keeps `I`. -/
def Good (I : M → Prop) : Prog M α → Prop
  | .ret _ => True
  | .act a k => ∀ m, I m → ∃ r, a m = some r ∧ I r.2 ∧ Good I (k r.1)

theorem good_run [DecidableEq ι] {I : M → Prop} {ts : ι → Prog M Unit} (hg : ∀ t, Good I (ts t)) (s : List ι) {m : M} (hm : I m) :
    ∃ c, run ts s m = some c ∧ I c.2 := by
  induction s generalizing ts m with
  | nil => exact ⟨_, rfl, hm⟩
  | cons t s ih =>
    have : ∃ p m', step (ts t) m = some (p, m') ∧ I m' ∧ Good I p := by
      have h := hg t
      cases e : ts t with
      | ret a => exact ⟨_, _, rfl, hm, trivial⟩
      | act a k =>
        rw [e] at h
        obtain ⟨r, e1, e2, e3⟩ := h m hm
        exact ⟨_, _, by rw [step_act, e1]; rfl, e2, e3⟩
    obtain ⟨p, m', e1, e2, e3⟩ := this
    unfold run
    rw [e1]
    refine ih (fun u => ?_) e2
    by_cases e : u = t
    · subst e; rw [Function.update_self]; exact e3
    · rw [Function.update_of_ne e]; exact hg u

theorem always_of_good [DecidableEq ι] [Fintype ι] {I : M → Prop} {ts : ι → Prog M Unit} (hg : ∀ t, Good I (ts t)) {m : M} (hm : I m) : Always ts m I := by
  have hs : ∀ s, ∃ c, run ts s m = some c := fun s => by obtain ⟨c, e, _⟩ := good_run hg s hm; exact ⟨c, e⟩
  refine ⟨hs, fun s c e _ => ?_, fun s hf => fair_ends hs s hf⟩
  obtain ⟨c', e', h⟩ := good_run hg s hm
  rw [e] at e'; cases e'; exact h

theorem good_ld {I : Dev K → Prop} {v : Ref} {i : ℤ} {y : K} {k : K → Prog (Dev K) α} (h : ∀ m, I m → rd m.f v i = some y) (hk : Good I (k y)) :
    Good I ((ld v i).bind k) := fun m hm => ⟨(y, m), by simp only [h m hm, Option.map_some], hm, hk⟩

theorem good_stz {I : Dev K → Prop} {v : Ref} {i y : ℤ} {k : Unit → Prog (Dev K) α} (h : ∀ m, I m → ∃ s, wr m.z v i y = some s ∧ I ⟨m.f, s⟩)
    (hk : Good I (k ())) : Good I ((stz v i y).bind k) := fun m hm => by
  obtain ⟨s, e, h'⟩ := h m hm
  exact ⟨((), ⟨m.f, s⟩), by simp only [e, Option.map_some], h', hk⟩

variable [Field K] [LinearOrder K]
variable {σ : Store K} {ζ : Store ℤ} {x a b c res : Ref} {n : ℕ} {fa fb fc : Fin n → K}

/-! ## Comparison -/

theorem eq_kernel (ha : Has σ a n fa) (hb : Has σ b n fb) (tol : K) (hres : Has ζ res 1 fun _ => 1) :
    Always (eqK a b tol res n (blocks n) threadsPerBlock) (⟨σ, ζ⟩ : Dev K) fun m => m.f = σ ∧
      (∃ v, (Has m.z res 1 fun _ => v) ∧ (v = 1 ∨ v = 0 ∧ ∃ i, cAbs (fa i - fb i) > tol)) ∧ OnlyAt res ζ m.z := by
  refine always_of_good (fun t => ?_) ⟨rfl, ⟨1, hres, .inl rfl⟩, OnlyAt.refl⟩
  set I : Dev K → Prop := fun m => m.f = σ ∧
      (∃ v, (Has m.z res 1 fun _ => v) ∧ (v = 1 ∨ v = 0 ∧ ∃ i, cAbs (fa i - fb i) > tol)) ∧ OnlyAt res ζ m.z with hI
  have hst : ∀ y : ℤ, (y = 1 ∨ y = 0 ∧ ∃ i, cAbs (fa i - fb i) > tol) → ∀ m, I m → ∃ s, wr m.z res 0 y = some s ∧ I ⟨m.f, s⟩ := by
    rintro y hy m ⟨h1, ⟨v, h2, _⟩, h3⟩
    obtain ⟨s, e, h4, h5⟩ := wr_single h2 y
    exact ⟨s, e, h1, ⟨y, h4, hy⟩, h3.trans h5⟩
  refine good_stz (hst 1 (.inl rfl)) ?_
  generalize idx t = i
  have : ∀ k i, Good I (eqLoop (threadsPerBlock * blocks n) n a b tol res k i) := by
    intro k
    induction k with
    | zero => intro i; trivial
    | succ k ih =>
      intro i
      unfold eqLoop
      split_ifs with hi
      · refine good_ld (y := fa ⟨i, hi⟩) (fun m hm => by rw [hm.1]; exact ha.rd ⟨i, hi⟩) ?_
        refine good_ld (y := fb ⟨i, hi⟩) (fun m hm => by rw [hm.1]; exact hb.rd ⟨i, hi⟩) ?_
        split_ifs with hd
        · intro m hm
          obtain ⟨s, e, h⟩ := hst 0 (.inr ⟨rfl, ⟨i, hi⟩, hd⟩) m hm
          exact ⟨((), ⟨m.f, s⟩), by simp only [e, Option.map_some], h, trivial⟩
        · exact ih _
      · trivial
  exact this _ _

/-- The threads other than the first, on vectors of one element, only write 1. -/
theorem others_run {L : List (Thread 1)} (hL : L.Nodup) {ts : Thread 1 → Prog (Dev K) Unit} {m : Dev K} {v : ℤ}
    (h : ∀ t ∈ L, ts t = .act (fun m : Dev K => (wr m.z res 0 1).map fun s => ((), { m with z := s })) fun _ => .ret ())
    (hres : Has m.z res 1 fun _ => v) :
    ∃ m' : Dev K, run ts L m = some (fun t => if t ∈ L then .ret () else ts t, m') ∧ m'.f = m.f ∧
      (Has m'.z res 1 fun _ => if L = [] then v else 1) := by
  induction L generalizing ts m v with
  | nil => exact ⟨m, by simp [run], rfl, by simpa using hres⟩
  | cons t L ih =>
    rw [List.nodup_cons] at hL
    obtain ⟨s, e, h1, _⟩ := wr_single hres 1
    obtain ⟨m', e', h2, h3⟩ := ih (ts := Function.update ts t (.ret ())) (m := ⟨m.f, s⟩) (v := 1) hL.2
      (fun u hu => by
        have : u ≠ t := fun e => hL.1 (e ▸ hu)
        rw [Function.update_of_ne this]; exact h u (by simp [hu])) h1
    refine ⟨m', ?_, h2, ?_⟩
    · unfold run
      rw [h t (by simp), step_act, e]
      simp only [Option.map_some, Option.bind_some]
      rw [e']
      congr 2; funext u
      by_cases eu : u = t
      · subst eu; simp [hL.1, Function.update_self]
      · rw [Function.update_of_ne eu]; simp [eu]
    · convert h3 using 2
      simp

theorem eq_race {fa fb : Fin 1 → K} (ha : Has σ a 1 fa) (hb : Has σ b 1 fb) {tol : K} (hd : cAbs (fa 0 - fb 0) > tol) (hres : Has ζ res 1 fun _ => 1) :
    ∃ s c, run (eqK a b tol res 1 (blocks 1) threadsPerBlock) s (⟨σ, ζ⟩ : Dev K) = some c ∧ Finished c.1 ∧ Has c.2.z res 1 fun _ => 1 := by
  classical
  set ts := eqK a b tol res 1 (blocks 1) threadsPerBlock with hts
  let t0 : Thread 1 := (⟨0, by decide⟩, ⟨0, by decide⟩)
  let t1 : Thread 1 := (⟨0, by decide⟩, ⟨1, by decide⟩)
  have hne : ∀ t : Thread 1, t ≠ t0 → ts t = .act (fun m : Dev K => (wr m.z res 0 1).map fun s => ((), { m with z := s })) fun _ => .ret () := by
    intro t ht
    have hi : ¬ idx t < 1 := by
      intro h
      have h0 : idx t0 = 0 := rfl
      exact ht (idx_inj (by omega))
    show Prog.act _ _ = _
    congr 1; funext _
    show eqLoop _ _ _ _ _ _ _ _ = _
    unfold eqLoop
    rw [if_neg hi]; rfl
  have e1 : rd σ a 0 = some (fa 0) := ha.rd 0
  have e2 : rd σ b 0 = some (fb 0) := hb.rd 0
  obtain ⟨ζ1, w1, h1, _⟩ := wr_single hres 1
  obtain ⟨ζ2, w2, h2, _⟩ := wr_single h1 0
  have h0 : ts t0 = (stz res 0 1).bind fun _ => (ld a (0 : ℕ)).bind fun v => (ld b (0 : ℕ)).bind fun w =>
      if cAbs (v - w) > tol then stz res 0 0 else .ret () := rfl
  have hrun : run ts [t0, t0, t0, t0] (⟨σ, ζ⟩ : Dev K) = some (Function.update ts t0 (.ret ()), ⟨σ, ζ2⟩) := by
    simp only [run, h0, stz, ld, pbind_act, step_act, w1, Option.map_some, Option.bind_some, Function.update_self, Nat.cast_zero, e1, e2,
      Prog.bind, if_pos hd, w2, Function.update_idem]
  have hnd : ((Finset.univ : Finset (Thread 1)).erase t0).toList.Nodup := Finset.nodup_toList _
  obtain ⟨m', e3, _, h4⟩ := others_run (K := K) (res := res) hnd (ts := Function.update ts t0 (.ret ())) (m := ⟨σ, ζ2⟩) (v := 0) (fun t ht => by
    have : t ≠ t0 := by simpa using ht
    rw [Function.update_of_ne this]; exact hne t this) h2
  refine ⟨[t0, t0, t0, t0] ++ ((Finset.univ : Finset (Thread 1)).erase t0).toList, _, by rw [run_append, hrun, Option.bind_some]; exact e3, ?_, ?_⟩
  · intro t
    by_cases e : t = t0
    · subst e; simp
    · simp [e]
  · have : ((Finset.univ : Finset (Thread 1)).erase t0).toList ≠ [] := by
      intro e
      have : t1 ∈ ((Finset.univ : Finset (Thread 1)).erase t0).toList := by simp [t1, t0]
      rw [e] at this; simp at this
    rw [if_neg this] at h4
    exact h4

/-! ## Linear combinations -/

theorem axpy_holds (hx : Has σ x n fa) (s : K) (hb : Has σ b n fb) (pb : Apart x b) : Gives σ (axpy n s b x σ) x n fun i => fa i + s * fb i :=
  map2 hx.toRoom hb (.inl pb) hx same_refl (fun w v => v + s * w)

theorem scaledTo_holds (hr : Room σ x n) (sca : K) (ha : Has σ a n fa) (pa : Apart x a ∨ Same x a) : Gives σ (scaledTo n x a sca σ) x n fun i => sca * fa i := by
  unfold scaledTo
  by_cases hs : x.blk = a.blk ∧ x.off = a.off
  · have hx : Has σ x n fa := Same.has hs hr.len ha
    by_cases h1 : sca = 1
    · subst h1
      rw [if_neg (by simp [hs])]
      exact ⟨σ, rfl, by simpa using hx, OnlyAt.refl⟩
    · rw [if_pos (.inr h1), if_neg h1, if_pos hs]
      exact map1 hr hx same_refl (fun v => sca * v)
  · have pa' : Apart x a := pa.resolve_right hs
    rw [if_pos (.inl hs)]
    by_cases h1 : sca = 1
    · subst h1
      rw [if_pos rfl]
      simpa [Gives] using map1 hr ha pa (fun v => v)
    · rw [if_neg h1, if_neg hs]
      obtain ⟨σ1, e1, h2, h3⟩ := setScalar_holds hr (0 : K)
      unfold setScalar at e1
      rw [hr.len] at e1
      rw [e1, Option.bind_some]
      obtain ⟨σ2, e2, h4, h5⟩ := axpy_holds h2 sca (h3.has ha pa') pa'
      exact ⟨σ2, e2, by simpa [vSet] using h4, h3.trans h5⟩

theorem addScaled_gpu (hr : Room σ x n) (sca : K) (ha : Has σ a n fa) (pa : Fits x a) (scb : K) (hb : Has σ b n fb) (pb : Apart x b) :
    ∃ σ', addScaled x sca a scb b σ = some σ' ∧ addScaledG n x a b sca scb σ = some σ' := by
  obtain ⟨σ', e, h⟩ := addScaled_holds hr sca ha pa scb hb (.inl pb)
  obtain ⟨σ1, e1, h1, h2⟩ := scaledTo_holds hr sca ha pa.1
  obtain ⟨σ2, e2, h3, h4⟩ := axpy_holds h1 scb (h2.has hb pb) pb
  refine ⟨σ', e, ?_⟩
  unfold addScaledG
  rw [e1, Option.bind_some, e2, gives_unique hr h ⟨h3, h2.trans h4⟩]

theorem addScaled3_gpu (hr : Room σ x n) (sca : K) (ha : Has σ a n fa) (pa : Fits x a) (scb : K) (hb : Has σ b n fb) (pb : Apart x b)
    (scc : K) (hc : Has σ c n fc) (pc : Apart x c) :
    ∃ σ', addScaled3 x sca a scb b scc c σ = some σ' ∧ addScaled3G n x a b c sca scb scc σ = some σ' := by
  obtain ⟨σ', e, h⟩ := addScaled3_holds hr sca ha pa scb hb (.inl pb) scc hc (.inl pc)
  obtain ⟨σ1, e1, h1, h2⟩ := scaledTo_holds hr sca ha pa.1
  obtain ⟨σ2, e2, h3, h4⟩ := axpy_holds h1 scb (h2.has hb pb) pb
  obtain ⟨σ3, e3, h5, h6⟩ := axpy_holds h3 scc ((h2.trans h4).has hc pc) pc
  refine ⟨σ', e, ?_⟩
  unfold addScaled3G
  rw [e1, Option.bind_some, e2, Option.bind_some, e3, gives_unique hr h ⟨h5, (h2.trans h4).trans h6⟩]

end Osqp.Gpu
