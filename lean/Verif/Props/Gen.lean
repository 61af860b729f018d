import Verif.Gen.Decide
import Verif.Gen.Demo
import Verif.Props.Entry
import Mathlib.Tactic.NormNum
import Mathlib.Tactic.Linarith

/-!
# Generated code (C59)

`osqp_codegen` writes a C file with the solver's data. Compiled with the configuration header written beside it, the variable `solver`
of that file must be the solver the file was generated from.

`compile … = none` means that the file is not a valid C program: a compiler must reject it, or a conversion in it (a number out of range
to an integer) has no defined meaning, which compilers answer with an error or only with a warning and some integer.
-/

namespace Osqp.Gen
variable {K : Type} [Field K] [LinearOrder K]

/-- The options are in range. -/
abbrev Valid (f : CodegenDefines) : Prop := Osqp.CodegenDefines.Valid f

theorem mats_eq {f : CodegenDefines} (hf : Valid f) (s : Src K) : (flags s f).mats = (macros f).mats := by
  have h := hf.1
  simp only [Set.mem_insert_iff, Set.mem_singleton_iff] at h
  rcases h with h | h <;> simp [flags, macros, h]

/-- **C59, the file is written.** From a solver with the array sizes that setup gives it, writing the file succeeds, whatever the
options. -/
theorem c59_writes (pr : K → Lit) (s : Src K) (sized : Sized s) (f : CodegenDefines) : ∃ file, generate pr s f = .ok file := by
  obtain ⟨w, c, -, -, h⟩ := generate_eq (pr := pr) sized f
  exact ⟨_, h⟩

/-- **C59, the identifiers of the file are distinct**, with any common prefix. -/
theorem c59_identifiers (pr : K → Lit) (s : Src K) (sized : Sized s) (f : CodegenDefines) (file : List (Decl Nm))
    (written : generate pr s f = .ok file) (pref : String) : (file.map fun d => pref ++ d.nm.text).Nodup := by
  obtain ⟨w, c, -, -, h⟩ := generate_eq (pr := pr) sized f
  rw [h] at written
  obtain rfl := Except.ok.inj written
  have h1 : ((Gen.file pr s w c (flags s f)).map Decl.nm).map Nm.text = (names.filter (present (flags s f))).map Nm.text := by rw [file_names]
  have h2 : ((Gen.file pr s w c (flags s f)).map fun d => pref ++ d.nm.text) =
      (((Gen.file pr s w c (flags s f)).map Decl.nm).map Nm.text).map (pref ++ ·) := by
    simp [List.map_map, Function.comp_def]
  rw [h2, h1]
  refine List.Nodup.map (fun a b hab => ?_) (names_text.sublist (List.filter_sublist.map _))
  exact String.append_right_inj pref |>.1 hab

/-- **C59, when the file compiles.** The file, with the configuration header written beside it, is a valid C program exactly if every
number of the solver prints as a number and the last two initialisers of the workspace fit the members at their positions. -/
theorem c59_accepted_iff (pr : K → Lit) (s : Src K) (sized : Sized s) (f : CodegenDefines) (valid : Valid f) (file : List (Decl Nm))
    (written : generate pr s f = .ok file) :
    (∃ E, compile (macros f) [] file = some E) ↔
      (∀ x ∈ s.nums (macros f).mats, (pr x).isSome) ∧ TailFits (macros f) s.rho_updated (pr s.last_rel_kkt) := by
  obtain ⟨w, c, hw, hc, h⟩ := generate_eq (pr := pr) sized f
  rw [h] at written
  obtain rfl := Except.ok.inj written
  have hm := mats_eq valid s
  have hc' : (flags s f).scal = true → s.scaling = some c := fun h => hc (by simpa [flags] using h)
  constructor
  · rintro ⟨E, hE⟩
    obtain ⟨tv, F⟩ := fit_of_compile sized hw hc' rfl rfl rfl hm rfl hE
    refine ⟨fun x hx => F.prints x (by rw [hm]; exact hx), (tail_iff []).1 ?_⟩
    rw [F.tail []]; rfl
  · rintro ⟨hp, ht⟩
    obtain ⟨tv, htv⟩ := Option.isSome_iff_exists.1 ((tail_iff (pr := pr) (s := s) []).2 ht)
    have F : Fit pr s w c (flags s f) tv (macros f) :=
      ⟨sized, hw, hc', fun x hx => hp x (by rw [← hm]; exact hx), hm, rfl, rfl, fun env => (tail_env env []).trans htv⟩
    exact ⟨_, compile_ok F⟩

/-- **C59, partial.** If the file compiles, then what a program finds at `solver` is the solver the file was generated from, with every
number rounded to 20 decimals: settings, problem, factorisation, iterates, scaling and, if matrix updates are compiled in, what they
need. Nothing has been solved yet, and there is separate room for every vector a solve writes. If profiling, printing and derivatives
are all off, the record of the step-size adaptation agrees as well.
Missing: with one of these options on, that record is lost (`c59_record_lost`), and the file may not compile at all
(`c59_accepted_iff`, `c59_new_rejected`). -/
theorem c59_roundtrip_partial (pr : K → Lit) (rounds : Rounds pr) (s : Src K) (sized : Sized s) (f : CodegenDefines) (valid : Valid f)
    (file : List (Decl Nm)) (written : generate pr s f = .ok file) (E : Env Nm) (compiled : compile (macros f) [] file = some E) :
    ∃ t, loadSrc (macros f) E (.ptr .solver 0) = some t ∧ SameBody (macros f).mats s t ∧
      Fresh (macros f) E (macros f).mats (decide (s.settings.scaling ≠ 0)) s.n s.m (.ptr .solver 0) ∧
      (f.profiling_enable = 0 → f.printing_enable = 0 → f.derivatives_enable = 0 → SameTail s t) := by
  obtain ⟨w, c, hw, hc, h⟩ := generate_eq (pr := pr) sized f
  rw [h] at written
  obtain rfl := Except.ok.inj written
  have hm := mats_eq valid s
  have hc' : (flags s f).scal = true → s.scaling = some c := fun h => hc (by simpa [flags] using h)
  obtain ⟨tv, F⟩ := fit_of_compile sized hw hc' rfl rfl rfl hm rfl compiled
  have hE := compile_ok F
  rw [compiled] at hE
  obtain rfl := Option.some.inj hE
  have H : Has pr s w c (flags s f) tv _ := fun nm hn hp => lookup_ok F hn hp
  obtain ⟨ru, lk, t1, t2, t3, -, -⟩ := tail_values (F.tail [])
  refine ⟨_, loadSrc_of H F rfl rfl t1 t2, sameBody_of rounds F rfl ru _, fresh_of H F, fun p1 p2 p3 => ?_⟩
  obtain ⟨rfl, rfl⟩ := t3 (by simp [macros, p1]) (by simp [macros, p2]) (by simp [macros, p3])
  exact ⟨rfl, near_of rounds F.scalars.2.2.2.2.2.2.2.2.2.2.2.2.2.2.1⟩

/-- **C59, a defect.** If profiling, printing or derivatives are on and the file compiles, then the generated solver has
`last_rel_kkt = 0`, whatever it was. With profiling on, its timer is a null pointer, which `osqp_solve` passes to `osqp_tic`. -/
theorem c59_record_lost (pr : K → Lit) (s : Src K) (sized : Sized s) (f : CodegenDefines) (valid : Valid f)
    (file : List (Decl Nm)) (written : generate pr s f = .ok file) (E : Env Nm) (compiled : compile (macros f) [] file = some E)
    (on : f.profiling_enable = 1 ∨ f.printing_enable = 1 ∨ f.derivatives_enable = 1) :
    (∃ t : Src K, loadSrc (macros f) E (.ptr .solver 0) = some t ∧ t.last_rel_kkt = 0) ∧
    (f.profiling_enable = 1 → member (macros f) E .workspace .timer (.ptr .work 0) = some .null) := by
  obtain ⟨w, c, hw, hc, h⟩ := generate_eq (pr := pr) sized f
  rw [h] at written
  obtain rfl := Except.ok.inj written
  have hm := mats_eq valid s
  have hc' : (flags s f).scal = true → s.scaling = some c := fun h => hc (by simpa [flags] using h)
  obtain ⟨tv, F⟩ := fit_of_compile sized hw hc' rfl rfl rfl hm rfl compiled
  have hE := compile_ok F
  rw [compiled] at hE
  obtain rfl := Option.some.inj hE
  have H : Has pr s w c (flags s f) tv _ := fun nm hn hp => lookup_ok F hn hp
  obtain ⟨ru, lk, t1, t2, -, t4, t5⟩ := tail_values (F.tail [])
  constructor
  · refine ⟨_, loadSrc_of H F rfl rfl t1 t2, ?_⟩
    have : lk = 0 := t4 (by simpa [macros] using on)
    simp [rSrc, this, num]
  · intro hp
    exact work_member_tail (H .work (by decide) rfl) hm (by rintro ⟨⟩ - <;> rfl) (t5 (by simpa [macros] using hp)).2

/-- **C59, a defect.** Right after setup `last_rel_kkt` is `10^30` (osqp_api.c:569); with profiling, printing or derivatives on, a file
generated then is not a valid C program: the number stands where an `int` or a pointer is initialised. -/
theorem c59_new_rejected (pr : K → Lit) (s : Src K) (sized : Sized s) (f : CodegenDefines) (valid : Valid f) (file : List (Decl Nm))
    (written : generate pr s f = .ok file) (new : pr s.last_rel_kkt = some (10 ^ 50))
    (on : f.profiling_enable = 1 ∨ f.printing_enable = 1 ∨ f.derivatives_enable = 1) : compile (macros f) [] file = none := by
  by_contra hne
  obtain ⟨E, hE⟩ := Option.ne_none_iff_exists'.1 hne
  have ht := ((c59_accepted_iff pr s sized f valid file written).1 ⟨E, hE⟩).2
  rw [new] at ht
  have hi : ¬IntLit (some (10 ^ 50)) := by
    rintro ⟨k, hk, hi⟩
    obtain rfl := Option.some.inj hk
    revert hi
    decide +kernel
  have on' : (macros f).profiling = true ∨ (macros f).printing = true ∨ (macros f).derivatives = true := by simpa [macros] using on
  unfold TailFits at ht
  split at ht
  · exact hi ht.2
  · split at ht
    · exact hi ht.2
    · split at ht
      · exact hi ht.2
      · simp_all

/-- **C59, a defect.** A setting that is smaller than half a unit of the twentieth decimal is written as zero: a solver with such a
`sigma` is valid, and the settings of the generated solver are not. -/
theorem c59_tiny_sigma [IsStrictOrderedRing K] (pr : K → Lit) (rounds : Rounds pr) (s : Src K) (sized : Sized s) (f : CodegenDefines)
    (valid : Valid f) (file : List (Decl Nm)) (written : generate pr s f = .ok file) (E : Env Nm)
    (compiled : compile (macros f) [] file = some E) (pos : 0 < s.settings.sigma) (small : s.settings.sigma < 1 / (2 * 10 ^ 20)) (cfg : Cfg) :
    ∃ t : Src K, loadSrc (macros f) E (.ptr .solver 0) = some t ∧ t.settings.sigma = 0 ∧ validateSettings cfg t.settings true = true := by
  obtain ⟨w, c, hw, hc, h⟩ := generate_eq (pr := pr) sized f
  rw [h] at written
  obtain rfl := Except.ok.inj written
  have hm := mats_eq valid s
  have hc' : (flags s f).scal = true → s.scaling = some c := fun h => hc (by simpa [flags] using h)
  obtain ⟨tv, F⟩ := fit_of_compile sized hw hc' rfl rfl rfl hm rfl compiled
  have hE := compile_ok F
  rw [compiled] at hE
  obtain rfl := Option.some.inj hE
  have H : Has pr s w c (flags s f) tv _ := fun nm hn hp => lookup_ok F hn hp
  obtain ⟨ru, lk, t1, t2, -, -, -⟩ := tail_values (F.tail [])
  have h0 : rnd pr s.settings.sigma = 0 := by
    have hn : Near s.settings.sigma (rnd pr s.settings.sigma) := near_of rounds F.scalars.2.1
    rw [Near, rnd, num, abs_le] at hn
    rw [rnd, num]
    have hb : (0 : K) < 1 / (2 * 10 ^ 20) := by positivity
    have hd : dig pr s.settings.sigma = 0 := by
      generalize dig pr s.settings.sigma = k at hn ⊢
      have e : (1 : K) / 10 ^ 20 = 1 / (2 * 10 ^ 20) + 1 / (2 * 10 ^ 20) := by field_simp; norm_num
      rcases lt_trichotomy k 0 with hk | hk | hk
      · exfalso
        have hk' : (k : K) ≤ -1 := by exact_mod_cast Int.le_sub_one_of_lt hk
        have : (k : K) / 10 ^ 20 ≤ -1 / 10 ^ 20 := by gcongr
        have e2 : (-1 : K) / 10 ^ 20 = -(1 / 10 ^ 20) := by ring
        rw [e2] at this
        linarith [hn.2]
      · exact hk
      · exfalso
        have hk' : (1 : K) ≤ k := by exact_mod_cast hk
        have : (1 : K) / 10 ^ 20 ≤ k / 10 ^ 20 := by gcongr
        linarith [hn.1]
    simp [hd]
  refine ⟨_, loadSrc_of H F rfl rfl t1 t2, h0, ?_⟩
  simp [validateSettings, rSrc, rSettings, h0]

/-! ## Satisfiability -/

namespace Demo

theorem rounds : Rounds prQ := by
  intro x k hk
  obtain rfl := Option.some.inj hk
  have h := abs_sub_round (x * 10 ^ 20)
  rw [Near, num]
  have e : x - (round (x * 10 ^ 20) : ℚ) / 10 ^ 20 = (x * 10 ^ 20 - round (x * 10 ^ 20)) / 10 ^ 20 := by field_simp
  have e2 : (1 : ℚ) / (2 * 10 ^ 20) = (1 / 2) / 10 ^ 20 := by norm_num
  rw [e, abs_div, abs_of_pos (show (0 : ℚ) < 10 ^ 20 by norm_num), e2]
  gcongr

theorem prints (x : ℚ) : (prQ x).isSome := rfl

theorem sized : Sized src where
  n_pos := by decide
  P := ⟨rfl, rfl, rfl⟩
  P_n := rfl
  A := ⟨rfl, rfl, rfl⟩
  A_n := rfl
  q := rfl
  l := rfl
  u := rfl
  lin_n := rfl
  lin_m := rfl
  L := ⟨rfl, rfl, rfl⟩
  Dinv := rfl
  perm := rfl
  lin_rho := by rintro v ⟨⟩; rfl
  x := rfl
  y := rfl
  z := rfl
  rho_vec := ⟨fun h => absurd h (by decide), fun _ => ⟨rfl, rfl, rfl⟩⟩
  scaling := ⟨fun h => absurd h (by decide), fun _ => rfl⟩
  upd := ⟨_, rfl, ⟨rfl, rfl, rfl⟩, rfl, rfl, rfl, rfl, rfl, rfl⟩

theorem sized_free : Sized free where
  n_pos := by decide
  P := ⟨rfl, rfl, rfl⟩
  P_n := rfl
  A := ⟨rfl, rfl, rfl⟩
  A_n := rfl
  q := rfl
  l := rfl
  u := rfl
  lin_n := rfl
  lin_m := rfl
  L := ⟨rfl, rfl, rfl⟩
  Dinv := rfl
  perm := rfl
  lin_rho := by rintro v ⟨⟩
  x := rfl
  y := rfl
  z := rfl
  rho_vec := ⟨fun _ => ⟨rfl, rfl, rfl⟩, fun h => absurd rfl h⟩
  scaling := ⟨fun _ => rfl, fun h => absurd rfl h⟩
  upd := ⟨_, rfl, ⟨rfl, rfl, rfl⟩, rfl, rfl, rfl, rfl, rfl, rfl⟩

theorem sized_new : Sized new := { sized with }

theorem sized_tiny : Sized tiny := { sized with }

theorem valid_vectors : Valid vectors := by refine ⟨by simp [vectors], by decide⟩
theorem valid_matrices : Valid matrices := by refine ⟨by simp [matrices], by decide⟩
theorem valid_profiling : Valid profiling := by refine ⟨by simp [profiling], by decide⟩
theorem valid_printing : Valid printing := by refine ⟨by simp [printing], by decide⟩

/-- The two demo solvers, for both modes: the file is written, compiles, and loads the same solver. -/
example : ∀ s ∈ [src, free, new], ∀ f ∈ [vectors, matrices], ∃ file E t, generate prQ s f = .ok file ∧
    compile (macros f) [] file = some E ∧ loadSrc (macros f) E (.ptr .solver 0) = some t ∧ SameBody (macros f).mats s t ∧ SameTail s t := by
  have key : ∀ s, Sized s → ∀ f, Valid f → f.profiling_enable = 0 → f.printing_enable = 0 → f.derivatives_enable = 0 →
      ∃ file E t, generate prQ s f = .ok file ∧
        compile (macros f) [] file = some E ∧ loadSrc (macros f) E (.ptr .solver 0) = some t ∧ SameBody (macros f).mats s t ∧ SameTail s t := by
    intro s hs f hf h1 h2 h3
    obtain ⟨file, hw⟩ := c59_writes prQ s hs f
    obtain ⟨E, hE⟩ := (c59_accepted_iff prQ s hs f hf file hw).2 ⟨fun x _ => prints x, by simp [TailFits, macros, h1, h2, h3, prints]⟩
    obtain ⟨t, a, b, -, d⟩ := c59_roundtrip_partial prQ rounds s hs f hf file hw E hE
    exact ⟨file, E, t, hw, hE, a, b, d h1 h2 h3⟩
  simp only [List.forall_mem_cons, List.not_mem_nil, false_imp_iff, implies_true, and_true]
  exact ⟨⟨key _ sized _ valid_vectors rfl rfl rfl, key _ sized _ valid_matrices rfl rfl rfl⟩,
    ⟨key _ sized_free _ valid_vectors rfl rfl rfl, key _ sized_free _ valid_matrices rfl rfl rfl⟩,
    key _ sized_new _ valid_vectors rfl rfl rfl, key _ sized_new _ valid_matrices rfl rfl rfl⟩

theorem pr_src : prQ (1 / 1000) = some (10 ^ 17) := by
  rw [prQ, show (1 / 1000 : ℚ) * 10 ^ 20 = ((10 ^ 17 : ℤ) : ℚ) by norm_num, round_intCast]

theorem pr_new : prQ (10 ^ 30) = some (10 ^ 50) := by
  rw [prQ, show (10 ^ 30 : ℚ) * 10 ^ 20 = ((10 ^ 50 : ℤ) : ℚ) by norm_num, round_intCast]

/-- With profiling or printing the file of the demo solver compiles, and its `last_rel_kkt` of 1/1000 is lost. -/
example : ∀ f ∈ [profiling, printing], ∃ file E t, generate prQ src f = .ok file ∧
    compile (macros f) [] file = some E ∧ loadSrc (macros f) E (.ptr .solver 0) = some t ∧ t.last_rel_kkt = 0 ∧ ¬SameTail src t := by
  have fits : IntLit (prQ src.last_rel_kkt) := ⟨10 ^ 17, pr_src, by decide +kernel⟩
  have key : ∀ f, Valid f → (f.profiling_enable = 1 ∨ f.printing_enable = 1 ∨ f.derivatives_enable = 1) →
      TailFits (macros f) src.rho_updated (prQ src.last_rel_kkt) → ∃ file E t, generate prQ src f = .ok file ∧
        compile (macros f) [] file = some E ∧ loadSrc (macros f) E (.ptr .solver 0) = some t ∧ t.last_rel_kkt = 0 ∧ ¬SameTail src t := by
    intro f hf on ht
    obtain ⟨file, hw⟩ := c59_writes prQ src sized f
    obtain ⟨E, hE⟩ := (c59_accepted_iff prQ src sized f hf file hw).2 ⟨fun x _ => prints x, ht⟩
    obtain ⟨⟨t, a, b⟩, -⟩ := c59_record_lost prQ src sized f hf file hw E hE on
    refine ⟨file, E, t, hw, hE, a, b, fun h => ?_⟩
    have := h.last_rel_kkt
    rw [b, Near, src] at this
    norm_num [abs_of_pos] at this
  simp only [List.forall_mem_cons, List.not_mem_nil, false_imp_iff, implies_true, and_true]
  exact ⟨key _ valid_profiling (.inl rfl) ⟨rfl, fits⟩, key _ valid_printing (.inr (.inl rfl)) ⟨rfl, fits⟩⟩

/-- Right after setup the file does not compile with profiling or printing. -/
example : ∀ f ∈ [profiling, printing], ∃ file, generate prQ new f = .ok file ∧ compile (macros f) [] file = none := by
  have key : ∀ f, Valid f → (f.profiling_enable = 1 ∨ f.printing_enable = 1 ∨ f.derivatives_enable = 1) →
      ∃ file, generate prQ new f = .ok file ∧ compile (macros f) [] file = none := by
    intro f hf on
    obtain ⟨file, hw⟩ := c59_writes prQ new sized_new f
    exact ⟨file, hw, c59_new_rejected prQ new sized_new f hf file hw pr_new on⟩
  simp only [List.forall_mem_cons, List.not_mem_nil, false_imp_iff, implies_true, and_true]
  exact ⟨key _ valid_profiling (.inl rfl), key _ valid_printing (.inr (.inl rfl))⟩

/-- The settings with the small `sigma` are valid; those of the generated solver are not. -/
example : validateSettings Osqp.Demo.cfg tiny.settings true = false ∧ ∃ file E, ∃ t : Src ℚ, generate prQ tiny vectors = .ok file ∧
    compile (macros vectors) [] file = some E ∧ loadSrc (macros vectors) E (.ptr .solver 0) = some t ∧ t.settings.sigma = 0 ∧
    validateSettings Osqp.Demo.cfg t.settings true = true := by
  refine ⟨by decide +kernel, ?_⟩
  obtain ⟨file, hw⟩ := c59_writes prQ tiny sized_tiny vectors
  obtain ⟨E, hE⟩ := (c59_accepted_iff prQ tiny sized_tiny vectors valid_vectors file hw).2
    ⟨fun x _ => prints x, by simp [TailFits, macros, vectors, prints]⟩
  obtain ⟨t, h⟩ := c59_tiny_sigma prQ rounds tiny sized_tiny vectors valid_vectors file hw E hE (by norm_num [tiny]) (by norm_num [tiny])
    Osqp.Demo.cfg
  exact ⟨file, E, t, hw, hE, h⟩

/-- A number that does not print: the file does not compile. -/
example : let pr : ℚ → Lit := fun x => if x = 10 ^ 10 then none else prQ x
    ∃ file, generate pr src vectors = .ok file ∧ compile (macros vectors) [] file = none := by
  intro pr
  obtain ⟨file, hw⟩ := c59_writes pr src sized vectors
  refine ⟨file, hw, ?_⟩
  by_contra hne
  obtain ⟨E, hE⟩ := Option.ne_none_iff_exists'.1 hne
  have := ((c59_accepted_iff pr src sized vectors valid_vectors file hw).1 ⟨E, hE⟩).1 (10 ^ 10) (by simp [Src.nums, src, Osqp.Demo.settings])
  simp [pr] at this

/-- The demo file has more than 90 declarations, with distinct identifiers. -/
example : ∃ file, generate prQ src matrices = .ok file ∧ 90 < file.length ∧ (file.map fun d => "my_" ++ d.nm.text).Nodup := by
  obtain ⟨w, c, -, -, h⟩ := generate_eq (pr := prQ) sized matrices
  refine ⟨_, h, ?_, c59_identifiers prQ src sized matrices _ h _⟩
  rw [← List.length_map (f := Decl.nm), file_names]
  decide +kernel

end Demo
end Osqp.Gen
