import Verif.Gen.Names
import Verif.Gen.Model

/-!
# Names and paths of generated code (C60)
-/

namespace Osqp.Gen

theorem put_some {cap : ℕ} {t : List Char} (h : t.length < cap) : put cap t = some t := by simp [put, h]

theorem named_ok {pref : List Char} (h : pref.length ≤ 90) {v : String × Kind} (hv : v.1.toList.length ≤ 20) : named pref v = some () := by
  obtain ⟨b, k⟩ := v
  have hl : (pref ++ b.toList).length ≤ 110 := by
    have : b.toList.length ≤ 20 := hv
    simp only [List.length_append]; omega
  rw [named, put_some (by simp only [maxVar]; omega), Option.bind_some]
  dsimp only
  have add : ∀ {t : List Char} {e : String} {cap : ℕ}, t.length ≤ 120 → e.toList.length ≤ 10 → 200 ≤ cap → put cap (t ++ e.toList) = some (t ++ e.toList) := by
    intro t e cap h1 h2 h3
    refine put_some ?_
    simp only [List.length_append]; omega
  have cs : ∀ {t : List Char}, t.length ≤ 120 → cscSuffixes t = some () := by
    intro t ht
    have hc : 200 ≤ maxVar := by decide
    simp only [cscSuffixes, add ht (e := "_p") (by decide) hc, add ht (e := "_i") (by decide) hc, add ht (e := "_x") (by decide) hc]
    rfl
  generalize hn : pref ++ b.toList = name at hl
  cases k with
  | plain => rfl
  | vecf => rw [suffixes, add (by omega) (by decide) (by decide)]; rfl
  | veci => rw [suffixes, add (by omega) (by decide) (by decide)]; rfl
  | csc => exact cs (by omega)
  | mat =>
    rw [suffixes, add (by omega) (by decide) (by decide), Option.bind_some]
    refine cs ?_
    have : "_csc".toList.length = 4 := by decide
    simp only [List.length_append, this]; omega

theorem allNamed_ok {pref : List Char} (h : pref.length ≤ 90) {vs : List (String × Kind)} (hv : ∀ v ∈ vs, v.1.toList.length ≤ 20) :
    allNamed pref vs = some () := by
  induction vs with
  | nil => rfl
  | cons v vs ih => rw [allNamed, named_ok h (hv v (by simp)), Option.bind_some, ih fun u hu => hv u (by simp [hu])]

theorem genVars_short (rho mats rinv scal : Bool) : ∀ v ∈ genVars rho mats rinv scal, v.1.toList.length ≤ 20 := by
  cases rho <;> cases mats <;> cases rinv <;> cases scal <;> decide +kernel

/-- **C60, partial.** Code generation writes only inside its character arrays exactly if the file prefix has at most 90 characters, the
directory and the prefix together at most 1012, and the directory at most 1007.
Missing: nothing checks these limits, so for other arguments memory outside the arrays is written. -/
theorem c60_fits_iff_partial (dir pref : List Char) (rho mats rinv scal : Bool) :
    (paths dir pref rho mats rinv scal).isSome ↔ pref.length ≤ 90 ∧ dir.length + pref.length ≤ 1012 ∧ dir.length ≤ 1007 := by
  have l1 : "workspace".toList.length = 9 := by decide
  have l2 : ".h".toList.length = 2 := by decide
  have l3 : "_H".toList.length = 2 := by decide
  have l4 : ".c".toList.length = 2 := by decide
  have l5 : "emosqp.c".toList.length = 8 := by decide
  have l6 : "osqp_configure.h".toList.length = 16 := by decide
  constructor
  · intro h
    by_cases h1 : (pref ++ "workspace".toList).length < fileLen
    · by_cases h2 : (dir ++ (pref ++ "workspace".toList) ++ ".h".toList).length < pathLen
      · by_cases h3 : (dir ++ "osqp_configure.h".toList).length < pathLen
        · simp only [List.length_append, l1, l2, l6, fileLen, pathLen] at h1 h2 h3
          omega
        · exfalso
          have : definesName dir = none := by simp only [definesName, put, if_neg h3]
          simp only [paths, this] at h
          cases hi : incNames dir pref with
          | none => simp [hi] at h
          | some p =>
            cases hs : srcNames dir pref rho mats rinv scal with
            | none => simp [hi, hs] at h
            | some c =>
              cases he : exampleName dir with
              | none => simp [hi, hs, he] at h
              | some e => simp [hi, hs, he] at h
      · exfalso
        have : incNames dir pref = none := by
          simp only [incNames, put_some h1]
          simp only [put, Option.bind_eq_bind, Option.bind_some, if_neg h2, Option.bind_none]
        simp [paths, this] at h
    · exfalso
      have : incNames dir pref = none := by simp only [incNames, put, if_neg h1]; rfl
      simp [paths, this] at h
  · rintro ⟨h1, h2, h3⟩
    have a1 : put fileLen (pref ++ "workspace".toList) = some _ := put_some (by simp only [List.length_append, l1, fileLen]; omega)
    have a2 : put pathLen (dir ++ (pref ++ "workspace".toList) ++ ".h".toList) = some _ :=
      put_some (by simp only [List.length_append, l1, l2, pathLen]; omega)
    have a3 : put (fileLen + 2) (pref ++ "workspace".toList ++ "_H".toList) = some _ :=
      put_some (by simp only [List.length_append, l1, l3, fileLen]; omega)
    have a4 : put pathLen (dir ++ pref ++ "workspace".toList) = some _ := put_some (by simp only [List.length_append, l1, pathLen]; omega)
    have a5 : put (pathLen + 2) (dir ++ pref ++ "workspace".toList ++ ".c".toList) = some _ :=
      put_some (by simp only [List.length_append, l1, l4, pathLen]; omega)
    have a6 : put pathLen (dir ++ "emosqp.c".toList) = some _ := put_some (by simp only [List.length_append, l5, pathLen]; omega)
    have a7 : put pathLen (dir ++ "osqp_configure.h".toList) = some _ := put_some (by simp only [List.length_append, l6, pathLen]; omega)
    simp only [paths, incNames, srcNames, exampleName, definesName, a1, a2, a3, a4, a5, a6, a7, Option.bind_eq_bind, Option.bind_some,
      allNamed_ok h1 (genVars_short rho mats rinv scal)]
    rfl

/-- **C60, the paths.** If all texts fit, the files opened are the workspace header and source with the prefix, and the example and the
configuration header without it, all with the directory in front as it is given (nothing is put between them). -/
theorem c60_paths (dir pref : List Char) (rho mats rinv scal : Bool) (ps : List (List Char))
    (h : paths dir pref rho mats rinv scal = some ps) :
    ps = [dir ++ pref ++ "workspace.h".toList, dir ++ pref ++ "workspace.c".toList, dir ++ "emosqp.c".toList,
      dir ++ "osqp_configure.h".toList] := by
  have e : ∀ {cap t u}, put cap t = some u → u = t := by
    intro cap t u hu
    unfold put at hu
    split at hu
    · exact (Option.some.inj hu).symm
    · cases hu
  simp only [paths, incNames, srcNames, exampleName, definesName, Option.bind_eq_bind, Option.bind_eq_some_iff, Option.pure_def,
    Option.some.injEq] at h
  obtain ⟨p, ⟨f, hf, hh, hhf, g, -, rfl⟩, c, ⟨f', hf', c', hc', -, -, rfl⟩, ex, hex, d, hd, rfl⟩ := h
  rw [e hf] at hhf
  rw [e hf'] at hc'
  rw [e hhf, e hc', e hex, e hd]
  have w1 : "workspace.h".toList = "workspace".toList ++ ".h".toList := by decide
  have w2 : "workspace.c".toList = "workspace".toList ++ ".c".toList := by decide
  rw [w1, w2]
  simp only [List.append_assoc]

/-- With an ordinary directory and prefix everything fits. -/
example : (paths "out/".toList "mpc_".toList true true true true).isSome :=
  (c60_fits_iff_partial _ _ _ _ _ _).2 (by decide)

/-- The longest prefix that fits, and one character more. -/
example : (paths [] (List.replicate 90 'a') false false false false).isSome ∧
    ¬(paths [] (List.replicate 91 'a') false false false false).isSome :=
  ⟨(c60_fits_iff_partial _ _ _ _ _ _).2 (by simp), fun h => by simpa using (c60_fits_iff_partial _ _ _ _ _ _).1 h⟩

end Osqp.Gen
