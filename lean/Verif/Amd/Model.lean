import Verif.Csc.Mem

/-!
# The fill-reducing ordering (AMD)

`amd_order` and everything it calls (`algebra/_common/lin_sys/qdldl/amd/src/`), the way the library calls it: `Control` is `NULL`, so
aggressive absorption is on. Arrays are buffers whose accesses are checked (`Csc/Mem.lean`): `none` is undefined behaviour, that is, an access
outside an array or the reading of an element not yet written; it is also the outcome of a `while` loop that does not end within the
number of rounds given to it, so a theorem that says `some` says that the loops end.

Simplifications: the parts of the workspace `S` are arrays of their own. Signed integers do not overflow; `unsigned` sums wrap around at
`lim`. Allocation succeeds. Not modelled: the statistics in `Info`, and the debugging code (`NDEBUG` is always defined, amd_internal.h:36-38).
-/

namespace Osqp.Amd
open Csc

/-- amd_internal.h:107-108. -/
def flip (i : ℤ) : ℤ := -i - 2

variable {σ β : Type}

/-- A loop that may be left from the body: `.inl` is the state for the next round, `.inr` the state at its end. -/
def loop (step : σ → Option (σ ⊕ β)) : ℕ → σ → Option β
  | 0, _ => none
  | k + 1, s => (step s).bind fun r => match r with
    | .inl s => loop step k s
    | .inr b => some b

/-! ## `amd_valid.c` -/

/-- amd_valid.c:68-85: a column is scanned. The state is `(result, ilast)`, or nothing once the function has returned `AMD_INVALID`. -/
def validCol (n : ℤ) (Ai : Buf ℤ) (p : ℤ) : Option (ℤ × ℤ) → Option (Option (ℤ × ℤ))
  | none => some none
  | some (result, ilast) => do
    let i ← Ai.rd p
    if i < 0 ∨ i ≥ n then some none
    else some (some (if i ≤ ilast then 1 else result, i))

/-- amd_valid.c:39-92 `AMD_valid(n, n, Ap, Ai)`; 0 is `AMD_OK`, 1 `AMD_OK_BUT_JUMBLED`, -2 `AMD_INVALID`. -/
def valid (n : ℤ) (Ap Ai : Buf ℤ) : Option ℤ := do
  if n < 0 then return -2
  let nz ← Ap.rd n
  let p0 ← Ap.rd 0
  if p0 ≠ 0 ∨ nz < 0 then return -2
  let r ← forI 0 n (fun j (r : Option ℤ) => match r with
    | none => some none
    | some result => do
      let p1 ← Ap.rd j
      let p2 ← Ap.rd (j + 1)
      if p1 > p2 then return none
      let r ← forI p1 p2 (validCol n Ai) (some (result, -1))
      return r.map Prod.fst) (some 0)
  return r.getD (-2)

/-! ## `amd_preprocess.c` -/

/-- amd_preprocess.c:60-72 and :88-103: the entries are visited, each row once per column; `act i j` is what is done with a new one. -/
def distinct (n : ℤ) (Ap Ai : Buf ℤ) (act : ℤ → ℤ → σ → Option σ) (s : σ × Buf ℤ) : Option (σ × Buf ℤ) :=
  forI 0 n (fun j s => do
    let p2 ← Ap.rd (j + 1)
    let p1 ← Ap.rd j
    forI p1 p2 (fun p (s : σ × Buf ℤ) => do
      let i ← Ai.rd p
      let f ← s.2.rd i
      if f ≠ j then
        let s1 ← act i j s.1
        let Flag ← s.2.wr i j
        return (s1, Flag)
      else return s) s) s

/-- amd_preprocess.c:31-118 `AMD_preprocess`: `(Rp, Ri)` from fresh arrays; `W`, `Flag` are workspace. -/
def preprocess (n nz : ℤ) (Ap Ai W Flag : Buf ℤ) : Option (Buf ℤ × Buf ℤ × Buf ℤ × Buf ℤ) := do
  let (W, Flag) ← forI 0 n (fun i (s : Buf ℤ × Buf ℤ) => do
    let W ← s.1.wr i 0
    let Flag ← s.2.wr i (-1)
    return (W, Flag)) (W, Flag)
  let (W, Flag) ← distinct n Ap Ai (fun i _ (W : Buf ℤ) => do
    let w ← W.rd i
    W.wr i (w + 1)) (W, Flag)
  let Rp ← (Buf.fresh (n + 1)).wr 0 0
  let Rp ← forI 0 n (fun i (Rp : Buf ℤ) => do
    let r ← Rp.rd i
    let w ← W.rd i
    Rp.wr (i + 1) (r + w)) Rp
  let (W, Flag) ← forI 0 n (fun i (s : Buf ℤ × Buf ℤ) => do
    let r ← Rp.rd i
    let W ← s.1.wr i r
    let Flag ← s.2.wr i (-1)
    return (W, Flag)) (W, Flag)
  let ((W, Ri), Flag) ← distinct n Ap Ai (fun i j (s : Buf ℤ × Buf ℤ) => do
    let w ← s.1.rd i
    let Ri ← s.2.wr w j
    let W ← s.1.wr i (w + 1)
    return (W, Ri)) ((W, Buf.fresh nz), Flag)
  return (Rp, Ri, W, Flag)

/-! ## `amd_aat.c` and `amd_1.c` -/

/-- amd_aat.c:99-130, amd_1.c:122-155: the lower part of column `j`, from where the last scan stopped, up to row `k`. -/
def scanLower (Ap Ai : Buf ℤ) (act : ℤ → ℤ → σ → Option σ) (k j : ℤ) (s : σ × Buf ℤ) : Option (σ × Buf ℤ) := do
  let pj2 ← Ap.rd (j + 1)
  let pj ← s.2.rd j
  let r ← loop (fun (r : σ × ℤ) => do
    if r.2 < pj2 then
      let i ← Ai.rd r.2
      if i < k then
        let s1 ← act i j r.1
        return .inl (s1, r.2 + 1)
      else if i = k then return .inr (r.1, r.2 + 1)
      else return .inr r
    else return .inr r) ((pj2 - pj).toNat + 1) (s.1, pj)
  let Tp ← s.2.wr j r.2
  return (r.1, Tp)

/-- amd_aat.c:72-133, amd_1.c:94-158: column `k`. -/
def scanCol (Ap Ai : Buf ℤ) (act : ℤ → ℤ → σ → Option σ) (k : ℤ) (s : σ × Buf ℤ) : Option (σ × Buf ℤ) := do
  let p1 ← Ap.rd k
  let p2 ← Ap.rd (k + 1)
  let r ← loop (fun (r : (σ × Buf ℤ) × ℤ) => do
    if r.2 < p2 then
      let j ← Ai.rd r.2
      if j < k then
        let s1 ← act j k r.1.1
        let s ← scanLower Ap Ai act k j (s1, r.1.2)
        return .inl (s, r.2 + 1)
      else if j = k then return .inr (r.1, r.2 + 1)
      else return .inr r
    else return .inr r) ((p2 - p1).toNat + 1) (s, p1)
  let Tp ← r.1.2.wr k r.2
  return (r.1.1, Tp)

/-- The loops shared by amd_aat.c:70-148 and amd_1.c:92-170: every off-diagonal position of `A + A'` is visited once, in the same order in
the two functions; `act i j` is what they do with the pair. -/
def scanAAt (n : ℤ) (Ap Ai : Buf ℤ) (act : ℤ → ℤ → σ → Option σ) (s : σ × Buf ℤ) : Option (σ × Buf ℤ) := do
  let s ← forI 0 n (scanCol Ap Ai act) s
  forI 0 n (fun j s => do
    let pj ← s.2.rd j
    let pj2 ← Ap.rd (j + 1)
    let s1 ← forI pj pj2 (fun pj s1 => do
      let i ← Ai.rd pj
      act i j s1) s.1
    return (s1, s.2)) s

/-- `b[i]++`. -/
def incr (b : Buf ℤ) (i : ℤ) : Option (Buf ℤ) := do
  let v ← b.rd i
  b.wr i (v + 1)

/-- amd_aat.c:17-184 `AMD_aat`: `(nzaat, Len, Tp)`. -/
def aat (n : ℤ) (Ap Ai Len Tp : Buf ℤ) : Option (ℤ × Buf ℤ × Buf ℤ) := do
  let Len ← forI 0 n (fun k (b : Buf ℤ) => b.wr k 0) Len
  let (Len, Tp) ← scanAAt n Ap Ai (fun i j (Len : Buf ℤ) => do
    let Len ← incr Len i
    incr Len j) (Len, Tp)
  let nzaat ← forI 0 n (fun k s => do
    let l ← Len.rd k
    return s + l) 0
  return (nzaat, Len, Tp)

/-! ## `amd_2.c` -/

/-- The arrays of `AMD_2`. -/
structure Mem where
  Pe : Buf ℤ
  Iw : Buf ℤ
  Len : Buf ℤ
  Nv : Buf ℤ
  Next : Buf ℤ
  Last : Buf ℤ
  Head : Buf ℤ
  Elen : Buf ℤ
  Degree : Buf ℤ
  W : Buf ℤ

/-- Assignments to elements of the arrays. -/
def Mem.wPe (M : Mem) (i v : ℤ) : Option Mem := (M.Pe.wr i v).map fun b => { M with Pe := b }
def Mem.wIw (M : Mem) (i v : ℤ) : Option Mem := (M.Iw.wr i v).map fun b => { M with Iw := b }
def Mem.wLen (M : Mem) (i v : ℤ) : Option Mem := (M.Len.wr i v).map fun b => { M with Len := b }
def Mem.wNv (M : Mem) (i v : ℤ) : Option Mem := (M.Nv.wr i v).map fun b => { M with Nv := b }
def Mem.wNext (M : Mem) (i v : ℤ) : Option Mem := (M.Next.wr i v).map fun b => { M with Next := b }
def Mem.wLast (M : Mem) (i v : ℤ) : Option Mem := (M.Last.wr i v).map fun b => { M with Last := b }
def Mem.wHead (M : Mem) (i v : ℤ) : Option Mem := (M.Head.wr i v).map fun b => { M with Head := b }
def Mem.wElen (M : Mem) (i v : ℤ) : Option Mem := (M.Elen.wr i v).map fun b => { M with Elen := b }
def Mem.wDegree (M : Mem) (i v : ℤ) : Option Mem := (M.Degree.wr i v).map fun b => { M with Degree := b }
def Mem.wW (M : Mem) (i v : ℤ) : Option Mem := (M.W.wr i v).map fun b => { M with W := b }

/-- amd_2.c:681, :732, :816, :970, :1474: `if (inext != EMPTY) Last [inext] = v`. -/
def Mem.wLastOf (M : Mem) (inext v : ℤ) : Option Mem := if inext ≠ -1 then M.wLast inext v else some M

/-- amd_2.c:27-30. -/
def clearEntry (x : ℤ) (M : Mem) : Option Mem := do
  let w ← M.W.rd x
  if w ≠ 0 then M.wW x 1 else return M

/-- amd_2.c:22-35 `clear_flag`. -/
def clearFlag (n wbig wflg : ℤ) (M : Mem) : Option (ℤ × Mem) := do
  if wflg < 2 ∨ wflg ≥ wbig then
    let M ← forI 0 n clearEntry M
    return (2, M)
  else return (wflg, M)

/-- amd_2.c:607-623. -/
def initEntry (i : ℤ) (M : Mem) : Option Mem := do
  let M ← M.wLast i (-1)
  let M ← M.wHead i (-1)
  let M ← M.wNext i (-1)
  let M ← M.wNv i 1
  let M ← M.wW i 1
  let M ← M.wElen i 0
  let l ← M.Len.rd i
  M.wDegree i l

/-- amd_2.c:640-695: an empty row is eliminated, a dense one set apart, the others go to their degree list. The number is `nel`. -/
def listEntry (dense i : ℤ) (s : Mem × ℤ) : Option (Mem × ℤ) := do
  let deg ← s.1.Degree.rd i
  if deg = 0 then
    let M ← s.1.wElen i (flip 1)
    let M ← M.wPe i (-1)
    let M ← M.wW i 0
    return (M, s.2 + 1)
  else if deg > dense then
    let M ← s.1.wNv i 0
    let M ← M.wElen i (-1)
    let M ← M.wPe i (-1)
    return (M, s.2 + 1)
  else
    let inext ← s.1.Head.rd deg
    let M ← s.1.wLastOf inext i
    let M ← M.wNext i inext
    let M ← M.wHead deg i
    return (M, s.2)

/-- amd_2.c:726-731: the first non-empty degree list; the result is `(deg, me)`. -/
def findPivot (n : ℤ) (Head : Buf ℤ) (mindeg : ℤ) : Option (ℤ × ℤ) :=
  loop (fun (s : ℤ × ℤ) => do
    if s.1 < n then
      let me ← Head.rd s.1
      if me ≠ -1 then return .inr (s.1, me) else return .inl (s.1 + 1, me)
    else return .inr s) ((n - mindeg).toNat + 1) (mindeg, -1)

/-- amd_2.c:809-823 and :963-977: variable `i` is removed from its degree list. -/
def unlink (i : ℤ) (M : Mem) : Option Mem := do
  let ilast ← M.Last.rd i
  let inext ← M.Next.rd i
  let M ← M.wLastOf inext ilast
  if ilast ≠ -1 then M.wNext ilast inext
  else
    let d ← M.Degree.rd i
    M.wHead d inext

/-- amd_2.c:782-826: one entry of the list of `me`. State: `(memory, pme2, degme)`. -/
def inPlaceEntry (p : ℤ) (s : Mem × ℤ × ℤ) : Option (Mem × ℤ × ℤ) := do
  let i ← s.1.Iw.rd p
  let nvi ← s.1.Nv.rd i
  if nvi > 0 then
    let M ← s.1.wNv i (-nvi)
    let M ← M.wIw (s.2.1 + 1) i
    let M ← unlink i M
    return (M, s.2.1 + 1, s.2.2 + nvi)
  else return s

/-- amd_2.c:774-827: the new element is built in place. The result is `(memory, pme1, pme2, degme)`. -/
def constructInPlace (me : ℤ) (M : Mem) : Option (Mem × ℤ × ℤ × ℤ) := do
  let pme1 ← M.Pe.rd me
  let l ← M.Len.rd me
  let r ← forI pme1 (pme1 + l) inPlaceEntry (M, pme1 - 1, 0)
  return (r.1, pme1, r.2.1, r.2.2)

/-- amd_2.c:911-918: the first entry of a list goes to `Pe`, and the list is marked by its owner. -/
def markEntry (j : ℤ) (M : Mem) : Option Mem := do
  let pn ← M.Pe.rd j
  if pn ≥ 0 then
    let v ← M.Iw.rd pn
    let M ← M.wPe j v
    M.wIw pn (flip j)
  else return M

/-- amd_2.c:937-940: `Iw [pdst++] = Iw [psrc++]`. State: `(memory, psrc, pdst)`. -/
def copyEntry (_ : ℤ) (s : Mem × ℤ × ℤ) : Option (Mem × ℤ × ℤ) := do
  let v ← s.1.Iw.rd s.2.1
  let M ← s.1.wIw s.2.2 v
  return (M, s.2.1 + 1, s.2.2 + 1)

/-- amd_2.c:926-942: the search for the next list, which is moved. State: `(memory, psrc, pdst)`. -/
def moveStep (pend : ℤ) (s : Mem × ℤ × ℤ) : Option ((Mem × ℤ × ℤ) ⊕ (Mem × ℤ)) := do
  if s.2.1 ≤ pend then
    let v ← s.1.Iw.rd s.2.1
    let j := flip v
    if j ≥ 0 then
      let f ← s.1.Pe.rd j
      let M ← s.1.wIw s.2.2 f
      let M ← M.wPe j s.2.2
      let lenj ← M.Len.rd j
      let r ← forI 0 (lenj - 1) copyEntry (M, s.2.1 + 1, s.2.2 + 1)
      return .inl r
    else return .inl (s.1, s.2.1 + 1, s.2.2)
  else return .inr (s.1, s.2.2)

/-- amd_2.c:921-942: the lists in `Iw[0..pend]` are moved to the front. The result is the memory and `pdst`. -/
def gcMove (pend : ℤ) (M : Mem) : Option (Mem × ℤ) := loop (moveStep pend) ((pend + 1).toNat + 1) (M, 0, 0)

/-- amd_2.c:946-949: the unfinished element is moved. State: `(memory, pdst)`. -/
def moveNew (psrc : ℤ) (s : Mem × ℤ) : Option (Mem × ℤ) := do
  let v ← s.1.Iw.rd psrc
  let M ← s.1.wIw s.2 v
  return (M, s.2 + 1)

/-- The variables of the construction in empty space. -/
structure Build where
  M : Mem
  p : ℤ
  pj : ℤ
  pfree : ℤ
  pme1 : ℤ
  degme : ℤ

/-- amd_2.c:894-902: the lists being searched are shortened to what is left of them. -/
def shorten (me e ln knt1 knt2 : ℤ) (b : Build) : Option Mem := do
  let M ← b.M.wPe me b.p
  let l ← M.Len.rd me
  let M ← M.wLen me (l - knt1)
  let l ← M.Len.rd me
  let M ← (if l = 0 then M.wPe me (-1) else some M)
  let M ← M.wPe e b.pj
  let M ← M.wLen e (ln - knt2)
  let l ← M.Len.rd e
  if l = 0 then M.wPe e (-1) else return M

/-- amd_2.c:887-955: garbage collection, when `Iw` is full. -/
def collect (n me e ln knt1 knt2 : ℤ) (b : Build) : Option Build := do
  let M ← shorten me e ln knt1 knt2 b
  let M ← forI 0 n markEntry M
  let r ← gcMove (b.pme1 - 1) M
  let t ← forI b.pme1 b.pfree moveNew r
  let pj ← t.1.Pe.rd e
  let p ← t.1.Pe.rd me
  return { b with M := t.1, pme1 := r.2, pfree := t.2, pj := pj, p := p }

/-- amd_2.c:866-979: one entry of the list of `e`. -/
def buildEntry (n iwlen me e ln knt1 knt2 : ℤ) (b : Build) : Option Build := do
  let i ← b.M.Iw.rd b.pj
  let b := { b with pj := b.pj + 1 }
  let nvi ← b.M.Nv.rd i
  if nvi > 0 then
    let b ← (if b.pfree ≥ iwlen then collect n me e ln knt1 knt2 b else some b)
    let M ← b.M.wNv i (-nvi)
    let M ← M.wIw b.pfree i
    let M ← unlink i M
    return { b with M := M, pfree := b.pfree + 1, degme := b.degme + nvi }
  else return b

/-- amd_2.c:844-862: the list to be searched, that of an element of `me`, or of `me` itself in the last round. The result is `(e, ln)`
and the new `p`, `pj`. -/
def buildStart (me elenme slenme knt1 : ℤ) (b : Build) : Option (ℤ × ℤ × Build) := do
  if knt1 > elenme then return (me, slenme, { b with pj := b.p })
  else
    let e ← b.M.Iw.rd b.p
    let pj ← b.M.Pe.rd e
    let ln ← b.M.Len.rd e
    return (e, ln, { b with p := b.p + 1, pj := pj })

/-- amd_2.c:840-990: one list is searched; an element is then absorbed into `me`. -/
def buildList (n iwlen me elenme slenme : ℤ) (knt1 : ℤ) (b : Build) : Option Build := do
  let r ← buildStart me elenme slenme knt1 b
  let b ← forI 1 (r.2.1 + 1) (buildEntry n iwlen me r.1 r.2.1 knt1) r.2.2
  if r.1 ≠ me then
    let M ← b.M.wPe r.1 (flip me)
    let M ← M.wW r.1 0
    return { b with M := M }
  else return b

/-- The new element: memory, `pme1`, `pme2`, `degme`, and the end of the used part of `Iw`. -/
structure Elt where
  M : Mem
  pme1 : ℤ
  pme2 : ℤ
  degme : ℤ
  pfree : ℤ

/-- amd_2.c:829-994: the new element is built in the empty space. The result is `(memory, pme1, pme2, degme, pfree)`. -/
def constructInSpace (n iwlen me elenme : ℤ) (M : Mem) (pfree : ℤ) : Option Elt := do
  let p ← M.Pe.rd me
  let l ← M.Len.rd me
  let b ← forI 1 (elenme + 2) (buildList n iwlen me elenme (l - elenme)) { M := M, p := p, pj := 0, pfree := pfree, pme1 := pfree, degme := 0 }
  return ⟨b.M, b.pme1, b.pfree - 1, b.degme, b.pfree⟩

/-- amd_2.c:1055-1072: an element `e` of a variable of the new element. -/
def scan1Elem (wflg nvi : ℤ) (p : ℤ) (M : Mem) : Option Mem := do
  let e ← M.Iw.rd p
  let we ← M.W.rd e
  if we ≥ wflg then M.wW e (we - nvi)
  else if we ≠ 0 then
    let d ← M.Degree.rd e
    M.wW e (d + (wflg - nvi))
  else M.wW e we

/-- amd_2.c:1041-1074: scan 1, one variable of the new element. -/
def scan1Entry (wflg : ℤ) (pme : ℤ) (M : Mem) : Option Mem := do
  let i ← M.Iw.rd pme
  let eln ← M.Elen.rd i
  if eln > 0 then
    let nv ← M.Nv.rd i
    let pi ← M.Pe.rd i
    forI pi (pi + eln) (scan1Elem wflg (-nv)) M
  else return M

/-- The state of the scans of one list: `pn`, `hash`, `deg`. -/
structure Scan where
  M : Mem
  pn : ℤ
  hash : ℤ
  deg : ℤ

/-- amd_2.c:1100-1128: an element of variable `i`. -/
def scanElems (me wflg lim : ℤ) (p : ℤ) (s : Scan) : Option Scan := do
  let e ← s.M.Iw.rd p
  let we ← s.M.W.rd e
  if we ≠ 0 then
    if we - wflg > 0 then
      let M ← s.M.wIw s.pn e
      return { M := M, pn := s.pn + 1, hash := (s.hash + e) % lim, deg := s.deg + (we - wflg) }
    else
      let M ← s.M.wPe e (flip me)
      let M ← M.wW e 0
      return { s with M := M }
  else return s

/-- amd_2.c:1161-1176: a variable in the list of `i`. -/
def scanVars (lim : ℤ) (p : ℤ) (s : Scan) : Option Scan := do
  let j ← s.M.Iw.rd p
  let nvj ← s.M.Nv.rd j
  if nvj > 0 then
    let M ← s.M.wIw s.pn j
    return { M := M, pn := s.pn + 1, hash := (s.hash + j) % lim, deg := s.deg + nvj }
  else return s

/-- amd_2.c:1251-1276: `i` is placed in a hash bucket, whose head is kept in `Head` or in `Last`. -/
def bucket (i hash : ℤ) (M : Mem) : Option Mem := do
  let j ← M.Head.rd hash
  if j ≤ -1 then
    let M ← M.wNext i (flip j)
    let M ← M.wHead hash (flip i)
    M.wLast i hash
  else
    let l ← M.Last.rd j
    let M ← M.wNext i l
    let M ← M.wLast j i
    M.wLast i hash

/-- The numbers that scan 2 changes. -/
structure Piv where
  M : Mem
  degme : ℤ
  nvpiv : ℤ
  nel : ℤ

/-- amd_2.c:1186-1224: mass elimination of variable `i`. -/
def massElim (me i : ℤ) (M : Mem) (s : Piv) : Option Piv := do
  let M ← M.wPe i (flip me)
  let nv ← M.Nv.rd i
  let M ← M.wNv i 0
  let M ← M.wElen i (-1)
  return { M := M, degme := s.degme - -nv, nvpiv := s.nvpiv + -nv, nel := s.nel + -nv }

/-- amd_2.c:1229-1279: variable `i` gets the new element, and goes to its hash bucket. -/
def addElem (n me i p1 p3 : ℤ) (r : Scan) : Option Mem := do
  let d ← r.M.Degree.rd i
  let M ← r.M.wDegree i (min d r.deg)
  let v ← M.Iw.rd p3
  let M ← M.wIw r.pn v
  let v ← M.Iw.rd p1
  let M ← M.wIw p3 v
  let M ← M.wIw p1 me
  let M ← M.wLen i (r.pn - p1 + 1)
  bucket i (r.hash % n) M

/-- amd_2.c:1086-1279: scan 2, one variable of the new element. -/
def scan2Entry (n me wflg lim : ℤ) (pme : ℤ) (s : Piv) : Option Piv := do
  let i ← s.M.Iw.rd pme
  let p1 ← s.M.Pe.rd i
  let eln ← s.M.Elen.rd i
  let r ← forI p1 (p1 + eln) (scanElems me wflg lim) { M := s.M, pn := p1, hash := 0, deg := 0 }
  let p3 := r.pn
  let M ← r.M.wElen i (p3 - p1 + 1)
  let l ← M.Len.rd i
  let r ← forI (p1 + eln) (p1 + l) (scanVars lim) { r with M := M }
  let eln ← r.M.Elen.rd i
  if eln = 1 ∧ p3 = r.pn then massElim me i r.M s
  else
    let M ← addElem n me i p1 p3 r
    return { s with M := M }

/-- amd_2.c:1321-1344: the hash bucket of `i` is taken; the result is its first variable. -/
def takeBucket (hash : ℤ) (M : Mem) : Option (ℤ × Mem) := do
  let j ← M.Head.rd hash
  if j = -1 then return (-1, M)
  else if j < -1 then
    let M ← M.wHead hash (-1)
    return (flip j, M)
  else
    let i ← M.Last.rd j
    let M ← M.wLast j (-1)
    return (i, M)

/-- amd_2.c:1391-1397: does the list of `j`, without its first entry, consist of marked nodes? -/
def sameList (wflg pj ln : ℤ) (M : Mem) (ok : Bool) : Option Bool :=
  forI (pj + 1) (pj + ln) (fun p (ok : Bool) => do
    if ok then
      let x ← M.Iw.rd p
      let w ← M.W.rd x
      return decide (w = wflg)
    else return false) ok

/-- amd_2.c:1386-1397: have `i` and `j` the same list? -/
def same (ln eln wflg j : ℤ) (M : Mem) : Option Bool := do
  let lj ← M.Len.rd j
  let ej ← M.Elen.rd j
  let pj ← M.Pe.rd j
  sameList wflg pj ln M (decide (lj = ln) && decide (ej = eln))

/-- amd_2.c:1398-1418: `j` is absorbed into `i`. The result is the memory and the next `j`. -/
def absorb (i j jlast : ℤ) (M : Mem) : Option (Mem × ℤ) := do
  let M ← M.wPe j (flip i)
  let a ← M.Nv.rd i
  let b ← M.Nv.rd j
  let M ← M.wNv i (a + b)
  let M ← M.wNv j 0
  let M ← M.wElen j (-1)
  let j' ← M.Next.rd j
  let M ← M.wNext jlast j'
  return (M, j')

/-- amd_2.c:1378-1428: the variables after `i` in the bucket; those with the same list are absorbed. State: `(memory, jlast, j)`. -/
def absorbLoop (i ln eln wflg : ℤ) (s : Mem × ℤ × ℤ) : Option ((Mem × ℤ × ℤ) ⊕ Mem) := do
  if s.2.2 ≠ -1 then
    let ok ← same ln eln wflg s.2.2 s.1
    if ok = true then
      let r ← absorb i s.2.2 s.2.1 s.1
      return .inl (r.1, s.2.1, r.2)
    else
      let j' ← s.1.Next.rd s.2.2
      return .inl (s.1, s.2.2, j')
  else return .inr s.1

/-- amd_2.c:1360-1366: `W [Iw [p]] = wflg`. -/
def markList (wflg : ℤ) (p : ℤ) (M : Mem) : Option Mem := do
  let x ← M.Iw.rd p
  M.wW x wflg

/-- amd_2.c:1349-1440: the pairs of a bucket. State: `(memory, i, wflg)`. -/
def detectLoop (n : ℤ) (s : Mem × ℤ × ℤ) : Option ((Mem × ℤ × ℤ) ⊕ (Mem × ℤ)) := do
  if s.2.1 ≠ -1 then
    let j ← s.1.Next.rd s.2.1
    if j ≠ -1 then
      let ln ← s.1.Len.rd s.2.1
      let eln ← s.1.Elen.rd s.2.1
      let pi ← s.1.Pe.rd s.2.1
      let M ← forI (pi + 1) (pi + ln) (markList s.2.2) s.1
      let M ← loop (absorbLoop s.2.1 ln eln s.2.2) (n.toNat + 1) (M, s.2.1, j)
      let i' ← M.Next.rd s.2.1
      return .inl (M, i', s.2.2 + 1)
    else return .inr (s.1, s.2.2)
  else return .inr (s.1, s.2.2)

/-- amd_2.c:1300-1443: supervariable detection, one variable of the new element. State: `(memory, wflg)`. -/
def detectEntry (n : ℤ) (pme : ℤ) (s : Mem × ℤ) : Option (Mem × ℤ) := do
  let i ← s.1.Iw.rd pme
  let nv ← s.1.Nv.rd i
  if nv < 0 then
    let hash ← s.1.Last.rd i
    let r ← takeBucket hash s.1
    loop (detectLoop n) (n.toNat + 1) (r.2, r.1, s.2)
  else return s

/-- amd_2.c:1450-1495: degree lists restored, absorbed variables dropped from the element. State: `(memory, p, mindeg)`. -/
def restoreEntry (nleft degme : ℤ) (pme : ℤ) (s : Mem × ℤ × ℤ) : Option (Mem × ℤ × ℤ) := do
  let i ← s.1.Iw.rd pme
  let nv ← s.1.Nv.rd i
  if -nv > 0 then
    let M ← s.1.wNv i (-nv)
    let d ← M.Degree.rd i
    let deg := min (d + degme - -nv) (nleft - -nv)
    let inext ← M.Head.rd deg
    let M ← M.wLastOf inext i
    let M ← M.wNext i inext
    let M ← M.wLast i (-1)
    let M ← M.wHead deg i
    let M ← M.wDegree i deg
    let M ← M.wIw s.2.1 i
    return (M, s.2.1 + 1, min s.2.2 deg)
  else return s

/-- The variables of the main loop. -/
structure Main where
  M : Mem
  pfree : ℤ
  mindeg : ℤ
  nel : ℤ
  wflg : ℤ
  lemax : ℤ

/-- amd_2.c:726-751: the pivot is chosen and removed from its degree list. The result is the memory, `deg` and `me`. -/
def choose (n mindeg : ℤ) (M : Mem) : Option (Mem × ℤ × ℤ) := do
  let r ← findPivot n M.Head mindeg
  let inext ← M.Next.rd r.2
  let M ← M.wLastOf inext (-1)
  let M ← M.wHead r.1 inext
  return (M, r.1, r.2)

/-- amd_2.c:766-1007: the new element is built. -/
def construct (n iwlen me elenme : ℤ) (M : Mem) (pfree : ℤ) : Option Elt := do
  if elenme = 0 then
    let r ← constructInPlace me M
    return ⟨r.1, r.2.1, r.2.2.1, r.2.2.2, pfree⟩
  else constructInSpace n iwlen me elenme M pfree

/-- amd_2.c:1001-1009. -/
def header (me nvpiv : ℤ) (b : Elt) : Option Mem := do
  let M ← b.M.wDegree me b.degme
  let M ← M.wPe me b.pme1
  let M ← M.wLen me (b.pme2 - b.pme1 + 1)
  M.wElen me (flip (nvpiv + b.degme))

/-- amd_2.c:1502-1518: the end of a round. -/
def close (me nvpiv pme1 p : ℤ) (M : Mem) : Option Mem := do
  let M ← M.wNv me nvpiv
  let M ← M.wLen me (p - pme1)
  let l ← M.Len.rd me
  if l = 0 then
    let M ← M.wPe me (-1)
    M.wW me 0
  else return M

/-- amd_2.c:701-1558: one round of the main loop. -/
def eliminate (n iwlen wbig lim : ℤ) (s : Main) : Option Main := do
  let c ← choose n s.mindeg s.M
  let me := c.2.2
  let elenme ← c.1.Elen.rd me
  let nvpiv ← c.1.Nv.rd me
  let M ← c.1.wNv me (-nvpiv)
  let b ← construct n iwlen me elenme M s.pfree
  let M ← header me nvpiv b
  let f ← clearFlag n wbig s.wflg M
  let M ← forI b.pme1 (b.pme2 + 1) (scan1Entry f.1) f.2
  let r ← forI b.pme1 (b.pme2 + 1) (scan2Entry n me f.1 lim) { M := M, degme := b.degme, nvpiv := nvpiv, nel := s.nel + nvpiv }
  let M ← r.M.wDegree me r.degme
  let f ← clearFlag n wbig (f.1 + max s.lemax r.degme) M
  let d ← forI b.pme1 (b.pme2 + 1) (detectEntry n) (f.2, f.1)
  let t ← forI b.pme1 (b.pme2 + 1) (restoreEntry (n - r.nel) r.degme) (d.1, b.pme1, c.2.1)
  let M ← close me r.nvpiv b.pme1 t.2.1 t.1
  return { M := M, pfree := if elenme ≠ 0 then t.2.1 else b.pfree, mindeg := t.2.2, nel := r.nel, wflg := d.2, lemax := max s.lemax r.degme }

/-! ## The ordering from the assembly tree -/

/-- amd_post_tree.c:37-120 `AMD_post_tree`. State: `(Child, Order, Stack, head, k)`. -/
def postTree (nn root k : ℤ) (Sibling Child Order Stack : Buf ℤ) : Option (ℤ × Buf ℤ × Buf ℤ × Buf ℤ) := do
  let Stack ← Stack.wr 0 root
  loop (fun (s : Buf ℤ × Buf ℤ × Buf ℤ × ℤ × ℤ) => do
    let (Child, Order, Stack, head, k) := s
    if head ≥ 0 then
      let i ← Stack.rd head
      let c ← Child.rd i
      if c ≠ -1 then
        let head ← loop (fun (s : ℤ × ℤ) => do
          if s.1 ≠ -1 then
            let f ← Sibling.rd s.1
            return .inl (f, s.2 + 1)
          else return .inr s.2) (nn.toNat + 1) (c, head)
        let Stack ← loop (fun (s : Buf ℤ × ℤ × ℤ) => do
          if s.2.1 ≠ -1 then
            let Stack ← s.1.wr s.2.2 s.2.1
            let f ← Sibling.rd s.2.1
            return .inl (Stack, f, s.2.2 - 1)
          else return .inr s.1) (nn.toNat + 1) (Stack, c, head)
        let Child ← Child.wr i (-1)
        return .inl (Child, Order, Stack, head, k)
      else
        let Order ← Order.wr i k
        return .inl (Child, Order, Stack, head - 1, k + 1)
    else return .inr (k, Child, Order, Stack)) (2 * nn.toNat + 1) (Child, Order, Stack, 0, k)

/-- amd_postorder.c:129-146: the biggest child of a node. State: `(f, fprev, maxfrsize, bigfprev, bigf)`; the result is `(fprev, bigfprev, bigf)`. -/
def biggest (nn : ℤ) (Fsize Sibling : Buf ℤ) (f : ℤ) : Option (ℤ × ℤ × ℤ) :=
  loop (fun (s : ℤ × ℤ × ℤ × ℤ × ℤ) => do
    let (f, fprev, maxfrsize, bigfprev, bigf) := s
    if f ≠ -1 then
      let frsize ← Fsize.rd f
      let g ← Sibling.rd f
      if frsize ≥ maxfrsize then return .inl (g, f, frsize, fprev, f) else return .inl (g, f, maxfrsize, bigfprev, bigf)
    else return .inr (fprev, bigfprev, bigf)) (nn.toNat + 1) (f, -1, -1, -1, -1)

/-- amd_postorder.c:17-206 `AMD_postorder`: the new `Order`, `Child`, `Sibling`, `Stack`. -/
def postorder (nn : ℤ) (Parent Nv Fsize Order Child Sibling Stack : Buf ℤ) : Option (Buf ℤ × Buf ℤ × Buf ℤ × Buf ℤ) := do
  let (Child, Sibling) ← forI 0 nn (fun j (s : Buf ℤ × Buf ℤ) => do
    let Child ← s.1.wr j (-1)
    let Sibling ← s.2.wr j (-1)
    return (Child, Sibling)) (Child, Sibling)
  let (Child, Sibling) ← forI 0 nn (fun r (s : Buf ℤ × Buf ℤ) => do
    let j := nn - 1 - r
    let nv ← Nv.rd j
    if nv > 0 then
      let parent ← Parent.rd j
      if parent ≠ -1 then
        let c ← s.1.rd parent
        let Sibling ← s.2.wr j c
        let Child ← s.1.wr parent j
        return (Child, Sibling)
      else return s
    else return s) (Child, Sibling)
  let (Child, Sibling) ← forI 0 nn (fun i (s : Buf ℤ × Buf ℤ) => do
    let nv ← Nv.rd i
    if nv > 0 then
      let c ← s.1.rd i
      if c ≠ -1 then
        let (fprev, bigfprev, bigf) ← biggest nn Fsize s.2 c
        let fnext ← s.2.rd bigf
        if fnext ≠ -1 then
          let s ← if bigfprev = -1 then do
              let Child ← s.1.wr i fnext
              pure (Child, s.2)
            else do
              let Sibling ← s.2.wr bigfprev fnext
              pure (s.1, Sibling)
          let Sibling ← s.2.wr bigf (-1)
          let Sibling ← Sibling.wr fprev bigf
          return (s.1, Sibling)
        else return s
      else return s
    else return s) (Child, Sibling)
  let Order ← forI 0 nn (fun i (b : Buf ℤ) => b.wr i (-1)) Order
  let (_, Child, Order, Stack) ← forI 0 nn (fun i (s : ℤ × Buf ℤ × Buf ℤ × Buf ℤ) => do
    let par ← Parent.rd i
    if par = -1 then
      let nv ← Nv.rd i
      if nv > 0 then postTree nn i s.1 Sibling s.2.1 s.2.2.1 s.2.2.2 else return s
    else return s) (0, Child, Order, Stack)
  return (Order, Child, Sibling, Stack)

/-- amd_2.c:1703-1751: every non-principal variable is made to point to its element. -/
def compressPaths (n : ℤ) (Nv Pe : Buf ℤ) : Option (Buf ℤ) :=
  forI 0 n (fun i (Pe : Buf ℤ) => do
    let nv ← Nv.rd i
    if nv = 0 then
      let j ← Pe.rd i
      if j = -1 then return Pe
      let e ← loop (fun (j : ℤ) => do
        let nv ← Nv.rd j
        if nv = 0 then
          let j ← Pe.rd j
          return .inl j
        else return .inr j) (n.toNat + 1) j
      loop (fun (s : Buf ℤ × ℤ) => do
        let nv ← Nv.rd s.2
        if nv = 0 then
          let jnext ← s.1.rd s.2
          let Pe ← s.1.wr s.2 e
          return .inl (Pe, jnext)
        else return .inr s.1) (n.toNat + 1) (Pe, i)
    else return Pe) Pe

/-- amd_2.c:1769-1842: the permutation (second array) and its inverse. -/
def permutation (n : ℤ) (Pe Nv W Head Next Last : Buf ℤ) : Option (Buf ℤ × Buf ℤ) := do
  let (Head, Next) ← forI 0 n (fun k (s : Buf ℤ × Buf ℤ) => do
    let Head ← s.1.wr k (-1)
    let Next ← s.2.wr k (-1)
    return (Head, Next)) (Head, Next)
  let Head ← forI 0 n (fun e (Head : Buf ℤ) => do
    let k ← W.rd e
    if k ≠ -1 then Head.wr k e else return Head) Head
  let (Next, nel) ← loop (fun (s : Buf ℤ × ℤ × ℤ) => do
    let (Next, nel, k) := s
    if k < n then
      let e ← Head.rd k
      if e = -1 then return .inr (Next, nel)
      let Next ← Next.wr e nel
      let nv ← Nv.rd e
      return .inl (Next, nel + nv, k + 1)
    else return .inr (Next, nel)) (n.toNat + 1) (Next, 0, 0)
  let (Next, _) ← forI 0 n (fun i (s : Buf ℤ × ℤ) => do
    let nv ← Nv.rd i
    if nv = 0 then
      let e ← Pe.rd i
      if e ≠ -1 then
        let v ← s.1.rd e
        let Next ← s.1.wr i v
        let v ← Next.rd e
        let Next ← Next.wr e (v + 1)
        return (Next, s.2)
      else
        let Next ← s.1.wr i s.2
        return (Next, s.2 + 1)
    else return s) (Next, nel)
  let Last ← forI 0 n (fun i (Last : Buf ℤ) => do
    let k ← Next.rd i
    Last.wr k i) Last
  return (Next, Last)

/-- amd_2.c:1640-1842: the part after the main loop. The result is `(Next, Last)`, the inverse permutation and the permutation. -/
def finish (n : ℤ) (M : Mem) : Option (Buf ℤ × Buf ℤ) := do
  let Pe ← forI 0 n (fun i (b : Buf ℤ) => do
    let v ← b.rd i
    b.wr i (flip v)) M.Pe
  let Elen ← forI 0 n (fun i (b : Buf ℤ) => do
    let v ← b.rd i
    b.wr i (flip v)) M.Elen
  let Pe ← compressPaths n M.Nv Pe
  let (W, Head, Next, Last) ← postorder n Pe M.Nv Elen M.W M.Head M.Next M.Last
  permutation n Pe M.Nv W Head Next Last

/-- amd_2.c:42-1842 `AMD_2`. `dense0` is `(Int) (alpha * sqrt(n))`, `imax` is `Int_MAX`. -/
def amd2 (n iwlen dense0 imax lim : ℤ) (M : Mem) (pfree : ℤ) : Option (Buf ℤ × Buf ℤ) := do
  let dense := min n (max 16 dense0)
  let M ← forI 0 n initEntry M
  let wbig := imax - n
  let f ← clearFlag n wbig 0 M
  let r ← forI 0 n (listEntry dense) (f.2, 0)
  let s ← loop (fun (s : Main) => do
    if s.nel < n then
      let s ← eliminate n iwlen wbig lim s
      return .inl s
    else return .inr s) (n.toNat + 1) { M := r.1, pfree := pfree, mindeg := 0, nel := r.2, wflg := f.1, lemax := 0 }
  finish n s.M

/-- amd_1.c:31-180 `AMD_1`: the result is `(Pinv, P)`. The arrays `Pinv`, `P`, `Len` are given, the others are parts of the new workspace. -/
def amd1 (n dense0 imax lim : ℤ) (Ap Ai P Pinv Len : Buf ℤ) (slen : ℤ) : Option (Buf ℤ × Buf ℤ) := do
  let iwlen := slen - 6 * n
  let (Pe, Sp, pfree) ← forI 0 n (fun j (s : Buf ℤ × Buf ℤ × ℤ) => do
    let Pe ← s.1.wr j s.2.2
    let Sp ← s.2.1.wr j s.2.2
    let l ← Len.rd j
    return (Pe, Sp, s.2.2 + l)) (Buf.fresh n, Buf.fresh n, 0)
  let ((Iw, Sp), Tp) ← scanAAt n Ap Ai (fun i j (s : Buf ℤ × Buf ℤ) => do
    let a ← s.2.rd i
    let Iw ← s.1.wr a j
    let Sp ← s.2.wr i (a + 1)
    let b ← Sp.rd j
    let Iw ← Iw.wr b i
    let Sp ← Sp.wr j (b + 1)
    return (Iw, Sp)) ((Buf.fresh iwlen, Sp), Buf.fresh n)
  amd2 n iwlen dense0 imax lim ⟨Pe, Iw, Len, Sp, Pinv, P, Buf.fresh n, Buf.fresh n, Buf.fresh n, Tp⟩ pfree

/-- amd_order.c:20-199 `AMD_order`: status and the array `P`. -/
def order (n dense0 imax lim : ℤ) (Ap Ai P : Buf ℤ) : Option (ℤ × Buf ℤ) := do
  if n < 0 then return (-2, P)
  if n = 0 then return (0, P)
  let nz ← Ap.rd n
  if nz < 0 then return (-2, P)
  let status ← valid n Ap Ai
  if status = -2 then return (-2, P)
  let (Cp, Ci, Len, Pinv) ← if status = 1 then do
      let (Rp, Ri, W, Flag) ← preprocess n nz Ap Ai (Buf.fresh n) (Buf.fresh n)
      pure (Rp, Ri, W, Flag)
    else some (Ap, Ai, Buf.fresh n, Buf.fresh n)
  let (nzaat, Len, P) ← aat n Cp Ci Len P
  let slen := nzaat + nzaat / 5 + 7 * n
  let (_, P) ← amd1 n dense0 imax lim Cp Ci P Pinv Len slen
  return (status, P)

end Osqp.Amd
