import Mathlib.Data.List.Basic

/-!
# Names and paths of the code generator

`src/codegen.c` builds file names and identifiers with `sprintf` in arrays of fixed size. Strings are lists of characters, without the
final zero.
-/

namespace Osqp.Gen

/-- `char buf[cap]; sprintf(buf, …)` when the text is `t`: the final zero needs one more place. Writing outside the array is
undefined: `none`. -/
def put (cap : ℕ) (t : List Char) : Option (List Char) := if t.length < cap then some t else none

/-- codegen.c:13 `MAX_VAR_LENGTH`. -/
def maxVar : ℕ := 255

/-- codegen.c:16 `PATH_LENGTH`. -/
def pathLen : ℕ := 1024

/-- codegen.c:19 `FILE_LENGTH`. -/
def fileLen : ℕ := 100

/-- codegen.c:652-706 `codegen_inc`: the path of the header and its include guard (before conversion to upper case). -/
def incNames (dir pref : List Char) : Option (List Char × List Char) := do
  let fname ← put fileLen (pref ++ "workspace".toList)
  let hfname ← put pathLen (dir ++ fname ++ ".h".toList)
  let guard ← put (fileLen + 2) (fname ++ "_H".toList)
  return (hfname, guard)

/-- What a variable is: its writer makes further names from its name. -/
inductive Kind
  /-- `write_vecf`, `write_veci`: no further name. -/
  | plain
  /-- `write_OSQPVectorf`, codegen.c:80-84. -/
  | vecf
  /-- `write_OSQPVectori`, codegen.c:96-100. -/
  | veci
  /-- `write_csc`, codegen.c:117-125. -/
  | csc
  /-- `write_OSQPMatrix`, codegen.c:145-149. -/
  | mat

/-- codegen.c:117-125 `write_csc`: the names it makes. -/
def cscSuffixes (name : List Char) : Option Unit := do
  let _ ← put maxVar (name ++ "_p".toList)
  let _ ← put maxVar (name ++ "_i".toList)
  let _ ← put maxVar (name ++ "_x".toList)
  return ()

/-- The names made for one variable. -/
def suffixes (name : List Char) : Kind → Option Unit
  | .plain => some ()
  | .vecf => (put maxVar (name ++ "_val".toList)).map fun _ => ()
  | .veci => (put (maxVar + 4) (name ++ "_val".toList)).map fun _ => ()
  | .csc => cscSuffixes name
  | .mat => (put (maxVar + 4) (name ++ "_csc".toList)).bind cscSuffixes

/-- The variables named with `sprintf` in `write_data` (codegen.c:324-332), `write_linsys` (367-394), `write_workspace` (468-484) and
`write_scaling` (289-295). The flags: vector of step sizes, matrix updates, inverse step sizes in the linear system, scaling. -/
def genVars (rho mats rinv scal : Bool) : List (String × Kind) :=
  [("data_P", .mat), ("data_A", .mat), ("data_q", .vecf), ("data_l", .vecf), ("data_u", .vecf), ("linsys_L", .csc),
   ("linsys_Dinv", .plain), ("linsys_P", .plain)] ++
  (if rinv then [("linsys_rho_inv_vec", .plain)] else []) ++
  (if mats then [("linsys_KKT", .csc), ("linsys_PtoKKT", .plain), ("linsys_AtoKKT", .plain), ("linsys_rhotoKKT", .plain),
    ("linsys_D", .plain), ("linsys_etree", .plain), ("linsys_Lnz", .plain)] else []) ++
  (if rho then [("work_rho_vec", .vecf), ("work_rho_inv_vec", .vecf)] ++ (if mats then [("work_constr_type", .veci)] else []) else []) ++
  [("work_x", .vecf), ("work_y", .vecf), ("work_z", .vecf)] ++
  (if scal then [("scaling_D", .vecf), ("scaling_E", .vecf), ("scaling_Dinv", .vecf), ("scaling_Einv", .vecf)] else [])

/-- `sprintf(name, "%s…", prefix)` and the names made from it. -/
def named (pref : List Char) (v : String × Kind) : Option Unit := (put maxVar (pref ++ v.1.toList)).bind fun name => suffixes name v.2

/-- All of them, in order. -/
def allNamed (pref : List Char) : List (String × Kind) → Option Unit
  | [] => some ()
  | v :: vs => (named pref v).bind fun _ => allNamed pref vs

/-- codegen.c:709-747 `codegen_src`: the path of the source file. -/
def srcNames (dir pref : List Char) (rho mats rinv scal : Bool) : Option (List Char) := do
  let fname ← put pathLen (dir ++ pref ++ "workspace".toList)
  let cfname ← put (pathLen + 2) (fname ++ ".c".toList)
  let _ ← allNamed pref (genVars rho mats rinv scal)
  return cfname

/-- codegen.c:816-830 `codegen_example`: the path of the example. -/
def exampleName (dir : List Char) : Option (List Char) := put pathLen (dir ++ "emosqp.c".toList)

/-- codegen.c:750-760 `codegen_defines`: the path of the configuration header. -/
def definesName (dir : List Char) : Option (List Char) := put pathLen (dir ++ "osqp_configure.h".toList)

/-- osqp_api.c:1565-1568: the paths of the files opened by `osqp_codegen` when every writer succeeds, or `none` if some text does not
fit its array. -/
def paths (dir pref : List Char) (rho mats rinv scal : Bool) : Option (List (List Char)) := do
  let (h, _) ← incNames dir pref
  let c ← srcNames dir pref rho mats rinv scal
  let e ← exampleName dir
  let d ← definesName dir
  return [h, c, e, d]

end Osqp.Gen
