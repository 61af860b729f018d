import Verif.Mem.Heap

/-!
# Programs that allocate and release structures of pointers

`osqp_setup` is a straight-line sequence of allocations into pointer fields with checks in between; `osqp_cleanup` is a
sequence of frees.  Both are written as data (`List Instr`, `List Block`) and run by the interpreters below, so that the
text of the programs in `Mem/Setup.lean` can be compared with the C text line by line.  A *slot* is a pointer variable or a
pointer field; `parent` says in which structure a field lies.  Every access to a field of a structure that is not allocated,
every read of an uninitialised pointer, every dereference of a null pointer and every free of a block that is not live is
undefined behaviour.
-/

namespace Osqp.Mem

/-- The value of a pointer variable: indeterminate (never written, or its block has been freed), null, or pointing to an object. -/
inductive Ptr
  | uninit
  | null
  | obj (o : Obj)
deriving DecidableEq

/-- The blocks a pointer owns. -/
def Ptr.blocks : Ptr → Obj
  | .obj o => o
  | _ => []

/-- Is it a pointer to an object. -/
def Ptr.isObj : Ptr → Bool
  | .obj _ => true
  | _ => false

/-- How the pointer slots are laid out in structures. -/
class Layout (σ : Type) where
  /-- the structure whose field the slot is (`none`: a variable) -/
  parent : σ → Option σ
  /-- all pointer fields of the structure a slot points to -/
  kids : σ → List σ

/-- The state: the heap, the slots, and the slots whose allocation has failed so far. -/
structure St (σ : Type) where
  heap : Heap
  ptr : σ → Ptr
  failed : List σ

/-- Outcome of initialising the linear-system solver: it is there (with `k + 1` blocks), or an error code and a null pointer
(qdldl_interface.c:349-363: on every error path the structure is freed and `*sp = OSQP_NULL`). -/
inductive Sub
  | ok (k : ℕ)
  | err (code : ℤ)
deriving DecidableEq

/-- Instructions. -/
inductive Instr (σ : Type)
  /-- `s = c_calloc(1, sizeof(T))` (`zeroed`) or `s = c_malloc(sizeof(T))` -/
  | struct (s : σ) (zeroed : Bool)
  /-- `s = OSQPVectorX_malloc/calloc/new(.., length)` -/
  | vec (s : σ) (length : ℕ)
  /-- `s = OSQPMatrix_new_from_csc(..)` -/
  | mat (s : σ)
  /-- `s = OSQPVectorf_view(base, ..)`: dereferences `base` if the block for the view was allocated -/
  | view (s base : σ)
  /-- `s = c_calloc(1, bytes)`; a null result for zero bytes is not a failure -/
  | raw (s : σ) (bytes : ℕ)
  /-- `s = OSQP_NULL` -/
  | null (s : σ)
  /-- `if (!l₁ || !l₂ || …) return code` -/
  | check (l : List σ) (code : ℤ)
  /-- a call that dereferences the pointers in `l` (and allocates nothing) -/
  | use (l : List σ)
  /-- `exitflag = init_linsys_solver(&s, ..); if (exitflag) return exitflag` -/
  | initSub (s : σ) (res : Sub)

/-- How a program ends. -/
inductive Out (σ : Type)
  | ub (st : St σ)
  | ret (st : St σ) (code : ℤ)

/-- How an instruction ends. -/
inductive Step (σ : Type)
  | go (st : St σ)
  | stop (o : Out σ)

section
variable {σ : Type} [DecidableEq σ] [Layout σ] (fails : ℕ → Bool)

/-- The structure a field lies in is allocated. -/
def St.open (st : St σ) (s : σ) : Bool :=
  match Layout.parent s with
  | none => true
  | some p => (st.ptr p).isObj

/-- `s = result of a constructor`; `counts`: a null result is a failed allocation. -/
def St.store (st : St σ) (s : σ) (counts : Bool) (r : Heap × Option Obj) : St σ :=
  match r.2 with
  | none => { heap := r.1, ptr := Function.update st.ptr s .null, failed := if counts then s :: st.failed else st.failed }
  | some o => { st with heap := r.1, ptr := Function.update st.ptr s (.obj o) }

/-- Runs a constructor and stores its result in `s`. -/
def make (st : St σ) (s : σ) (counts : Bool) (r : Option (Heap × Option Obj)) : Step σ :=
  if st.open s then
    match r with
    | none => .stop (.ub st)
    | some r => .go (st.store s counts r)
  else .stop (.ub st)

/-- The fields of a structure after its allocation. -/
def St.fields (st : St σ) (s : σ) (v : Ptr) : St σ :=
  { st with ptr := fun t => if t ∈ Layout.kids s then v else st.ptr t }

/-- `if (!l₁ || …) return code`, left to right. -/
def checkAll (st : St σ) (code : ℤ) : List σ → Step σ
  | [] => .go st
  | s :: l =>
    if st.open s then
      match st.ptr s with
      | .uninit => .stop (.ub st)
      | .null => .stop (.ret st code)
      | .obj _ => checkAll st code l
    else .stop (.ub st)

/-- One instruction. -/
def step (st : St σ) : Instr σ → Step σ
  | .struct s zeroed =>
    if st.open s then
      let r := malloc fails st.heap
      match r.2 with
      | none => .go (st.store s true (r.1, none))
      | some b => .go ((st.fields s (if zeroed then .null else .uninit)).store s true (r.1, some [b]))
    else .stop (.ub st)
  | .vec s length => make st s true (newVec fails length st.heap)
  | .mat s => make st s true (newMat fails st.heap)
  | .view s base =>
    if (malloc fails st.heap).2.isSome ∧ ¬ (st.open base ∧ (st.ptr base).isObj) then .stop (.ub st)
    else make st s true (newBlock fails st.heap)
  | .raw s bytes => make st s (decide (bytes ≠ 0)) (newBlock fails st.heap)
  | .null s => if st.open s then .go { st with ptr := Function.update st.ptr s .null } else .stop (.ub st)
  | .check l code => checkAll st code l
  | .use l => if l.all fun s => st.open s && (st.ptr s).isObj then .go st else .stop (.ub st)
  | .initSub s res =>
    if st.open s then
      match res with
      | .ok k => let r := grab (k + 1) st.heap; .go (st.store s true (r.1, some r.2))
      | .err code => .stop (.ret { st with ptr := Function.update st.ptr s .null } code)
    else .stop (.ub st)

/-- A program; at its end it returns 0. -/
def run (st : St σ) : List (Instr σ) → Out σ
  | [] => .ret st 0
  | i :: is =>
    match step fails st i with
    | .stop o => o
    | .go st => run st is

/-! ## Releasing -/

/-- `free(s)` of the object a pointer field points to (nothing for a null pointer); the pointer is indeterminate afterwards. -/
def freeSlot (st : St σ) (s : σ) : Option (St σ) :=
  if st.open s then
    match st.ptr s with
    | .uninit => none
    | .null => some st
    | .obj o => (freeAll st.heap o).bind fun h => some { st with heap := h, ptr := Function.update st.ptr s .uninit }
  else none

/-- `if (guard) { free(s₁); free(s₂); … }`; without a guard the frees are unconditional. -/
structure Block (σ : Type) where
  guard : Option σ
  frees : List σ

/-- Runs one block. -/
def runBlock (st : St σ) (b : Block σ) : Option (St σ) :=
  match b.guard with
  | none => b.frees.foldlM freeSlot st
  | some g =>
    if st.open g then
      match st.ptr g with
      | .uninit => none
      | .null => some st
      | .obj _ => b.frees.foldlM freeSlot st
    else none

end
end Osqp.Mem
