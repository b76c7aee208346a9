import Verif.Model.Read
/-
  The C heap: blocks, the allocator, and access to the members of the library's structs.

  Simplifications: pointers point to the start of a block; a block has one type from its allocation
  to its release; `unsigned int` lengths do not wrap around at 2^32 members.
-/
namespace Iff.Heap

/-- A pointer: 0 is NULL. -/
abbrev Addr := Nat

/-- The members of chunk.h `IFF_Chunk`, with which all chunk structs start. -/
structure Hdr where
  parent : Addr
  id : ID
  size : Int
  deriving DecidableEq, Repr

/-- The blocks the library allocates. -/
inductive Block where
  /-- rawchunk.h `IFF_RawChunk`: `chunkData` -/
  | raw (h : Hdr) (data : Addr)
  /-- group.h `IFF_Group`, form.h `IFF_Form`, cat.h `IFF_CAT`, prop.h `IFF_Prop`: the group type,
  `chunkLength`, `chunk` -/
  | grp (h : Hdr) (ty : ID) (len : Nat) (arr : Addr)
  /-- list.h `IFF_List`: as `IFF_Group`, and `propLength`, `prop` -/
  | lst (h : Hdr) (ty : ID) (len : Nat) (arr : Addr) (plen : Nat) (parr : Addr)
  /-- an application's struct, e.g. tests/hello.h -/
  | ext (h : Hdr) (vals : List Val)
  /-- an array of bytes; `none` is an uninitialised byte -/
  | bytes (cells : List (Option Byte))
  /-- an array of pointers; `none` is an uninitialised element -/
  | ptrs (cells : List (Option Addr))
  deriving DecidableEq, Repr

/-- The allocated blocks. -/
abbrev Mem := Addr → Option Block

/-- Change what is at one address. -/
def Mem.set (m : Mem) (a : Addr) (b : Option Block) : Mem := fun x => if x = a then b else m x

/-- The structs of chunks, which differ in size. -/
inductive SKind where
  /-- rawchunk.h `IFF_RawChunk` -/
  | raw
  /-- group.h `IFF_Group`, form.h `IFF_Form`, cat.h `IFF_CAT`, prop.h `IFF_Prop` -/
  | grp
  /-- list.h `IFF_List` -/
  | lst
  /-- an application's struct with fields of these kinds -/
  | ext (ks : List FieldKind)
  deriving DecidableEq, Repr

/-- The struct in a block. -/
def Block.skind : Block → SKind
  | .raw _ _ => .raw
  | .grp _ _ _ _ => .grp
  | .lst _ _ _ _ _ _ => .lst
  | .ext _ vals => .ext (vals.map Val.kind)
  | .bytes _ => .ext []
  | .ptrs _ => .ext []

/-- A request to the allocator. -/
inductive Req where
  /-- a chunk struct -/
  | struct (k : SKind)
  /-- `n` bytes -/
  | data (n : Nat)
  /-- an array of `n` pointers -/
  | array (n : Nat)
  deriving DecidableEq, Repr

/-- An allocator, as the library sees it: the address it returns may depend on the number of
requests so far (so that any failure schedule is covered) and on the whole heap; it is not NULL and
not in use, but may have been in use before.  `realloc0`: whether `realloc(p, 0)` frees `p` and
returns NULL. -/
structure Alloc where
  pick : Nat → Mem → Req → Option Addr
  sound : ∀ {t m q a}, pick t m q = some a → a ≠ 0 ∧ m a = none
  realloc0 : Bool

/-- The state of the library: the heap, the number of requests to the allocator so far, and the
stream being read with the diagnostics. -/
structure HS where
  mem : Mem
  tick : Nat
  rs : RS

/-- A computation on the stream. -/
def io {α : Type} (m : M RS α) : M HS α := fun s =>
  match m s.rs with
  | .val (a, rs) => .val (a, { s with rs := rs })
  | .ub u => .ub u
  | .loop => .loop

/-- C library `malloc`, with the contents of the new block. -/
def malloc (A : Alloc) (q : Req) (b : Block) : M HS Addr := fun s =>
  match A.pick s.tick s.mem q with
  | none => .val (0, { s with tick := s.tick + 1 })
  | some a => .val (a, { s with tick := s.tick + 1, mem := s.mem.set a (some b) })

/-- C library `realloc` of an array of pointers to `n` elements. -/
def reallocPtrs (A : Alloc) (p : Addr) (n : Nat) : M HS Addr := fun s =>
  if p = 0 then malloc A (.array n) (.ptrs (List.replicate n none)) s
  else
    match s.mem p with
    | some (.ptrs cells) =>
      if n = 0 ∧ A.realloc0 = true then
        .val (0, { s with tick := s.tick + 1, mem := s.mem.set p none })
      else
        match A.pick s.tick (s.mem.set p none) (.array n) with
        | none => .val (0, { s with tick := s.tick + 1 })
        | some a => .val (a, { s with
            tick := s.tick + 1
            mem := (s.mem.set p none).set a
              (some (.ptrs (cells.take n ++ List.replicate (n - cells.length) none))) })
    | some _ => .ub .wrongStruct
    | none => .ub .badFree

/-- C library `free`. -/
def free (p : Addr) : M HS Unit := fun s =>
  if p = 0 then .val ((), s)
  else
    match s.mem p with
    | some _ => .val ((), { s with mem := s.mem.set p none })
    | none => .ub .badFree

/-- The block a pointer points to. -/
def load (p : Addr) : M HS Block := fun s =>
  match s.mem p with
  | some b => .val (b, s)
  | none => .ub (if p = 0 then .nullDeref else .useAfterFree)

/-- Overwrite the block a pointer points to. -/
def store (p : Addr) (b : Block) : M HS Unit := fun s =>
  match s.mem p with
  | some _ => .val ((), { s with mem := s.mem.set p (some b) })
  | none => .ub (if p = 0 then .nullDeref else .useAfterFree)

/-! ### Members of structs -/

/-- The members of `IFF_Chunk` in a chunk struct. -/
def Block.hdr? : Block → Option Hdr
  | .raw h _ => some h
  | .grp h _ _ _ => some h
  | .lst h _ _ _ _ _ => some h
  | .ext h _ => some h
  | _ => none

/-- Replace the members of `IFF_Chunk`. -/
def Block.setHdr (h : Hdr) : Block → Block
  | .raw _ d => .raw h d
  | .grp _ t n a => .grp h t n a
  | .lst _ t n a pn pa => .lst h t n a pn pa
  | .ext _ v => .ext h v
  | b => b

/-- `IFF_Chunk *chunk`: `chunk->parent`, `chunk->chunkId`, `chunk->chunkSize`. -/
def getHdr (p : Addr) : M HS Hdr := do
  let b ← load p
  match b.hdr? with
  | some h => pure h
  | none => M.ub .wrongStruct

/-- Assignment to a member of `IFF_Chunk`. -/
def updHdr (p : Addr) (f : Hdr → Hdr) : M HS Unit := do
  let b ← load p
  match b.hdr? with
  | some h => store p (b.setHdr (f h))
  | none => M.ub .wrongStruct

/-- The members of `IFF_Group` after those of `IFF_Chunk`. -/
structure Grp where
  ty : ID
  len : Nat
  arr : Addr
  deriving DecidableEq, Repr

/-- The members of `IFF_Group` in a struct that starts with them. -/
def Block.grp? : Block → Option Grp
  | .grp _ t n a => some ⟨t, n, a⟩
  | .lst _ t n a _ _ => some ⟨t, n, a⟩
  | _ => none

/-- Replace the members of `IFF_Group`. -/
def Block.setGrp (g : Grp) : Block → Block
  | .grp h _ _ _ => .grp h g.ty g.len g.arr
  | .lst h _ _ _ pn pa => .lst h g.ty g.len g.arr pn pa
  | b => b

/-- `IFF_Group *group`: its members. -/
def getGrp (p : Addr) : M HS Grp := do
  let b ← load p
  match b.grp? with
  | some g => pure g
  | none => M.ub .wrongStruct

/-- Assignment to members of `IFF_Group`. -/
def updGrp (p : Addr) (f : Grp → Grp) : M HS Unit := do
  let b ← load p
  match b.grp? with
  | some g => store p (b.setGrp (f g))
  | none => M.ub .wrongStruct

/-- The members of `IFF_List` after those of `IFF_Group`. -/
structure Lst where
  plen : Nat
  parr : Addr
  deriving DecidableEq, Repr

/-- The members of `IFF_List` in an `IFF_List`. -/
def Block.lst? : Block → Option Lst
  | .lst _ _ _ _ pn pa => some ⟨pn, pa⟩
  | _ => none

/-- Replace the members of `IFF_List`. -/
def Block.setLst (l : Lst) : Block → Block
  | .lst h t n a _ _ => .lst h t n a l.plen l.parr
  | b => b

/-- `IFF_List *list`: its members. -/
def getLst (p : Addr) : M HS Lst := do
  let b ← load p
  match b.lst? with
  | some l => pure l
  | none => M.ub .wrongStruct

/-- Assignment to members of `IFF_List`. -/
def updLst (p : Addr) (f : Lst → Lst) : M HS Unit := do
  let b ← load p
  match b.lst? with
  | some l => store p (b.setLst (f l))
  | none => M.ub .wrongStruct

/-- `arr[i]` of an array of pointers. -/
def getPtr (arr : Addr) (i : Nat) : M HS Addr := do
  match ← load arr with
  | .ptrs cells =>
    match cells[i]? with
    | some (some a) => pure a
    | _ => M.ub .outOfBounds
  | _ => M.ub .wrongStruct

/-- `arr[i] = p`. -/
def setPtr (arr : Addr) (i : Nat) (p : Addr) : M HS Unit := do
  match ← load arr with
  | .ptrs cells =>
    if i < cells.length then store arr (.ptrs (cells.set i (some p))) else M.ub .outOfBounds
  | _ => M.ub .wrongStruct

end Iff.Heap
