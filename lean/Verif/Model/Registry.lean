import Verif.Model.Field
/-
  Model of src/libiff/chunkregistry.c and defaultregistry.c.
-/
namespace Iff

/-- The function table of a chunk type (chunkregistry.h `IFF_ChunkType`): one of the library's own
tables, or the table of an application-defined chunk made of fields, written the way README.md and
tests/hello.c, tests/bye.c write it.  Simplification: an application table is one that reads,
writes and compares a fixed sequence of fields; `check` is an arbitrary predicate on the fields,
which reports a diagnostic when it fails (as tests/hello.c:85-96 does). -/
inductive Handler where
  /-- defaultregistry.c:42, the functions of rawchunk.c -/
  | raw
  /-- defaultregistry.c:33 -/
  | form
  /-- defaultregistry.c:32 -/
  | cat
  /-- defaultregistry.c:34 -/
  | list
  /-- defaultregistry.c:35 -/
  | prop
  /-- application-defined chunk -/
  | ext (fields : List Field) (check : List Val → Bool)

/-- chunkregistry.h `IFF_ChunkType`. -/
structure ChunkType where
  id : ID
  handler : Handler

/-- chunkregistry.h `IFF_ChunkTypesNode`: the linked list of nodes starting at a node, each an array
of chunk types (`[]` is the NULL pointer).  Simplification: the chain of parents is finite. -/
abbrev Chain := List (List ChunkType)

/-- chunkregistry.h `IFF_FormChunkTypes`. -/
structure FormChunkTypes where
  formType : ID
  chain : Chain

/-- chunkregistry.h `IFF_ChunkRegistry`. -/
structure Registry where
  formTypes : List FormChunkTypes
  global : Chain
  default : Handler

/-- chunkregistry.c:27-38 `compareFormChunkTypes`, 53-64 `compareChunkTypes`. -/
def cmpId (l r : ID) : Ordering :=
  if l.toNat < r.toNat then .lt else if l.toNat > r.toNat then .gt else .eq

/-- C library `bsearch`, as in glibc: `fuel` bounds the number of iterations (the interval shrinks
in every iteration, so `u - l` iterations are enough). -/
def bsearchLoop {α : Type} (key : α → ID) (arr : List α) (k : ID) : Nat → Nat → Nat → Option α
  | 0, _, _ => none
  | fuel + 1, l, u =>
    if l < u then
      let idx := (l + u) / 2
      match arr[idx]? with
      | none => none
      | some p =>
        match cmpId k (key p) with
        | .lt => bsearchLoop key arr k fuel l idx
        | .gt => bsearchLoop key arr k fuel (idx + 1) u
        | .eq => some p
    else none

/-- C library `bsearch` on a whole array. -/
def bsearch {α : Type} (key : α → ID) (arr : List α) (k : ID) : Option α :=
  bsearchLoop key arr k (arr.length + 1) 0 arr.length

/-- chunkregistry.c:40-51 `getFormChunkTypes`. -/
def getFormChunkTypes (r : Registry) (ft : ID) : Option FormChunkTypes :=
  bsearch FormChunkTypes.formType r.formTypes ft

/-- chunkregistry.c:66-83 `getChunkType`. -/
def getChunkType (id : ID) : Chain → Option ChunkType
  | [] => none
  | types :: parents =>
    match bsearch ChunkType.id types id with
    | some t => some t
    | none => getChunkType id parents

/-- chunkregistry.c:85-105 `IFF_findChunkType` (the function table it returns). -/
def findChunkType (r : Registry) (ft id : ID) : Handler :=
  let result :=
    match getFormChunkTypes r ft with
    | none => getChunkType id r.global
    | some f => getChunkType id f.chain
  match result with
  | none => r.default
  | some t => t.handler

/-- defaultregistry.c:31-36 `IFF_globalChunkTypes`. -/
def globalChunkTypes : List ChunkType :=
  [⟨idCAT, .cat⟩, ⟨idFORM, .form⟩, ⟨idLIST, .list⟩, ⟨idPROP, .prop⟩]

/-- defaultregistry.c:38-40 `IFF_globalChunkTypesNode`. -/
def globalNode : Chain := [globalChunkTypes]

/-- defaultregistry.c:44-46 `IFF_defaultChunkRegistry`. -/
def defaultRegistry : Registry := ⟨[], globalNode, .raw⟩

/-- defaultregistry.h:26-27 `IFF_EXTEND_DEFAULT_REGISTRY_WITH_FORM_CHUNK_TYPES`. -/
def extendDefaultWithFormTypes (fts : List FormChunkTypes) : Registry := ⟨fts, globalNode, .raw⟩

/-- iff.c:32-38 `selectChunkRegistry` (`none` is the NULL pointer). -/
def selectChunkRegistry : Option Registry → Registry
  | none => defaultRegistry
  | some r => r

end Iff
