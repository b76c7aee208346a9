import Verif.Heap.Update
import Verif.Model.Build
/-
  Building hierarchies with pointers: the create and add functions of group.c, form.c, cat.c, prop.c
  and list.c, and the functions of rawchunk.c that set data.
-/
namespace Iff.Heap

/-! ### Creation -/

/-- group.c:40-53 `IFF_createGroup` and `IFF_createEmptyGroup` (form.c:63-71, cat.c:30-43,
prop.c:34-42). -/
def createEmptyGroup (A : Alloc) (id ty : ID) : M HS Addr :=
  newStruct A (.grp ⟨0, id, idSize⟩ ty 0 0)

/-- list.c:30-53 `IFF_createList`, `IFF_createEmptyListWithContentsType`, `IFF_createEmptyList`. -/
def createEmptyList (A : Alloc) (ty : ID) : M HS Addr :=
  newStruct A (.lst ⟨0, idLIST, idSize⟩ ty 0 0 0 0)

/-- An application's create function (tests/hello.c:33-48), with the values the application assigns
to the members. -/
def createExt (A : Alloc) (id : ID) (size : Int) (vals : List Val) : M HS Addr :=
  newStruct A (.ext ⟨0, id, size⟩ vals)

/-! ### Data -/

/-- C library `memcpy(d, src, n)` from an array `src` outside the heap to the start of a block. -/
def copyBytes (d : Addr) (src : List Byte) (n : Nat) : M HS Unit := do
  match ← load d with
  | .bytes cells =>
    if n ≤ src.length ∧ n ≤ cells.length then
      store d (.bytes ((src.take n).map some ++ cells.drop n))
    else M.ub .outOfBounds
  | _ => M.ub .wrongStruct

/-- rawchunk.c:48-51 `IFF_copyDataToRawChunkData`. -/
def copyData (e : Env) (p : Addr) (data : List Byte) : M HS Unit := do
  match ← load p with
  | .raw h d => copyBytes d data (toSize e h.size)
  | _ => M.ub .wrongStruct

/-- rawchunk.c:53-57 `IFF_setRawChunkData`. -/
def setRawData (p d : Addr) (size : Int) : M HS Unit := do
  match ← load p with
  | .raw h _ => store p (.raw { h with size := size } d)
  | _ => M.ub .wrongStruct

/-- rawchunk.c:59-66 `IFF_setTextData`: `text` are the characters before the terminating NUL.  The
result of `malloc` is not checked (`memcpy` to NULL is undefined even for an empty text). -/
def setText (A : Alloc) (p : Addr) (text : List Byte) : M HS Unit := do
  let d ← malloc A (.data text.length) (.bytes (List.replicate text.length none))
  copyBytes d text text.length
  setRawData p d (wrapInt text.length)

/-- How applications make data chunks (tests/formdata.c:38-44): `IFF_createRawChunk`, then
`IFF_copyDataToRawChunkData`. -/
def newRaw (A : Alloc) (e : Env) (id : ID) (data : List Byte) : M HS Addr := do
  let p ← createRaw A e id data.length
  if p = 0 then pure 0
  else do
    copyData e p data
    pure p

/-! ### Adding -/

/-- group.c:71 and list.c:71: `group->chunkSize = IFF_incrementChunkSize(group->chunkSize, chunk)`. -/
def growSize (e : Env) (p c : Addr) : M HS Unit := do
  let h ← getHdr p
  let hc ← getHdr c
  let z ← M.ofOut (incrementChunkSize e h.size hc.size)
  updHdr p fun h => { h with size := z }

/-- group.c:68-72 `IFF_addToGroup` (form.c:78-81, cat.c:68-71, prop.c:49-52, list.c:74-77). -/
def addToGroup (A : Alloc) (e : Env) (p c : Addr) : M HS Unit := do
  attachToGroup A p c
  growSize e p c

/-- list.c:68-72 `IFF_addPropToList`. -/
def addPropToList (A : Alloc) (e : Env) (p c : Addr) : M HS Unit := do
  attachProp A p c
  growSize e p c

/-- cat.c:55-66 `updateContentsType`. -/
def updateContentsType (p c : Addr) : M HS Unit := do
  let h ← getHdr c
  if checkValidCATSubChunkId h.id then do
    let gc ← getGrp c
    updGrp p fun g => { g with ty := newContentsType (g.len = 0) g.ty gc.ty }
  else pure ()

/-- cat.c:73-77 `IFF_addToCATAndUpdateContentsType` and list.c:79-82
`IFF_addToListAndUpdateContentsType`. -/
def addAndUpdate (A : Alloc) (e : Env) (p c : Addr) : M HS Unit := do
  updateContentsType p c
  addToGroup A e p c

/-! ### What applications do -/

/-- The calls an application makes on its hierarchies. -/
inductive Op where
  /-- read a file with the given contents -/
  | read (reg : Option Registry) (bytes : List Byte)
  /-- create a data chunk with the given data -/
  | raw (id : ID) (data : List Byte)
  /-- create an empty FORM, CAT or PROP -/
  | group (id ty : ID)
  /-- create an empty LIST -/
  | list (ty : ID)
  /-- create an application chunk -/
  | ext (id : ID) (size : Int) (vals : List Val)
  /-- `IFF_addToForm`, `IFF_addToCAT`, `IFF_addToList`, `IFF_addToProp` -/
  | add (p c : Addr)
  /-- `IFF_addPropToList` -/
  | addProp (p c : Addr)
  /-- `IFF_addToCATAndUpdateContentsType`, `IFF_addToListAndUpdateContentsType` -/
  | addAuto (p c : Addr)
  /-- `IFF_updateChunkSizes` -/
  | update (fuel : Nat) (p : Addr)
  /-- `IFF_free` -/
  | free (reg : Option Registry) (fuel : Nat) (p : Addr)

/-- A call; the address of the new chunk if it creates one, otherwise 0. -/
def Op.run (A : Alloc) (e : Env) : Op → M HS Addr
  | .read reg bytes => fun s => readFd A e reg ⟨s.mem, s.tick, ⟨bytes, s.rs.log⟩⟩
  | .raw id data => newRaw A e id data
  | .group id ty => createEmptyGroup A id ty
  | .list ty => createEmptyList A ty
  | .ext id size vals => createExt A id size vals
  | .add p c => do addToGroup A e p c; pure 0
  | .addProp p c => do addPropToList A e p c; pure 0
  | .addAuto p c => do addAndUpdate A e p c; pure 0
  | .update n p => do updateSizes e n p; pure 0
  | .free reg n p => do iffFree reg n p; pure 0

end Iff.Heap
