import Verif.Heap.Mem
/-
  The read path and the release of chunks, with pointers: chunk.c:32-78, 108-113, rawchunk.c:30-46,
  68-84, 109-113, group.c:33-111, 199-207, list.c:30-66, 84-128, 213-228, iff.c:40-61, 122-125.

  Recursion is by fuel as in Model/Read.lean; `IFF_freeChunk` uses one unit per nesting level.
-/
namespace Iff.Heap

/-! ### Creation -/

/-- chunk.c:32-44 `IFF_createChunk`, with the remaining members of the struct as the caller sets
them at once: rawchunk.c:36 aside, group.c:33-48 `IFF_initGroup` and `IFF_createGroup`,
list.c:30-43 `IFF_createList`, or an application's create function. -/
def newStruct (A : Alloc) (b : Block) : M HS Addr := malloc A (.struct b.skind) b

/-- rawchunk.c:30-46 `IFF_createRawChunk`.  (Until line 36 the member `chunkData` is not
initialised; it is not read before that.) -/
def createRaw (A : Alloc) (e : Env) (id : ID) (size : Int) : M HS Addr := do
  let p ← newStruct A (.raw ⟨0, id, size⟩ 0)
  if p = 0 then pure 0
  else
    let d ← malloc A (.data (toSize e size)) (.bytes (List.replicate (toSize e size) none))
    if d = 0 then do
      free p
      pure 0
    else do
      store p (.raw ⟨0, id, size⟩ d)
      pure p

/-- chunkregistry.h:43 `createExtensionChunk`, as in Model/Read.lean `createChunk`. -/
def create (A : Alloc) (e : Env) (h : Handler) (id : ID) (size : Int) : M HS Addr :=
  match h with
  | .raw => createRaw A e id size
  | .form => newStruct A (.grp ⟨0, id, size⟩ 0 0 0)
  | .cat => newStruct A (.grp ⟨0, id, size⟩ 0 0 0)
  | .prop => newStruct A (.grp ⟨0, id, size⟩ 0 0 0)
  | .list => newStruct A (.lst ⟨0, idLIST, size⟩ 0 0 0 0 0)
  | .ext fields _ => newStruct A (.ext ⟨0, id, size⟩ (fields.map fun f => f.kind.zero))

/-! ### Release -/

/-- group.c:203-204: `for(i = 0; i < group->chunkLength; i++) IFF_freeChunk(group->chunk[i],
group->groupType, …)`, `k` iterations from `i`.  (`chunkLength` is not changed by the loop.) -/
def freeMembers (freeChunk : ID → Addr → M HS Unit) (p : Addr) : Nat → Nat → M HS Unit
  | 0, _ => pure ()
  | k + 1, i => do
    let g ← getGrp p
    let c ← getPtr g.arr i
    freeChunk g.ty c
    freeMembers freeChunk p k (i + 1)

/-- group.c:199-207 `IFF_freeGroup` (form.c:179-182, cat.c:127-130, prop.c:86-89). -/
def freeGroup (freeChunk : ID → Addr → M HS Unit) (p : Addr) : M HS Unit := do
  let g ← getGrp p
  freeMembers freeChunk p g.len 0
  let g ← getGrp p
  free g.arr

/-- list.c:217-218: the loop of `freeListPropChunks`, `k` iterations from `i`. -/
def freeProps (freeChunk : ID → Addr → M HS Unit) (p : Addr) : Nat → Nat → M HS Unit
  | 0, _ => pure ()
  | k + 1, i => do
    let l ← getLst p
    let c ← getPtr l.parr i
    let g ← getGrp p
    freeChunk g.ty c
    freeProps freeChunk p k (i + 1)

/-- list.c:221-228 `IFF_freeList`. -/
def freeList (freeChunk : ID → Addr → M HS Unit) (p : Addr) : M HS Unit := do
  freeGroup freeChunk p
  let l ← getLst p
  freeProps freeChunk p l.plen 0
  let l ← getLst p
  free l.parr

/-- chunk.c:108-113 `IFF_freeChunk`; the raw branch is rawchunk.c:109-113 `IFF_freeRawChunk`.  The
free function of an application-defined chunk does nothing, as in tests/hello.c:95-97. -/
def freeChunk (r : Registry) : Nat → ID → Addr → M HS Unit
  | 0, _, _ => M.loop
  | n + 1, ft, p => do
    let h ← getHdr p
    match findChunkType r ft h.id with
    | .raw =>
      match ← load p with
      | .raw _ d => free d
      | _ => M.ub .wrongStruct
    | .form => freeGroup (freeChunk r n) p
    | .cat => freeGroup (freeChunk r n) p
    | .prop => freeGroup (freeChunk r n) p
    | .list => freeList (freeChunk r n) p
    | .ext _ _ => pure ()
    free p

/-! ### Attaching a chunk -/

/-- group.c:60-66 `IFF_attachToGroup`.  The result of `realloc` is not checked. -/
def attachToGroup (A : Alloc) (p c : Addr) : M HS Unit := do
  let g ← getGrp p
  let a ← reallocPtrs A g.arr (g.len + 1)
  updGrp p fun g => { g with arr := a }
  let g ← getGrp p
  setPtr g.arr g.len c
  updGrp p fun g => { g with len := g.len + 1 }
  updHdr c fun h => { h with parent := p }

/-- list.c:60-66 `addPropToList`.  The result of `realloc` is not checked. -/
def attachProp (A : Alloc) (p c : Addr) : M HS Unit := do
  let l ← getLst p
  let a ← reallocPtrs A l.parr (l.plen + 1)
  updLst p fun l => { l with parr := a }
  let l ← getLst p
  setPtr l.parr l.plen c
  updLst p fun l => { l with plen := l.plen + 1 }
  updHdr c fun h => { h with parent := p }

/-! ### Reading -/

/-- rawchunk.c:68-84 `IFF_readRawChunk`: success, `*bytesProcessed`. -/
def readRaw (e : Env) (p : Addr) (bp : Int) : M HS (Bool × Int) := do
  match ← load p with
  | .raw h d =>
    let data ← io (fread (toSize e h.size))
    match ← load d with
    | .bytes cells =>
      if data.length ≤ cells.length then do
        store d (.bytes (data.map some ++ cells.drop data.length))
        if data.length < toSize e h.size then do
          io (RS.emit (.rawRead h.id))
          pure (false, bp)
        else do
          let bp' ← M.ofOut (addInt bp h.size)
          pure (true, bp')
      else M.ub .outOfBounds
    | _ => M.ub .wrongStruct
  | _ => M.ub .wrongStruct

/-- The read function of an application-defined chunk: success, `*bytesProcessed`. -/
def readExt (e : Env) (fields : List Field) (p : Addr) (bp : Int) : M HS (Bool × Int) := do
  match ← load p with
  | .ext h vals =>
    let (ok, vals', bp') ← io (readExtFields e h.id h.size fields vals [] bp)
    store p (.ext h vals')
    pure (ok, bp')
  | _ => M.ub .wrongStruct

/-- field.c `IFF_readIdField(file, &group->groupType, chunk, name, bytesProcessed)`. -/
def readTypeField (e : Env) (name : String) (p : Addr) (bp : Int) : M HS (FieldStatus × Int) := do
  let h ← getHdr p
  let g ← getGrp p
  let (st, v, bp') ← io (readField e .id h.id h.size name (.id g.ty) bp)
  updGrp p fun g => { g with ty := v.toId }
  pure (st, bp')

/-- chunkregistry.h:44 `readExtensionChunkFields`: group.c:97-111 `IFF_readGroup`, list.c:110-128
`IFF_readList`, and the functions above; `subs` and `listSubs` are the two loops below. -/
def readFields (e : Env) (subs listSubs : Addr → Int → M HS (Bool × Int)) :
    Handler → Addr → M HS (Bool × Int)
  | .raw, p => readRaw e p 0
  | .ext fields _, p => readExt e fields p 0
  | .form, p => do
    let (st, bp) ← readTypeField e "formType" p 0
    match st with
    | .more => subs p bp
    | st => pure (deriveSuccess st, bp)
  | .prop, p => do
    let (st, bp) ← readTypeField e "formType" p 0
    match st with
    | .more => subs p bp
    | st => pure (deriveSuccess st, bp)
  | .cat, p => do
    let (st, bp) ← readTypeField e "contentsType" p 0
    match st with
    | .more => subs p bp
    | st => pure (deriveSuccess st, bp)
  | .list, p => do
    let (st, bp) ← readTypeField e "contentsType" p 0
    match st with
    | .more =>
      let (ok, bp) ← listSubs p bp
      if ok then pure (true, bp)
      else do
        io (RS.emit .listRead)
        pure (false, bp)
    | st => pure (deriveSuccess st, bp)

/-- chunk.c:56-65: the rest of `readChunkBody` after the fields have been read; `n` is for
`IFF_freeChunk`. -/
def finish (e : Env) (r : Registry) (n : Nat) (ft : ID) (p : Addr) (size : Int) (ok : Bool)
    (bp : Int) : M HS Addr := do
  let ok ← (if ok then do
    let h ← getHdr p
    if ← io (skipUnknownBytes e h.id size bp) then do
      let h ← getHdr p
      io (readPaddingByte size h.id)
    else pure false
  else pure false)
  if ok then pure p
  else do
    freeChunk r n ft p
    pure 0

mutual

/-- chunk.c:68-78 `IFF_readChunk` followed by chunk.c:46-66 `readChunkBody`. -/
def readChunk (A : Alloc) (e : Env) (r : Registry) : Nat → ID → M HS Addr
  | 0, _ => M.loop
  | n + 1, ft => do
    match ← io (readId e idEMPTY "") with
    | none => pure 0
    | some id =>
      match ← io (readLong e id "chunkSize") with
      | none => pure 0
      | some sz =>
        let size := sz.toInt
        let h := findChunkType r ft id
        let p ← create A e h id size
        if p = 0 then pure 0
        else do
          let (ok, bp) ← readFields e (readGroupSubs A e r n) (readListSubs A e r n) h p
          finish e r (n + 1) ft p size ok bp

/-- group.c:74-95 `readGroupSubChunks`; `group->chunkSize` is an access to an `IFF_Group`. -/
def readGroupSubs (A : Alloc) (e : Env) (r : Registry) : Nat → Addr → Int → M HS (Bool × Int)
  | 0, _, _ => M.loop
  | n + 1, p, bp => do
    let h ← getHdr p
    let g ← getGrp p
    if bp < h.size then do
      let c ← readChunk A e r n g.ty
      if c = 0 then pure (false, bp)
      else do
        attachToGroup A p c
        let hc ← getHdr c
        let bp' ← M.ofOut (incrementChunkSize e bp hc.size)
        readGroupSubs A e r n p bp'
    else if bp > h.size then do
      io (RS.emit (.truncGroup h.size))
      pure (true, bp)
    else pure (true, bp)

/-- list.c:84-108 `readListSubChunks`; `list->chunkSize` is an access to an `IFF_List`. -/
def readListSubs (A : Alloc) (e : Env) (r : Registry) : Nat → Addr → Int → M HS (Bool × Int)
  | 0, _, _ => M.loop
  | n + 1, p, bp => do
    let h ← getHdr p
    let _ ← getLst p
    if bp < h.size then do
      let g ← getGrp p
      let c ← readChunk A e r n g.ty
      if c = 0 then pure (false, bp)
      else do
        let hc ← getHdr c
        if hc.id = idPROP then attachProp A p c
        else attachToGroup A p c
        let hc ← getHdr c
        let bp' ← M.ofOut (incrementChunkSize e bp hc.size)
        readListSubs A e r n p bp'
    else if bp > h.size then do
      io (RS.emit (.truncList h.size))
      pure (true, bp)
    else pure (true, bp)

end

/-- iff.c:40-61 `IFF_readFd`. -/
def readFd (A : Alloc) (e : Env) (reg : Option Registry) : M HS Addr := fun s =>
  (do
    let p ← readChunk A e (selectChunkRegistry reg) (s.rs.inp.length + 4) 0
    if p = 0 then do
      io (RS.emit .mainChunk)
      pure 0
    else do
      match ← io fgetc with
      | some b => do
        io (RS.emit (.trailing b.toNat))
        pure p
      | none => pure p : M HS Addr) s

/-- iff.c:63-83 `IFF_readFile` and 85-91 `IFF_read`: the file's contents, `none` if `fopen` fails.
(The blocks the C library allocates for the `FILE` are not modelled; `fclose` is always called.) -/
def readFile (A : Alloc) (e : Env) (reg : Option Registry) (name : String)
    (contents : Option (List Byte)) : M HS Addr := fun s =>
  match contents with
  | none => .val (0, { s with rs := { s.rs with log := s.rs.log ++ [.cannotOpen name] } })
  | some bs => readFd A e reg { s with rs := ⟨bs, s.rs.log⟩ }

/-- iff.c:122-125 `IFF_free`; `n` bounds the nesting depth. -/
def iffFree (reg : Option Registry) (n : Nat) (p : Addr) : M HS Unit :=
  freeChunk (selectChunkRegistry reg) n 0 p

end Iff.Heap
