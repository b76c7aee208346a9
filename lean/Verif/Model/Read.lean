import Verif.Model.Chunk
/-
  Model of the read path: chunk.c:46-78, rawchunk.c:68-84, group.c:74-111, list.c:84-128,
  form.c:83, cat.c:79, prop.c:54, iff.c:40-91, and the read functions of application-defined chunks.

  Recursion is by `fuel`: each call of `IFF_readChunk` and each loop iteration in a group uses one
  unit.  Running out of fuel is the outcome `loop`; C15 shows it never happens when the fuel is
  larger than the input.

  Simplifications: struct allocations succeed (the raw data allocation may fail, `Env.mallocOk`);
  `IFF_freeChunk` of a partially read chunk has no effect here (both are modelled in Verif/Heap).
-/
namespace Iff

/-- chunkregistry.h:43 `createExtensionChunk`: rawchunk.c:30-46 `IFF_createRawChunk`,
form.c:73-76, cat.c:45-48, prop.c:44-47 via group.c:55-58 `IFF_createUnparsedGroup`,
list.c:55-58 `IFF_createUnparsedList` (which ignores the chunk id), and e.g. tests/hello.c:29-41.
The uninitialised raw data is represented by `[]`; it is always overwritten or dropped. -/
def createChunk (e : Env) (h : Handler) (id : ID) (size : Int) : Option Chunk :=
  match h with
  | .raw => if e.mallocOk (toSize e size) then some (.raw id size []) else none
  | .form => some (.grp id size 0 [])
  | .cat => some (.grp id size 0 [])
  | .prop => some (.grp id size 0 [])
  | .list => some (.lst idLIST size 0 [] [])
  | .ext fields _ => some (.ext id size (fields.map fun f => f.kind.zero))

/-- rawchunk.c:68-84 `IFF_readRawChunk`: success, data, `*bytesProcessed`. -/
def readRawChunk (e : Env) (id : ID) (size bp : Int) : M RS (Bool × List Byte × Int) := do
  let data ← fread (toSize e size)
  if data.length < toSize e size then
    RS.emit (.rawRead id); pure (false, data, bp)
  else
    let bp' ← M.ofOut (addInt bp size)
    pure (true, data, bp')

/-- The read function of an application-defined chunk, e.g. tests/hello.c:48-63,
tests/bye.c:47-59: one read per field, stopping at the first status other than `MORE`.
`done` holds the fields already read, `cur` the current values of the remaining fields. -/
def readExtFields (e : Env) (id : ID) (size : Int) :
    List Field → List Val → List Val → Int → M RS (Bool × List Val × Int)
  | f :: fs, v :: vs, done, bp => do
    let (st, v', bp') ← readField e f.kind id size f.name v bp
    match st with
    | .more => readExtFields e id size fs vs (done ++ [v']) bp'
    | st => pure (deriveSuccess st, done ++ v' :: vs, bp')
  | _, vs, done, bp => pure (true, done ++ vs, bp)

/-- The value of an ID field. -/
def Val.toId : Val → ID
  | .id v => v
  | _ => 0

/-- chunk.c:56-59: what follows the creation of the chunk: skip unknown bytes and the padding byte
(`ok` is the result of the field reader). -/
def finishChunk (e : Env) (size : Int) (ok : Bool) (c : Chunk) (bp : Int) :
    M RS (Option Chunk) := do
  if ok then
    if ← skipUnknownBytes e c.id size bp then
      if ← readPaddingByte size c.id then pure (some c) else pure none
    else pure none
  else pure none

mutual

/-- chunk.c:68-78 `IFF_readChunk` followed by chunk.c:46-66 `readChunkBody`; the group branch is
group.c:97-111 `IFF_readGroup` (called by form.c:83-86, cat.c:79-82, prop.c:54-57), the list branch
is list.c:110-128 `IFF_readList`. -/
def readChunk (e : Env) (r : Registry) : Nat → ID → M RS (Option Chunk)
  | 0, _ => M.loop
  | n + 1, ft => do
    match ← readId e idEMPTY "" with
    | none => pure none
    | some id =>
      match ← readLong e id "chunkSize" with
      | none => pure none
      | some sz =>
        let size := sz.toInt
        let h := findChunkType r ft id
        match createChunk e h id size with
        | none => pure none
        | some (.raw id size _) => do
          let (ok, data, bp) ← readRawChunk e id size 0
          finishChunk e size ok (.raw id size data) bp
        | some (.ext id size vals) =>
          match h with
          | .ext fields _ => do
            let (ok, vals, bp) ← readExtFields e id size fields vals [] 0
            finishChunk e size ok (.ext id size vals) bp
          | _ => M.ub .wrongStruct
        | some (.grp id size ty subs) => do
          let (st, v, bp) ← readField e .id id size
            (match h with | .cat => "contentsType" | _ => "formType") (.id ty) 0
          match st with
          | .more =>
            let (ok, subs, bp) ← readGroupSubChunks e r n v.toId size subs bp
            finishChunk e size ok (.grp id size v.toId subs) bp
          | st => finishChunk e size (deriveSuccess st) (.grp id size v.toId subs) bp
        | some (.lst id size ty subs props) => do
          let (st, v, bp) ← readField e .id id size "contentsType" (.id ty) 0
          match st with
          | .more =>
            let (ok, subs, props, bp) ← readListSubChunks e r n v.toId size subs props bp
            if ok then finishChunk e size true (.lst id size v.toId subs props) bp
            else do RS.emit .listRead; pure none
          | st => finishChunk e size (deriveSuccess st) (.lst id size v.toId subs props) bp

/-- group.c:74-95 `readGroupSubChunks`: success, sub chunks, `*bytesProcessed`. -/
def readGroupSubChunks (e : Env) (r : Registry) :
    Nat → ID → Int → List Chunk → Int → M RS (Bool × List Chunk × Int)
  | 0, _, _, _, _ => M.loop
  | n + 1, ty, size, subs, bp =>
    if bp < size then do
      match ← readChunk e r n ty with
      | none => pure (false, subs, bp)
      | some c =>
        let bp' ← M.ofOut (incrementChunkSize e bp c.size)
        readGroupSubChunks e r n ty size (subs ++ [c]) bp'
    else if bp > size then do
      RS.emit (.truncGroup size); pure (true, subs, bp)
    else pure (true, subs, bp)

/-- list.c:84-108 `readListSubChunks`: success, sub chunks, PROP chunks, `*bytesProcessed`. -/
def readListSubChunks (e : Env) (r : Registry) :
    Nat → ID → Int → List Chunk → List Chunk → Int →
      M RS (Bool × List Chunk × List Chunk × Int)
  | 0, _, _, _, _, _ => M.loop
  | n + 1, ty, size, subs, props, bp =>
    if bp < size then do
      match ← readChunk e r n ty with
      | none => pure (false, subs, props, bp)
      | some c =>
        let bp' ← M.ofOut (incrementChunkSize e bp c.size)
        if c.id = idPROP then readListSubChunks e r n ty size subs (props ++ [c]) bp'
        else readListSubChunks e r n ty size (subs ++ [c]) props bp'
    else if bp > size then do
      RS.emit (.truncList size); pure (true, subs, props, bp)
    else pure (true, subs, props, bp)

end

/-- iff.c:40-61 `IFF_readFd`. -/
def readFd (e : Env) (reg : Option Registry) : M RS (Option Chunk) := fun s =>
  (do
    match ← readChunk e (selectChunkRegistry reg) (s.inp.length + 4) 0 with
    | none => RS.emit .mainChunk; pure none
    | some c =>
      match ← fgetc with
      | some b => RS.emit (.trailing b.toNat); pure (some c)
      | none => pure (some c) : M RS (Option Chunk)) s

end Iff
