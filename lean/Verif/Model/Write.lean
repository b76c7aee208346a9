import Verif.Model.Chunk
/-
  Model of the write path: chunk.c:80-95, rawchunk.c:86-102, group.c:113-144, list.c:130-164,
  form.c:88, cat.c:84, prop.c:59, iff.c:93-120, and the write functions of application-defined
  chunks.
-/
namespace Iff

/-- rawchunk.c:86-102 `IFF_writeRawChunk`; reading past the data block is undefined. -/
def writeRawChunk (e : Env) (id : ID) (size : Int) (data : List Byte) (bp : Int) :
    M WS (Bool × Int) := do
  if toSize e size ≤ data.length then
    let n ← fwrite (data.take (toSize e size))
    if n < toSize e size then
      WS.emit (.rawWrite id); pure (false, bp)
    else
      let bp' ← M.ofOut (addInt bp size)
      pure (true, bp')
  else M.ub .outOfBounds

/-- The write function of an application-defined chunk, e.g. tests/hello.c:65-80,
tests/bye.c:61-73. -/
def writeExtFields (e : Env) (id : ID) (size : Int) :
    List Field → List Val → Int → M WS (Bool × Int)
  | f :: fs, v :: vs, bp => do
    let (st, bp') ← writeField e v id size f.name bp
    match st with
    | .more => writeExtFields e id size fs vs bp'
    | st => pure (deriveSuccess st, bp')
  | _, _, bp => pure (true, bp)

/-- chunk.c:90-95 `IFF_writeChunk` and chunk.c:80-88 `writeChunkBody`, given the call of
`writeExtensionChunkFields`. -/
def writeChunkWith (e : Env) (c : Chunk) (fields : M WS (Bool × Int)) : M WS Bool := do
  if ← writeId e c.id c.id "chunkId" then
    if ← writeLong e (BitVec.ofInt 32 c.size) c.id "chunkSize" then
      let (ok, bp) ← fields
      if ok then
        if ← writeZeroFillerBytes c.id c.size bp then writePaddingByte c.size c.id
        else pure false
      else pure false
    else pure false
  else pure false

/-- group.c:132-144 `IFF_writeGroup` / list.c:149-164 `IFF_writeList`, given the writing of the sub
chunks. -/
def writeGroupWith (e : Env) (id : ID) (size : Int) (ty : ID) (attr : String)
    (subs : Int → M WS (Bool × Int)) (bp : Int) : M WS (Bool × Int) := do
  let (st, bp') ← writeField e (.id ty) id size attr bp
  match st with
  | .more => subs bp'
  | st => pure (deriveSuccess st, bp')

mutual

/-- chunkregistry.h:49 `writeExtensionChunkFields` of a function table `h`, applied to a chunk.
Applying a table to a chunk allocated as another struct is undefined, except that an `IFF_List`
may be accessed as an `IFF_Group`. -/
def writeFields (e : Env) (r : Registry) (h : Handler) : Chunk → M WS (Bool × Int)
  | .raw id size data =>
    match h with
    | .raw => writeRawChunk e id size data 0
    | _ => M.ub .wrongStruct
  | .ext id size vals =>
    match h with
    | .ext fields _ =>
      if vals.map Val.kind = fields.map Field.kind then
        writeExtFields e id size fields vals 0
      else M.ub .wrongStruct
    | _ => M.ub .wrongStruct
  | .grp id size ty subs =>
    match h with
    | .form => writeGroupWith e id size ty "formType" (writeGroupSubChunks e r ty subs) 0
    | .cat => writeGroupWith e id size ty "contentsType" (writeGroupSubChunks e r ty subs) 0
    | .prop => writeGroupWith e id size ty "formType" (writeGroupSubChunks e r ty subs) 0
    | _ => M.ub .wrongStruct
  | .lst id size ty subs props =>
    match h with
    | .form => writeGroupWith e id size ty "formType" (writeGroupSubChunks e r ty subs) 0
    | .cat => writeGroupWith e id size ty "contentsType" (writeGroupSubChunks e r ty subs) 0
    | .prop => writeGroupWith e id size ty "formType" (writeGroupSubChunks e r ty subs) 0
    | .list =>
      writeGroupWith e id size ty "contentsType" (fun bp => do
        let (ok, bp') ← writeListPropChunks e r props bp
        if ok then writeGroupSubChunks e r ty subs bp' else pure (false, bp')) 0
    | _ => M.ub .wrongStruct

/-- group.c:113-130 `IFF_writeGroupSubChunks`. -/
def writeGroupSubChunks (e : Env) (r : Registry) (ty : ID) :
    List Chunk → Int → M WS (Bool × Int)
  | [], bp => pure (true, bp)
  | c :: cs, bp => do
    if ← writeChunkWith e c (writeFields e r (findChunkType r ty c.id) c) then
      let bp' ← M.ofOut (incrementChunkSize e bp c.size)
      writeGroupSubChunks e r ty cs bp'
    else
      WS.emit .subWrite; pure (false, bp)

/-- list.c:130-147 `writeListPropChunks`: note the form type 0. -/
def writeListPropChunks (e : Env) (r : Registry) : List Chunk → Int → M WS (Bool × Int)
  | [], bp => pure (true, bp)
  | c :: cs, bp => do
    if ← writeChunkWith e c (writeFields e r (findChunkType r 0 c.id) c) then
      let bp' ← M.ofOut (incrementChunkSize e bp c.size)
      writeListPropChunks e r cs bp'
    else
      WS.emit .propWrite; pure (false, bp)

end

/-- chunk.c:90-95 `IFF_writeChunk`. -/
def writeChunk (e : Env) (r : Registry) (ft : ID) (c : Chunk) : M WS Bool :=
  writeChunkWith e c (writeFields e r (findChunkType r ft c.id) c)

/-- iff.c:93-96 `IFF_writeFd`. -/
def writeFd (e : Env) (reg : Option Registry) (c : Chunk) : M WS Bool :=
  writeChunk e (selectChunkRegistry reg) 0 c

end Iff
