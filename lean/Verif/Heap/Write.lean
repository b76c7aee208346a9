import Verif.Heap.Access
import Verif.Model.Write
/-
  Writing a hierarchy in memory: chunk.c:80-95, io.c:229-249, rawchunk.c:86-102, group.c:113-144,
  list.c:130-164, iff.c:93-96.
-/
namespace Iff.Heap

/-- io.c:229-249 `IFF_writeZeroFillerBytes`: the result of `calloc` is not checked. -/
def writeZeroFillerBytes (A : Alloc) (id : ID) (size bp : Int) : M (HX WS) Bool := do
  if bp < size then
    let n ← M.ofOut (subInt size bp)
    let p ← heap (malloc A (.data n.toNat) (.bytes (List.replicate n.toNat (some 0))))
    let bs ← heap (readBytes p n.toNat)
    let k ← dev (fwrite bs)
    if k = n.toNat then
      heap (free p)
      pure true
    else
      dev (WS.emit (.fillerFailed n.toNat id))
      heap (free p)
      pure false
  else pure true

/-- rawchunk.c:86-102 `IFF_writeRawChunk`. -/
def writeRawChunk (e : Env) (p : Addr) (bp : Int) : M (HX WS) (Bool × Int) := do
  let d ← heap (getRaw p)
  let h ← heap (getHdr p)
  let bs ← heap (readBytes d (toSize e h.size))
  let n ← dev (fwrite bs)
  if n < toSize e h.size then
    dev (WS.emit (.rawWrite h.id))
    pure (false, bp)
  else
    let bp' ← M.ofOut (addInt bp h.size)
    pure (true, bp')

/-- The write function of an application-defined chunk. -/
def writeExt (e : Env) (fields : List Field) (p : Addr) (bp : Int) : M (HX WS) (Bool × Int) := do
  let h ← heap (getHdr p)
  let vals ← heap (getExt fields p)
  dev (writeExtFields e h.id h.size fields vals bp)

/-- chunk.c:90-95 `IFF_writeChunk` and chunk.c:80-88 `writeChunkBody`, given the call of
`writeExtensionChunkFields`. -/
def writeChunkWith (A : Alloc) (e : Env) (p : Addr) (fields : M (HX WS) (Bool × Int)) :
    M (HX WS) Bool := do
  let h ← heap (getHdr p)
  if ← dev (writeId e h.id h.id "chunkId") then
    let h ← heap (getHdr p)
    if ← dev (writeLong e (BitVec.ofInt 32 h.size) h.id "chunkSize") then
      let (ok, bp) ← fields
      if ok then
        let h ← heap (getHdr p)
        if ← writeZeroFillerBytes A h.id h.size bp then
          let h ← heap (getHdr p)
          dev (writePaddingByte h.size h.id)
        else pure false
      else pure false
    else pure false
  else pure false

/-- group.c:113-130: the loop of `IFF_writeGroupSubChunks`, `k` iterations from `i`. -/
def writeMembers (e : Env) (wc : ID → Addr → M (HX WS) Bool) (p : Addr) :
    Nat → Nat → Int → M (HX WS) (Bool × Int)
  | 0, _, bp => pure (true, bp)
  | k + 1, i, bp => do
    let g ← heap (getGrp p)
    let c ← heap (getPtr g.arr i)
    if ← wc g.ty c then
      let g ← heap (getGrp p)
      let c ← heap (getPtr g.arr i)
      let h ← heap (getHdr c)
      let bp' ← M.ofOut (incrementChunkSize e bp h.size)
      writeMembers e wc p k (i + 1) bp'
    else
      dev (WS.emit .subWrite)
      pure (false, bp)

/-- list.c:130-147: the loop of `writeListPropChunks`, `k` iterations from `i`. -/
def writeProps (e : Env) (wc : ID → Addr → M (HX WS) Bool) (p : Addr) :
    Nat → Nat → Int → M (HX WS) (Bool × Int)
  | 0, _, bp => pure (true, bp)
  | k + 1, i, bp => do
    let l ← heap (getLst p)
    let c ← heap (getPtr l.parr i)
    if ← wc 0 c then
      let l ← heap (getLst p)
      let c ← heap (getPtr l.parr i)
      let h ← heap (getHdr c)
      let bp' ← M.ofOut (incrementChunkSize e bp h.size)
      writeProps e wc p k (i + 1) bp'
    else
      dev (WS.emit .propWrite)
      pure (false, bp)

/-- group.c:113-130 `IFF_writeGroupSubChunks`. -/
def writeGroupSubChunks (e : Env) (wc : ID → Addr → M (HX WS) Bool) (p : Addr) (bp : Int) :
    M (HX WS) (Bool × Int) := do
  let g ← heap (getGrp p)
  writeMembers e wc p g.len 0 bp

/-- list.c:130-147 `writeListPropChunks`. -/
def writeListPropChunks (e : Env) (wc : ID → Addr → M (HX WS) Bool) (p : Addr) (bp : Int) :
    M (HX WS) (Bool × Int) := do
  let l ← heap (getLst p)
  writeProps e wc p l.plen 0 bp

/-- The group type field: group.c:137 and list.c:154. -/
def writeGroupType (e : Env) (attr : String) (p : Addr) (bp : Int) :
    M (HX WS) (FieldStatus × Int) := do
  let g ← heap (getGrp p)
  let h ← heap (getHdr p)
  dev (writeField e (.id g.ty) h.id h.size attr bp)

/-- group.c:132-144 `IFF_writeGroup`. -/
def writeGroup (e : Env) (wc : ID → Addr → M (HX WS) Bool) (attr : String) (p : Addr) (bp : Int) :
    M (HX WS) (Bool × Int) := do
  let (st, bp') ← writeGroupType e attr p bp
  match st with
  | .more => writeGroupSubChunks e wc p bp'
  | st => pure (deriveSuccess st, bp')

/-- list.c:149-164 `IFF_writeList`. -/
def writeList (e : Env) (wc : ID → Addr → M (HX WS) Bool) (p : Addr) (bp : Int) :
    M (HX WS) (Bool × Int) := do
  let _ ← heap (getLst p)
  let (st, bp') ← writeGroupType e "contentsType" p bp
  match st with
  | .more => do
    let (ok, bp'') ← writeListPropChunks e wc p bp'
    if ok then writeGroupSubChunks e wc p bp'' else pure (false, bp'')
  | st => pure (deriveSuccess st, bp')

/-- chunk.c:90-95 `IFF_writeChunk`, `n` levels deep: form.c:88, cat.c:84, prop.c:59 call
`IFF_writeGroup`. -/
def writeChunk (A : Alloc) (e : Env) (r : Registry) : Nat → ID → Addr → M (HX WS) Bool
  | 0, _, _ => M.loop
  | n + 1, ft, p => do
    let h ← heap (getHdr p)
    writeChunkWith A e p (match findChunkType r ft h.id with
      | .raw => writeRawChunk e p 0
      | .form => writeGroup e (writeChunk A e r n) "formType" p 0
      | .cat => writeGroup e (writeChunk A e r n) "contentsType" p 0
      | .prop => writeGroup e (writeChunk A e r n) "formType" p 0
      | .list => writeList e (writeChunk A e r n) p 0
      | .ext fields _ => writeExt e fields p 0)

/-- iff.c:93-96 `IFF_writeFd`. -/
def writeFd (A : Alloc) (e : Env) (reg : Option Registry) (n : Nat) (p : Addr) : M (HX WS) Bool :=
  writeChunk A e (selectChunkRegistry reg) n 0 p

end Iff.Heap
