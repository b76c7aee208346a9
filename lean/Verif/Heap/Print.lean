import Verif.Heap.Access
import Verif.Model.Print
/-
  Printing a hierarchy in memory: chunk.c:115-125, rawchunk.c:115-168, group.c:209-232,
  list.c:230-249, form.c:184, cat.c:132, prop.c:91, iff.c:142-145.
-/
namespace Iff.Heap

/-- Send bytes to stdout. -/
def put (bs : List Byte) : M (HX (List Byte)) Unit := dev fun out => .val ((), out ++ bs)

/-- rawchunk.c:115-129 `IFF_printText`. -/
def printText (p : Addr) (level : Nat) : M (HX (List Byte)) Unit := do
  put (indent level (asc "text = '\n") ++ indent (level + 1) [])
  let d ← heap (getRaw p)
  let h ← heap (getHdr p)
  let bs ← heap (readBytes d h.size.toNat)
  put bs
  put (asc "\n" ++ indent level (asc "';\n"))

/-- rawchunk.c:131-158 `IFF_printRaw`. -/
def printRaw (p : Addr) (level : Nat) : M (HX (List Byte)) Unit := do
  put (indent level (asc "bytes = \n") ++ indent (level + 1) [])
  let d ← heap (getRaw p)
  let h ← heap (getHdr p)
  let bs ← heap (readBytes d h.size.toNat)
  put (printRawLoop level 0 bs)
  put (asc "\n" ++ indent level (asc ";\n"))

/-- rawchunk.c:160-168 `IFF_printRawChunk`. -/
def printRawChunk (p : Addr) (level : Nat) : M (HX (List Byte)) Unit := do
  let _ ← heap (getRaw p)
  let h ← heap (getHdr p)
  if h.id = idTEXT then printText p level else printRaw p level

/-- The print function of an application-defined chunk. -/
def printExt (fields : List Field) (p : Addr) (level : Nat) : M (HX (List Byte)) Unit := do
  let vals ← heap (getExt fields p)
  put (Iff.printExt level fields vals)

/-- group.c:222-223: the loop of `IFF_printGroupSubChunks`, `k` iterations from `i`. -/
def printMembers (pc : ID → Nat → Addr → M (HX (List Byte)) Unit) (p : Addr) (level : Nat) :
    Nat → Nat → M (HX (List Byte)) Unit
  | 0, _ => pure ()
  | k + 1, i => do
    let g ← heap (getGrp p)
    let c ← heap (getPtr g.arr i)
    pc g.ty level c
    printMembers pc p level k (i + 1)

/-- list.c:236-237: the loop of `printListPropChunks`, `k` iterations from `i`. -/
def printProps (pc : ID → Nat → Addr → M (HX (List Byte)) Unit) (p : Addr) (level : Nat) :
    Nat → Nat → M (HX (List Byte)) Unit
  | 0, _ => pure ()
  | k + 1, i => do
    let l ← heap (getLst p)
    let c ← heap (getPtr l.parr i)
    let g ← heap (getGrp p)
    pc g.ty level c
    printProps pc p level k (i + 1)

/-- group.c:216-226 `IFF_printGroupSubChunks`. -/
def printGroupSubChunks (pc : ID → Nat → Addr → M (HX (List Byte)) Unit) (p : Addr) (level : Nat) :
    M (HX (List Byte)) Unit := do
  put (indent level (asc "[\n"))
  let g ← heap (getGrp p)
  printMembers pc p (level + 1) g.len 0
  put (indent level (asc "];\n"))

/-- list.c:230-240 `printListPropChunks`. -/
def printListPropChunks (pc : ID → Nat → Addr → M (HX (List Byte)) Unit) (p : Addr) (level : Nat) :
    M (HX (List Byte)) Unit := do
  put (indent level (asc "prop = [\n"))
  let l ← heap (getLst p)
  printProps pc p (level + 1) l.plen 0
  put (indent level (asc "];\n"))

/-- group.c:228-232 `IFF_printGroup`. -/
def printGroup (pc : ID → Nat → Addr → M (HX (List Byte)) Unit) (name : String) (p : Addr)
    (level : Nat) : M (HX (List Byte)) Unit := do
  let g ← heap (getGrp p)
  put (printGroupType name g.ty level)
  printGroupSubChunks pc p level

/-- list.c:242-249 `IFF_printList`. -/
def printList (pc : ID → Nat → Addr → M (HX (List Byte)) Unit) (p : Addr) (level : Nat) :
    M (HX (List Byte)) Unit := do
  let _ ← heap (getLst p)
  let g ← heap (getGrp p)
  put (printGroupType "contentsType" g.ty level)
  printListPropChunks pc p level
  printGroupSubChunks pc p level

/-- chunk.c:115-125 `IFF_printChunk`, `n` levels deep. -/
def printChunk (r : Registry) : Nat → ID → Nat → Addr → M (HX (List Byte)) Unit
  | 0, _, _, _ => M.loop
  | n + 1, ft, level, p => do
    let h ← heap (getHdr p)
    put (indent level (asc "'") ++ printId h.id ++ asc "' = {\n" ++
      indent (level + 1) (asc "chunkSize = " ++ decimal h.size ++ asc ";\n"))
    match findChunkType r ft h.id with
    | .raw => printRawChunk p level
    | .form => printGroup (printChunk r n) "formType" p level
    | .cat => printGroup (printChunk r n) "contentsType" p level
    | .prop => printGroup (printChunk r n) "formType" p level
    | .list => printList (printChunk r n) p level
    | .ext fields _ => printExt fields p level
    put (indent level (asc "}\n\n"))

/-- iff.c:142-145 `IFF_print`. -/
def print (reg : Option Registry) (n level : Nat) (p : Addr) : M (HX (List Byte)) Unit :=
  printChunk (selectChunkRegistry reg) n 0 level p

end Iff.Heap
