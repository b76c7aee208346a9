import Verif.Model.Chunk
/-
  Model of the print path: util.c, chunk.c:115-125, rawchunk.c:115-168, group.c:209-232,
  list.c:230-249, form.c:184, cat.c:132, prop.c:91, iff.c:142-145.  The result is the byte sequence
  sent to stdout.  Simplification: writing to stdout does not fail (the code does not look at the
  result of `printf`), and `indentLevel` (`unsigned int`) does not wrap around at 2^32 levels.
-/
namespace Iff

/-- The bytes of an ASCII string. -/
def asc (s : String) : List Byte := s.toList.map fun c => BitVec.ofNat 8 c.toNat

/-- `printf("%d", x)`. -/
def decimal (x : Int) : List Byte :=
  if x < 0 then asc "-" ++ (Nat.toDigits 10 x.natAbs).map (fun c => BitVec.ofNat 8 c.toNat)
  else (Nat.toDigits 10 x.natAbs).map (fun c => BitVec.ofNat 8 c.toNat)

/-- `printf("%x", b)`. -/
def hex (b : Byte) : List Byte :=
  (Nat.toDigits 16 b.toNat).map (fun c => BitVec.ofNat 8 c.toNat)

/-- util.c:25-37 `IFF_printIndent` with the formatted text. -/
def indent (level : Nat) (text : List Byte) : List Byte :=
  (List.replicate level (asc "  ")).flatten ++ text

/-- Bytes `chunkData[0..chunkSize)`; nothing for a negative size, undefined past the block. -/
def dataBytes (size : Int) (data : List Byte) : Out (List Byte) :=
  if size.toNat ≤ data.length then .val (data.take size.toNat) else .ub .outOfBounds

/-- rawchunk.c:115-129 `IFF_printText`. -/
def printText (size : Int) (data : List Byte) (level : Nat) : Out (List Byte) := do
  let bs ← dataBytes size data
  .val (indent level (asc "text = '\n") ++ indent (level + 1) [] ++ bs ++ asc "\n" ++
    indent level (asc "';\n"))

/-- rawchunk.c:139-154: the loop of `IFF_printRaw`, at index `i`. -/
def printRawLoop (level : Nat) : Nat → List Byte → List Byte
  | _, [] => []
  | i, b :: bs =>
    (if i > 0 ∧ i % 10 = 0 then asc "\n" ++ indent (level + 1) [] else []) ++
    (if b.toNat ≤ 0xf then asc "0" else []) ++ hex b ++ asc " " ++ printRawLoop level (i + 1) bs

/-- rawchunk.c:131-158 `IFF_printRaw`. -/
def printRaw (size : Int) (data : List Byte) (level : Nat) : Out (List Byte) := do
  let bs ← dataBytes size data
  .val (indent level (asc "bytes = \n") ++ indent (level + 1) [] ++ printRawLoop level 0 bs ++
    asc "\n" ++ indent level (asc ";\n"))

/-- rawchunk.c:160-168 `IFF_printRawChunk`. -/
def printRawChunk (id : ID) (size : Int) (data : List Byte) (level : Nat) : Out (List Byte) :=
  if id = idTEXT then printText size data level else printRaw size data level

/-- The value of a field, as tests/hello.c:99-106 and tests/bye.c:84-90 print it: a `unsigned char` as a character,
the others as a number. -/
def printVal : Val → List Byte
  | .ubyte v => [v]
  | .uword v => decimal v.toNat
  | .word v => decimal v.toInt
  | .ulong v => decimal v.toNat
  | .long v => decimal v.toInt
  | .id v => decimal v.toNat

/-- The print function of an application-defined chunk: tests/hello.c:99-106 and tests/bye.c:84-90. -/
def printExt (level : Nat) : List Field → List Val → List Byte
  | f :: fs, v :: vs =>
    indent level (asc f.name ++ asc " = " ++ printVal v ++ asc ";\n") ++ printExt level fs vs
  | _, _ => []

/-- group.c:209-214 `IFF_printGroupType`. -/
def printGroupType (name : String) (ty : ID) (level : Nat) : List Byte :=
  indent level (asc name ++ asc " = '") ++ printId ty ++ asc "';\n"

/-- chunk.c:115-125 `IFF_printChunk`, given the call of `printExtensionChunk`. -/
def printChunkWith (c : Chunk) (level : Nat) (body : Out (List Byte)) : Out (List Byte) := do
  let b ← body
  .val (indent level (asc "'") ++ printId c.id ++ asc "' = {\n" ++
    indent (level + 1) (asc "chunkSize = " ++ decimal c.size ++ asc ";\n") ++ b ++
    indent level (asc "}\n\n"))

/-- group.c:228-232 `IFF_printGroup` and group.c:216-226 `IFF_printGroupSubChunks`. -/
def printGroupWith (name : String) (ty : ID) (level : Nat) (subs : Out (List Byte)) :
    Out (List Byte) := do
  let s ← subs
  .val (printGroupType name ty level ++ indent level (asc "[\n") ++ s ++ indent level (asc "];\n"))

mutual

/-- chunkregistry.h:58 `printExtensionChunk` of a function table `h`, applied to a chunk; the list
case is list.c:242-249 `IFF_printList` with list.c:230-240 `printListPropChunks`. -/
def printFields (r : Registry) (h : Handler) (level : Nat) : Chunk → Out (List Byte)
  | .raw id size data =>
    match h with
    | .raw => printRawChunk id size data level
    | _ => .ub .wrongStruct
  | .ext _ _ vals =>
    match h with
    | .ext fields _ =>
      if vals.map Val.kind = fields.map Field.kind then .val (printExt level fields vals)
      else .ub .wrongStruct
    | _ => .ub .wrongStruct
  | .grp _ _ ty subs =>
    match h with
    | .form => printGroupWith "formType" ty level (printSubs r ty (level + 1) subs)
    | .cat => printGroupWith "contentsType" ty level (printSubs r ty (level + 1) subs)
    | .prop => printGroupWith "formType" ty level (printSubs r ty (level + 1) subs)
    | _ => .ub .wrongStruct
  | .lst _ _ ty subs props =>
    match h with
    | .form => printGroupWith "formType" ty level (printSubs r ty (level + 1) subs)
    | .cat => printGroupWith "contentsType" ty level (printSubs r ty (level + 1) subs)
    | .prop => printGroupWith "formType" ty level (printSubs r ty (level + 1) subs)
    | .list => do
      let p ← printSubs r ty (level + 1) props
      let s ← printSubs r ty (level + 1) subs
      .val (printGroupType "contentsType" ty level ++
        indent level (asc "prop = [\n") ++ p ++ indent level (asc "];\n") ++
        indent level (asc "[\n") ++ s ++ indent level (asc "];\n"))
    | _ => .ub .wrongStruct

/-- group.c:222-223 and list.c:236-237: printing the members of a chunk array. -/
def printSubs (r : Registry) (ty : ID) (level : Nat) : List Chunk → Out (List Byte)
  | [] => .val []
  | c :: cs => do
    let a ← printChunkWith c level (printFields r (findChunkType r ty c.id) level c)
    let b ← printSubs r ty level cs
    .val (a ++ b)

end

/-- chunk.c:115-125 `IFF_printChunk`. -/
def printChunk (r : Registry) (level : Nat) (ft : ID) (c : Chunk) : Out (List Byte) :=
  printChunkWith c level (printFields r (findChunkType r ft c.id) level c)

/-- iff.c:142-145 `IFF_print`. -/
def print (reg : Option Registry) (level : Nat) (c : Chunk) : Out (List Byte) :=
  printChunk (selectChunkRegistry reg) level 0 c

end Iff
