import Verif.Spec.Tree
import Verif.Spec.Dump
/-
  Specification of the text that represents a hierarchy (iffpp), line by line.
-/
namespace Iff.Spec

/-- ASCII codes. -/
def ascii (s : String) : List Byte := s.toList.map fun c => BitVec.ofNat 8 c.toNat

/-- The decimal notation of a natural number. -/
def digits (n : Nat) : List Byte :=
  if n < 10 then [BitVec.ofNat 8 (48 + n)] else digits (n / 10) ++ [BitVec.ofNat 8 (48 + n % 10)]

/-- The decimal notation of an integer. -/
def number (x : Int) : List Byte := if x < 0 then 45 :: digits x.natAbs else digits x.natAbs

/-- A line, indented by two spaces per level. -/
def line (level : Nat) (bs : List Byte) : List Byte := spaces level ++ bs ++ [10]

/-- The contents of a data chunk: as they are for TEXT, as hexadecimal numbers otherwise. -/
def contents (level : Nat) (id : ID) (data : List Byte) : List Byte :=
  if be 4 id.toNat = ascii "TEXT" then
    line level (ascii "text = '") ++ line (level + 1) data ++ line level (ascii "';")
  else dump level data

/-- A line with an ID, in quotes. -/
def typeLine (level : Nat) (name : String) (ty : ID) : List Byte :=
  line level (ascii name ++ ascii " = '" ++ be 4 ty.toNat ++ ascii "';")

/-- The frame of a chunk: ID, size, contents. -/
def frame (level : Nat) (id : ID) (size : Int) (body : List Byte) : List Byte :=
  line level (ascii "'" ++ be 4 id.toNat ++ ascii "' = {") ++
  line (level + 1) (ascii "chunkSize = " ++ number size ++ ascii ";") ++ body ++
  line level (ascii "}") ++ line 0 []

mutual

/-- The text of a hierarchy of the default registry, at a level of indentation. -/
def layout (level : Nat) : Chunk → List Byte
  | .raw id size data => frame level id size (contents level id data)
  | .grp id size ty subs => frame level id size <|
      typeLine level (if be 4 id.toNat = ascii "CAT " then "contentsType" else "formType") ty ++
      line level (ascii "[") ++ layoutAll (level + 1) subs ++ line level (ascii "];")
  | .lst id size ty subs props => frame level id size <|
      typeLine level "contentsType" ty ++
      line level (ascii "prop = [") ++ layoutAll (level + 1) props ++ line level (ascii "];") ++
      line level (ascii "[") ++ layoutAll (level + 1) subs ++ line level (ascii "];")
  | .ext _ _ _ => []

/-- One after the other. -/
def layoutAll (level : Nat) : List Chunk → List Byte
  | [] => []
  | c :: cs => layout level c ++ layoutAll level cs

end

end Iff.Spec
