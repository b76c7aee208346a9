import Verif.Model.Io
/-
  Model of src/libiff/id.c, id.h and of the form type check of form.c.
-/
namespace Iff

/-- `char` value of a byte: negative for bytes ≥ 0x80 when plain `char` is signed. -/
def charVal (e : Env) (b : Byte) : Int := if e.charSigned then b.toInt else b.toNat

/-- id.h:28 `IFF_MAKEID` of four character codes. -/
def makeIdB (a b c d : Byte) : ID :=
  (a.setWidth 32 <<< 24) ||| (b.setWidth 32 <<< 16) ||| (c.setWidth 32 <<< 8) ||| d.setWidth 32

/-- id.h:28 `IFF_MAKEID` of four ASCII character constants. -/
def makeId (a b c d : Char) : ID :=
  makeIdB (BitVec.ofNat 8 a.toNat) (BitVec.ofNat 8 b.toNat) (BitVec.ofNat 8 c.toNat)
    (BitVec.ofNat 8 d.toNat)

/-- form.h:25 -/
def idFORM : ID := makeId 'F' 'O' 'R' 'M'
/-- cat.h:25 -/
def idCAT : ID := makeId 'C' 'A' 'T' ' '
/-- list.h:25 -/
def idLIST : ID := makeId 'L' 'I' 'S' 'T'
/-- prop.h:25 -/
def idPROP : ID := makeId 'P' 'R' 'O' 'P'
/-- cat.h:26 -/
def idJJJJ : ID := makeId 'J' 'J' 'J' 'J'
/-- rawchunk.h:25 -/
def idTEXT : ID := makeId 'T' 'E' 'X' 'T'
/-- chunk.c:30 `ID_EMPTY` -/
def idEMPTY : ID := makeId ' ' ' ' ' ' ' '

/-- id.c:27-30 `IFF_readId`. -/
def readId (e : Env) (id : ID) (attr : String) : M RS (Option ID) := readULong e id attr

/-- id.c:32-35 `IFF_writeId`. -/
def writeId (e : Env) (v : ID) (id : ID) (attr : String) : M WS Bool := writeULong e v id attr

/-- id.c:37-43 `IFF_idToString` (the four bytes stored in the `IFF_ID2`). -/
def idToString (id : ID) : List Byte :=
  [(id >>> 24).truncate 8, ((id &&& 0xff0000#32) >>> 16).truncate 8,
   ((id &&& 0xff00#32) >>> 8).truncate 8, (id &&& 0xff#32).truncate 8]

/-- A diagnostic of a check function; the state is the message log. -/
def emit (m : Msg) : M (List Msg) Unit := fun l => .val ((), l ++ [m])

/-- id.c:54-61: the loop of `IFF_checkId` over the remaining characters. -/
def checkIdChars (e : Env) : List Byte → M (List Msg) Bool
  | [] => pure true
  | b :: bs =>
    if charVal e b < 0x20 ∨ charVal e b > 0x7e then do
      emit (.illegalChar (charVal e b)); pure false
    else checkIdChars e bs

/-- id.c:45-72 `IFF_checkId`. -/
def checkId (e : Env) (id : ID) : M (List Msg) Bool := do
  if ← checkIdChars e (idToString id) then
    if (idToString id).head? = some 0x20#8 then emit .leadingSpace; pure false
    else pure true
  else pure false

/-- form.c:105-112: the loop of `IFF_checkFormType` over the remaining characters. -/
def checkFormTypeChars (e : Env) : List Byte → M (List Msg) Bool
  | [] => pure true
  | b :: bs =>
    if (charVal e b ≥ 0x61 ∧ charVal e b ≤ 0x7a) ∨ charVal e b = 0x2e then do
      emit .formTypeChars; pure false
    else checkFormTypeChars e bs

/-- form.c:33-61 and 116-148: the form types rejected by name, in the order of the code. -/
def reservedFormTypes : List ID :=
  [idLIST, idFORM, idPROP, idCAT, idJJJJ,
   makeId 'L' 'I' 'S' '1', makeId 'L' 'I' 'S' '2', makeId 'L' 'I' 'S' '3',
   makeId 'L' 'I' 'S' '4', makeId 'L' 'I' 'S' '5', makeId 'L' 'I' 'S' '6',
   makeId 'L' 'I' 'S' '7', makeId 'L' 'I' 'S' '8', makeId 'L' 'I' 'S' '9',
   makeId 'F' 'O' 'R' '1', makeId 'F' 'O' 'R' '1', makeId 'F' 'O' 'R' '2',
   makeId 'F' 'O' 'R' '3', makeId 'F' 'O' 'R' '4', makeId 'F' 'O' 'R' '5',
   makeId 'F' 'O' 'R' '6', makeId 'F' 'O' 'R' '7', makeId 'F' 'O' 'R' '8',
   makeId 'F' 'O' 'R' '9',
   makeId 'C' 'A' 'T' '1', makeId 'C' 'A' 'T' '2', makeId 'C' 'A' 'T' '3',
   makeId 'C' 'A' 'T' '4', makeId 'C' 'A' 'T' '5', makeId 'C' 'A' 'T' '6',
   makeId 'C' 'A' 'T' '7', makeId 'C' 'A' 'T' '8', makeId 'C' 'A' 'T' '9']

/-- form.c:93-158 `IFF_checkFormType`. -/
def checkFormType (e : Env) (ft : ID) : M (List Msg) Bool := do
  if ← checkId e ft then
    if ← checkFormTypeChars e (idToString ft) then
      if ft ∈ reservedFormTypes then emit (.formTypeReserved ft); pure false
      else pure true
    else pure false
  else pure false

/-- id.c:74-83 `IFF_printId`: the bytes sent to stdout. -/
def printId (id : ID) : List Byte := idToString id

end Iff
