import Verif.Model.Id
/-
  Model of src/libiff/field.c: reading and writing the fields of application-defined chunks.

  The six read functions (and the six write functions) of field.c are textually identical up to the
  type, its size and the io.c/id.c function called; the model has one reader and one writer
  parameterised by `FieldKind`.
-/
namespace Iff

/-- The field types supported by field.c. -/
inductive FieldKind where
  | ubyte | uword | word | ulong | long | id
  deriving DecidableEq, Repr

/-- `sizeof` of the field (first line of every function of field.c). -/
def FieldKind.size : FieldKind → Nat
  | .ubyte => 1
  | .uword => 2
  | .word => 2
  | .ulong => 4
  | .long => 4
  | .id => 4

/-- The value of a field, as bits of the proper width. -/
inductive Val where
  | ubyte (v : BitVec 8)
  | uword (v : BitVec 16)
  | word (v : BitVec 16)
  | ulong (v : BitVec 32)
  | long (v : BitVec 32)
  | id (v : BitVec 32)
  deriving DecidableEq, Repr

def Val.kind : Val → FieldKind
  | .ubyte _ => .ubyte
  | .uword _ => .uword
  | .word _ => .word
  | .ulong _ => .ulong
  | .long _ => .long
  | .id _ => .id

/-- The initial value given by the create function (e.g. tests/hello.c:33-38). -/
def FieldKind.zero : FieldKind → Val
  | .ubyte => .ubyte 0
  | .uword => .uword 0
  | .word => .word 0
  | .ulong => .ulong 0
  | .long => .long 0
  | .id => .id 0

/-- A field of an application-defined chunk: its attribute name and type. -/
structure Field where
  name : String
  kind : FieldKind
  deriving DecidableEq, Repr

/-- field.h:28-34 `IFF_FieldStatus`. -/
inductive FieldStatus where
  | more | failure | last
  deriving DecidableEq, Repr

/-- field.c:26-29 `IFF_deriveSuccess`. -/
def deriveSuccess (s : FieldStatus) : Bool := s != .failure

/-- field.c:31-34 `fieldDoesNotFitInChunk`: both sides of the comparison are converted to
`size_t`, and the subtraction wraps around. -/
def fieldDoesNotFitInChunk (e : Env) (fieldSize : Nat) (size bp : Int) : Bool :=
  toSize e bp > toSize e ((toSize e size : Int) - fieldSize)

/-- field.c:36-39 `increaseBytesProcessed`: computed in `size_t`, converted back to `int`. -/
def increaseBytesProcessed (e : Env) (bp : Int) (fieldSize : Nat) : Int :=
  wrapInt (toSize e ((toSize e bp : Int) + fieldSize))

/-- The io.c/id.c reader that belongs to a field type. -/
def readVal (e : Env) (k : FieldKind) (id : ID) (attr : String) : M RS (Option Val) :=
  match k with
  | .ubyte => do pure ((← readUByte id attr).map .ubyte)
  | .uword => do pure ((← readUWord e id attr).map .uword)
  | .word => do pure ((← readWord e id attr).map .word)
  | .ulong => do pure ((← readULong e id attr).map .ulong)
  | .long => do pure ((← readLong e id attr).map .long)
  | .id => do pure ((← readId e id attr).map .id)

/-- The io.c/id.c writer that belongs to a field type. -/
def writeVal (e : Env) (v : Val) (id : ID) (attr : String) : M WS Bool :=
  match v with
  | .ubyte v => writeUByte v id attr
  | .uword v => writeUWord e v id attr
  | .word v => writeWord e v id attr
  | .ulong v => writeULong e v id attr
  | .long v => writeLong e v id attr
  | .id v => writeId e v id attr

/-- field.c:41-54 `IFF_readUByteField`, 71-84 `IFF_readUWordField`, 101-114 `IFF_readWordField`,
131-144 `IFF_readULongField`, 161-174 `IFF_readLongField`, 191-204 `IFF_readIdField`.
Returns the status, the (possibly unchanged) value and the new `*bytesProcessed`. -/
def readField (e : Env) (k : FieldKind) (id : ID) (size : Int) (attr : String) (cur : Val)
    (bp : Int) : M RS (FieldStatus × Val × Int) := do
  if fieldDoesNotFitInChunk e k.size size bp then pure (.last, cur, bp)
  else
    match ← readVal e k id attr with
    | some v => pure (.more, v, increaseBytesProcessed e bp k.size)
    | none => pure (.failure, cur, bp)

/-- field.c:56-69 `IFF_writeUByteField`, 86-99 `IFF_writeUWordField`, 116-129 `IFF_writeWordField`,
146-159 `IFF_writeULongField`, 176-189 `IFF_writeLongField`, 206-219 `IFF_writeIdField`. -/
def writeField (e : Env) (v : Val) (id : ID) (size : Int) (attr : String) (bp : Int) :
    M WS (FieldStatus × Int) := do
  if fieldDoesNotFitInChunk e v.kind.size size bp then pure (.last, bp)
  else
    if ← writeVal e v id attr then pure (.more, increaseBytesProcessed e bp v.kind.size)
    else pure (.failure, bp)

end Iff
