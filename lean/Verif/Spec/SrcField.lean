import Verif.Spec.Ints
import Verif.Spec.Src
/-
  The C types, values and functions that belong to the kinds of fields of a chunk.
-/
namespace Iff.Src
open Spec (width)

/-- The function of io.c or id.c that reads a value. -/
def readerOf : FieldKind → Fn
  | .ubyte => .IFF_readUByte
  | .uword => .IFF_readUWord
  | .word => .IFF_readWord
  | .ulong => .IFF_readULong
  | .long => .IFF_readLong
  | .id => .IFF_readId

/-- The function of io.c or id.c that writes a value. -/
def writerOf : FieldKind → Fn
  | .ubyte => .IFF_writeUByte
  | .uword => .IFF_writeUWord
  | .word => .IFF_writeWord
  | .ulong => .IFF_writeULong
  | .long => .IFF_writeLong
  | .id => .IFF_writeId

/-- The function of field.c that reads a field. -/
def fieldReaderOf : FieldKind → Fn
  | .ubyte => .IFF_readUByteField
  | .uword => .IFF_readUWordField
  | .word => .IFF_readWordField
  | .ulong => .IFF_readULongField
  | .long => .IFF_readLongField
  | .id => .IFF_readIdField

/-- The function of field.c that writes a field. -/
def fieldWriterOf : FieldKind → Fn
  | .ubyte => .IFF_writeUByteField
  | .uword => .IFF_writeUWordField
  | .word => .IFF_writeWordField
  | .ulong => .IFF_writeULongField
  | .long => .IFF_writeLongField
  | .id => .IFF_writeIdField

/-- There is a chunk (a struct that begins with the members of `IFF_Chunk`) at an address. -/
def ChunkAt (X : Cfg) (heap : Nat → Option Blk) (a : Nat) (id : ID) (size : Int) : Prop :=
  ∃ sz c0 rest, heap a = some ⟨sz, cells (c0 :: .int .uint id.toNat :: .int .int size :: rest)⟩ ∧
    Struct.size X.e .IFF_Chunk ≤ sz

/-- A local variable of type `int`. -/
def intVar (x : Int) : Blk := ⟨4, cells [.int .int x]⟩

/-- The arguments of a reader of field.c: the value is read into the `i`-th scalar of the heap block at `b`, the
chunk is at `a`, and `bytesProcessed` is the `j`-th object on the stack. -/
def readFieldArgs (k : FieldKind) (b i a j : Nat) (attr : String) : List V :=
  [.file .inp, .ptr (.int (ctype k)) ⟨.heap b, i⟩, .ptr (.struct .IFF_Chunk) ⟨.heap a, 0⟩, .str attr,
    .ptr (.int .int) ⟨.stk j, 0⟩]

/-- The arguments of a writer of field.c. -/
def writeFieldArgs (v : Val) (a j : Nat) (attr : String) : List V :=
  [.file .out, .int (ctype v.kind) (number v), .ptr (.struct .IFF_Chunk) ⟨.heap a, 0⟩, .str attr,
    .ptr (.int .int) ⟨.stk j, 0⟩]

/-- The values of `IFF_FieldStatus` (field.h:28-34). -/
def fieldMore : V := .int .uint 0
@[inherit_doc fieldMore] def fieldFailure : V := .int .uint 1
@[inherit_doc fieldMore] def fieldLast : V := .int .uint 2

end Iff.Src
