import Verif.Model.Registry
/-
  The in-memory representation of chunks, as a value (pointers replaced by the chunks they point
  to).  The heap-level model in Verif/Heap has the pointers; there the two are related.
-/
namespace Iff

/-- A chunk.  The constructor is the C struct type the chunk was allocated as. -/
inductive Chunk where
  /-- rawchunk.h `IFF_RawChunk`: `chunkData` points to a block holding `data` -/
  | raw (id : ID) (size : Int) (data : List Byte)
  /-- group.h `IFF_Group` (also form.h `IFF_Form`, cat.h `IFF_CAT`, prop.h `IFF_Prop`) -/
  | grp (id : ID) (size : Int) (ty : ID) (subs : List Chunk)
  /-- list.h `IFF_List`: starts with the members of `IFF_Group` -/
  | lst (id : ID) (size : Int) (ty : ID) (subs : List Chunk) (props : List Chunk)
  /-- an application-defined struct (e.g. tests/hello.h `TEST_Hello`) -/
  | ext (id : ID) (size : Int) (vals : List Val)
  deriving Repr

namespace Chunk

/-- `chunk->chunkId` (chunk.h): the first members of all structs are those of `IFF_Chunk`. -/
def id : Chunk → ID
  | .raw i _ _ => i
  | .grp i _ _ _ => i
  | .lst i _ _ _ _ => i
  | .ext i _ _ => i

/-- `chunk->chunkSize` (chunk.h). -/
def size : Chunk → Int
  | .raw _ s _ => s
  | .grp _ s _ _ => s
  | .lst _ s _ _ _ => s
  | .ext _ s _ => s

/-- `((IFF_Group*)chunk)->groupType`: defined only if the struct is an `IFF_Group` or `IFF_List`. -/
def groupType : Chunk → Out ID
  | .grp _ _ t _ => .val t
  | .lst _ _ t _ _ => .val t
  | _ => .ub .wrongStruct

end Chunk

/-- group.c:270-279 `IFF_incrementChunkSize`.  `chunkSize + IFF_ID_SIZE` is an `int` addition;
adding `sizeof(IFF_Long)` and `chunk->chunkSize` happens in `size_t`; the result is converted to
`int`; the padding byte is an `int` increment. -/
def incrementChunkSize (e : Env) (chunkSize subSize : Int) : Out Int := do
  let a ← addInt chunkSize idSize
  let b := wrapInt (toSize e ((toSize e ((toSize e a : Int) + 4) : Int) + toSize e subSize))
  if isOdd subSize then addInt b 1 else .val b

end Iff
