import Verif.Heap.Mem
import Verif.Model.Chunk
/-
  Operations that look at a hierarchy in memory and at the same time write to a stream, print, or
  report diagnostics.
-/
namespace Iff.Heap

/-- The state of such an operation: the heap, the number of requests to the allocator so far, and
what the operation writes to. -/
structure HX (ω : Type) where
  mem : Mem
  tick : Nat
  st : ω

/-- An access to the heap. -/
def heap {ω α : Type} (m : M HS α) : M (HX ω) α := fun s =>
  match m ⟨s.mem, s.tick, ⟨[], []⟩⟩ with
  | .val (a, h) => .val (a, ⟨h.mem, h.tick, s.st⟩)
  | .ub u => .ub u
  | .loop => .loop

/-- An output operation. -/
def dev {ω α : Type} (m : M ω α) : M (HX ω) α := fun s =>
  match m s.st with
  | .val (a, w) => .val (a, ⟨s.mem, s.tick, w⟩)
  | .ub u => .ub u
  | .loop => .loop

/-- Look at the first `n` bytes of the array at `p`, as `fwrite`, `memcmp` and the loops over
`chunkData` do.  Simplification: looking at an uninitialised byte is undefined. -/
def readBytes (p : Addr) (n : Nat) : M HS (List Byte) := do
  match ← load p with
  | .bytes cells =>
    if n ≤ cells.length then
      match (cells.take n).mapM id with
      | some bs => pure bs
      | none => M.ub .outOfBounds
    else M.ub .outOfBounds
  | _ => M.ub .wrongStruct

/-- `IFF_RawChunk *rawChunk`: `rawChunk->chunkData`. -/
def getRaw (p : Addr) : M HS Addr := do
  match ← load p with
  | .raw _ d => pure d
  | _ => M.ub .wrongStruct

/-- The members of an application's struct, which starts with those of `IFF_Chunk` and is accessed
with the given fields. -/
def getExt (fields : List Field) (p : Addr) : M HS (List Val) := do
  match ← load p with
  | .ext _ vals =>
    if vals.map Val.kind = fields.map Field.kind then pure vals else M.ub .wrongStruct
  | _ => M.ub .wrongStruct

end Iff.Heap
