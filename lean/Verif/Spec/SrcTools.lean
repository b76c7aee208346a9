import Verif.Spec.SrcUse
import Verif.Heap.Tools
/-
  The arguments of the command-line tools, in the memory of the C semantics.
-/
namespace Iff

/-- The number of bytes of an input. -/
def Source.length (f : Source) : Nat :=
  match f.contents with
  | none => 0
  | some bs => bs.length

end Iff

namespace Iff.Src

/-- `v` is the argument `filename` of `IFF_read` for the input `f`: its name, or NULL for the standard
input.  (With a name, nothing is on the standard input.) -/
def SourceArg (X : Cfg) (inp : List Byte) (f : Source) (v : V) : Prop :=
  (v = .str f.name ∧ inp = [] ∧ X.files f.name = f.contents) ∨
  (v = .ptr (.int .char) Ptr.null ∧ f.contents = some inp)

/-- `v` is the argument `filename` of `IFF_write` for the destination `d`: its name, or NULL for the
standard output. -/
def DestArg (X : Cfg) (out : List Byte) (room : Nat) (d : Dest) (v : V) : Prop :=
  (v = .str d.name ∧ X.dests d.name = if d.opens then some (d.cap + d.slack) else none) ∨
  (v = .ptr (.int .char) Ptr.null ∧ d.opens = true ∧ out = [] ∧ room = d.cap + d.slack)

/-- `o` is an array of the names of the given inputs, outside the heap. -/
def NamesAt (X : Cfg) (stk : List Blk) (o : Obj) (files : List Source) : Prop :=
  ∃ B, outside X stk o = some B ∧ files.length * (X.e.sizeBits / 8) ≤ B.size ∧
    ∀ i f, files[i]? = some f → B.cell i = .str f.name

/-- The number of bytes of the inputs, and of the pointers to their chunks. -/
def total (files : List Source) : Nat := (files.map fun f => f.length + 8).sum

/-- What has been written to the destination: `o` is what it holds at the end, `none` if it was not
opened. -/
def Written (d : Dest) (out : List Byte) (o : Option (List Byte)) (out' : List Byte) : Prop :=
  (o = none ∧ out' = out) ∨ o = some (out'.take d.cap)

end Iff.Src
