import Verif.Spec.Src
import Verif.Heap.Access
/-
  What is assumed about the memory by the theorems on the functions that only look at a hierarchy.
-/
namespace Iff.Src
open Heap (Addr Block Mem HX)

/-- The numbers in a block are values of the types of its members: the sizes of `int`, the lengths of
`unsigned int`. -/
def Fits : Block → Prop
  | .raw h _ => inInt h.size
  | .grp h _ k _ => inInt h.size ∧ k < 4294967296
  | .lst h _ k _ pk _ => inInt h.size ∧ k < 4294967296 ∧ pk < 4294967296
  | .ext h _ => inInt h.size
  | _ => True

/-- The numbers in memory are values of the types of the C sources. -/
def Rep (m : Mem) : Prop := ∀ a b, m a = some b → Fits b

/-- The sizes are values of `int`, and no array of pointers is longer than an eighth of `L`. -/
def Lim (L : Nat) : Block → Prop
  | .raw h _ => inInt h.size
  | .grp h _ k _ => inInt h.size ∧ 8 * k ≤ L
  | .lst h _ k _ pk _ => inInt h.size ∧ 8 * k ≤ L ∧ 8 * pk ≤ L
  | .ext h _ => inInt h.size
  | _ => True

/-- All blocks are limited. -/
def Small (L : Nat) (m : Mem) : Prop := ∀ a b, m a = some b → Lim L b

/-- What `parent` points to is a group.  (form.c:244 reads it as an `IFF_Group`.) -/
def Parented (m : Mem) : Prop := ∀ a b h, m a = some b → b.hdr? = some h → h.parent ≠ 0 →
  ∃ b' g, m h.parent = some b' ∧ b'.grp? = some g

/-- The state of the C semantics for a state of the heap model that writes to a stream: the heap, the
stream and the diagnostics are those of the model, the rest is `g`. -/
def embW (X : Cfg) (g : CS) (s : HX WS) : CS :=
  { g with
    heap := heapOf X.e s.mem
    tick := s.tick
    out := s.st.out
    room := s.st.room
    log := errCalls X.e s.st.log }

/-- The same for a state of the heap model with diagnostics only. -/
def embC (X : Cfg) (g : CS) (s : HX (List Msg)) : CS :=
  { g with
    heap := heapOf X.e s.mem
    tick := s.tick
    log := errCalls X.e s.st }


/-- The same for a state of the heap model that prints: the text is what was printed. -/
def embP (X : Cfg) (g : CS) (s : HX (List Byte)) : CS :=
  { g with
    heap := heapOf X.e s.mem
    tick := s.tick
    text := s.st }

end Iff.Src
