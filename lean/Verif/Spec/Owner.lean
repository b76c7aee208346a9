import Verif.Heap.Read
/-
  Chunks reached from a chunk, on any heap (not only on heaps that hold a hierarchy).
-/
namespace Iff.Spec
open Heap

/-- How a chunk is reached from the one that holds it: as a member with an index, or as a PROP with an
index. -/
inductive Step where
  | member (i : Nat)
  | prop (i : Nat)

/-- The functions of a group: those of FORM, CAT, PROP and LIST. -/
def GroupHandler (h : Handler) : Prop := h = .form ∨ h = .cat ∨ h = .prop ∨ h = .list

/-- The struct at `p`, which the registry takes for a group, holds a pointer to `q` in its array of members
(or, if it is taken for a LIST, in its array of PROPs); `ty` is the type of the group. -/
inductive Child (r : Registry) (m : Mem) (ft : ID) (p : Addr) : Step → ID → Addr → Prop
  | member {b : Block} {h : Hdr} {g : Grp} {cells : List (Option Addr)} {i : Nat} {q : Addr} :
      m p = some b → b.hdr? = some h → GroupHandler (findChunkType r ft h.id) → b.grp? = some g →
      m g.arr = some (.ptrs cells) → i < g.len → cells[i]? = some (some q) → Child r m ft p (.member i) g.ty q
  | prop {b : Block} {h : Hdr} {g : Grp} {l : Lst} {cells : List (Option Addr)} {i : Nat} {q : Addr} :
      m p = some b → b.hdr? = some h → findChunkType r ft h.id = .list → b.grp? = some g → b.lst? = some l →
      m l.parr = some (.ptrs cells) → i < l.plen → cells[i]? = some (some q) → Child r m ft p (.prop i) g.ty q

/-- `x` is reached from `p` along a path of members and PROPs. -/
inductive Reaches (r : Registry) (m : Mem) : ID → Addr → List Step → Addr → Prop
  | here {ft p} : Reaches r m ft p [] p
  | step {ft p k ty q ks x} : Child r m ft p k ty q → Reaches r m ty q ks x → Reaches r m ft p (k :: ks) x

end Iff.Spec
