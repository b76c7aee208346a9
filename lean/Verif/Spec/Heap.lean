import Verif.Heap.Mem
import Verif.Spec.Shape
/-
  What it means that a heap holds a hierarchy of chunks.
-/
namespace Iff.Spec

open Iff.Heap

/-- A hierarchy of chunks together with the addresses of its blocks. -/
inductive Node where
  /-- struct at `a`, data at `d` -/
  | raw (a d : Addr) (id : ID) (size : Int) (data : List Byte)
  /-- struct at `a`, array of members at `arr` (NULL if there are none) -/
  | grp (a arr : Addr) (id : ID) (size : Int) (ty : ID) (subs : List Node)
  /-- struct at `a`, array of members at `arr`, array of PROPs at `parr` (NULL if there are none) -/
  | lst (a arr parr : Addr) (id : ID) (size : Int) (ty : ID) (subs props : List Node)
  /-- struct at `a` -/
  | ext (a : Addr) (id : ID) (size : Int) (vals : List Val)

namespace Node

/-- The address of the struct. -/
def addr : Node → Addr
  | .raw a _ _ _ _ => a
  | .grp a _ _ _ _ _ => a
  | .lst a _ _ _ _ _ _ _ => a
  | .ext a _ _ _ => a

mutual

/-- The hierarchy without the addresses. -/
def chunk : Node → Chunk
  | .raw _ _ id size data => .raw id size data
  | .grp _ _ id size ty subs => .grp id size ty (chunks subs)
  | .lst _ _ _ id size ty subs props => .lst id size ty (chunks subs) (chunks props)
  | .ext _ id size vals => .ext id size vals

/-- The same for a sequence. -/
def chunks : List Node → List Chunk
  | [] => []
  | n :: ns => chunk n :: chunks ns

end

mutual

/-- All blocks of a hierarchy. -/
def blocks : Node → List Addr
  | .raw a d _ _ _ => [a, d]
  | .grp a arr _ _ _ subs => a :: (if arr = 0 then [] else [arr]) ++ blocksAll subs
  | .lst a arr parr _ _ _ subs props =>
    a :: (if arr = 0 then [] else [arr]) ++ (if parr = 0 then [] else [parr])
      ++ blocksAll subs ++ blocksAll props
  | .ext a _ _ _ => [a]

/-- The same for a sequence. -/
def blocksAll : List Node → List Addr
  | [] => []
  | n :: ns => blocks n ++ blocksAll ns

end

end Node

/-- An array of pointers is in memory; an empty one is NULL. -/
def ArrayIn (m : Mem) (arr : Addr) (ps : List Addr) : Prop :=
  (ps = [] ∧ arr = 0) ∨ (ps ≠ [] ∧ arr ≠ 0 ∧ m arr = some (.ptrs (ps.map some)))

mutual

/-- The hierarchy is in memory; the parent pointer of the main chunk is `par`, that of every other
chunk points to the group it is in. -/
def In (m : Mem) : Addr → Node → Prop
  | par, .raw a d id size data =>
    m a = some (.raw ⟨par, id, size⟩ d) ∧ m d = some (.bytes (data.map some))
  | par, .grp a arr id size ty subs =>
    m a = some (.grp ⟨par, id, size⟩ ty subs.length arr) ∧
      ArrayIn m arr (subs.map Node.addr) ∧ InAll m a subs
  | par, .lst a arr parr id size ty subs props =>
    m a = some (.lst ⟨par, id, size⟩ ty subs.length arr props.length parr) ∧
      ArrayIn m arr (subs.map Node.addr) ∧ ArrayIn m parr (props.map Node.addr) ∧
      InAll m a subs ∧ InAll m a props
  | par, .ext a id size vals => m a = some (.ext ⟨par, id, size⟩ vals)

/-- The same for a sequence of chunks with the same parent. -/
def InAll (m : Mem) : Addr → List Node → Prop
  | _, [] => True
  | par, n :: ns => In m par n ∧ InAll m par ns

end

/-- The memory `m` is the memory `m₀` with exactly the blocks `bs` added. -/
def Adds (m₀ m : Mem) (bs : List Addr) : Prop :=
  (∀ a ∈ bs, m₀ a = none) ∧ ∀ a, a ∉ bs → m a = m₀ a

/-- The memory `m` is the memory `m₀` with exactly the blocks of a hierarchy added, no two of them
at the same address. -/
structure Holds (m₀ m : Mem) (t : Node) : Prop where
  isIn : In m 0 t
  distinct : t.blocks.Nodup
  nonNull : 0 ∉ t.blocks
  adds : Adds m₀ m t.blocks

/-- A registry selects, for each chunk of a hierarchy, the functions that release its struct. -/
inductive Released (r : Registry) : ID → Chunk → Prop
  | raw {ft id size data} : findChunkType r ft id = .raw → Released r ft (.raw id size data)
  | ext {ft id size vals fs ck} : findChunkType r ft id = .ext fs ck →
      Released r ft (.ext id size vals)
  | grp {ft id size ty subs} :
      findChunkType r ft id = .form ∨ findChunkType r ft id = .cat ∨
        findChunkType r ft id = .prop →
      (∀ c ∈ subs, Released r ty c) → Released r ft (.grp id size ty subs)
  | lst {ft id size ty subs props} : findChunkType r ft id = .list →
      (∀ c ∈ subs, Released r ty c) → (∀ c ∈ props, Released r ty c) →
      Released r ft (.lst id size ty subs props)

/-! ### Allocators and registries -/

/-- Finitely many addresses are in use. -/
def Roomy (m : Mem) : Prop := ∃ b : Nat, ∀ a : Nat, b ≤ a → m a = none

/-- Arrays of pointers with at least one element are never refused, however many requests there were
before. -/
def ArraysOk (A : Alloc) : Prop := ∀ t m n, Roomy m → (A.pick t m (.array (n + 1))).isSome

/-- The allocator grants no data request that `Env.mallocOk` refuses. -/
def Grants (A : Alloc) (e : Env) : Prop :=
  ∀ t m n a, A.pick t m (.data n) = some a → e.mallocOk n = true

/-- No request is refused, except data requests that `Env.mallocOk` refuses. -/
structure Total (A : Alloc) (e : Env) : Prop where
  struct : ∀ t m k, Roomy m → (A.pick t m (.struct k)).isSome
  array : ∀ t m n, Roomy m → (A.pick t m (.array (n + 1))).isSome
  data : ∀ t m n, Roomy m → e.mallocOk n = true → (A.pick t m (.data n)).isSome
  grants : Grants A e

/-- The registry releases lists as lists: `IFF_createUnparsedList` sets the chunk ID to LIST. -/
def ListsConsistent (r : Registry) : Prop :=
  ∀ ft id, findChunkType r ft id = .list → findChunkType r ft idLIST = .list

end Iff.Spec
