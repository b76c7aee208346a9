import Verif.Spec.Heap
import Verif.Heap.Access
import Verif.Spec.Tree
/-
  Notions used in the properties of writing, checking, comparing and printing hierarchies in memory.
-/
namespace Iff.Spec

open Iff.Heap

/-- The allocator grants every request for zero filler bytes that is made in memory `m`; there are fewer
than 2^31 of them. -/
def Fills (A : Alloc) (m : Mem) : Prop :=
  ∀ t n, 0 < n → n < 2147483648 → (A.pick t m (.data n)).isSome

/-- No application-defined chunk is larger than the fields in it. -/
inductive Filled : Chunk → Prop
  | raw {id size data} : Filled (.raw id size data)
  | grp {id size ty subs} : (∀ c ∈ subs, Filled c) → Filled (.grp id size ty subs)
  | lst {id size ty subs props} : (∀ c ∈ subs, Filled c) → (∀ c ∈ props, Filled c) →
      Filled (.lst id size ty subs props)
  | ext {id size vals} : size ≤ ((encodeFields vals size).length : Int) →
      Filled (.ext id size vals)

/-- The outcome of an output operation, with memory `m` and `t` requests to the allocator. -/
def keeping {ω α : Type} (m : Mem) (t : Nat) : Out (α × ω) → Out (α × HX ω)
  | .val (a, w) => .val (a, ⟨m, t, w⟩)
  | .ub u => .ub u
  | .loop => .loop

/-- The outcome of printing `o` after `out`, with memory `m` and `t` requests to the allocator. -/
def printing (m : Mem) (t : Nat) (out : List Byte) : Out (List Byte) → Out (Unit × HX (List Byte))
  | .val bs => .val ((), ⟨m, t, out ++ bs⟩)
  | .ub u => .ub u
  | .loop => .loop

end Iff.Spec
