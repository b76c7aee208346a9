import Verif.Spec.Lookup
/-
  The forms in a hierarchy.
-/
namespace Iff.Spec

open Iff.Heap

/-- `Reach t u`: `u` is reached from `t` by going through FORM, CAT and LIST chunks. -/
inductive Reach (t : Node) : Node → Prop
  | self : Reach t t
  | step {g c : Node} : Reach t g → g.chunk.id = idFORM ∨ g.chunk.id = idCAT ∨ g.chunk.id = idLIST →
      c ∈ g.members → Reach t c

/-- A FORM of one of the requested types. -/
def Requested (types : List ID) (t : Node) : Prop :=
  t.chunk.id = idFORM ∧ ∃ ty ∈ types, t.ty? = some ty

mutual

/-- All FORMs of the requested types reached through FORM, CAT and LIST chunks, in document order. -/
def forms (types : List ID) : Node → List Node
  | .grp a arr id size ty subs =>
    (if id = idFORM ∧ ty ∈ types then [.grp a arr id size ty subs] else []) ++
      (if id = idFORM ∨ id = idCAT ∨ id = idLIST then formsAll types subs else [])
  | .lst _ _ _ id _ _ subs _ =>
    if id = idFORM ∨ id = idCAT ∨ id = idLIST then formsAll types subs else []
  | _ => []

/-- The same for a sequence. -/
def formsAll (types : List ID) : List Node → List Node
  | [] => []
  | t :: ts => forms types t ++ formsAll types ts

end

mutual

/-- The FORMs of the requested types that are not inside another such FORM, in document order. -/
def outermost (types : List ID) : Node → List Node
  | .grp a arr id size ty subs =>
    if id = idFORM ∧ ty ∈ types then [.grp a arr id size ty subs]
    else if id = idFORM ∨ id = idCAT ∨ id = idLIST then outermostAll types subs else []
  | .lst _ _ _ id _ _ subs _ =>
    if id = idFORM ∨ id = idCAT ∨ id = idLIST then outermostAll types subs else []
  | _ => []

/-- The same for a sequence. -/
def outermostAll (types : List ID) : List Node → List Node
  | [] => []
  | t :: ts => outermost types t ++ outermostAll types ts

end

/-- A chunk that is not searched: neither FORM nor CAT nor LIST. -/
def Plain (t : Node) : Prop :=
  t.chunk.id ≠ idFORM ∧ t.chunk.id ≠ idCAT ∧ t.chunk.id ≠ idLIST

/-- An array of pointers is in memory; an empty one may be NULL. -/
def ArrayOrNull (m : Mem) (r : Addr) (ps : List Addr) : Prop :=
  (r = 0 ∧ ps = []) ∨ (r ≠ 0 ∧ m r = some (.ptrs (ps.map some)))

/-- `realloc(p, 0)` and `malloc(0)` behave in one of the usual ways: `realloc` frees the block and
returns NULL, or both always return a pointer, or both never do. -/
def ZeroUsual (A : Alloc) : Prop :=
  A.realloc0 = true ∨ (∀ t m, Roomy m → (A.pick t m (.array 0)).isSome) ∨
    ∀ t m, A.pick t m (.array 0) = none

end Iff.Spec
