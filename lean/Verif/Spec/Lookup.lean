import Verif.Spec.Path
/-
  IFF-85 property inheritance (doc/IFF.asc, "Shared properties"), and the forms of a hierarchy.
-/
namespace Iff.Spec

open Iff.Heap

namespace Node

/-- The members of a group, without the PROPs of a LIST. -/
def members : Node → List Node
  | .grp _ _ _ _ _ subs => subs
  | .lst _ _ _ _ _ _ subs _ => subs
  | _ => []

/-- The PROPs of a LIST. -/
def props : Node → List Node
  | .lst _ _ _ _ _ _ _ ps => ps
  | _ => []

/-- The form type or contents type of a group. -/
def ty? : Node → Option ID
  | .grp _ _ _ _ ty _ => some ty
  | .lst _ _ _ _ _ ty _ _ => some ty
  | _ => none

/-- The first chunk with an ID in a sequence. -/
def first (id : ID) (ts : List Node) : Option Node := ts.find? fun t => t.chunk.id = id

/-- The address of a chunk; NULL if there is none. -/
def ptr : Option Node → Addr
  | some t => t.addr
  | none => 0

end Node

/-- The groups around a chunk, the innermost first. -/
def enclosing : List Frame → Node → List Node
  | [], _ => []
  | f :: fs, t => f.fill t :: enclosing fs (f.fill t)

/-- What a group shares with the forms of type `ty` inside it: a LIST shares the chunks of its PROP
for that type (of the first one, if it has several), other groups share nothing. -/
def shared (ty id : ID) (g : Node) : Option Node :=
  (g.props.find? fun p => p.ty? = some ty).bind fun p => Node.first id p.members

/-- The chunk with an ID that applies to a form: a member of the form, or else what the nearest
enclosing LIST shares that shares such a chunk. -/
def applies (fs : List Frame) (form : Node) (ty id : ID) : Option Node :=
  match Node.first id form.members with
  | some c => some c
  | none => (enclosing fs form).findSome? (shared ty id)

end Iff.Spec
