import Verif.Spec.Shape
/-
  How much data a hierarchy holds.
-/
namespace Iff.Spec

mutual

/-- The number of bytes in the data chunks of a hierarchy. -/
def payload : Chunk → Nat
  | .raw _ _ data => data.length
  | .ext _ _ _ => 0
  | .grp _ _ _ subs => payloadAll subs
  | .lst _ _ _ subs props => payloadAll subs + payloadAll props

/-- The number of bytes in the data chunks of a sequence of hierarchies. -/
def payloadAll : List Chunk → Nat
  | [] => 0
  | c :: cs => payload c + payloadAll cs

end

end Iff.Spec
