import Verif.Spec.Tree
/-
  Number of chunks and nesting depth of a hierarchy.
-/
namespace Iff.Spec

mutual

/-- The number of chunks in a hierarchy. -/
def nodes : Chunk → Nat
  | .raw _ _ _ => 1
  | .ext _ _ _ => 1
  | .grp _ _ _ subs => 1 + nodesAll subs
  | .lst _ _ _ subs props => 1 + nodesAll subs + nodesAll props

/-- The number of chunks in a sequence of hierarchies. -/
def nodesAll : List Chunk → Nat
  | [] => 0
  | c :: cs => nodes c + nodesAll cs

end

mutual

/-- The nesting depth of a hierarchy: 1 for a chunk without members. -/
def depth : Chunk → Nat
  | .raw _ _ _ => 1
  | .ext _ _ _ => 1
  | .grp _ _ _ subs => 1 + depthAll subs
  | .lst _ _ _ subs props => 1 + max (depthAll subs) (depthAll props)

/-- The largest nesting depth in a sequence of hierarchies. -/
def depthAll : List Chunk → Nat
  | [] => 0
  | c :: cs => max (depth c) (depthAll cs)

end

/-- Nowhere in the byte string is one of the IDs FORM, CAT, LIST, PROP followed by a byte that would
make a 32-bit size negative. -/
def NoNegativeGroups (bs : List Byte) : Prop :=
  ∀ pre id b post, id = idFORM ∨ id = idCAT ∨ id = idLIST ∨ id = idPROP →
    bs = pre ++ be 4 id.toNat ++ b :: post → b.toNat < 128

end Iff.Spec
