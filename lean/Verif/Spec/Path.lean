import Verif.Spec.Heap
/-
  Positions in a hierarchy: a chunk and the groups around it.
-/
namespace Iff.Spec

open Iff.Heap

/-- A group with one member taken out: the members before and after it. -/
inductive Frame where
  /-- a FORM, CAT or PROP -/
  | grp (a arr : Addr) (id : ID) (size : Int) (ty : ID) (pre post : List Node)
  /-- a LIST around one of its members -/
  | sub (a arr parr : Addr) (id : ID) (size : Int) (ty : ID) (pre post props : List Node)
  /-- a LIST around one of its PROPs -/
  | prop (a arr parr : Addr) (id : ID) (size : Int) (ty : ID) (subs pre post : List Node)

namespace Frame

/-- The group with the member put in. -/
def fill (t : Node) : Frame → Node
  | .grp a arr id size ty pre post => .grp a arr id size ty (pre ++ t :: post)
  | .sub a arr parr id size ty pre post props => .lst a arr parr id size ty (pre ++ t :: post) props
  | .prop a arr parr id size ty subs pre post => .lst a arr parr id size ty subs (pre ++ t :: post)

/-- The address of the group's struct. -/
def addr : Frame → Addr
  | .grp a _ _ _ _ _ _ => a
  | .sub a _ _ _ _ _ _ _ _ => a
  | .prop a _ _ _ _ _ _ _ _ => a

end Frame

/-- The hierarchy around a chunk: `fs` are the groups around `t`, the innermost first. -/
def plug : List Frame → Node → Node
  | [], t => t
  | f :: fs, t => plug fs (f.fill t)

/-- The struct types of a chunk and of everything inside it go with the chunk IDs: `IFF_Group` for
FORM, CAT and PROP, `IFF_List` for LIST, and other structs for other IDs. -/
inductive Typed : Chunk → Prop
  | raw {id size data} : id ≠ idFORM → id ≠ idCAT → id ≠ idLIST → id ≠ idPROP →
      Typed (.raw id size data)
  | ext {id size vals} : id ≠ idFORM → id ≠ idCAT → id ≠ idLIST → id ≠ idPROP →
      Typed (.ext id size vals)
  | grp {id size ty subs} : id = idFORM ∨ id = idCAT ∨ id = idPROP →
      (∀ c ∈ subs, Typed c) → Typed (.grp id size ty subs)
  | lst {id size ty subs props} : id = idLIST → (∀ c ∈ subs, Typed c) → (∀ p ∈ props, Typed p) →
      (∀ p ∈ props, p.id = idPROP) → Typed (.lst id size ty subs props)

/-! ### Sizes -/

namespace Frame

/-- The members other than the one taken out. -/
def others : Frame → List Node
  | .grp _ _ _ _ _ pre post => pre ++ post
  | .sub _ _ _ _ _ _ pre post props => pre ++ post ++ props
  | .prop _ _ _ _ _ _ subs pre post => subs ++ (pre ++ post)

end Frame

/-- Everything inside a chunk has consistent sizes; its own declared size does not matter if it is a
group. -/
def SoundInside : Node → Prop
  | .grp _ _ _ _ _ subs => ∀ c ∈ subs, Consistent c.chunk
  | .lst _ _ _ _ _ _ subs props => (∀ c ∈ subs, Consistent c.chunk) ∧ ∀ c ∈ props, Consistent c.chunk
  | t => Consistent t.chunk

namespace Node

/-- The group with the size of its encoded contents as its declared size. -/
def repair : Node → Node
  | .grp a arr id _ ty subs => .grp a arr id (4 + ((encodeAll (chunks subs)).length : Int)) ty subs
  | .lst a arr parr id _ ty subs props =>
    .lst a arr parr id
      (4 + ((encodeAll (chunks props)).length : Int) + ((encodeAll (chunks subs)).length : Int))
      ty subs props
  | t => t

end Node

/-- A chunk and the groups around it, with the sizes of the chunk (if it is a group) and of all
these groups corrected, from the inside out. -/
def repairAll : List Frame → Node → Node
  | [], t => t.repair
  | f :: fs, t => repairAll fs (f.fill t.repair)

/-- Nothing but the declared size of a chunk struct differs. -/
def OnlySize (m m' : Mem) (a : Addr) : Prop :=
  ∃ b h z, m a = some b ∧ b.hdr? = some h ∧ m' a = some (b.setHdr { h with size := z })

end Iff.Spec
