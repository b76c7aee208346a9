import Verif.Spec.TestSearch
/-
  What the programs tests/lookupproperty-{prop,override,nested}.c are to find.
-/
namespace Iff.Spec

open Iff.Src

/-- The chunk ID BYE. -/
def nameBYE : ID := 0x42594520#32

/-- The members of a group, without the PROPs of a LIST. -/
def insideOf : Chunk → List Chunk
  | .grp _ _ _ subs => subs
  | .lst _ _ _ subs _ => subs
  | _ => []

/-- The form type or contents type of a group. -/
def typeOf : Chunk → Option ID
  | .grp _ _ ty _ => some ty
  | .lst _ _ ty _ _ => some ty
  | _ => none

/-- The first chunk with an ID in a sequence. -/
def named (id : ID) (cs : List Chunk) : Option Chunk := cs.find? fun c => c.id = id

/-- The chunk with an ID in the first of a LIST's PROPs that is for a form type. -/
def shares (ty id : ID) (props : List Chunk) : Option Chunk :=
  match props.find? fun p => typeOf p = some ty with
  | some p => named id (insideOf p)
  | none => none

/-- The one, if there is one, or else the other. -/
def orElse (a b : Option Chunk) : Option Chunk :=
  match a with
  | some c => some c
  | none => b

mutual

/-- For each outermost FORM of a type, in the order of the file, the chunk with an ID that applies to it: its own, or else
the one that the nearest LIST around it shares (`above`: what is shared by the LISTs around the whole hierarchy). -/
def applied (ty id : ID) (above : Option Chunk) : Chunk → List (Option Chunk)
  | .grp g _ t subs =>
    if g = idFORM ∧ t = ty then [orElse (named id subs) above]
    else if g = idFORM ∨ g = idCAT ∨ g = idLIST then appliedAll ty id above subs else []
  | .lst g _ _ subs props =>
    if g = idFORM ∨ g = idCAT ∨ g = idLIST then appliedAll ty id (orElse (shares ty id props) above) subs else []
  | _ => []

/-- The same for a sequence. -/
def appliedAll (ty id : ID) (above : Option Chunk) : List Chunk → List (Option Chunk)
  | [] => []
  | c :: cs => applied ty id above c ++ appliedAll ty id above cs

end

end Iff.Spec
