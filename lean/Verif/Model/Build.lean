import Verif.Model.Check
/-
  Model of the functions an application builds hierarchies with, on chunks as values: the create
  functions of group.c, form.c, cat.c, prop.c, list.c, and the add functions.  Here the allocations
  succeed and the added chunk is moved into the group; Verif/Heap models the same functions with
  pointers and failing allocations, and relates the two.
-/
namespace Iff

/-- group.c:50-53 `IFF_createEmptyGroup`: via group.c:40-48 `IFF_createGroup`.  Called by
form.c:68-71 `IFF_createEmptyForm`, cat.c:35-43 `IFF_createEmptyCATWithContentsType`,
`IFF_createEmptyCAT`, prop.c:39-42 `IFF_createEmptyProp`. -/
def createEmptyGroup (id ty : ID) : Chunk := .grp id idSize ty []

/-- list.c:45-53 `IFF_createEmptyListWithContentsType`, `IFF_createEmptyList`: via list.c:30-43. -/
def createEmptyList (ty : ID) : Chunk := .lst idLIST idSize ty [] []

/-- cat.c:40-43 `IFF_createEmptyCAT`. -/
def createEmptyCAT : Chunk := createEmptyGroup idCAT idJJJJ

/-- group.c:68-72 `IFF_addToGroup` (group.c:60-66 `IFF_attachToGroup` and the size update); called by
form.c:78-81 `IFF_addToForm`, cat.c:68-71 `IFF_addToCAT`, prop.c:49-52 `IFF_addToProp`,
list.c:74-77 `IFF_addToList`. -/
def addToGroup (e : Env) (g c : Chunk) : Out Chunk :=
  match g with
  | .grp id size ty subs => do
    let size' ← incrementChunkSize e size c.size
    .val (.grp id size' ty (subs ++ [c]))
  | .lst id size ty subs props => do
    let size' ← incrementChunkSize e size c.size
    .val (.lst id size' ty (subs ++ [c]) props)
  | _ => .ub .wrongStruct

/-- list.c:68-72 `IFF_addPropToList`, with list.c:60-66 `addPropToList`.  Both arguments are accessed
through their struct types. -/
def addPropToList (e : Env) (l p : Chunk) : Out Chunk :=
  match l, p with
  | .lst id size ty subs props, .grp pid psize pty psubs => do
    let size' ← incrementChunkSize e size psize
    .val (.lst id size' ty subs (props ++ [.grp pid psize pty psubs]))
  | _, _ => .ub .wrongStruct

/-- cat.c:57-65, the decision of `updateContentsType`: the new contents type. -/
def newContentsType (isEmpty : Bool) (contentsType groupType : ID) : ID :=
  if isEmpty then groupType
  else if contentsType ≠ idJJJJ ∧ contentsType ≠ groupType then idJJJJ
  else contentsType

/-- cat.c:55-66 `updateContentsType`. -/
def updateContentsType (cat c : Chunk) : Out Chunk :=
  if checkValidCATSubChunkId c.id then do
    let t ← c.groupType
    match cat with
    | .grp id size ty subs => .val (.grp id size (newContentsType subs.isEmpty ty t) subs)
    | .lst id size ty subs props =>
      .val (.lst id size (newContentsType subs.isEmpty ty t) subs props)
    | _ => .ub .wrongStruct
  else .val cat

/-- cat.c:73-77 `IFF_addToCATAndUpdateContentsType` and list.c:79-82
`IFF_addToListAndUpdateContentsType`. -/
def addAndUpdate (e : Env) (cat c : Chunk) : Out Chunk := do
  let cat' ← updateContentsType cat c
  addToGroup e cat' c

end Iff
