import Verif.Heap.Read
/-
  Recomputing sizes: group.c:281-289, 314-336, list.c:285-293.
-/
namespace Iff.Heap

/-- group.c:287-288: the loop of `IFF_updateGroupChunkSizes`, `k` iterations from `i`. -/
def sumMembers (e : Env) (p : Addr) : Nat → Nat → M HS Unit
  | 0, _ => pure ()
  | k + 1, i => do
    let h ← getHdr p
    let g ← getGrp p
    let c ← getPtr g.arr i
    let hc ← getHdr c
    let z ← M.ofOut (incrementChunkSize e h.size hc.size)
    updHdr p fun h => { h with size := z }
    sumMembers e p k (i + 1)

/-- group.c:281-289 `IFF_updateGroupChunkSizes` (form.c:231-234, cat.c `IFF_updateCATChunkSizes`,
prop.c `IFF_updatePropChunkSizes`). -/
def updateGroupSizes (e : Env) (p : Addr) : M HS Unit := do
  updHdr p fun h => { h with size := idSize }
  let g ← getGrp p
  sumMembers e p g.len 0

/-- list.c:291-292: the loop of `IFF_updateListChunkSizes`, `k` iterations from `i`. -/
def sumProps (e : Env) (p : Addr) : Nat → Nat → M HS Unit
  | 0, _ => pure ()
  | k + 1, i => do
    let h ← getHdr p
    let l ← getLst p
    let c ← getPtr l.parr i
    let hc ← getHdr c
    let z ← M.ofOut (incrementChunkSize e h.size hc.size)
    updHdr p fun h => { h with size := z }
    sumProps e p k (i + 1)

/-- list.c:285-293 `IFF_updateListChunkSizes`. -/
def updateListSizes (e : Env) (p : Addr) : M HS Unit := do
  updateGroupSizes e p
  let l ← getLst p
  sumProps e p l.plen 0

/-- group.c:316-330: the `switch` of `IFF_updateChunkSizes`. -/
def updateOwnSize (e : Env) (p : Addr) : M HS Unit := do
  let h ← getHdr p
  if h.id = idFORM then updateGroupSizes e p
  else if h.id = idPROP then updateGroupSizes e p
  else if h.id = idCAT then updateGroupSizes e p
  else if h.id = idLIST then updateListSizes e p
  else pure ()

/-- group.c:314-336 `IFF_updateChunkSizes`, one unit of fuel for each enclosing group. -/
def updateSizes (e : Env) : Nat → Addr → M HS Unit
  | 0, _ => M.loop
  | n + 1, p => do
    updateOwnSize e p
    let h ← getHdr p
    if h.parent ≠ 0 then updateSizes e n h.parent else pure ()

end Iff.Heap
