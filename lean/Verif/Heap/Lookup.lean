import Verif.Heap.Read
/-
  Looking up chunks in forms: form.c:236-334, list.c:295-306, prop.c:106-109.
-/
namespace Iff.Heap

/-- form.c:295-299: the loop of `IFF_getDataChunkFromForm`, `k` iterations from `i`. -/
def findMember (chunkId : ID) (p : Addr) : Nat → Nat → M HS Addr
  | 0, _ => pure 0
  | k + 1, i => do
    let g ← getGrp p
    let c ← getPtr g.arr i
    let h ← getHdr c
    if h.id = chunkId then pure c else findMember chunkId p k (i + 1)

/-- form.c:291-302 `IFF_getDataChunkFromForm`, also prop.c:106-109 `IFF_getChunkFromProp`. -/
def getDataChunk (p : Addr) (chunkId : ID) : M HS Addr := do
  let g ← getGrp p
  findMember chunkId p g.len 0

/-- form.c:242-255 `searchList`, one unit of fuel for each enclosing group. -/
def searchList : Nat → Addr → M HS Addr
  | 0, _ => M.loop
  | n + 1, p => do
    let h ← getHdr p
    if h.parent = 0 then pure 0
    else do
      let hp ← getHdr h.parent
      if hp.id = idLIST then pure h.parent else searchList n h.parent

/-- list.c:299-303: the loop of `IFF_getPropFromList`, `k` iterations from `i`. -/
def findProp (formType : ID) (p : Addr) : Nat → Nat → M HS Addr
  | 0, _ => pure 0
  | k + 1, i => do
    let l ← getLst p
    let c ← getPtr l.parr i
    let g ← getGrp c
    if g.ty = formType then pure c else findProp formType p k (i + 1)

/-- list.c:295-306 `IFF_getPropFromList`. -/
def getProp (p : Addr) (formType : ID) : M HS Addr := do
  let l ← getLst p
  findProp formType p l.plen 0

/-- form.c:265-289 `searchProperty`, one unit of fuel for each enclosing group. -/
def searchProperty (formType chunkId : ID) : Nat → Addr → M HS Addr
  | 0, _ => M.loop
  | n + 1, p => do
    let l ← searchList (n + 1) p
    if l = 0 then pure 0
    else do
      let q ← getProp l formType
      if q = 0 then searchProperty formType chunkId n l
      else do
        let c ← getDataChunk q chunkId
        if c = 0 then searchProperty formType chunkId n l else pure c

/-- form.c:304-314 `IFF_getChunkFromForm`. -/
def getChunk (n : Nat) (p : Addr) (chunkId : ID) : M HS Addr := do
  let c ← getDataChunk p chunkId
  if c = 0 then do
    let g ← getGrp p
    searchProperty g.ty chunkId n p
  else pure c

/-- form.c:323-331: the loop of `IFF_getChunksFromForm`, `k` iterations from `i`; `result` and
`*chunksLength` are `r` and `len`.  The result of `realloc` is not checked. -/
def collect (A : Alloc) (chunkId : ID) (p : Addr) : Nat → Nat → Addr → Nat → M HS (Addr × Nat)
  | 0, _, r, len => pure (r, len)
  | k + 1, i, r, len => do
    let g ← getGrp p
    let c ← getPtr g.arr i
    let h ← getHdr c
    if h.id = chunkId then do
      let r ← reallocPtrs A r (len + 1)
      let g ← getGrp p
      let c ← getPtr g.arr i
      setPtr r len c
      collect A chunkId p k (i + 1) r (len + 1)
    else collect A chunkId p k (i + 1) r len

/-- form.c:316-334 `IFF_getChunksFromForm`: the array and `*chunksLength`. -/
def getChunks (A : Alloc) (p : Addr) (chunkId : ID) : M HS (Addr × Nat) := do
  let g ← getGrp p
  collect A chunkId p g.len 0 0 0

end Iff.Heap
