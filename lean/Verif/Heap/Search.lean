import Verif.Heap.Read
/-
  Searching forms: form.c:194-229, group.c:252-268, 291-312, cat.c:142-145, list.c:280-283.
  `formTypes` and `formTypesLength` are a list of IDs.
-/
namespace Iff.Heap

/-- form.c:201-202: the loop of `IFF_mergeFormArray`, `k` iterations from `i`. -/
def copyPtrs (target : Addr) (tlen : Nat) (source : Addr) : Nat → Nat → M HS Unit
  | 0, _ => pure ()
  | k + 1, i => do
    let c ← getPtr source i
    setPtr target (i + tlen) c
    copyPtrs target tlen source k (i + 1)

/-- form.c:194-207 `IFF_mergeFormArray`: the new array and `*targetLength`.  The result of `realloc`
is not checked; `source` is not freed. -/
def mergeFormArray (A : Alloc) (target : Addr) (tlen : Nat) (source : Addr) (slen : Nat) :
    M HS (Addr × Nat) := do
  let target ← reallocPtrs A target (tlen + slen)
  copyPtrs target tlen source slen 0
  pure (target, tlen + slen)

/-- group.c:259-265: the loop of `IFF_searchFormsInGroup`, `k` iterations from `i`; `search` is
`IFF_searchFormsFromArray`. -/
def searchMembers (A : Alloc) (search : Addr → M HS (Addr × Nat)) (p : Addr) :
    Nat → Nat → Addr → Nat → M HS (Addr × Nat)
  | 0, _, forms, len => pure (forms, len)
  | k + 1, i, forms, len => do
    let g ← getGrp p
    let c ← getPtr g.arr i
    let (r, rlen) ← search c
    let (forms, len) ← mergeFormArray A forms len r rlen
    searchMembers A search p k (i + 1) forms len

/-- group.c:252-268 `IFF_searchFormsInGroup` (`chunkLength` is not changed by the loop); also
cat.c:142-145 and list.c:280-283. -/
def searchGroup (A : Alloc) (search : Addr → M HS (Addr × Nat)) (p : Addr) : M HS (Addr × Nat) := do
  let g ← getGrp p
  searchMembers A search p g.len 0 0 0

/-- form.c:209-229 `IFF_searchFormsInForm`.  The result of `malloc` is not checked. -/
def searchInForm (A : Alloc) (types : List ID) (search : Addr → M HS (Addr × Nat)) (p : Addr) :
    M HS (Addr × Nat) := do
  let g ← getGrp p
  if g.ty ∈ types then do
    let forms ← malloc A (.array 1) (.ptrs [none])
    setPtr forms 0 p
    pure (forms, 1)
  else searchGroup A search p

/-- group.c:291-305 `IFF_searchFormsFromArray`, one unit of fuel for each nesting level: the array
and `*formsLength`. -/
def searchForms (A : Alloc) (types : List ID) : Nat → Addr → M HS (Addr × Nat)
  | 0, _ => M.loop
  | n + 1, p => do
    let h ← getHdr p
    if h.id = idFORM then searchInForm A types (searchForms A types n) p
    else if h.id = idCAT then searchGroup A (searchForms A types n) p
    else if h.id = idLIST then searchGroup A (searchForms A types n) p
    else pure (0, 0)

/-- group.c:307-312 `IFF_searchForms`. -/
def searchFormsOfType (A : Alloc) (n : Nat) (p : Addr) (formType : ID) : M HS (Addr × Nat) :=
  searchForms A [formType] n p

end Iff.Heap
