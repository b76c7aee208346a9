import Verif.Heap.Access
import Verif.Model.Check
/-
  Checking a hierarchy in memory: chunk.c:97-106, rawchunk.c:104-107, group.c:146-197,
  form.c:160-177, cat.c:89-125, list.c:166-211, prop.c:64-84, iff.c:127-140.
-/
namespace Iff.Heap

/-- form.c:160-172 `subChunkCheck`. -/
def formSubChunkCheck (_ c : Addr) : M (HX (List Msg)) Bool := do
  let h ← heap (getHdr c)
  if h.id = idPROP then
    dev (emit (.notInForm h.id))
    pure false
  else pure true

/-- cat.c:89-120 `IFF_checkCATSubChunk`. -/
def catSubChunkCheck (p c : Addr) : M (HX (List Msg)) Bool := do
  let h ← heap (getHdr c)
  if checkValidCATSubChunkId h.id then
    let g ← heap (getGrp p)
    if g.ty ≠ idJJJJ then
      if checkValidCATSubChunkId h.id then
        let gc ← heap (getGrp c)
        if gc.ty ≠ g.ty then
          dev (emit .contentsMismatch)
          pure false
        else pure true
      else pure true
    else pure true
  else
    dev (emit (.notInCat h.id))
    pure false

/-- prop.c:64-79 `subChunkCheck`. -/
def propSubChunkCheck (_ c : Addr) : M (HX (List Msg)) Bool := do
  let h ← heap (getHdr c)
  if h.id = idFORM ∨ h.id = idLIST ∨ h.id = idCAT ∨ h.id = idPROP then
    dev (emit (.notInProp h.id))
    pure false
  else pure true

/-- group.c:146-157 `IFF_checkGroupChunkSize`. -/
def checkGroupChunkSize (p : Addr) (body : Int) : M (HX (List Msg)) Bool := do
  let h ← heap (getHdr p)
  if body = h.size then pure true
  else
    dev (emit (.sizeMismatch h.id h.size body))
    pure false

/-- group.c:159-179: the loop of `IFF_checkGroupSubChunks`, `k` iterations from `i`. -/
def checkMembers (e : Env) (cc : ID → Addr → M (HX (List Msg)) Bool)
    (subCheck : Addr → Addr → M (HX (List Msg)) Bool) (p : Addr) :
    Nat → Nat → Int → M (HX (List Msg)) Int
  | 0, _, acc => pure acc
  | k + 1, i, acc => do
    let g ← heap (getGrp p)
    let c ← heap (getPtr g.arr i)
    if ← subCheck p c then
      let g ← heap (getGrp p)
      if ← cc g.ty c then
        let h ← heap (getHdr c)
        let acc' ← M.ofOut (incrementChunkSize e acc h.size)
        checkMembers e cc subCheck p k (i + 1) acc'
      else pure (-1)
    else pure (-1)

/-- group.c:159-179 `IFF_checkGroupSubChunks`. -/
def checkGroupSubChunks (e : Env) (cc : ID → Addr → M (HX (List Msg)) Bool)
    (subCheck : Addr → Addr → M (HX (List Msg)) Bool) (p : Addr) : M (HX (List Msg)) Int := do
  let g ← heap (getGrp p)
  checkMembers e cc subCheck p g.len 0 0

/-- list.c:166-182: the loop of `checkListPropChunks`, `k` iterations from `i`. -/
def checkProps (e : Env) (cc : ID → Addr → M (HX (List Msg)) Bool) (p : Addr) :
    Nat → Nat → Int → M (HX (List Msg)) Int
  | 0, _, acc => pure acc
  | k + 1, i, acc => do
    let l ← heap (getLst p)
    let c ← heap (getPtr l.parr i)
    let g ← heap (getGrp p)
    if ← cc g.ty c then
      let h ← heap (getHdr c)
      let acc' ← M.ofOut (incrementChunkSize e acc h.size)
      checkProps e cc p k (i + 1) acc'
    else pure (-1)

/-- list.c:166-182 `checkListPropChunks`. -/
def checkListPropChunks (e : Env) (cc : ID → Addr → M (HX (List Msg)) Bool) (p : Addr) :
    M (HX (List Msg)) Int := do
  let l ← heap (getLst p)
  checkProps e cc p l.plen 0 0

/-- group.c:181-197 `IFF_checkGroup`. -/
def checkGroup (e : Env) (cc : ID → Addr → M (HX (List Msg)) Bool)
    (typeCheck : ID → M (List Msg) Bool) (subCheck : Addr → Addr → M (HX (List Msg)) Bool)
    (p : Addr) : M (HX (List Msg)) Bool := do
  let g ← heap (getGrp p)
  if ← dev (typeCheck g.ty) then
    let s ← checkGroupSubChunks e cc subCheck p
    if s = -1 then pure false
    else
      let s' ← M.ofOut (addInt s idSize)
      checkGroupChunkSize p s'
  else pure false

/-- list.c:184-211 `IFF_checkList`. -/
def checkList (e : Env) (cc : ID → Addr → M (HX (List Msg)) Bool) (p : Addr) :
    M (HX (List Msg)) Bool := do
  let _ ← heap (getLst p)
  let g ← heap (getGrp p)
  if ← dev (checkId e g.ty) then
    let s ← checkListPropChunks e cc p
    if s = -1 then pure false
    else
      let s1 ← M.ofOut (addInt idSize s)
      let t ← checkGroupSubChunks e cc catSubChunkCheck p
      if t = -1 then pure false
      else
        let s2 ← M.ofOut (addInt s1 t)
        checkGroupChunkSize p s2
  else pure false

/-- The check function of an application-defined chunk. -/
def checkExt (fields : List Field) (chk : List Val → Bool) (p : Addr) :
    M (HX (List Msg)) Bool := do
  let vals ← heap (getExt fields p)
  if chk vals then pure true
  else
    dev (emit .app)
    pure false

/-- chunk.c:97-106 `IFF_checkChunk`, `n` levels deep; rawchunk.c:104-107 does not look at the
chunk. -/
def checkChunk (e : Env) (r : Registry) : Nat → ID → Addr → M (HX (List Msg)) Bool
  | 0, _, _ => M.loop
  | n + 1, ft, p => do
    let h ← heap (getHdr p)
    if ← dev (checkId e h.id) then
      match findChunkType r ft h.id with
      | .raw => pure true
      | .form => checkGroup e (checkChunk e r n) (checkFormType e) formSubChunkCheck p
      | .cat => checkGroup e (checkChunk e r n) (checkId e) catSubChunkCheck p
      | .prop => checkGroup e (checkChunk e r n) (checkFormType e) propSubChunkCheck p
      | .list => checkList e (checkChunk e r n) p
      | .ext fields chk => checkExt fields chk p
    else pure false

/-- iff.c:127-140 `IFF_check`. -/
def check (e : Env) (reg : Option Registry) (n : Nat) (p : Addr) : M (HX (List Msg)) Bool := do
  let h ← heap (getHdr p)
  if h.id ≠ idFORM ∧ h.id ≠ idCAT ∧ h.id ≠ idLIST then
    dev (emit .notIff85)
    pure false
  else checkChunk e (selectChunkRegistry reg) n 0 p

end Iff.Heap
