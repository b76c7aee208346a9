import Verif.Model.Chunk
/-
  Model of the check path: chunk.c:97-106, rawchunk.c:104-107, group.c:146-197, form.c:160-177,
  cat.c:89-125, list.c:166-211, prop.c:64-84, iff.c:127-140.  The state is the log of diagnostics.
-/
namespace Iff

/-- form.c:160-172 `subChunkCheck`. -/
def formSubChunkCheck (c : Chunk) : M (List Msg) Bool :=
  if c.id = idPROP then do emit (.notInForm c.id); pure false
  else pure true

/-- cat.c:50-53 `checkValidCATSubChunkId`. -/
def checkValidCATSubChunkId (id : ID) : Bool := id = idFORM ∨ id = idCAT ∨ id = idLIST

/-- cat.c:89-120 `IFF_checkCATSubChunk`. -/
def catSubChunkCheck (contentsType : ID) (c : Chunk) : M (List Msg) Bool :=
  if checkValidCATSubChunkId c.id then
    if contentsType ≠ idJJJJ then
      if checkValidCATSubChunkId c.id then do
        let t ← M.ofOut c.groupType
        if t ≠ contentsType then emit .contentsMismatch; pure false
        else pure true
      else pure true
    else pure true
  else do emit (.notInCat c.id); pure false

/-- prop.c:64-79 `subChunkCheck`. -/
def propSubChunkCheck (c : Chunk) : M (List Msg) Bool :=
  if c.id = idFORM ∨ c.id = idLIST ∨ c.id = idCAT ∨ c.id = idPROP then do
    emit (.notInProp c.id); pure false
  else pure true

/-- group.c:146-157 `IFF_checkGroupChunkSize`. -/
def checkGroupChunkSize (id : ID) (size body : Int) : M (List Msg) Bool :=
  if body = size then pure true
  else do emit (.sizeMismatch id size body); pure false

/-- chunk.c:97-106 `IFF_checkChunk`, given the call of `checkExtensionChunk`. -/
def checkChunkWith (e : Env) (c : Chunk) (chk : M (List Msg) Bool) : M (List Msg) Bool := do
  if ← checkId e c.id then chk else pure false

/-- group.c:181-197 `IFF_checkGroup`, given the traversal of the sub chunks. -/
def checkGroupWith (id : ID) (size : Int) (typeCheck : M (List Msg) Bool)
    (subs : M (List Msg) Int) : M (List Msg) Bool := do
  if ← typeCheck then
    let s ← subs
    if s = -1 then pure false
    else
      let s' ← M.ofOut (addInt s idSize)
      checkGroupChunkSize id size s'
  else pure false

mutual

/-- chunkregistry.h:52 `checkExtensionChunk` of a function table `h`, applied to a chunk:
rawchunk.c:104 (does not look at the chunk), form.c:174-177, cat.c:122-125, prop.c:81-84,
list.c:184-211 `IFF_checkList`, and the check function of an application-defined chunk. -/
def checkFields (e : Env) (r : Registry) (h : Handler) : Chunk → M (List Msg) Bool
  | .raw _ _ _ =>
    match h with
    | .raw => pure true
    | _ => M.ub .wrongStruct
  | .ext _ _ vals =>
    match h with
    | .raw => pure true
    | .ext fields chk =>
      if vals.map Val.kind = fields.map Field.kind then
        if chk vals then pure true else do emit .app; pure false
      else M.ub .wrongStruct
    | _ => M.ub .wrongStruct
  | .grp id size ty subs =>
    match h with
    | .raw => pure true
    | .form => checkGroupWith id size (checkFormType e ty)
        (checkGroupSubChunks e r ty formSubChunkCheck subs 0)
    | .cat => checkGroupWith id size (checkId e ty)
        (checkGroupSubChunks e r ty (catSubChunkCheck ty) subs 0)
    | .prop => checkGroupWith id size (checkFormType e ty)
        (checkGroupSubChunks e r ty propSubChunkCheck subs 0)
    | _ => M.ub .wrongStruct
  | .lst id size ty subs props =>
    match h with
    | .raw => pure true
    | .form => checkGroupWith id size (checkFormType e ty)
        (checkGroupSubChunks e r ty formSubChunkCheck subs 0)
    | .cat => checkGroupWith id size (checkId e ty)
        (checkGroupSubChunks e r ty (catSubChunkCheck ty) subs 0)
    | .prop => checkGroupWith id size (checkFormType e ty)
        (checkGroupSubChunks e r ty propSubChunkCheck subs 0)
    | .list => do
      if ← checkId e ty then
        let s ← checkListPropChunks e r ty props 0
        if s = -1 then pure false
        else
          let s1 ← M.ofOut (addInt idSize s)
          let t ← checkGroupSubChunks e r ty (catSubChunkCheck ty) subs 0
          if t = -1 then pure false
          else
            let s2 ← M.ofOut (addInt s1 t)
            checkGroupChunkSize id size s2
      else pure false
    | _ => M.ub .wrongStruct

/-- group.c:159-179 `IFF_checkGroupSubChunks`: -1 is returned for "a sub chunk is invalid". -/
def checkGroupSubChunks (e : Env) (r : Registry) (ty : ID)
    (subCheck : Chunk → M (List Msg) Bool) : List Chunk → Int → M (List Msg) Int
  | [], acc => pure acc
  | c :: cs, acc => do
    if ← subCheck c then
      if ← checkChunkWith e c (checkFields e r (findChunkType r ty c.id) c) then
        let acc' ← M.ofOut (incrementChunkSize e acc c.size)
        checkGroupSubChunks e r ty subCheck cs acc'
      else pure (-1)
    else pure (-1)

/-- list.c:166-182 `checkListPropChunks`. -/
def checkListPropChunks (e : Env) (r : Registry) (ty : ID) :
    List Chunk → Int → M (List Msg) Int
  | [], acc => pure acc
  | c :: cs, acc => do
    if ← checkChunkWith e c (checkFields e r (findChunkType r ty c.id) c) then
      let acc' ← M.ofOut (incrementChunkSize e acc c.size)
      checkListPropChunks e r ty cs acc'
    else pure (-1)

end

/-- chunk.c:97-106 `IFF_checkChunk`. -/
def checkChunk (e : Env) (r : Registry) (ft : ID) (c : Chunk) : M (List Msg) Bool :=
  checkChunkWith e c (checkFields e r (findChunkType r ft c.id) c)

/-- iff.c:127-140 `IFF_check`. -/
def check (e : Env) (reg : Option Registry) (c : Chunk) : M (List Msg) Bool :=
  if c.id ≠ idFORM ∧ c.id ≠ idCAT ∧ c.id ≠ idLIST then do emit .notIff85; pure false
  else checkChunk e (selectChunkRegistry reg) 0 c

end Iff
