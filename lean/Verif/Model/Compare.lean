import Verif.Model.Chunk
/-
  Model of the compare path: chunk.c:127-136, rawchunk.c:170-176, group.c:234-250, list.c:251-278,
  form.c:189, cat.c:137, prop.c:96, iff.c:147-150, and the compare functions of
  application-defined chunks (tests/hello.c:112-127, tests/bye.c:92-104).
-/
namespace Iff

/-- rawchunk.c:170-176 `IFF_compareRawChunk`: `memcmp` of the first `size1` bytes of both data
blocks; undefined if one of the blocks is shorter. -/
def compareRawChunk (e : Env) (size1 : Int) (data1 data2 : List Byte) : Out Bool :=
  let n := toSize e size1
  if n ≤ data1.length ∧ n ≤ data2.length then .val (data1.take n = data2.take n)
  else .ub .outOfBounds

/-- The members of `IFF_Group` of a chunk. -/
def Chunk.asGroup : Chunk → Out (ID × List Chunk)
  | .grp _ _ t subs => .val (t, subs)
  | .lst _ _ t subs _ => .val (t, subs)
  | _ => .ub .wrongStruct

/-- The PROP array of an `IFF_List`. -/
def Chunk.asList : Chunk → Out (List Chunk)
  | .lst _ _ _ _ props => .val props
  | _ => .ub .wrongStruct

/-- group.c:234-250 `IFF_compareGroup`, given the loop over the sub chunks (`len` is the
`chunkLength` of the first group). -/
def compareGroupWith (ty : ID) (len : Nat) (loop : List Chunk → Out Bool) (d : Chunk) :
    Out Bool := do
  let (ty2, subs2) ← d.asGroup
  if ty = ty2 ∧ len = subs2.length then loop subs2 else .val false

mutual

/-- chunkregistry.h:61 `compareExtensionChunk` of a function table `h`, applied to two chunks. -/
def compareFields (e : Env) (r : Registry) (h : Handler) : Chunk → Chunk → Out Bool
  | .raw _ size data, d =>
    match h, d with
    | .raw, .raw _ _ data2 => compareRawChunk e size data data2
    | _, _ => .ub .wrongStruct
  | .ext _ _ vals, d =>
    match h, d with
    | .ext fields _, .ext _ _ vals2 =>
      if vals.map Val.kind = fields.map Field.kind ∧ vals2.map Val.kind = fields.map Field.kind then
        .val (vals = vals2)
      else .ub .wrongStruct
    | _, _ => .ub .wrongStruct
  | .grp _ _ ty subs, d =>
    match h with
    | .form => compareGroupWith ty subs.length (compareSubs e r ty subs) d
    | .cat => compareGroupWith ty subs.length (compareSubs e r ty subs) d
    | .prop => compareGroupWith ty subs.length (compareSubs e r ty subs) d
    | _ => .ub .wrongStruct
  | .lst _ _ ty subs props, d =>
    match h with
    | .form => compareGroupWith ty subs.length (compareSubs e r ty subs) d
    | .cat => compareGroupWith ty subs.length (compareSubs e r ty subs) d
    | .prop => compareGroupWith ty subs.length (compareSubs e r ty subs) d
    | .list => do
      let props2 ← d.asList
      if props.length = props2.length then
        if ← compareProps e r props props2 then
          compareGroupWith ty subs.length (compareSubs e r ty subs) d
        else .val false
      else .val false
    | _ => .ub .wrongStruct

/-- group.c:240-244: the loop of `IFF_compareGroup`; the body is chunk.c:127-136
`IFF_compareChunk`. -/
def compareSubs (e : Env) (r : Registry) (ty : ID) : List Chunk → List Chunk → Out Bool
  | c :: cs, d :: ds => do
    if c.id = d.id ∧ c.size = d.size then
      if ← compareFields e r (findChunkType r ty c.id) c d then compareSubs e r ty cs ds
      else .val false
    else .val false
  | _, _ => .val true

/-- list.c:257-261: the loop of `compareListPropChunks`, which calls `IFF_compareProp` (prop.c:96,
form.c:189, group.c:234) directly, without going through `IFF_compareChunk`. -/
def compareProps (e : Env) (r : Registry) : List Chunk → List Chunk → Out Bool
  | c :: cs, d :: ds => do
    let ok ← (match c with
      | .grp _ _ ty subs => compareGroupWith ty subs.length (compareSubs e r ty subs) d
      | .lst _ _ ty subs _ => compareGroupWith ty subs.length (compareSubs e r ty subs) d
      | _ => .ub .wrongStruct)
    if ok then compareProps e r cs ds else .val false
  | _, _ => .val true

end

/-- chunk.c:127-136 `IFF_compareChunk`. -/
def compareChunk (e : Env) (r : Registry) (ft : ID) (c d : Chunk) : Out Bool :=
  if c.id = d.id ∧ c.size = d.size then compareFields e r (findChunkType r ft c.id) c d
  else .val false

/-- iff.c:147-150 `IFF_compare`. -/
def compare (e : Env) (reg : Option Registry) (c d : Chunk) : Out Bool :=
  compareChunk e (selectChunkRegistry reg) 0 c d

end Iff
