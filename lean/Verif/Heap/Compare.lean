import Verif.Heap.Access
import Verif.Model.Compare
/-
  Comparing two hierarchies in memory: chunk.c:127-136, rawchunk.c:170-176, group.c:234-250,
  list.c:251-278, form.c:189, cat.c:137, prop.c:96, iff.c:147-150.
-/
namespace Iff.Heap

/-- rawchunk.c:170-176 `IFF_compareRawChunk`.  Simplification: `memcmp` looks at all the bytes it
is given, also after a difference. -/
def compareRawChunk (e : Env) (p q : Addr) : M HS Bool := do
  let d ← getRaw p
  let d' ← getRaw q
  let h ← getHdr p
  let bs ← readBytes d (toSize e h.size)
  let bs' ← readBytes d' (toSize e h.size)
  pure (bs = bs')

/-- The compare function of an application-defined chunk. -/
def compareExt (fields : List Field) (p q : Addr) : M HS Bool := do
  let vals ← getExt fields p
  let vals' ← getExt fields q
  pure (vals = vals')

/-- group.c:240-244: the loop of `IFF_compareGroup`, `k` iterations from `i`. -/
def compareMembers (cc : ID → Addr → Addr → M HS Bool) (p q : Addr) : Nat → Nat → M HS Bool
  | 0, _ => pure true
  | k + 1, i => do
    let g ← getGrp p
    let c ← getPtr g.arr i
    let g' ← getGrp q
    let c' ← getPtr g'.arr i
    if ← cc g.ty c c' then compareMembers cc p q k (i + 1) else pure false

/-- group.c:234-250 `IFF_compareGroup`. -/
def compareGroup (cc : ID → Addr → Addr → M HS Bool) (p q : Addr) : M HS Bool := do
  let g ← getGrp p
  let g' ← getGrp q
  if g.ty = g'.ty ∧ g.len = g'.len then compareMembers cc p q g.len 0 else pure false

/-- list.c:257-261: the loop of `compareListPropChunks`, `k` iterations from `i`. -/
def compareProps (cc : ID → Addr → Addr → M HS Bool) (p q : Addr) : Nat → Nat → M HS Bool
  | 0, _ => pure true
  | k + 1, i => do
    let l ← getLst p
    let c ← getPtr l.parr i
    let l' ← getLst q
    let c' ← getPtr l'.parr i
    if ← compareGroup cc c c' then compareProps cc p q k (i + 1) else pure false

/-- list.c:268-278 `IFF_compareList` with list.c:251-266 `compareListPropChunks`. -/
def compareList (cc : ID → Addr → Addr → M HS Bool) (p q : Addr) : M HS Bool := do
  let l ← getLst p
  let l' ← getLst q
  if l.plen = l'.plen then
    if ← compareProps cc p q l.plen 0 then compareGroup cc p q else pure false
  else pure false

/-- chunk.c:127-136 `IFF_compareChunk`, `n` levels deep.  PROPs of a LIST are not compared through
this function, but their members are. -/
def compareChunk (e : Env) (r : Registry) : Nat → ID → Addr → Addr → M HS Bool
  | 0, _, _, _ => M.loop
  | n + 1, ft, p, q => do
    let h ← getHdr p
    let h' ← getHdr q
    if h.id = h'.id ∧ h.size = h'.size then
      match findChunkType r ft h.id with
      | .raw => compareRawChunk e p q
      | .form => compareGroup (compareChunk e r n) p q
      | .cat => compareGroup (compareChunk e r n) p q
      | .prop => compareGroup (compareChunk e r n) p q
      | .list => compareList (compareChunk e r n) p q
      | .ext fields _ => compareExt fields p q
    else pure false

/-- iff.c:147-150 `IFF_compare`. -/
def compare (e : Env) (reg : Option Registry) (n : Nat) (p q : Addr) : M HS Bool :=
  compareChunk e (selectChunkRegistry reg) n 0 p q

end Iff.Heap
