import Verif.Heap.Build
import Verif.Spec.Path
/-
  Parent links, and which calls an application may make.
-/
namespace Iff.Spec

open Iff.Heap

/-- The chunk at `c` is one of the members of the group at `p`. -/
def MemberAt (m : Mem) (p c : Addr) : Prop :=
  ∃ b g cells i, m p = some b ∧ b.grp? = some g ∧ m g.arr = some (.ptrs cells) ∧ i < g.len ∧
    cells[i]? = some (some c)

/-- The chunk at `c` is one of the PROPs of the list at `p`. -/
def PropAt (m : Mem) (p c : Addr) : Prop :=
  ∃ b l cells i, m p = some b ∧ b.lst? = some l ∧ m l.parr = some (.ptrs cells) ∧ i < l.plen ∧
    cells[i]? = some (some c)

/-- The parent pointer of the chunk at `c` is `p`. -/
def ParentIs (m : Mem) (c p : Addr) : Prop :=
  ∃ b h, m c = some b ∧ b.hdr? = some h ∧ h.parent = p

/-- In the part of the memory `m` that was not in use in `m₀`, parent pointers are correct. -/
structure Linked (m₀ m : Mem) : Prop where
  /-- every member points to the group it is in -/
  member : ∀ p b g, m₀ p = none → m p = some b → b.grp? = some g → ∀ i, i < g.len →
    ∃ cells c, m g.arr = some (.ptrs cells) ∧ cells[i]? = some (some c) ∧ ParentIs m c p
  /-- every PROP points to the list it is in -/
  prop : ∀ p b l, m₀ p = none → m p = some b → b.lst? = some l → ∀ i, i < l.plen →
    ∃ cells c, m l.parr = some (.ptrs cells) ∧ cells[i]? = some (some c) ∧ ParentIs m c p
  /-- a parent pointer is NULL or points to a group the chunk is in -/
  parent : ∀ c p, m₀ c = none → ParentIs m c p → p = 0 ∨ MemberAt m p c ∨ PropAt m p c

/-- `Up m p q`: following parent pointers from the chunk at `p` leads to `q`. -/
inductive Up (m : Mem) : Addr → Addr → Prop
  | refl {p} : Up m p p
  | step {p q r} : ParentIs m p q → Up m q r → Up m p r

/-- The chunk at `p` is the application's: it was allocated after the start. -/
def Own (m₀ : Mem) (p : Addr) : Prop := m₀ p = none

/-- The struct at `p` is a group, and the one at `c` is a chunk that is not in a group yet and does
not contain the group. -/
def CanAdd (m₀ m : Mem) (p c : Addr) : Prop :=
  Own m₀ p ∧ Own m₀ c ∧ (∃ b g, m p = some b ∧ b.grp? = some g) ∧ ParentIs m c 0 ∧ ¬ Up m p c

/-- The calls an application may make, when the memory at the start was `m₀` and is `m` now. -/
def Allowed (m₀ m : Mem) : Op → Prop
  | .read reg _ => ListsConsistent (selectChunkRegistry reg)
  | .raw _ data => data.length < 2147483648
  | .group _ _ => True
  | .list _ => True
  | .ext _ _ _ => True
  | .add p c => CanAdd m₀ m p c
  | .addProp p c => CanAdd m₀ m p c ∧ (∃ b l, m p = some b ∧ b.lst? = some l) ∧
      ∃ h ty arr len, m c = some (.grp h ty arr len)
  | .addAuto p c => CanAdd m₀ m p c
  | .update _ p => Own m₀ p
  | .free reg n p => Own m₀ p ∧ ∃ t, In m 0 t ∧ t.addr = p ∧
      Released (selectChunkRegistry reg) 0 t.chunk ∧ depth t.chunk ≤ n

/-- `History A e ok s₀ s`: the state `s` results from `s₀` by allowed calls, of the kinds in `ok`, that
have returned. -/
inductive History (A : Alloc) (e : Env) (ok : Op → Prop) (s₀ : HS) : HS → Prop
  | start : History A e ok s₀ s₀
  | call {s op r s'} : History A e ok s₀ s → ok op → Allowed s₀.mem s.mem op →
      op.run A e s = .val (r, s') → History A e ok s₀ s'

/-- Calls of an application without chunk types of its own, that gives groups the ID of a group and
other chunks other IDs. -/
def StandardCall : Op → Prop
  | .read reg _ => reg = none
  | .raw id _ => id ≠ idFORM ∧ id ≠ idCAT ∧ id ≠ idLIST ∧ id ≠ idPROP
  | .group id _ => id = idFORM ∨ id = idCAT ∨ id = idPROP
  | .ext _ _ _ => False
  | _ => True

/-! ### What the calls do to the hierarchies of the application -/

mutual

/-- A hierarchy with the declared sizes left out. -/
def unsized : Chunk → Chunk
  | .raw id _ data => .raw id 0 data
  | .ext id _ vals => .ext id 0 vals
  | .grp id _ ty subs => .grp id 0 ty (unsizedAll subs)
  | .lst id _ ty subs props => .lst id 0 ty (unsizedAll subs) (unsizedAll props)

/-- The same for a sequence of hierarchies. -/
def unsizedAll : List Chunk → List Chunk
  | [] => []
  | c :: cs => unsized c :: unsizedAll cs

end

/-- The hierarchy a call creates. -/
def Makes (e : Env) (log : List Msg) : Op → Chunk → Prop
  | .read reg bytes, c => Released (selectChunkRegistry reg) 0 c ∧ depth c ≤ bytes.length + 4 ∧
      ∃ rs, Iff.readFd { e with mallocOk := fun _ => true } reg ⟨bytes, log⟩ = .val (some c, rs)
  | .raw id data, c => c = .raw id data.length data
  | .group id ty, c => c = Iff.createEmptyGroup id ty
  | .list ty, c => c = Iff.createEmptyList ty
  | .ext id size vals, c => c = .ext id size vals
  | _, _ => False

/-- What a call that returns `r` makes of the hierarchies of the application: the ones before the call
and the ones after it, in no particular order. -/
inductive Change (e : Env) (log : List Msg) : Op → Addr → List Node → List Node → Prop
  /-- a creation that fails -/
  | none {op ts} : Change e log op 0 ts ts
  /-- a creation -/
  | new {op t ts} : Makes e log op t.chunk → Change e log op t.addr ts (t :: ts)
  | add {ts fs g g' c rest} : ts.Perm (plug fs g :: c :: rest) → g'.addr = g.addr →
      Iff.addToGroup e g.chunk c.chunk = .val g'.chunk →
      Change e log (.add g.addr c.addr) 0 ts (plug fs g' :: rest)
  | addProp {ts fs g g' c rest} : ts.Perm (plug fs g :: c :: rest) → g'.addr = g.addr →
      Iff.addPropToList e g.chunk c.chunk = .val g'.chunk →
      Change e log (.addProp g.addr c.addr) 0 ts (plug fs g' :: rest)
  | addAuto {ts fs g g' c rest} : ts.Perm (plug fs g :: c :: rest) → g'.addr = g.addr →
      Iff.addAndUpdate e g.chunk c.chunk = .val g'.chunk →
      Change e log (.addAuto g.addr c.addr) 0 ts (plug fs g' :: rest)
  /-- only sizes change -/
  | update {n p ts ts'} :
      ts'.map (fun t => (t.addr, t.blocks, unsized t.chunk)) =
        ts.map (fun t => (t.addr, t.blocks, unsized t.chunk)) →
      Change e log (.update n p) 0 ts ts'
  | free {reg n t ts rest} : ts.Perm (t :: rest) → Change e log (.free reg n t.addr) 0 ts rest

end Iff.Spec
