import Verif.Proofs.Owner
import Verif.Props.InstancesHeap
/-
  C73 Releasing a chunk requires that everything in it has one owner.
-/
namespace Iff
open Spec Heap

/-! ### C73 -/

/-- C73: on any heap whatsoever (in which nothing is at the address NULL), if `IFF_free` returns, then each chunk
that is reached from the released one is reached along one path only, was allocated, and is released; the
released blocks are released once each, and the rest of the heap is as before. -/
theorem C73_one_owner (reg : Option Registry) (n : Nat) (p : Addr) (s s' : HS) (u : Unit) (h0 : s.mem 0 = none)
    (h : iffFree reg n p s = .val (u, s')) :
    (∀ ks ks' x, Reaches (selectChunkRegistry reg) s.mem 0 p ks x →
      Reaches (selectChunkRegistry reg) s.mem 0 p ks' x → ks = ks') ∧
    (∀ ks x, Reaches (selectChunkRegistry reg) s.mem 0 p ks x → s.mem x ≠ none ∧ s'.mem x = none) ∧
    (∀ a, s'.mem a = none ∨ s'.mem a = s.mem a) := by
  obtain ⟨L, hL, h1, h2⟩ := freeChunk_owns (selectChunkRegistry reg) s.mem n 0 p s s' u h h0 fun _ _ h => h
  refine ⟨h2, fun ks x hx => ⟨hL.2.2 x (h1 ks x hx), by rw [hL.1, Mem.without_of_mem (h1 ks x hx)]⟩, fun a => ?_⟩
  rw [hL.1]
  by_cases ha : a ∈ L
  · exact .inl (Mem.without_of_mem ha)
  · exact .inr (Mem.without_of_notMem ha)

/-- C73: a chunk with something in it that is reached along two different paths, because it was added twice or to
two groups, or because a group is inside of itself, cannot be released: `IFF_free` does not return, whatever the
nesting depth. -/
theorem C73_shared (reg : Option Registry) (p : Addr) (s : HS) (h0 : s.mem 0 = none) (ks ks' : List Step) (x : Addr)
    (h1 : Reaches (selectChunkRegistry reg) s.mem 0 p ks x)
    (h2 : Reaches (selectChunkRegistry reg) s.mem 0 p ks' x) (hne : ks ≠ ks') (n : Nat) (y : Unit × HS) :
    iffFree reg n p s ≠ .val y :=
  fun h => hne ((C73_one_owner reg n p s y.2 y.1 h0 h).1 ks ks' x h1 h2)

/-- C73: neither can a chunk that holds a pointer to a chunk that is not, or no longer, allocated. -/
theorem C73_dangling (reg : Option Registry) (p : Addr) (s : HS) (h0 : s.mem 0 = none) (ks : List Step) (x : Addr)
    (h1 : Reaches (selectChunkRegistry reg) s.mem 0 p ks x) (hx : s.mem x = none) (n : Nat) (y : Unit × HS) :
    iffFree reg n p s ≠ .val y :=
  fun h => ((C73_one_owner reg n p s y.2 y.1 h0 h).2.1 ks x h1).1 hx

/-! ### Examples -/

/-- A FORM at 1 with the raw chunk at 2, twice. -/
def twice : Mem := fun a =>
  match a with
  | 1 => some (.grp ⟨0, idFORM, 28⟩ idTEST 2 3)
  | 2 => some (.raw ⟨1, 0x41424344#32, 3⟩ 4)
  | 3 => some (.ptrs [some 2, some 2])
  | 4 => some (.bytes [some 1, some 2, some 3])
  | _ => none

/-- The hypotheses of `C73_shared` are met by it. -/
example (n : Nat) (y : Unit × HS) : iffFree none n 1 ⟨twice, 0, ⟨[], []⟩⟩ ≠ .val y :=
  C73_shared none 1 ⟨twice, 0, ⟨[], []⟩⟩ rfl [.member 0] [.member 1] 2
    (.step (.member (g := ⟨idTEST, 2, 3⟩) rfl rfl (.inl rfl) rfl rfl (by decide) rfl) .here)
    (.step (.member (g := ⟨idTEST, 2, 3⟩) rfl rfl (.inl rfl) rfl rfl (by decide) rfl) .here)
    (by intro h; cases h) n y

/-- Such a heap arises from calls of the library: add a chunk to a FORM twice. -/
def addTwice : M HS Addr := do
  let f ← Op.run always pc (.group idFORM idTEST)
  let c ← Op.run always pc (.raw 0x41424344#32 [1, 2, 3])
  let _ ← Op.run always pc (.add f c)
  let _ ← Op.run always pc (.add f c)
  pure f

/-- How the release of the FORM goes wrong, if the calls return one. -/
def releaseTwice : Option UB :=
  match addTwice ⟨fun _ => none, 0, ⟨[], []⟩⟩ with
  | .val (f, s) =>
    match iffFree none 2 f s with
    | .ub u => some u
    | _ => none
  | _ => none

/-- C73, the witness: these calls all succeed, and then `IFF_free` reads a chunk that it has released. -/
theorem C73_add_twice : releaseTwice = some .useAfterFree := by decide +kernel

/-- A FORM at 1 with a raw chunk at 2. -/
def once : Mem := fun a =>
  match a with
  | 1 => some (.grp ⟨0, idFORM, 16⟩ idTEST 1 3)
  | 2 => some (.raw ⟨1, 0x41424344#32, 3⟩ 4)
  | 3 => some (.ptrs [some 2])
  | 4 => some (.bytes [some 1, some 2, some 3])
  | _ => none

/-- The hypotheses of `C73_one_owner` are met by it. -/
example : ∃ s', iffFree none 2 1 ⟨once, 0, ⟨[], []⟩⟩ = .val ((), s') ∧ s'.mem 2 = none := by
  refine ⟨_, rfl, ?_⟩
  rfl

/-- The hypotheses of `C73_dangling` are met if that raw chunk was released on its own. -/
example (n : Nat) (y : Unit × HS) : iffFree none n 1 ⟨once.set 2 none, 0, ⟨[], []⟩⟩ ≠ .val y :=
  C73_dangling none 1 ⟨once.set 2 none, 0, ⟨[], []⟩⟩ rfl [.member 0] 2
    (.step (.member (g := ⟨idTEST, 1, 3⟩) rfl rfl (.inl rfl) rfl rfl (by decide) rfl) .here) rfl n y

end Iff
