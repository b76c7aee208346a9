import Verif.Proofs.HeapRead
import Verif.Props.Read
import Verif.Props.ReadWrite
/-
  C33 A failed read leaks nothing.
  C34 IFF_free releases a hierarchy exactly once (hierarchies that were read).
  C36 The pointer-level reader builds the hierarchy the format describes.
  C37 Out of memory is reported, not fatal (reading).
-/
namespace Iff
open Spec Heap

/-! ### Allocators -/

/-- There is an allocator that refuses nothing but what `Env.mallocOk` refuses. -/
theorem total_exists (e : Env) : ∃ A : Alloc, Total A e := by
  classical
  have hex : ∀ m, Roomy m → ∃ a : Addr, a ≠ 0 ∧ m a = none := fun m ⟨b, hb⟩ =>
    ⟨b + 1, Nat.succ_ne_zero b, hb (b + 1) (Nat.le_succ b)⟩
  let fresh : Mem → Option Addr := fun m => if h : Roomy m then some (hex m h).choose else none
  have hs : ∀ m a, fresh m = some a → a ≠ 0 ∧ m a = none := by
    intro m a h
    simp only [fresh] at h
    split at h
    · rename_i hr
      simp only [Option.some.injEq] at h
      subst h; exact (hex m hr).choose_spec
    · cases h
  have hf : ∀ m, Roomy m → (fresh m).isSome := fun m hr => by simp [fresh, hr]
  refine ⟨⟨fun _ m q => match q with
    | .data n => if e.mallocOk n = true then fresh m else none
    | _ => fresh m, ?_, true⟩, ?_, ?_, ?_, ?_⟩
  · intro t m q a h
    cases q with
    | data n =>
      simp only at h
      split at h
      · exact hs m a h
      · cases h
    | struct => exact hs m a h
    | array n => exact hs m a h
  · intro t m _ hr; exact hf m hr
  · intro t m n hr; exact hf m hr
  · intro t m n hr hn
    simp only [hn, ↓reduceIte]; exact hf m hr
  · intro t m n a h
    simp only at h
    split at h
    · assumption
    · cases h

/-- The default registry releases lists as lists. -/
theorem default_lists : ListsConsistent (selectChunkRegistry none) := by
  intro ft id _
  show findChunkType defaultRegistry ft idLIST = .list
  rw [findChunkType_default, if_neg (by decide), if_neg (by decide), if_pos rfl]

/-! ### C33 -/

/-- C33: whenever `IFF_readFd` returns NULL, the heap is what it was before the call: every block
allocated meanwhile has been freed, and none of the older blocks has changed.  For all inputs and
registries, and all allocators: requests may be refused in any pattern. -/
theorem C33_failed_read_leaks_nothing (A : Alloc) (e : Env) (reg : Option Registry)
    (hreg : ListsConsistent (selectChunkRegistry reg)) (s s' : HS) (h0 : s.mem 0 = none)
    (h : Heap.readFd A e reg s = .val (0, s')) : s'.mem = s.mem := by
  have hrel := readFd_rel (A := A) (e := { e with mallocOk := fun _ => true }) hreg
    (fun _ _ _ _ _ => rfl) h0
  rw [readFd_env, h] at hrel
  rcases hrel.val_inv with ⟨_, hm, _⟩ | ⟨t, _, hz, _⟩
  · exact hm
  · exact absurd rfl hz

/-- C33 for `IFF_read` and `IFF_readFile`. -/
theorem C33_failed_read_file (A : Alloc) (e : Env) (reg : Option Registry)
    (hreg : ListsConsistent (selectChunkRegistry reg)) (name : String)
    (contents : Option (List Byte)) (s s' : HS) (h0 : s.mem 0 = none)
    (h : Heap.readFile A e reg name contents s = .val (0, s')) : s'.mem = s.mem := by
  cases contents with
  | none => simp only [Heap.readFile, Out.val.injEq, Prod.mk.injEq] at h; rw [← h.2]
  | some bs =>
    exact C33_failed_read_leaks_nothing A e reg hreg { s with rs := ⟨bs, s.rs.log⟩ } s' h0 h

/-- C33 for the default registry. -/
theorem C33_default (A : Alloc) (e : Env) (s s' : HS) (h0 : s.mem 0 = none)
    (h : Heap.readFd A e none s = .val (0, s')) : s'.mem = s.mem :=
  C33_failed_read_leaks_nothing A e none default_lists s s' h0 h

/-- An allocator for examples: the `t`-th request gets address `t + 1`, unless it is refused. -/
def numbered (refuse : Nat → Req → Bool) : Alloc where
  pick t m q := if refuse t q = false ∧ m (t + 1) = none then some (t + 1) else none
  sound := by
    intro t m q a h
    split at h
    · rename_i hc
      simp only [Option.some.injEq] at h
      subst h
      exact ⟨Nat.succ_ne_zero t, hc.2⟩
    · cases h
  realloc0 := true

/-- A FORM with two data chunks, the second of them truncated. -/
def truncatedForm : List Byte :=
  [0x46, 0x4f, 0x52, 0x4d, 0x00, 0x00, 0x00, 0x18, 0x54, 0x45, 0x53, 0x54,
   0x41, 0x41, 0x41, 0x41, 0x00, 0x00, 0x00, 0x02, 0x01, 0x02,
   0x42, 0x42, 0x42, 0x42, 0x00, 0x00, 0x00, 0x02, 0x03]

/-- What a call returned and how many requests it made to the allocator. -/
def returned : Out (Addr × HS) → Option (Addr × Nat)
  | .val (p, s) => some (p, s.tick)
  | _ => none

theorem returned_eq {o : Out (Addr × HS)} {p t} (h : returned o = some (p, t)) :
    ∃ s', o = .val (p, s') ∧ s'.tick = t := by
  cases o with
  | val x => cases h; exact ⟨_, rfl, rfl⟩
  | ub u => cases h
  | loop => cases h

/-- The hypotheses are met by a read that fails in the chunk of its last allocation. -/
example : ∃ s', Heap.readFd (numbered fun _ _ => false) pc none ⟨fun _ => none, 0, ⟨truncatedForm, []⟩⟩
    = .val (0, s') ∧ s'.tick = 6 := returned_eq (by decide +kernel)

/-- And by one whose fifth request, for a struct, is refused. -/
example : ∃ s', Heap.readFd (numbered fun t _ => t == 4) pc none ⟨fun _ => none, 0, ⟨truncatedForm, []⟩⟩
    = .val (0, s') ∧ s'.tick = 5 := returned_eq (by decide +kernel)

/-! ### C36 -/

/-- C36: when no request is refused (beyond those that `mallocOk` refuses), reading returns a pointer
`p` ≠ NULL exactly if the reader on values returns a hierarchy `c`; the heap then is the old heap plus
the blocks of a hierarchy at `p` that represents `c`, all at different addresses.  (What `c` is for
which bytes is the subject of C10, C12, C13 and C45.) -/
theorem C36_reader_builds_hierarchy (A : Alloc) (e : Env) (hA : Total A e) (reg : Option Registry)
    (hreg : ListsConsistent (selectChunkRegistry reg)) (s : HS) (h0 : s.mem 0 = none)
    (hr : Roomy s.mem) (c : Chunk) (rs' : RS) :
    Iff.readFd e reg s.rs = .val (some c, rs') ↔
      ∃ (t : Node) (s' : HS), Heap.readFd A e reg s = .val (t.addr, s') ∧ s'.rs = rs' ∧
        t.chunk = c ∧ Holds s.mem s'.mem t := by
  have hrel := readFd_rel (A := A) (e := e) hreg hA.grants h0
  constructor
  · intro h
    rw [h] at hrel
    cases hX : Heap.readFd A e reg s with
    | loop => rw [hX] at hrel; cases hrel.loop_inv
    | ub u =>
      rw [hX] at hrel
      rcases hrel.ub_inv with h | ⟨_, h⟩
      · cases h
      · exact absurd (fun t m n hm => hA.array t m n hm) (h hr)
    | val x =>
      obtain ⟨p, s'⟩ := x
      rw [hX] at hrel
      rcases hrel.val_inv with ⟨_, _, h | h⟩ | ⟨t, rfl, _, hh, _, _, h⟩
      · cases h
      · exact absurd hA (h hr)
      · cases h
        exact ⟨t, s', rfl, rfl, rfl, hh⟩
  · rintro ⟨t, s', hX, rfl, rfl, hh⟩
    rw [hX] at hrel
    rcases hrel.val_inv with ⟨h, _⟩ | ⟨t', h1, _, hh', _, _, h⟩
    · exact absurd (h ▸ t.addr_mem) hh.nonNull
    · rw [h]
      rw [In.unique t _ _ t' hh.isIn hh'.isIn h1]

/-- C36, the other outcomes: without refused requests, the reader with pointers returns NULL, executes
undefined behaviour, or does not terminate, exactly when the reader on values does. -/
theorem C36_same_failures (A : Alloc) (e : Env) (hA : Total A e) (reg : Option Registry)
    (hreg : ListsConsistent (selectChunkRegistry reg)) (s : HS) (h0 : s.mem 0 = none)
    (hr : Roomy s.mem) :
    (∀ rs', Iff.readFd e reg s.rs = .val (none, rs') ↔
      ∃ s', Heap.readFd A e reg s = .val (0, s') ∧ s'.rs = rs' ∧ s'.mem = s.mem) ∧
    (∀ u, Iff.readFd e reg s.rs = .ub u ↔ Heap.readFd A e reg s = .ub u) ∧
    (Iff.readFd e reg s.rs = .loop ↔ Heap.readFd A e reg s = .loop) := by
  have hrel := readFd_rel (A := A) (e := e) hreg hA.grants h0
  have hAr : ArraysOk A := fun t m n hm => hA.array t m n hm
  cases hX : Heap.readFd A e reg s with
  | loop => rw [hX] at hrel; rw [hrel.loop_inv]; simp
  | ub u =>
    rw [hX] at hrel
    rcases hrel.ub_inv with h | ⟨_, h⟩
    · rw [h]; simp
    · exact absurd hAr (h hr)
  | val x =>
    obtain ⟨p, s'⟩ := x
    rw [hX] at hrel
    rcases hrel.val_inv with ⟨rfl, hm, h | h⟩ | ⟨t, rfl, hz, hh, _, _, h⟩
    · rw [h]
      simp only [Out.val.injEq, Prod.mk.injEq, true_and, reduceCtorEq, implies_true, and_true]
      intro rs'
      constructor
      · rintro rfl; exact ⟨s', rfl, rfl, hm⟩
      · rintro ⟨s'', rfl, rfl, _⟩; rfl
    · exact absurd hA (h hr)
    · rw [h]
      simp [hz]

/-- C36 with the format: if the input is the encoding of a consistent hierarchy of standard chunks (and
the data of each chunk fits in memory), reading builds that hierarchy. -/
theorem C36_builds_encoded (A : Alloc) (e : Env) (he : e.Sane) (hA : Total A e) (c : Chunk)
    (hc : Consistent c) (hs : Standard c) (hl : ListsSplit c)
    (hm : ∀ id size data, Within (.raw id size data) c → e.mallocOk data.length = true)
    (s : HS) (hin : s.rs.inp = encode c) (h0 : s.mem 0 = none) (hr : Roomy s.mem) :
    ∃ (t : Node) (s' : HS), Heap.readFd A e none s = .val (t.addr, s') ∧ s'.rs.inp = [] ∧
      s'.rs.log = s.rs.log ∧ t.chunk = c ∧ Holds s.mem s'.mem t := by
  obtain ⟨file, room', hw, hread⟩ := C10_read_after_write_default e e he he c hc hs hl hm
    (encode c).length (Nat.le_refl _) [] s.rs.log
  have hfile := C09_write_encodes e he none defaultRegistry_sorted c hc (standard_iff.mpr hs)
    ⟨[], (encode c).length, []⟩ (Nat.le_refl _)
  rw [hw] at hfile
  simp only [Out.val.injEq, Prod.mk.injEq, WS.mk.injEq, true_and, List.nil_append] at hfile
  have hrs : s.rs = ⟨file, s.rs.log⟩ := by rw [hfile.1, ← hin]
  rw [← hrs] at hread
  obtain ⟨t, s', h1, h2, h3, h4⟩ := (C36_reader_builds_hierarchy A e hA none default_lists s h0 hr c
    _).mp hread
  exact ⟨t, s', h1, by rw [h2], by rw [h2], h3, h4⟩

/-! ### C37 -/

/-- The undefined behaviour an execution ended with. -/
def endedWith : Out (Addr × HS) → Option UB
  | .ub u => some u
  | _ => none

theorem ub_eq {o : Out (Addr × HS)} {u : UB} (h : endedWith o = some u) : o = .ub u := by
  cases o with
  | ub u => cases h; rfl
  | val x => cases h
  | loop => cases h

/-- C37 is false: a FORM with one data chunk, and an allocator that refuses arrays of pointers:
`IFF_attachToGroup` stores through the NULL that `realloc` returns. -/
theorem C37_false : Heap.readFd (numbered fun _ q => match q with | .array _ => true | _ => false) pc
    none ⟨fun _ => none, 0, ⟨truncatedForm, []⟩⟩ = .ub .nullDeref := ub_eq (by decide +kernel)

/-- C37, the part that holds for reading: if no array of pointers is refused, then whatever other
requests are refused, the reader has no undefined behaviour but the `int` overflow it also has with
unlimited memory (C16).  Missing: refused arrays of pointers, for which C37 is false
(`C37_false`). -/
theorem C37_read_partial (A : Alloc) (hA : ArraysOk A) (e : Env) (he : e.Sane) (hg : Grants A e)
    (reg : Option Registry) (hreg : ListsConsistent (selectChunkRegistry reg)) (s : HS)
    (h0 : s.mem 0 = none) (hr : Roomy s.mem) (u : UB) (h : Heap.readFd A e reg s = .ub u) :
    u = .signedOverflow ∧ Iff.readFd e reg s.rs = .ub .signedOverflow := by
  have hrel := readFd_rel (A := A) (e := e) hreg hg h0
  rw [h] at hrel
  rcases hrel.ub_inv with hy | ⟨_, hy⟩
  · have := C16_only_overflow e he reg s.rs u hy
    subst this; exact ⟨rfl, hy⟩
  · exact absurd hA (hy hr)

/-- C37, refused arrays: the undefined behaviour is always the store through NULL. -/
theorem C37_read_only_null_store (A : Alloc) (e : Env) (he : e.Sane) (hg : Grants A e)
    (reg : Option Registry) (hreg : ListsConsistent (selectChunkRegistry reg)) (s : HS)
    (h0 : s.mem 0 = none) (u : UB) (h : Heap.readFd A e reg s = .ub u) :
    u = .nullDeref ∨ u = .signedOverflow := by
  have hrel := readFd_rel (A := A) (e := e) hreg hg h0
  rw [h] at hrel
  rcases hrel.ub_inv with hy | ⟨hy, _⟩
  · exact .inr (C16_only_overflow e he reg s.rs u hy)
  · exact .inl hy

/-- C37 for the default registry: if no array is refused, and no group ID in the input (below 2 GiB) is
followed by a negative size, reading returns. -/
theorem C37_read_default_partial (A : Alloc) (hA : ArraysOk A) (e : Env) (he : e.Sane)
    (hg : Grants A e) (s : HS) (h0 : s.mem 0 = none) (hr : Roomy s.mem)
    (hn : NoNegativeGroups s.rs.inp) (hl : s.rs.inp.length < 2147483648) :
    ∃ p s', Heap.readFd A e none s = .val (p, s') := by
  obtain ⟨c, rs', hv⟩ := C16_no_undefined_behaviour_partial e he s.rs hn hl
  cases hX : Heap.readFd A e none s with
  | val x => exact ⟨x.1, x.2, rfl⟩
  | ub u =>
    have := (C37_read_partial A hA e he hg none default_lists s h0 hr u hX).2
    rw [hv] at this; cases this
  | loop =>
    have hrel := readFd_rel (A := A) (e := e) default_lists hg h0
    rw [hX] at hrel
    rw [hrel.loop_inv] at hv; cases hv

/-! ### C34 -/

/-- C34 for hierarchies that were read: freeing what `IFF_readFd` returned frees each block it allocated
exactly once and no other, so that the heap is again what it was before reading.  (Freeing a block
twice, or accessing a freed block, would be undefined behaviour and not return.)  `n` is the stack
depth the recursion of `IFF_free` needs. -/
theorem C34_read_then_free (A : Alloc) (e : Env) (reg : Option Registry)
    (hreg : ListsConsistent (selectChunkRegistry reg)) (s s' : HS) (p : Addr) (h0 : s.mem 0 = none)
    (h : Heap.readFd A e reg s = .val (p, s')) (hp : p ≠ 0) (n : Nat)
    (hn : s.rs.inp.length + 4 ≤ n) :
    ∃ s'', iffFree reg n p s' = .val ((), s'') ∧ s''.mem = s.mem ∧ s''.rs = s'.rs := by
  have hrel := readFd_rel (A := A) (e := { e with mallocOk := fun _ => true }) hreg
    (fun _ _ _ _ _ => rfl) h0
  rw [readFd_env, h] at hrel
  rcases hrel.val_inv with ⟨h, _⟩ | ⟨t, rfl, hz, hh, hr, hd, _⟩
  · exact absurd h hp
  · exact ⟨_, hh.frees h0 hr (by omega) s' rfl, rfl, rfl⟩

/-- C34 for any hierarchy in memory, however it was built: freeing it frees each of its blocks exactly
once and no other block. -/
theorem C34_free_exactly (reg : Option Registry) (s : HS) (par : Addr) (t : Node)
    (hin : In s.mem par t) (hd : t.blocks.Nodup) (h0 : s.mem 0 = none)
    (hr : Released (selectChunkRegistry reg) 0 t.chunk) (n : Nat) (hn : depth t.chunk ≤ n) :
    ∃ s', iffFree reg n t.addr s = .val ((), s') ∧ (∀ a ∈ t.blocks, s'.mem a = none) ∧
      (∀ a, a ∉ t.blocks → s'.mem a = s.mem a) ∧ s'.rs = s.rs := by
  refine ⟨_, freeChunk_spec hin hd h0 hr hn s rfl, ?_, ?_, rfl⟩
  · intro a ha; exact Mem.without_of_mem ha
  · intro a ha; exact Mem.without_of_notMem ha

end Iff
