import Verif.Proofs.SrcIff
import Verif.Props.HeapRead
/-
  C60 The program text of the reader does what the model says.
-/
namespace Iff.Src
set_option maxRecDepth 4000
open Spec
open Heap (Addr Block Mem HS Alloc)

/-! ### C60 -/

/-- C60, reading: for every platform, allocator, registry, heap, stack and input (below 4 GiB together
with the arrays of pointers in the heap), if the model of `IFF_readFd` returns then executing the text
of `IFF_readFd` and of the functions it calls returns the same pointer, without undefined behaviour; it
leaves the same blocks in the heap, byte for byte, the same unread input and the same diagnostics, and
changes nothing else. -/
theorem C60_read (X : Cfg) (hX : X.Linked) (reg : Option Registry) (q : Ptr) (hq : RegArg X reg q)
    (g : CS) (s s' : HS) (hpr : PropFine (selectChunkRegistry reg) s.rs.inp) (p : Addr) (L : Nat)
    (hm : MBd L s.mem) (hL : L + s.rs.inp.length ≤ 4294967296)
    (h : Heap.readFd X.alloc X.e reg s = .val (p, s')) :
    Runs X .IFF_readFd [.file .inp, .ptr (.struct .IFF_ChunkRegistry) q] (emb X g s)
      (.ptr (.struct .IFF_Chunk) (.ofAddr p)) (emb X g s') :=
  (readFd_run (stk := g.stk) (out := g.out) (room := g.room) (text := g.text) hX hq hpr
    (N := 536870912) (like_self (by decide)) ⟨hL, hL⟩ ⟨by omega, hm.mono (by omega)⟩ h).2

/-- C60, releasing: likewise for `IFF_free`; `k` bounds the nesting. -/
theorem C60_free (X : Cfg) (hX : X.Linked) (reg : Option Registry) (q : Ptr) (hq : RegArg X reg q)
    (g : CS) (s s' : HS) (p : Addr) (u : Unit) (k : Nat) (hm : MBd 4294967296 s.mem)
    (h : Heap.iffFree reg k p s = .val (u, s')) :
    Runs X .IFF_free [.ptr (.struct .IFF_Chunk) ⟨.heap p, 0⟩, .ptr (.struct .IFF_ChunkRegistry) q]
      (emb X g s) .void (emb X g s') :=
  iffFree_run (stk := g.stk) (out := g.out) (room := g.room) (text := g.text) hX hq hm
    (Nat.le_refl _) h

/-- The default registry reads `PROP` as a property chunk. -/
theorem default_propOk {inp : List Byte} : PropFine (selectChunkRegistry none) inp := by
  refine .inl fun ft => ?_
  rw [show findChunkType (selectChunkRegistry none) ft idPROP = .prop from rfl]
  exact ⟨(fun h => nomatch h), (fun _ _ h => nomatch h)⟩

/-- An empty heap. -/
@[reducible] def fresh (inp : List Byte) : HS := ⟨fun _ => none, 0, ⟨inp, []⟩⟩

theorem fresh_bd {inp : List Byte} {L : Nat} : MBd L (fresh inp).mem := fun _ _ h => nomatch h

/-- C60 with C16 and C37: for the default registry, if no array of pointers that is smaller than the
input is refused, and no group ID in the input (below 2 GiB) is followed by a negative size, the text
of `IFF_readFd` returns, whatever other requests are refused: it ends, and no step of it has undefined
behaviour. -/
theorem C60_reader_is_safe (X : Cfg) (hX : X.Linked) (he : X.e.Sane) (g : CS) (inp : List Byte)
    (hA : X.ArraysOk (inp.length / 8 + 1)) (hg : X.Grants) (hn : NoNegativeGroups inp)
    (hl : inp.length < 2147483648) :
    ∃ p s', Runs X .IFF_readFd [.file .inp, .ptr (.struct .IFF_ChunkRegistry) Ptr.null]
      (emb X g (fresh inp)) (.ptr (.struct .IFF_Chunk) (.ofAddr p)) (emb X g s') := by
  obtain ⟨p, s', h⟩ := C37_read_default_partial _ (complete_arrays hA) X.e he (complete_grants hg)
    (fresh inp) rfl ⟨0, fun _ _ => rfl⟩ hn hl
  exact ⟨p, s', (readFd_run (stk := g.stk) (out := g.out) (room := g.room) (text := g.text) hX
    (reg := none) (q := Ptr.null) rfl default_propOk (K := inp.length) (like_complete (by omega))
    ⟨by omega, by omega⟩ ⟨Nat.le_refl _, fresh_bd⟩ h).2⟩

/-- C60 with C36: the text of `IFF_readFd`, run on the encoding of a consistent hierarchy of standard
chunks (with an allocator that grants requests that are not much larger than the input), returns a
pointer to that hierarchy. -/
theorem C60_reader_builds (X : Cfg) (hX : X.Linked) (he : X.e.Sane) (hg : X.Grants) (c : Chunk)
    (hc : Consistent c) (hs : Standard c) (hl : ListsSplit c)
    (hd : ∀ t s n, Finite s → X.e.mallocOk n = true → (X.pick t s n).isSome)
    (hA : ∀ n, n ≤ (encode c).length + 256 → X.e.mallocOk n = true)
    (hlen : (encode c).length < 4294967296) (g : CS) :
    ∃ (t : Node) (s' : HS), t.chunk = c ∧ Holds (fun _ => none) s'.mem t ∧ s'.rs = ⟨[], []⟩ ∧
      Runs X .IFF_readFd [.file .inp, .ptr (.struct .IFF_ChunkRegistry) Ptr.null]
        (emb X g (fresh (encode c))) (.ptr (.struct .IFF_Chunk) (.ofAddr t.addr)) (emb X g s') := by
  have hsv : X.Serves ((encode c).length + 256) := fun t s n hf hn => hd t s n hf (hA n hn)
  have hN : X.ArraysOk (((encode c).length + 7) / 8) := by
    intro t s n hf hn
    refine hsv t s _ hf ?_
    have : (n + 1) * (X.e.sizeBits / 8) ≤ (n + 1) * 8 := Nat.mul_le_mul_left _ (by
      rcases X.word with h | h <;> rw [h] <;> decide)
    omega
  obtain ⟨t, s', h, hi, hlog, ht, hh⟩ := C36_builds_encoded _ X.e he
    (complete_total hg hN (fun t s n hf hn => hsv t s n hf (by omega)) hd) c hc hs hl
    (fun id size data hw => hA _ (by have := data_length_le hw; omega))
    (fresh (encode c)) rfl rfl ⟨0, fun _ _ => rfl⟩
  refine ⟨t, s', ht, hh, ?_, (readFd_run (stk := g.stk) (out := g.out) (room := g.room)
    (text := g.text) hX (reg := none) (q := Ptr.null) rfl default_propOk (K := (encode c).length)
    (like_complete (by omega)) ⟨by omega, by omega⟩ ⟨Nat.le_refl _, fresh_bd⟩ h).2⟩
  obtain ⟨m, k, ⟨i, l⟩⟩ := s'
  simp only at hi hlog
  rw [hi, hlog]

/-- C60 with C34: reading and then freeing, both as text, gives back every block. -/
theorem C60_read_then_free (X : Cfg) (hX : X.Linked) (g : CS) (inp : List Byte) (p : Addr) (s' : HS)
    (hl : inp.length ≤ 4294967296)
    (h : Heap.readFd X.alloc X.e none (fresh inp) = .val (p, s')) (hp : p ≠ 0) :
    ∃ s'' : HS, s''.mem = (fun _ => none) ∧
      Runs X .IFF_readFd [.file .inp, .ptr (.struct .IFF_ChunkRegistry) Ptr.null]
        (emb X g (fresh inp)) (.ptr (.struct .IFF_Chunk) (.ofAddr p)) (emb X g s') ∧
      Runs X .IFF_free [.ptr (.struct .IFF_Chunk) (.ofAddr p),
        .ptr (.struct .IFF_ChunkRegistry) Ptr.null] (emb X g s') .void (emb X g s'') := by
  obtain ⟨s'', hf, hmem, -⟩ := C34_read_then_free X.alloc X.e none default_lists _ _ p rfl h hp
    (inp.length + 4) (Nat.le_refl _)
  have hp' : Pre 4294967296 s' := (readFd_run (stk := g.stk) (out := g.out) (room := g.room)
    (text := g.text) hX (reg := none) (q := Ptr.null) rfl default_propOk
    (N := 536870912) (like_self (by decide)) ⟨Nat.le_refl _, Nat.le_refl _⟩ ⟨hl, fresh_bd⟩ h).1
  refine ⟨s'', hmem, C60_read X hX none Ptr.null rfl g _ _ default_propOk p 0 fresh_bd
    (by show 0 + inp.length ≤ _; omega) h, ?_⟩
  exact C60_free X hX none Ptr.null rfl g s' s'' p () _ (hp'.2.mono (by omega)) hf

/-! ### Examples -/

/-- An allocator for examples: the `t`-th request gets address `t + 1`, unless it is refused. -/
def cfg (refuse : Nat → Nat → Bool) (img : Nat → Option Blk) : Cfg where
  e := pc
  word := .inr rfl
  pick t s n := if refuse t n = false ∧ s (t + 1) = none then some (t + 1) else none
  sound := by
    intro t s n a h
    split at h
    · rename_i hc
      cases h
      exact ⟨Nat.succ_ne_zero t, hc.2⟩
    · cases h
  realloc0 := true
  img := img

/-- A program linked with the library. -/
def linked (refuse : Nat → Nat → Bool) : Cfg := cfg refuse fun a =>
  ([Glob.IFF_globalChunkTypes, .IFF_globalChunkTypesNode, .IFF_defaultChunkType,
    .IFF_defaultChunkRegistry].find? (fun g => g.addr = a)).map fun g =>
      initBlk (cfg refuse fun _ => none) g.ty g.init

theorem linked_linked (refuse : Nat → Nat → Bool) : (linked refuse).Linked := by
  intro g hg; cases g <;> first | rfl | cases hg

/-- The undefined behaviour an execution ended with. -/
def failedWith : Out (V × CS) → Option UB
  | .ub u => some u
  | _ => none

/-- What a call returned and how many diagnostics there are. -/
def resultOf : Out (V × CS) → Option (V × Nat)
  | .val (v, g) => some (v, g.log.length)
  | _ => none

/-- The start of a program that reads `inp`. -/
def started (inp : List Byte) : CS := ⟨fun _ => none, 0, [], inp, [], 0, [], []⟩

/-- The hypotheses of `C60_read` are met by a file that ends inside of a FORM … -/
example : ∃ s', Heap.readFd (linked fun _ _ => false).alloc pc none (fresh (truncatedForm.take 14)) =
    .val (0, s') ∧ s'.tick = 1 := returned_eq (by decide +kernel)

/-- … and the text can be run on it: it returns NULL after seven calls of `IFF_error`. -/
example : resultOf (callFn (linked fun _ _ => false) 30 .IFF_readFd
    [.file .inp, .ptr (.struct .IFF_ChunkRegistry) Ptr.null] (started (truncatedForm.take 14))) =
    some (.ptr (.struct .IFF_Chunk) Ptr.null, 7) := by decide +kernel

/-- C16 is false of the text, too. -/
theorem C60_overflow : failedWith (callFn (linked fun _ _ => false) 40 .IFF_readFd
    [.file .inp, .ptr (.struct .IFF_ChunkRegistry) Ptr.null] (started overflowing)) =
    some .signedOverflow := by decide +kernel

/-- C37 is false of the text, too: the first request for an array is refused. -/
theorem C60_null_store : failedWith (callFn (linked fun _ n => n == 8) 40 .IFF_readFd
    [.file .inp, .ptr (.struct .IFF_ChunkRegistry) Ptr.null] (started truncatedForm)) =
    some .nullDeref := by decide +kernel

open Classical in
/-- An allocator that grants every request that `Env.mallocOk` allows (here: below 2^63 bytes) as long
as there is a free address. -/
noncomputable def generousWith (img : Nat → Option Blk) : Cfg where
  e := pc
  word := .inr rfl
  pick _ s n :=
    if n < 2 ^ 63 then if h : ∃ a : Nat, a ≠ 0 ∧ s a = none then some h.choose else none else none
  sound := by
    intro t s n a h
    split at h
    · split at h
      · rename_i h'
        cases h
        exact h'.choose_spec
      · cases h
    · cases h
  realloc0 := true
  img := img

/-- A program with that allocator, linked with the library. -/
noncomputable def generous : Cfg := generousWith fun a =>
  ([Glob.IFF_globalChunkTypes, .IFF_globalChunkTypesNode, .IFF_defaultChunkType,
    .IFF_defaultChunkRegistry].find? (fun g => g.addr = a)).map fun g =>
      initBlk (generousWith fun _ => none) g.ty g.init

theorem generous_linked : generous.Linked := by
  intro g hg; cases g <;> first | rfl | cases hg

open Classical in
theorem generous_serves (t : Nat) (s : Nat → Option Nat) (n : Nat) (hs : Finite s) (hn : n < 2 ^ 63) :
    (generous.pick t s n).isSome := by
  obtain ⟨b, hb⟩ := hs
  have h : ∃ a : Nat, a ≠ 0 ∧ s a = none := ⟨b + 1, by omega, hb _ (by omega)⟩
  show (if n < 2 ^ 63 then if h : ∃ a : Nat, a ≠ 0 ∧ s a = none then some h.choose else none else
    none : Option Nat).isSome
  rw [if_pos hn, dif_pos h]
  rfl

theorem generous_grants : generous.Grants := by
  intro t s n a h
  show decide (n < 2 ^ 63) = true
  rw [decide_eq_true_iff]
  cases hn : decide (n < 2 ^ 63) with
  | true => exact of_decide_eq_true hn
  | false => rw [show generous.pick t s n = none from if_neg (of_decide_eq_false hn)] at h; cases h

/-- The hypotheses of `C60_reader_is_safe` are met for every input below 2 GiB without a negative
group size. -/
example (g : CS) (inp : List Byte) (hn : NoNegativeGroups inp) (hl : inp.length < 2147483648) :
    ∃ p s', Runs generous .IFF_readFd [.file .inp, .ptr (.struct .IFF_ChunkRegistry) Ptr.null]
      (emb generous g (fresh inp)) (.ptr (.struct .IFF_Chunk) (.ofAddr p)) (emb generous g s') :=
  C60_reader_is_safe generous generous_linked pc_sane g inp
    (fun t s n hs hn => generous_serves t s _ hs (by
      show (n + 1) * (64 / 8) < 2 ^ 63
      omega)) generous_grants hn hl

/-- Those of `C60_reader_builds` are met for every consistent, standard hierarchy. -/
example (g : CS) (c : Chunk) (hc : Consistent c) (hs : Standard c) (hl : ListsSplit c)
    (hlen : (encode c).length < 4294967296) :
    ∃ (t : Node) (s' : HS), t.chunk = c ∧ Holds (fun _ => none) s'.mem t ∧ s'.rs = ⟨[], []⟩ ∧
      Runs generous .IFF_readFd [.file .inp, .ptr (.struct .IFF_ChunkRegistry) Ptr.null]
        (emb generous g (fresh (encode c))) (.ptr (.struct .IFF_Chunk) (.ofAddr t.addr))
        (emb generous g s') :=
  C60_reader_builds generous generous_linked pc_sane generous_grants c hc hs hl
    (fun t s n hf hn => generous_serves t s n hf (of_decide_eq_true hn))
    (fun n hn => decide_eq_true (by omega)) hlen g

/-- The heap-level hypotheses of C36 can be met, too. -/
example : ∃ A : Alloc, Total A pc :=
  ⟨_, complete_total (N := 1) generous_grants
    (fun t s n hs hn => generous_serves t s _ hs (by
      show (n + 1) * (64 / 8) < 2 ^ 63
      omega))
    (fun t s n hs hn => generous_serves t s n hs (by omega))
    (fun t s n hf hn => generous_serves t s n hf (of_decide_eq_true hn))⟩

end Iff.Src
