import Verif.Proofs.SrcWrite
import Verif.Proofs.SrcCompare
import Verif.Props.SrcRead
import Verif.Props.HeapUse
/-
  C61 The program text of the writer and of the comparison does what the model says.
-/
namespace Iff.Src
set_option maxRecDepth 4000
open Spec
open Heap (Addr Block Mem HS HX Alloc)

/-! ### C61 -/

/-- C61, writing: for every platform, allocator, registry, memory and stream, if the model of
`IFF_writeFd` returns then executing the text of `IFF_writeFd` and of the functions it calls returns
the same value, without undefined behaviour; it leaves the same memory, the same bytes on the stream
and the same diagnostics, and changes nothing else. -/
theorem C61_write (X : Cfg) (hX : X.Linked) (reg : Option Registry) (q : Ptr) (hq : RegArg X reg q)
    (g : CS) (s s' : HX WS) (p : Addr) (ok : Bool) (k : Nat) (hm : Rep s.mem)
    (h : Heap.writeFd X.alloc X.e reg k p s = .val (ok, s')) :
    Runs X .IFF_writeFd [.file .out, .ptr (.struct .IFF_Chunk) ⟨.heap p, 0⟩,
      .ptr (.struct .IFF_ChunkRegistry) q] (embW X g s) (truth ok) (embW X g s') :=
  (writeFd_run (stk := g.stk) (inp := g.inp) (text := g.text) hX hq hm h).2

/-- C61, comparing: likewise for `IFF_compare`, which changes nothing at all. -/
theorem C61_compare (X : Cfg) (hX : X.Linked) (reg : Option Registry) (q : Ptr) (hq : RegArg X reg q)
    (g : CS) (s s' : HS) (p p' : Addr) (eq : Bool) (k : Nat) (hm : Rep s.mem)
    (h : Heap.compare X.e reg k p p' s = .val (eq, s')) :
    Runs X .IFF_compare [.ptr (.struct .IFF_Chunk) ⟨.heap p, 0⟩,
      .ptr (.struct .IFF_Chunk) ⟨.heap p', 0⟩, .ptr (.struct .IFF_ChunkRegistry) q] (emb X g s)
      (truth eq) (emb X g s) :=
  (compare_run (stk := g.stk) (out := g.out) (room := g.room) (text := g.text) hX hq hm h).2

/-- C61 with C09 and C51: for every allocator and every stream, the text of `IFF_writeFd`, run on a
consistent hierarchy of standard chunks in memory, returns 1 if and only if the stream takes the whole
encoding; it writes as many bytes of the encoding as the stream takes, reports a failure, and gives
back what it allocates. -/
theorem C61_writer_encodes (X : Cfg) (hX : X.Linked) (he : X.e.Sane) (g : CS) (m : Mem) (par : Addr)
    (t : Node) (hin : In m par t) (hc : Consistent t.chunk) (hs : Standard t.chunk) (hm : Rep m)
    (tick : Nat) (w : WS) :
    ∃ log', Runs X .IFF_writeFd [.file .out, .ptr (.struct .IFF_Chunk) ⟨.heap t.addr, 0⟩,
        .ptr (.struct .IFF_ChunkRegistry) Ptr.null] (embW X g ⟨m, tick, w⟩)
        (truth (decide ((encode t.chunk).length ≤ w.room)))
        (embW X g ⟨m, tick, ⟨w.out ++ (encode t.chunk).take w.room,
          w.room - (encode t.chunk).length, log'⟩⟩) ∧
      ((encode t.chunk).length ≤ w.room → log' = w.log) ∧
      (w.room < (encode t.chunk).length → Reports w.log log') := by
  have hd : Dispatched (selectChunkRegistry none) 0 t.chunk := standard_iff.mpr hs
  have hw := writes_chunk X.e he.wide defaultRegistry_sorted t.chunk 0 hc hd
  have hh := C51_write_without_filler X.alloc X.e he none defaultRegistry_sorted m par t hin hc hd
    (filled_of_standard hs) _ (Nat.le_refl _) tick w
  by_cases hl : (encode t.chunk).length ≤ w.room
  · refine ⟨w.log, ?_, fun _ => rfl, fun h => absurd hl (by omega)⟩
    have h1 : writeFd X.e none t.chunk w = _ := hw.full w hl
    rw [h1] at hh
    rw [decide_eq_true hl, List.take_of_length_le hl]
    exact C61_write X hX none Ptr.null rfl g ⟨m, tick, w⟩ _ _ _ _ hm hh
  · obtain ⟨log', h1, h2⟩ := hw.short w (by omega)
    refine ⟨log', ?_, fun h => absurd h hl, fun _ => h2⟩
    have h1 : writeFd X.e none t.chunk w = _ := h1
    rw [h1] at hh
    rw [decide_eq_false hl, Nat.sub_eq_zero_of_le (by omega)]
    exact C61_write X hX none Ptr.null rfl g ⟨m, tick, w⟩ _ _ _ _ hm hh

/-- C61 with C23 and C50: the text of `IFF_compare`, run on two consistent hierarchies in memory,
returns 1 if and only if they are equal. -/
theorem C61_compare_equal (X : Cfg) (hX : X.Linked) (he : X.e.Sane) (reg : Option Registry) (q : Ptr)
    (hq : RegArg X reg q) (hr : RegistrySorted (selectChunkRegistry reg)) (g : CS) (s : HS)
    (par par' : Addr) (t t' : Node) (hin : In s.mem par t) (hin' : In s.mem par' t')
    (hc : Comparable reg t.chunk) (hd : Comparable reg t'.chunk) (cc : Consistent t.chunk)
    (cd : Consistent t'.chunk) (pc : PropArrays t.chunk) (pd : PropArrays t'.chunk) (hm : Rep s.mem) :
    ∃ eq, Runs X .IFF_compare [.ptr (.struct .IFF_Chunk) ⟨.heap t.addr, 0⟩,
        .ptr (.struct .IFF_Chunk) ⟨.heap t'.addr, 0⟩, .ptr (.struct .IFF_ChunkRegistry) q] (emb X g s)
        (truth eq) (emb X g s) ∧ (eq = true ↔ t.chunk = t'.chunk) := by
  obtain ⟨b, h1, h2⟩ := C50_compare_equal X.e he reg hr s par par' t t' hin hin' hc hd cc cd pc pd _
    (Nat.le_refl _)
  exact ⟨b, C61_compare X hX reg q hq g s s t.addr t'.addr b _ hm h1, h2⟩

/-- C61 with C60: a program that reads the encoding of a consistent hierarchy of standard chunks and
writes what it got, both as text, copies the file byte for byte. -/
theorem C61_copies (X : Cfg) (hX : X.Linked) (he : X.e.Sane) (hg : X.Grants) (c : Chunk)
    (hc : Consistent c) (hs : Standard c) (hl : ListsSplit c)
    (hd : ∀ t s n, Finite s → X.e.mallocOk n = true → (X.pick t s n).isSome)
    (hA : ∀ n, n ≤ (encode c).length + 256 → X.e.mallocOk n = true)
    (hlen : (encode c).length < 4294967296) (g : CS) (hroom : (encode c).length ≤ g.room) :
    ∃ (p : Addr) (g' g'' : CS),
      Runs X .IFF_readFd [.file .inp, .ptr (.struct .IFF_ChunkRegistry) Ptr.null]
        (emb X g (fresh (encode c))) (.ptr (.struct .IFF_Chunk) (.ofAddr p)) g' ∧
      Runs X .IFF_writeFd [.file .out, .ptr (.struct .IFF_Chunk) (.ofAddr p),
        .ptr (.struct .IFF_ChunkRegistry) Ptr.null] g' (truth true) g'' ∧
      g''.out = g.out ++ encode c ∧ g''.inp = [] ∧ g''.log = [] ∧ g''.heap = g'.heap := by
  have hsv : X.Serves ((encode c).length + 256) := fun t s n hf hn => hd t s n hf (hA n hn)
  have hN : X.ArraysOk (((encode c).length + 7) / 8) := by
    intro t s n hf hn
    refine hsv t s _ hf ?_
    have : (n + 1) * (X.e.sizeBits / 8) ≤ (n + 1) * 8 := Nat.mul_le_mul_left _ (by
      rcases X.word with h | h <;> rw [h] <;> decide)
    omega
  obtain ⟨t, s', h, hi, hlog, ht, hh⟩ := C36_builds_encoded _ X.e he
    (complete_total hg hN (fun t s n hf hn => hsv t s n hf (by omega)) hd) c hc hs hl
    (fun id size data hw => hA _ (by have := data_length_le hw; omega))
    (fresh (encode c)) rfl rfl ⟨0, fun _ _ => rfl⟩
  obtain ⟨hp, hrun⟩ := readFd_run (stk := g.stk) (out := g.out) (room := g.room)
    (text := g.text) hX (reg := none) (q := Ptr.null) rfl default_propOk (K := (encode c).length)
    (like_complete (by omega)) ⟨by omega, by omega⟩ ⟨Nat.le_refl _, fresh_bd⟩ h
  obtain ⟨m, tick, ⟨i, l⟩⟩ := s'
  simp only at hi hlog
  subst hi hlog ht
  obtain ⟨log', hw, hlog, -⟩ := C61_writer_encodes X hX he { g with inp := [] } m 0 t hh.isIn hc hs
    (Rep.of_bd hp.2 (by omega)) tick ⟨g.out, g.room, []⟩
  obtain rfl := hlog hroom
  rw [decide_eq_true hroom, List.take_of_length_le hroom] at hw
  exact ⟨t.addr, _, _, hrun, hw, rfl, rfl, rfl, rfl⟩

/-! ### Examples -/

theorem sampleMem_rep : Rep sampleMem := by
  intro a b h
  unfold sampleMem at h
  split at h <;> first | (cases h; done) | (cases h; simp [Fits, inInt])

/-- The hypotheses of `C61_writer_encodes` are met by `sample` in memory. -/
example (g : CS) (w : WS) : ∃ log', Runs generous .IFF_writeFd
    [.file .out, .ptr (.struct .IFF_Chunk) ⟨.heap 1, 0⟩, .ptr (.struct .IFF_ChunkRegistry) Ptr.null]
    (embW generous g ⟨sampleMem, 0, w⟩) (truth (decide (70 ≤ w.room)))
    (embW generous g ⟨sampleMem, 0, ⟨w.out ++ (encode sample).take w.room, w.room - 70, log'⟩⟩) := by
  obtain ⟨log', h, -⟩ := C61_writer_encodes generous generous_linked pc_sane g sampleMem 0 sampleNode
    sampleMem_in sample_consistent sample_standard sampleMem_rep 0 w
  exact ⟨log', h⟩

/-- Those of `C61_copies` are met for every consistent, standard hierarchy. -/
example (g : CS) (c : Chunk) (hc : Consistent c) (hs : Standard c) (hl : ListsSplit c)
    (hlen : (encode c).length < 4294967296) (hroom : (encode c).length ≤ g.room) :
    ∃ (p : Addr) (g' g'' : CS),
      Runs generous .IFF_readFd [.file .inp, .ptr (.struct .IFF_ChunkRegistry) Ptr.null]
        (emb generous g (fresh (encode c))) (.ptr (.struct .IFF_Chunk) (.ofAddr p)) g' ∧
      Runs generous .IFF_writeFd [.file .out, .ptr (.struct .IFF_Chunk) (.ofAddr p),
        .ptr (.struct .IFF_ChunkRegistry) Ptr.null] g' (truth true) g'' ∧
      g''.out = g.out ++ encode c ∧ g''.inp = [] ∧ g''.log = [] ∧ g''.heap = g'.heap :=
  C61_copies generous generous_linked pc_sane generous_grants c hc hs hl
    (fun t s n hf hn => generous_serves t s n hf (of_decide_eq_true hn))
    (fun n hn => decide_eq_true (by omega)) hlen g hroom

/-- The memory `m` before any allocation, and a stream for `room` bytes. -/
def writing (m : Mem) (room : Nat) : CS :=
  ⟨heapOf pc m, 100, [], [], [], room, [], []⟩

/-- What was returned, and what the stream and the diagnostics are. -/
def writtenBy : Out (V × CS) → Option (V × List Byte × Nat)
  | .val (v, g) => some (v, g.out, g.log.length)
  | _ => none

/-- The text can be run: a FORM with a raw chunk of one byte and its padding byte … -/
example : writtenBy (callFn (linked fun _ _ => false) 40 .IFF_writeFd [.file .out,
    .ptr (.struct .IFF_Chunk) ⟨.heap 3, 0⟩, .ptr (.struct .IFF_ChunkRegistry) Ptr.null]
    (writing sampleMem 22)) = some (.int .int 1,
      [70, 79, 82, 77, 0, 0, 0, 14, 84, 69, 83, 84, 65, 66, 67, 68, 0, 0, 0, 1, 0x7f, 0], 0) := by
  decide +kernel

/-- … and the same on a stream without room for the last byte. -/
example : writtenBy (callFn (linked fun _ _ => false) 40 .IFF_writeFd [.file .out,
    .ptr (.struct .IFF_Chunk) ⟨.heap 3, 0⟩, .ptr (.struct .IFF_ChunkRegistry) Ptr.null]
    (writing sampleMem 21)) = some (.int .int 0,
      [70, 79, 82, 77, 0, 0, 0, 14, 84, 69, 83, 84, 65, 66, 67, 68, 0, 0, 0, 1, 0x7f], 7) := by
  decide +kernel

/-- `IFF_compare` as text: the FORM is equal to itself … -/
example : resultOf (callFn (linked fun _ _ => false) 40 .IFF_compare [
    .ptr (.struct .IFF_Chunk) ⟨.heap 3, 0⟩, .ptr (.struct .IFF_Chunk) ⟨.heap 3, 0⟩,
    .ptr (.struct .IFF_ChunkRegistry) Ptr.null] (writing sampleMem 0)) = some (.int .int 1, 0) := by
  decide +kernel

/-- … but not to the FORM in the LIST. -/
example : resultOf (callFn (linked fun _ _ => false) 40 .IFF_compare [
    .ptr (.struct .IFF_Chunk) ⟨.heap 3, 0⟩, .ptr (.struct .IFF_Chunk) ⟨.heap 10, 0⟩,
    .ptr (.struct .IFF_ChunkRegistry) Ptr.null] (writing sampleMem 0)) = some (.int .int 0, 0) := by
  decide +kernel

end Iff.Src
