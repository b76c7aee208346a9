import Verif.Proofs.HeapWrite
import Verif.Proofs.HeapCheck
import Verif.Proofs.HeapCompare
import Verif.Proofs.HeapPrint
import Verif.Proofs.HeapKeep
import Verif.Props.HeapRead
import Verif.Props.Check
import Verif.Props.Compare
import Verif.Props.Dump
import Verif.Props.Ext
/-
  C50 Checking, comparing and printing only look at the hierarchy.
  C51 Writing leaves the hierarchy in memory as it is.
-/
namespace Iff
open Spec Heap

/-- Standard chunks are not application-defined. -/
theorem filled_of_standard : ∀ {c : Chunk}, Standard c → Filled c := by
  intro c h
  induction h with
  | raw _ _ _ _ => exact .raw
  | grp _ _ ih => exact .grp ih
  | lst _ _ _ ih ih2 => exact .lst ih ih2

/-! ### A concrete hierarchy in memory -/

/-- The hierarchy `sample` with addresses. -/
def sampleNode : Node :=
  .grp 1 2 idCAT 62 (makeId 'T' 'E' 'S' 'T')
    [.grp 3 4 idFORM 14 (makeId 'T' 'E' 'S' 'T') [.raw 5 6 (makeId 'A' 'B' 'C' 'D') 1 [0x7f]],
     .lst 7 8 9 idLIST 28 (makeId 'T' 'E' 'S' 'T')
       [.grp 10 0 idFORM 4 (makeId 'T' 'E' 'S' 'T') []]
       [.grp 11 0 idPROP 4 (makeId 'T' 'E' 'S' 'T') []]]

/-- A memory with that hierarchy. -/
def sampleMem : Mem := fun a => match a with
  | 1 => some (.grp ⟨0, idCAT, 62⟩ (makeId 'T' 'E' 'S' 'T') 2 2)
  | 2 => some (.ptrs [some 3, some 7])
  | 3 => some (.grp ⟨1, idFORM, 14⟩ (makeId 'T' 'E' 'S' 'T') 1 4)
  | 4 => some (.ptrs [some 5])
  | 5 => some (.raw ⟨3, makeId 'A' 'B' 'C' 'D', 1⟩ 6)
  | 6 => some (.bytes [some 0x7f])
  | 7 => some (.lst ⟨1, idLIST, 28⟩ (makeId 'T' 'E' 'S' 'T') 1 8 1 9)
  | 8 => some (.ptrs [some 10])
  | 9 => some (.ptrs [some 11])
  | 10 => some (.grp ⟨7, idFORM, 4⟩ (makeId 'T' 'E' 'S' 'T') 0 0)
  | 11 => some (.grp ⟨7, idPROP, 4⟩ (makeId 'T' 'E' 'S' 'T') 0 0)
  | _ => none

theorem sampleNode_chunk : sampleNode.chunk = sample := rfl

theorem sampleMem_in : In sampleMem 0 sampleNode := by
  simp [sampleNode, In, InAll, ArrayIn, Node.addr, sampleMem]

/-- The hypotheses of C50 and C51 about the hierarchy are met by `sample` in memory. -/
example : ∃ m par t, In m par t ∧ Consistent t.chunk ∧ Standard t.chunk ∧ Filled t.chunk ∧
    depth t.chunk ≤ 4 ∧ t.blocks.length = 11 := by
  refine ⟨sampleMem, 0, sampleNode, sampleMem_in, sample_consistent, sample_standard, ?_, ?_, rfl⟩
  · exact filled_of_standard sample_standard
  · decide

/-- An allocator that grants all requests for data in a memory with free addresses. -/
example : ∃ A : Alloc, Fills A sampleMem := by
  obtain ⟨A, hA⟩ := total_exists pc
  refine ⟨A, fun t n _ hn => hA.data t sampleMem n ⟨12, ?_⟩
    (decide_eq_true (show n < 2 ^ 63 by omega))⟩
  intro a ha
  unfold sampleMem
  split <;> first | rfl | omega

/-! ### C50 -/

/-- C50, checking: `IFF_check` on pointers has the outcome that the check of the hierarchy has, and
neither changes the memory nor allocates.  In particular every access is to a block of the right
type that has not been freed, within its bounds.  `n` is the stack depth the recursion needs. -/
theorem C50_check (e : Env) (reg : Option Registry) (m : Mem) (par : Addr) (t : Node)
    (hin : In m par t) (n : Nat) (hn : depth t.chunk ≤ n) (tick : Nat) (log : List Msg) :
    Heap.check e reg n t.addr ⟨m, tick, log⟩ = keeping m tick (check e reg t.chunk log) := by
  have h := check_ref (e := e) (reg := reg) log hin hn tick
  cases ho : check e reg t.chunk log with
  | val x =>
    rw [ho] at h
    obtain ⟨t', e1, rfl | ⟨h2, _⟩⟩ := h
    · exact e1
    · cases h2
  | ub u => rw [ho] at h; exact h
  | loop => rw [ho] at h; exact h

/-- C50, comparing: the same for `IFF_compare`; the two hierarchies may share blocks, or be the
same. -/
theorem C50_compare (e : Env) (reg : Option Registry) (s : HS) (par par' : Addr) (t t' : Node)
    (hin : In s.mem par t) (hin' : In s.mem par' t') (n : Nat) (hn : depth t.chunk ≤ n) :
    Heap.compare e reg n t.addr t'.addr s =
      (match compare e reg t.chunk t'.chunk with
      | .val b => .val (b, s)
      | .ub u => .ub u
      | .loop => .loop) := by
  have h := compareChunk_looks (e := e) (r := selectChunkRegistry reg) n t t' 0 par par' hin hin' hn
    s rfl
  unfold Heap.compare compare
  rw [h]
  cases compareChunk e (selectChunkRegistry reg) 0 t.chunk t'.chunk <;> rfl

/-- C50, printing: the same for `IFF_print`, on every level of indentation. -/
theorem C50_print (reg : Option Registry) (m : Mem) (par : Addr) (t : Node) (hin : In m par t)
    (n : Nat) (hn : depth t.chunk ≤ n) (level tick : Nat) (out : List Byte) :
    Heap.print reg n level t.addr ⟨m, tick, out⟩ =
      printing m tick out (print reg level t.chunk) := by
  have h := printChunk_prints (r := selectChunkRegistry reg) (ft := 0) (level := level) hin hn out
    tick
  unfold Heap.print print
  cases ho : printChunk (selectChunkRegistry reg) level 0 t.chunk with
  | val x =>
    rw [ho] at h
    obtain ⟨t', e1, rfl | ⟨h2, _⟩⟩ := h
    · exact e1
    · cases h2
  | ub u => rw [ho] at h; exact h
  | loop => rw [ho] at h; exact h

/-- C50 with C20: on a hierarchy of standard chunks in memory, `IFF_check` returns TRUE iff it
conforms, without undefined behaviour and without a change to the memory. -/
theorem C50_check_decides (e : Env) (he : e.Sane) (m : Mem) (par : Addr) (t : Node)
    (hin : In m par t) (hs : Standard t.chunk) (hr : RawSizes t.chunk) (hp : PropArrays t.chunk)
    (hl : (encode t.chunk).length < 2147483648) (n : Nat) (hn : depth t.chunk ≤ n) (tick : Nat)
    (log : List Msg) : ∃ b log', Heap.check e none n t.addr ⟨m, tick, log⟩ =
      .val (b, ⟨m, tick, log'⟩) ∧ (b = true ↔ Conforms t.chunk) := by
  have hc := C20_check_decides_partial e he t.chunk hs hr hp hl log
  rw [C50_check e none m par t hin n hn]
  by_cases h : Conforms t.chunk
  · rw [hc.1 h]; exact ⟨true, log, rfl, by simp [h]⟩
  · obtain ⟨log', h'⟩ := hc.2 h
    rw [h']; exact ⟨false, log', rfl, by simp [h]⟩

/-- C50 with C23: consistent hierarchies in memory compare equal iff they are equal apart from the
addresses. -/
theorem C50_compare_equal (e : Env) (he : e.Sane) (reg : Option Registry)
    (hr : RegistrySorted (selectChunkRegistry reg)) (s : HS) (par par' : Addr) (t t' : Node)
    (hin : In s.mem par t) (hin' : In s.mem par' t') (hc : Comparable reg t.chunk)
    (hd : Comparable reg t'.chunk) (cc : Consistent t.chunk) (cd : Consistent t'.chunk)
    (pc : PropArrays t.chunk) (pd : PropArrays t'.chunk) (n : Nat) (hn : depth t.chunk ≤ n) :
    ∃ b, Heap.compare e reg n t.addr t'.addr s = .val (b, s) ∧
      (b = true ↔ t.chunk = t'.chunk) := by
  obtain ⟨b, h1, h2⟩ := C23_equal e he reg hr t.chunk t'.chunk hc hd cc cd pc pd
  rw [C50_compare e reg s par par' t t' hin hin' n hn, h1]
  exact ⟨b, rfl, h2⟩

/-! ### C51 -/

/-- C51, what holds of any hierarchy in memory: if no request for zero filler bytes is refused,
`IFF_writeFd` on pointers has the outcome that writing the hierarchy has, and the memory is
afterwards what it was before: the filler bytes have been freed.  Missing: refused requests
(`C51_false`). -/
theorem C51_write_partial (A : Alloc) (e : Env) (reg : Option Registry) (m : Mem) (par : Addr)
    (t : Node) (hin : In m par t) (hA : Fills A m) (n : Nat) (hn : depth t.chunk ≤ n)
    (tick : Nat) (w : WS) :
    ∃ tick', Heap.writeFd A e reg n t.addr ⟨m, tick, w⟩ =
      keeping m tick' (writeFd e reg t.chunk w) := by
  have h := writeChunk_ref (A := A) (e := e) (r := selectChunkRegistry reg) (ft := 0) (al := true) w
    (.inl ⟨rfl, hA⟩) hin hn tick
  unfold Heap.writeFd writeFd
  cases ho : writeChunk e (selectChunkRegistry reg) 0 t.chunk w with
  | val x =>
    rw [ho] at h
    obtain ⟨t', e1, _⟩ := h
    exact ⟨t', e1⟩
  | ub u => rw [ho] at h; exact ⟨tick, h⟩
  | loop => rw [ho] at h; exact ⟨tick, h⟩

/-- C51, for every allocator and every argument, valid or not: whenever `IFF_writeFd` returns, the
memory is what it was. -/
theorem C51_memory_unchanged (A : Alloc) (e : Env) (reg : Option Registry) (n : Nat) (p : Addr)
    (s s' : HX WS) (ok : Bool) (h : Heap.writeFd A e reg n p s = .val (ok, s')) :
    s'.mem = s.mem := keeps_writeChunk n 0 p s ok s' h

/-- C51 for consistent hierarchies without application chunks that are larger than their fields:
nothing is allocated, so that the claim holds for every allocator. -/
theorem C51_write_without_filler (A : Alloc) (e : Env) (he : e.Sane) (reg : Option Registry)
    (hr : RegistrySorted (selectChunkRegistry reg)) (m : Mem) (par : Addr) (t : Node)
    (hin : In m par t) (hc : Consistent t.chunk) (hd : Dispatched (selectChunkRegistry reg) 0 t.chunk)
    (hf : Filled t.chunk) (n : Nat) (hn : depth t.chunk ≤ n) (tick : Nat) (w : WS) :
    Heap.writeFd A e reg n t.addr ⟨m, tick, w⟩ = keeping m tick (writeFd e reg t.chunk w) := by
  have h := writeChunk_ref (A := A) (e := e) (r := selectChunkRegistry reg) (ft := 0) (al := false) w
    (.inr ⟨he.wide, hr, hc, hd, hf⟩) hin hn tick
  unfold Heap.writeFd writeFd
  cases ho : writeChunk e (selectChunkRegistry reg) 0 t.chunk w with
  | val x =>
    rw [ho] at h
    obtain ⟨t', e1, rfl | ⟨h2, _⟩⟩ := h
    · exact e1
    · cases h2
  | ub u => rw [ho] at h; exact h
  | loop => rw [ho] at h; exact h

/-- C51 with C09, for the default registry: writing a consistent hierarchy of standard chunks from
memory emits its encoding, whatever the allocator does, and changes nothing in memory. -/
theorem C51_write_encodes (A : Alloc) (e : Env) (he : e.Sane) (m : Mem) (par : Addr) (t : Node)
    (hin : In m par t) (hc : Consistent t.chunk) (hs : Standard t.chunk) (n : Nat)
    (hn : depth t.chunk ≤ n) (tick : Nat) (w : WS) (room : (encode t.chunk).length ≤ w.room) :
    Heap.writeFd A e none n t.addr ⟨m, tick, w⟩ = .val (true, ⟨m, tick,
      ⟨w.out ++ encode t.chunk, w.room - (encode t.chunk).length, w.log⟩⟩) := by
  rw [C51_write_without_filler A e he none defaultRegistry_sorted m par t hin hc
    (standard_iff.mpr hs) (filled_of_standard hs) n hn,
    C09_write_encodes_default e he t.chunk hc hs w room]
  rfl

/-- What an execution ended with. -/
def stoppedWith {ω α : Type} : Out (α × HX ω) → Option UB
  | .ub u => some u
  | _ => none

theorem stopped_eq {ω α : Type} {o : Out (α × HX ω)} {u : UB} (h : stoppedWith o = some u) :
    o = .ub u := by
  cases o with
  | ub u => cases h; rfl
  | val x => cases h
  | loop => cases h

/-- A FORM of type TEST with a HELO chunk of 6 bytes, 2 more than its fields have. -/
def extendedHello : Node := .grp 1 2 idFORM 18 idTEST [.ext 3 idHELO 6 [.ubyte 1, .ubyte 2, .uword 3]]

/-- A memory with that hierarchy. -/
def extendedMem : Mem := fun a => match a with
  | 1 => some (.grp ⟨0, idFORM, 18⟩ idTEST 1 2)
  | 2 => some (.ptrs [some 3])
  | 3 => some (.ext ⟨1, idHELO, 6⟩ [.ubyte 1, .ubyte 2, .uword 3])
  | _ => none

/-- C51 is false: `IFF_writeZeroFillerBytes` does not check the result of `calloc`.  With the
registry of the tests, a HELO chunk that is larger than its fields, and an allocator that refuses the
two filler bytes, `fwrite` gets a NULL pointer; with an allocator that does not refuse them the file
is written. -/
theorem C51_false : In extendedMem 0 extendedHello ∧
    Heap.writeFd (numbered fun _ _ => true) pc (some testRegistry) 3 1 ⟨extendedMem, 3, ⟨[], 100, []⟩⟩ =
      .ub .nullDeref ∧
    writeFd pc (some testRegistry) extendedHello.chunk ⟨[], 100, []⟩ =
      .val (true, ⟨encode extendedHello.chunk, 74, []⟩) := by
  refine ⟨?_, stopped_eq (by decide +kernel), by decide +kernel⟩
  simp [extendedHello, In, InAll, ArrayIn, Node.addr, extendedMem]

end Iff
