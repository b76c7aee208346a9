import Verif.Proofs.SrcApp
import Verif.Props.SrcTools
import Verif.Props.SrcWrite
import Verif.Props.SrcCheck
import Verif.Props.SrcPrint
import Verif.Props.Instances
import Verif.Props.CheckApp
import Verif.Props.Grammar
/-
  C72 The program text of an application: the chunks and the functions of tests/.
-/
namespace Iff.Src
set_option maxRecDepth 4000
open Spec
open Heap (Addr Block Mem HS HX TS Alloc lib)

/-! ### C72 -/

/-- A pointer to a chunk. -/
abbrev chunkV (p : Addr) : V := .ptr (.struct .IFF_Chunk) (.ofAddr p)

/-- C72: in a program linked with the library, the static variables of tests/test.c are, as the text
initialises them, the registry of the model: the fields and functions of `TEST_Hello` and `TEST_Bye`, for
FORMs of type TEST only. -/
theorem C72_registry (X : Cfg) (hX : X.Linked) (ht : X.LinkedTest) : RegAt X ⟨.static 7, 0⟩ testRegistry :=
  regAt_test hX ht

theorem sourceArg_inv {X : Cfg} {inp : List Byte} {f : Source} {v : V} (h : SourceArg X inp f v) :
    (∃ nm, v = .str nm) ∨ v = .ptr (.int .char) Ptr.null :=
  h.imp (fun h => ⟨_, h.1⟩) And.left

theorem destArg_inv {X : Cfg} {out : List Byte} {room : Nat} {d : Dest} {v : V} (h : DestArg X out room d v) :
    (∃ nm, v = .str nm) ∨ v = .ptr (.int .char) Ptr.null :=
  h.imp (fun h => ⟨_, h.1⟩) And.left

/-- C72, reading: on an input that does not contain the bytes `PROP`, the text of `TEST_read` (with that of
`TEST_readHello` and `TEST_readBye`) does what the heap model says for the registry of the application.
(`C72_false` shows what happens otherwise.) -/
theorem C72_read_partial (X : Cfg) (hX : X.Linked) (ht : X.LinkedTest) (g : CS) (f : Source) (v : V)
    (hf : SourceArg X g.inp f v) (hpr : ∀ bs, f.contents = some bs → ¬ [0x50, 0x52, 0x4f, 0x50] <:+: bs)
    (s s' : TS) (p : Addr) (L : Nat) (hm : MBd L s.mem) (hL : L + f.length ≤ 4294967296)
    (h : lib (Heap.readFile X.alloc X.e (some testRegistry) f.name f.contents) s = .val (p, s')) :
    ∃ rest, Runs X .TEST_read [v] (embC X g s) (chunkV p) (embC X { g with inp := rest } s') := by
  obtain ⟨rest, hr⟩ := C68_read X hX (some testRegistry) _ (regAt_test hX ht) g f v hf
    (fun bs hb => .inr (hpr bs hb)) s s' p L hm hL h
  exact ⟨rest, testRead_run List.take_length (sourceArg_inv hf) hr⟩

/-- C72, writing: likewise for `TEST_write`, for every memory. -/
theorem C72_write (X : Cfg) (hX : X.Linked) (ht : X.LinkedTest) (g : CS) (d : Dest) (v : V)
    (hd : DestArg X g.out g.room d v) (s s' : TS) (p : Addr) (k : Nat) (ok : Bool)
    (o : Option (List Byte)) (hm : Rep s.mem)
    (h : Heap.writeFile X.alloc X.e (some testRegistry) k p d s = .val ((ok, o), s')) :
    s'.mem = s.mem ∧ ∃ out' room', Written d g.out o out' ∧
    Runs X .TEST_write [v, .ptr (.struct .IFF_Chunk) ⟨.heap p, 0⟩] (embC X g s) (truth ok)
      (embC X { g with out := out', room := room' } s') := by
  obtain ⟨h1, out', room', h2, hr⟩ := C68_write X hX (some testRegistry) _ (regAt_test hX ht) g d v hd s s' p k
    ok o hm h
  exact ⟨h1, out', room', h2, testWrite_run List.take_length (destArg_inv hd) hr⟩

/-- C72, releasing: likewise for `TEST_free`. -/
theorem C72_free (X : Cfg) (hX : X.Linked) (ht : X.LinkedTest) (g : CS) (s s' : HS) (p : Addr) (u : Unit)
    (k : Nat) (hm : MBd 4294967296 s.mem)
    (h : Heap.iffFree (some testRegistry) k p s = .val (u, s')) :
    Runs X .TEST_free [.ptr (.struct .IFF_Chunk) ⟨.heap p, 0⟩] (emb X g s) .void (emb X g s') :=
  testFree_run List.take_length (C60_free X hX (some testRegistry) _ (regAt_test hX ht) g s s' p u k hm h)

/-- C72, checking: likewise for `TEST_check` (and `TEST_checkHello`, `TEST_checkBye`), which leaves the
memory unchanged. -/
theorem C72_check (X : Cfg) (hX : X.Linked) (ht : X.LinkedTest) (g : CS) (s s' : HX (List Msg)) (p : Addr)
    (ok : Bool) (k : Nat) (hm : Rep s.mem)
    (h : Heap.check X.e (some testRegistry) k p s = .val (ok, s')) :
    Runs X .TEST_check [.ptr (.struct .IFF_Chunk) ⟨.heap p, 0⟩] (embC X g s) (truth ok) (embC X g s') ∧
      s'.mem = s.mem :=
  have ⟨h1, h2⟩ := C62_check X hX (some testRegistry) _ (regAt_test hX ht) g s s' p ok k hm h
  ⟨testCheck_run List.take_length h1, h2⟩

/-- C72 with C20, C22 and C50: `TEST_check`, run on a hierarchy in memory of standard chunks and HELO and BYE
chunks whose encoding is shorter than 2 GiB, returns 1 if and only if the hierarchy conforms to the standard
and every HELO chunk inside of a FORM of type TEST has a `c` of at most 1024 (`hello_conforms`); it reports
nothing if so, and an error message if not. -/
theorem C72_check_decides (X : Cfg) (hX : X.Linked) (ht : X.LinkedTest) (he : X.e.Sane) (g : CS) (m : Mem)
    (par : Addr) (t : Node) (hin : In m par t) (hs : Checkable testRegistry 0 t.chunk)
    (hl : (encode t.chunk).length < 2147483648) (hm : Rep m) (tick : Nat) (log : List Msg) :
    ∃ ok log', Runs X .TEST_check [chunkV t.addr] (embC X g ⟨m, tick, log⟩) (truth ok)
        (embC X g ⟨m, tick, log'⟩) ∧ (ok = true ↔ ConformsWith testRegistry t.chunk) ∧
      (ConformsWith testRegistry t.chunk → log' = log) ∧
      (¬ ConformsWith testRegistry t.chunk → Reports log log') := by
  have hc := C20_check_decides_registry_partial X.e he testRegistry testRegistry_sorted t.chunk hs hl log
  have hh := C50_check X.e (some testRegistry) m par t hin _ (Nat.le_refl _) tick log
  by_cases h : ConformsWith testRegistry t.chunk
  · rw [hc.1 h] at hh
    exact ⟨true, log, (C72_check X hX ht g ⟨m, tick, log⟩ _ _ _ _ hm hh).1, by simp [h],
      fun _ => rfl, fun h' => absurd h h'⟩
  · obtain ⟨log', h'⟩ := hc.2 h
    rw [h'] at hh
    exact ⟨false, log', (C72_check X hX ht g ⟨m, tick, log⟩ _ _ _ _ hm hh).1, by simp [h],
      fun h' => absurd h' h, fun _ => (C22_explained X.e he _ t.chunk log log' false h').2 rfl⟩

/-- The functions that create a chunk of the tests' application, with the ID of the chunk, the type of its
struct and its fields. -/
def testCreates : List (Fn × ID × Struct × List Val) :=
  [(.TEST_createHello, idHELO, .TEST_Hello, [.ubyte 0, .ubyte 0, .uword 0]),
   (.TEST_createBye, idBYE, .TEST_Bye, [.long 0, .long 0])]

/-- C72, creating: with a size as argument, `TEST_createHello` and `TEST_createBye` make one request to the
allocator, and return a new block that holds a chunk with the right ID, this size and fields of zero; or
`NULL`, if the request is refused. -/
theorem C72_create (X : Cfg) (g : CS) (s : HS) (f : Fn) (id : ID) (t : Struct) (vals : List Val) (size : Int)
    (hf : (f, id, t, vals) ∈ testCreates) (hs : inInt size) :
    match X.alloc.pick s.tick s.mem (.struct (.ext (vals.map Val.kind))) with
    | none => Runs X f [.int .int size] (emb X g s) (.ptr (.struct t) Ptr.null)
        (emb X g ⟨s.mem, s.tick + 1, s.rs⟩)
    | some p => p ≠ 0 ∧ s.mem p = none ∧
      Runs X f [.int .int size] (emb X g s) (.ptr (.struct t) ⟨.heap p, 0⟩)
        (emb X g ⟨s.mem.set p (some (.ext ⟨0, id, size⟩ vals)), s.tick + 1, s.rs⟩) := by
  have key : ∀ {p : Addr} {s' : HS}, Heap.newStruct X.alloc (.ext ⟨0, id, size⟩ vals) s = .val (p, s') →
      Runs X f [.int .int size] (emb X g s) (.ptr (.struct t) ⟨.heap p, 0⟩) (emb X g s') := by
    intro p s' h
    refine ⟨4, fun n hn => ?_⟩
    show callFn X n f _ (st X g.stk g.out g.room g.text s) = .val (_, st X g.stk g.out g.room g.text s')
    obtain ⟨n, rfl⟩ : ∃ k, n = k + 4 := ⟨n - 4, by omega⟩
    simp only [testCreates, List.mem_cons, Prod.mk.injEq, List.not_mem_nil, or_false] at hf
    rcases hf with ⟨rfl, rfl, rfl, rfl⟩ | ⟨rfl, rfl, rfl, rfl⟩ <;> rw [callFn_code rfl]
    · have h1 := createHello_run (n := n) (stk := g.stk) (out := g.out) (room := g.room) (text := g.text)
        (t := .int) (u := .int) hs h
      crun [TEST_createHello.code, ↓evalE_HELO, wrapInt_of hs, toNat_emod, List.take_length, h1]
    · have h1 := createBye_run (n := n) (stk := g.stk) (out := g.out) (room := g.room) (text := g.text)
        (t := .int) (u := .int) hs h
      crun [TEST_createBye.code, ↓evalE_BYE, wrapInt_of hs, toNat_emod, List.take_length, h1]
  cases hp : X.alloc.pick s.tick s.mem (.struct (.ext (vals.map Val.kind))) with
  | none => exact key (by simp only [Heap.newStruct, Heap.malloc, Heap.Block.skind, hp])
  | some p =>
    exact ⟨(X.alloc.sound hp).1, (X.alloc.sound hp).2,
      key (by simp only [Heap.newStruct, Heap.malloc, Heap.Block.skind, hp])⟩

/-- C72, printing: likewise for `TEST_print`. -/
theorem C72_print (X : Cfg) (hX : X.Linked) (ht : X.LinkedTest) (g : CS) (s s' : HX (List Byte)) (p : Addr)
    (k level : Nat) (hl : level + k < 4294967296) (hm : Rep s.mem)
    (h : Heap.print (some testRegistry) k level p s = .val ((), s')) :
    Runs X .TEST_print [.ptr (.struct .IFF_Chunk) ⟨.heap p, 0⟩, .int .uint level] (embP X g s) .void
      (embP X g s') ∧ s'.mem = s.mem :=
  have ⟨h1, h2⟩ := C63_print X hX (some testRegistry) _ (regAt_test hX ht) g s s' p k level hl hm h
  ⟨testPrint_run List.take_length (by omega) h1, h2⟩

/-- C72, comparing: likewise for `TEST_compare`, which changes nothing at all. -/
theorem C72_compare (X : Cfg) (hX : X.Linked) (ht : X.LinkedTest) (g : CS) (s s' : HS) (p p' : Addr)
    (eq : Bool) (k : Nat) (hm : Rep s.mem)
    (h : Heap.compare X.e (some testRegistry) k p p' s = .val (eq, s')) :
    Runs X .TEST_compare [.ptr (.struct .IFF_Chunk) ⟨.heap p, 0⟩, .ptr (.struct .IFF_Chunk) ⟨.heap p', 0⟩]
      (emb X g s) (truth eq) (emb X g s) :=
  testCompare_run List.take_length
    (C61_compare X hX (some testRegistry) _ (regAt_test hX ht) g s s' p p' eq k hm h)

/-- C72 with C23 and C50: the text of `TEST_compare`, run on two consistent hierarchies in memory, returns 1
if and only if they are equal. -/
theorem C72_compare_equal (X : Cfg) (hX : X.Linked) (ht : X.LinkedTest) (he : X.e.Sane) (g : CS) (s : HS)
    (par par' : Addr) (t t' : Node) (hin : In s.mem par t) (hin' : In s.mem par' t')
    (hc : Comparable (some testRegistry) t.chunk) (hd : Comparable (some testRegistry) t'.chunk)
    (cc : Consistent t.chunk) (cd : Consistent t'.chunk) (pc : PropArrays t.chunk) (pd : PropArrays t'.chunk)
    (hm : Rep s.mem) :
    ∃ eq, Runs X .TEST_compare [.ptr (.struct .IFF_Chunk) ⟨.heap t.addr, 0⟩,
        .ptr (.struct .IFF_Chunk) ⟨.heap t'.addr, 0⟩] (emb X g s) (truth eq) (emb X g s) ∧
      (eq = true ↔ t.chunk = t'.chunk) := by
  obtain ⟨eq, h1, h2⟩ := C61_compare_equal X hX he (some testRegistry) _ (regAt_test hX ht) testRegistry_sorted
    g s par par' t t' hin hin' hc hd cc cd pc pd hm
  exact ⟨eq, testCompare_run List.take_length h1, h2⟩

/-- The registry of the application releases lists as lists. -/
theorem test_lists : ListsConsistent (selectChunkRegistry (some testRegistry)) := by
  intro ft id h
  refine (findChunkType_iff testRegistry_sorted).mpr ?_
  rcases (findChunkType_iff testRegistry_sorted).mp h with ⟨f, hf, -, hc⟩ | ⟨hn, -⟩
  · simp only [testRegistry, extendDefaultWithFormTypes, List.mem_singleton] at hf
    subst hf
    rcases hc with ⟨near, node, far, t, he, ht, -, hh, -⟩ | ⟨-, hh⟩
    · have hm : node ∈ [[(⟨idBYE, byeType⟩ : ChunkType), ⟨idHELO, helloType⟩]] := by
        rw [show [[_, _]] = _ from he]; simp
      simp only [List.mem_singleton] at hm
      subst hm
      simp only [List.mem_cons, List.not_mem_nil, or_false] at ht
      rcases ht with rfl | rfl
      · simp [byeType] at hh
      · simp [helloType] at hh
    · cases hh
  · exact .inr ⟨hn, .inl ⟨[], globalChunkTypes, [], ⟨idLIST, .list⟩, rfl, by simp [globalChunkTypes], rfl, rfl,
      by simp⟩⟩

/-- C72 with C36 and C10: the text of `TEST_read`, on the encoding of a consistent hierarchy that the registry
of the application can load and that does not contain the bytes `PROP`, returns a pointer to that
hierarchy; its only diagnostics are those about skipped filler bytes. -/
theorem C72_builds (X : Cfg) (hX : X.Linked) (ht : X.LinkedTest) (he : X.e.Sane) (hg : X.Grants) (c : Chunk)
    (hc : Consistent c) (hdc : Dispatched testRegistry 0 c) (hl : Loadable X.e testRegistry 0 c)
    (hpr : ¬ [0x50, 0x52, 0x4f, 0x50] <:+: encode c)
    (hd : ∀ t s n, Finite s → X.e.mallocOk n = true → (X.pick t s n).isSome)
    (hA : ∀ n, n ≤ (encode c).length + 256 → X.e.mallocOk n = true)
    (hlen : (encode c).length < 4294967296) (g : CS) (f : Source) (hfc : f.contents = some (encode c)) (v : V)
    (hf : SourceArg X g.inp f v) (tick : Nat) (log : List Msg) :
    ∃ (t : Node) (s' : TS) (rest : List Byte), t.chunk = c ∧ Holds (fun _ => none) s'.mem t ∧
      s'.st = log ++ skipNotes c ∧ MBd (encode c).length s'.mem ∧
      Released testRegistry 0 c ∧
      Runs X .TEST_read [v] (embC X g ⟨fun _ => none, tick, log⟩) (chunkV t.addr)
        (embC X { g with inp := rest } s') := by
  have hsv : X.Serves ((encode c).length + 256) := fun t s n hf hn => hd t s n hf (hA n hn)
  have hT := complete_total (N := ((encode c).length + 7) / 8) hg (by
    intro t s n hf hn
    refine hsv t s _ hf ?_
    have : (n + 1) * (X.e.sizeBits / 8) ≤ (n + 1) * 8 := Nat.mul_le_mul_left _ (by
      rcases X.word with h | h <;> rw [h] <;> decide)
    omega) (fun t s n hf hn => hsv t s n hf (by omega)) hd
  obtain ⟨file, room', hw, hread⟩ := C10_read_after_write X.e X.e he he (some testRegistry) testRegistry_sorted c
    hc hdc hl (encode c).length (Nat.le_refl _) [] log
  have hfile := C09_write_encodes X.e he (some testRegistry) testRegistry_sorted c hc hdc
    ⟨[], (encode c).length, []⟩ (Nat.le_refl _)
  rw [hw] at hfile
  simp only [Out.val.injEq, Prod.mk.injEq, WS.mk.injEq, true_and, List.nil_append] at hfile
  obtain rfl := hfile.1
  obtain ⟨t, s', h1, h2, h3, h4⟩ := (C36_reader_builds_hierarchy _ X.e hT (some testRegistry) test_lists
    ⟨fun _ => none, tick, ⟨encode c, log⟩⟩ rfl ⟨0, fun _ _ => rfl⟩ c _).mp hread
  have hrel : Released testRegistry 0 c := by
    have hrel := Heap.readFd_rel (A := complete X (((encode c).length + 7) / 8)) (e := X.e)
      (reg := some testRegistry) (s := ⟨fun _ => none, tick, ⟨encode c, log⟩⟩) test_lists hT.grants rfl
    rw [h1] at hrel
    rcases hrel.val_inv with ⟨h, -⟩ | ⟨t', -, -, -, hr, -, hY⟩
    · exact absurd (h ▸ t.addr_mem) h4.nonNull
    · have hY' := hread.symm.trans hY
      simp only [Out.val.injEq, Prod.mk.injEq, Option.some.injEq] at hY'
      rw [hY'.1]
      exact hr
  obtain ⟨m', tick', rs'⟩ := s'
  simp only at h2 h4
  subst h2
  have hflen : f.length = (encode c).length := by simp only [Source.length, hfc]
  have hlib : lib (Heap.readFile (complete X (((encode c).length + 7) / 8)) X.e (some testRegistry) f.name
      f.contents) ⟨fun _ => none, tick, log⟩ = .val (t.addr, ⟨m', tick', log ++ skipNotes c⟩) := by
    rw [hfc]
    unfold lib Heap.readFile
    simp only [h1]
  obtain ⟨hmb, rest, hr⟩ := iffRead_run (stk := g.stk) (out := g.out) (room := g.room) (text := g.text) hX
    (reg := some testRegistry) (regAt_test hX ht) (L := 0) (like_complete (by omega)) hf
    (fun bs hb => .inr (by rw [hfc] at hb; cases hb; exact hpr))
    ⟨by omega, by omega⟩ empty_bd hlib
  refine ⟨t, ⟨m', tick', log ++ skipNotes c⟩, rest, h3, h4, rfl, hmb.mono (by omega), hrel,
    testRead_run List.take_length (sourceArg_inv hf) hr⟩

/-- C72, all together: a program that reads the encoding of such a hierarchy with `TEST_read`, writes what it
got with `TEST_write` and releases it with `TEST_free` has copied the file byte for byte, and holds no
memory any more.  (If requests for filler bytes may be refused, the chunks must not have any: `C51_false`.) -/
theorem C72_copies (X : Cfg) (hX : X.Linked) (ht : X.LinkedTest) (he : X.e.Sane) (hg : X.Grants) (c : Chunk)
    (hc : Consistent c) (hdc : Dispatched testRegistry 0 c) (hl : Loadable X.e testRegistry 0 c)
    (hpr : ¬ [0x50, 0x52, 0x4f, 0x50] <:+: encode c)
    (hfill : Filled c ∨ ∀ n < 2147483648, X.e.mallocOk n = true)
    (hd : ∀ t s n, Finite s → X.e.mallocOk n = true → (X.pick t s n).isSome)
    (hA : ∀ n, n ≤ (encode c).length + 256 → X.e.mallocOk n = true)
    (hlen : (encode c).length < 4294967296) (g : CS) (f : Source) (hfc : f.contents = some (encode c)) (v : V)
    (hf : SourceArg X g.inp f v) (d : Dest) (w : V) (hw : DestArg X g.out g.room d w) (hopen : d.opens = true)
    (hcap : (encode c).length ≤ d.cap) (tick : Nat) (log : List Msg) :
    ∃ (p : Addr) (g₁ g₂ g₃ : CS),
      Runs X .TEST_read [v] (embC X g ⟨fun _ => none, tick, log⟩) (chunkV p) g₁ ∧
      Runs X .TEST_write [w, chunkV p] g₁ (truth true) g₂ ∧
      Runs X .TEST_free [chunkV p] g₂ .void g₃ ∧
      g₃.out.take d.cap = encode c ∧ g₃.heap = (fun _ => none) ∧ g₃.text = g.text ∧
      g₃.log = errCalls X.e (log ++ skipNotes c) := by
  obtain ⟨t, s, rest, rfl, hh, hst, hmb, hrel, hr⟩ := C72_builds X hX ht he hg c hc hdc hl hpr
    hd hA hlen g f hfc v hf tick log
  obtain ⟨m, tick₁, log₁⟩ := s
  simp only at hh hst hmb
  subst hst
  have hwr := C09_write_encodes X.e he (some testRegistry) testRegistry_sorted t.chunk hc hdc
    ⟨[], d.cap + d.slack, log ++ skipNotes t.chunk⟩ (by show _ ≤ d.cap + d.slack; omega)
  obtain ⟨tick₂, hw2⟩ : ∃ tick₂, Heap.writeFd X.alloc X.e (some testRegistry) (depth t.chunk) t.addr
      ⟨m, tick₁, ⟨[], d.cap + d.slack, log ++ skipNotes t.chunk⟩⟩ =
      keeping m tick₂ (writeFd X.e (some testRegistry) t.chunk
        ⟨[], d.cap + d.slack, log ++ skipNotes t.chunk⟩) := by
    rcases hfill with hfill | hfill
    · exact ⟨_, C51_write_without_filler X.alloc X.e he (some testRegistry) testRegistry_sorted m 0 t hh.isIn hc hdc
        hfill _ (Nat.le_refl _) _ _⟩
    · refine C51_write_partial X.alloc X.e (some testRegistry) m 0 t hh.isIn (fun tk n h0 hn => ?_) _
        (Nat.le_refl _) _ _
      exact hd tk _ n (finite_sizes (Roomy.adds ⟨0, fun _ _ => rfl⟩ hh.adds)) (hfill n hn)
  rw [hwr] at hw2
  have hwf : Heap.writeFile X.alloc X.e (some testRegistry) (depth t.chunk) t.addr d
      ⟨m, tick₁, log ++ skipNotes t.chunk⟩ = .val ((true, some ((encode t.chunk).take d.cap)),
        ⟨m, tick₂, log ++ skipNotes t.chunk⟩) := by
    unfold Heap.writeFile
    rw [if_pos hopen, hw2]
    simp only [keeping, List.nil_append]
  obtain ⟨-, out', room', hwt, hrun⟩ := C72_write X hX ht { g with inp := rest } d w hw _ _ t.addr _ _ _
    (Rep.of_bd hmb (by omega)) hwf
  have hfree : Heap.iffFree (some testRegistry) (depth t.chunk) t.addr
      ⟨m, tick₂, ⟨rest, log ++ skipNotes t.chunk⟩⟩ =
      .val ((), ⟨fun _ => none, tick₂, ⟨rest, log ++ skipNotes t.chunk⟩⟩) :=
    hh.frees rfl hrel (Nat.le_refl _) _ rfl
  have hfr := C72_free X hX ht { g with out := out', room := room' } _ _ t.addr () _ (hmb.mono (by omega)) hfree
  refine ⟨t.addr, _, _, _, hr, hrun, hfr, ?_, rfl, rfl, rfl⟩
  rcases hwt with ⟨h, -⟩ | h
  · cases h
  · rw [List.take_of_length_le hcap] at h
    exact (Option.some.inj h).symm

/-! ### Examples -/

/-- A LIST with the contents type TEST and a PROP. -/
def listTest : List Byte :=
  [0x4c, 0x49, 0x53, 0x54, 0, 0, 0, 16, 0x54, 0x45, 0x53, 0x54,
   0x50, 0x52, 0x4f, 0x50, 0, 0, 0, 4, 0x54, 0x45, 0x53, 0x54]

/-- The static variables of the library and of tests/test.c. -/
def appGlobs : List Glob :=
  [.IFF_globalChunkTypes, .IFF_globalChunkTypesNode, .IFF_defaultChunkType, .IFF_defaultChunkRegistry,
   .test_applicationChunkTypes, .test_applicationChunkTypesNode, .test_formChunkTypes, .test_chunkRegistry]

/-- A program linked with the library and with tests/test.c. -/
def linkedApp (refuse : Nat → Nat → Bool) : Cfg := cfg refuse fun a =>
  (appGlobs.find? (fun g => g.addr = a)).map fun g => initBlk (cfg refuse fun _ => none) g.ty g.init

theorem linkedApp_linked (refuse : Nat → Nat → Bool) : (linkedApp refuse).Linked := by
  intro g h; cases g <;> first | rfl | cases h

theorem linkedApp_test (refuse : Nat → Nat → Bool) : (linkedApp refuse).LinkedTest := by
  intro g h; cases g <;> first | rfl | cases h

/-- Without the hypothesis about the bytes `PROP`, `C72_read_partial` is false: the node for TEST in the registry
of tests/test.c has no parent, so that inside a LIST of type TEST a PROP is a raw chunk; list.c casts it to
`IFF_Prop`, and the text accesses a struct that is larger than the chunk. -/
theorem C72_false : (∃ rs, readFd pc (some testRegistry) ⟨listTest, []⟩ =
      .val (some (.lst idLIST 16 idTEST [] [.raw idPROP 4 [0x54, 0x45, 0x53, 0x54]]), rs)) ∧
    failedWith (callFn (linkedApp fun _ _ => false) 40 .TEST_read [.ptr (.int .char) Ptr.null]
      (started listTest)) = some .outOfBounds := ⟨⟨_, rfl⟩, by decide +kernel⟩

/-- The text can be run: a FORM TEST with a HELO chunk is read without a diagnostic. -/
example : resultOf (callFn (linkedApp fun _ _ => false) 40 .TEST_read [.ptr (.int .char) Ptr.null]
    (started (encode (.grp idFORM 16 idTEST [.ext idHELO 4 [.ubyte 1, .ubyte 2, .uword 3]])))) =
    some (.ptr (.struct .IFF_Chunk) ⟨.heap 1, 0⟩, 0) := by decide +kernel

/-- A program linked with the library and tests/test.c, with an allocator that grants what it can. -/
noncomputable def generousApp : Cfg :=
  { generous with
    img := fun a => (appGlobs.find? (fun g => g.addr = a)).map fun g =>
      initBlk (generousWith fun _ => none) g.ty g.init
    files := fun nm => if nm = "in" then some (encode extended) else none
    dests := fun nm => if nm = "out" then some 1000 else none }

theorem generousApp_linked : generousApp.Linked := by intro g h; cases g <;> first | rfl | cases h

theorem generousApp_test : generousApp.LinkedTest := by intro g h; cases g <;> first | rfl | cases h

theorem generousApp_grants : generousApp.Grants := fun t s n a h => generous_grants t s n a h

/-- The hypotheses of `C72_copies` (and so those of `C72_builds`) are met by a FORM with a HELO chunk that has
filler bytes. -/
example (g : CS) (hi : g.inp = []) : ∃ (p : Addr) (g₁ g₂ g₃ : CS),
    Runs generousApp .TEST_read [.str "in"] (embC generousApp g ⟨fun _ => none, 0, []⟩) (chunkV p) g₁ ∧
    Runs generousApp .TEST_write [.str "out", chunkV p] g₁ (truth true) g₂ ∧
    Runs generousApp .TEST_free [chunkV p] g₂ .void g₃ ∧
    g₃.out.take 1000 = encode extended ∧ g₃.heap = (fun _ => none) := by
  obtain ⟨p, g₁, g₂, g₃, h1, h2, h3, h4, h5, -⟩ := C72_copies generousApp generousApp_linked generousApp_test
    pc_sane generousApp_grants extended extended_consistent extended_dispatched extended_loadable (by decide)
    (.inr fun n hn => decide_eq_true (by omega))
    (fun t s n hf hn => generous_serves t s n hf (of_decide_eq_true hn))
    (fun n hn => decide_eq_true (show n < 2 ^ 63 by
      have : (encode extended).length = 26 := rfl
      omega)) (by decide) g ⟨"in", some (encode extended)⟩ rfl (.str "in") (.inl ⟨rfl, hi, rfl⟩)
    ⟨"out", true, 1000, 0⟩ (.str "out") (.inl ⟨rfl, rfl⟩) rfl (by decide) 0 []
  exact ⟨p, g₁, g₂, g₃, h1, h2, h3, h4, h5⟩

theorem extendedMem_in : In extendedMem 0 extendedHello := C51_false.1

theorem extendedMem_rep : Rep extendedMem := by
  intro a b h
  unfold extendedMem at h
  split at h <;> first | (cases h; done) | (cases h; simp [Fits, inInt])

theorem extended_comparable : Comparable (some testRegistry) extended where
  dispatched := extended_dispatched
  raws := by
    intro id size data hw
    cases hw with
    | grp hm hw => simp only [List.mem_singleton] at hm; subst hm; cases hw
  small := by
    intro id size data hw
    cases hw with
    | grp hm hw => simp only [List.mem_singleton] at hm; subst hm; cases hw
  props := by
    intro id size ty subs props hw
    cases hw with
    | grp hm hw => simp only [List.mem_singleton] at hm; subst hm; cases hw

/-- The hypotheses of `C72_create` are met by an allocator that grants the request. -/
example (g : CS) : ∃ p, p ≠ 0 ∧ Runs generousApp .TEST_createHello [.int .int 4]
    (emb generousApp g ⟨fun _ => none, 0, ⟨[], []⟩⟩) (.ptr (.struct .TEST_Hello) ⟨.heap p, 0⟩)
    (emb generousApp g ⟨Mem.set (fun _ => none) p (some (.ext ⟨0, idHELO, 4⟩ [.ubyte 0, .ubyte 0, .uword 0])), 1,
      ⟨[], []⟩⟩) := by
  have h := C72_create generousApp g ⟨fun _ => none, 0, ⟨[], []⟩⟩ .TEST_createHello idHELO .TEST_Hello
    [.ubyte 0, .ubyte 0, .uword 0] 4 (by simp [testCreates]) (by unfold inInt; decide)
  split at h
  · rename_i hn
    have hp := generous_serves 0 (sizes (heapOf pc fun _ => none)) (reqBytes pc (.struct (.ext
      [.ubyte, .ubyte, .uword]))) ⟨0, fun a _ => rfl⟩ (by decide)
    have hn' : generous.pick 0 (sizes (heapOf pc fun _ => none)) (reqBytes pc (.struct (.ext
      [.ubyte, .ubyte, .uword]))) = none := hn
    rw [hn'] at hp
    cases hp
  · exact ⟨_, h.1, h.2.2⟩

/-- The hypotheses of `C72_compare_equal` are met by such a FORM in memory … -/
example (g : CS) : ∃ eq, Runs generousApp .TEST_compare [chunkV 1, chunkV 1]
    (emb generousApp g ⟨extendedMem, 0, ⟨[], []⟩⟩) (truth eq) (emb generousApp g ⟨extendedMem, 0, ⟨[], []⟩⟩) ∧
    (eq = true ↔ extended = extended) :=
  have hp : PropArrays extended := by
    intro id size ty subs props hw
    cases hw with
    | grp hm hw => simp only [List.mem_singleton] at hm; subst hm; cases hw
  C72_compare_equal generousApp generousApp_linked generousApp_test pc_sane g ⟨extendedMem, 0, ⟨[], []⟩⟩ 0 0
    extendedHello extendedHello extendedMem_in extendedMem_in extended_comparable extended_comparable
    extended_consistent extended_consistent hp hp extendedMem_rep

/-- … those of `C72_check`, where the check of the HELO chunk accepts it … -/
example (g : CS) : Runs generousApp .TEST_check [chunkV 1] (embC generousApp g ⟨extendedMem, 0, []⟩) (truth true)
    (embC generousApp g ⟨extendedMem, 0, []⟩) :=
  (C72_check generousApp generousApp_linked generousApp_test g ⟨extendedMem, 0, []⟩ ⟨extendedMem, 0, []⟩ 1 true 3
    extendedMem_rep (C50_check pc (some testRegistry) extendedMem 0 extendedHello extendedMem_in 3 (by decide) 0
      [])).1

theorem extended_checkable : Checkable testRegistry 0 extended :=
  .form ((findChunkType_iff testRegistry_sorted).mp rfl) fun c hc => by
    simp only [List.mem_singleton] at hc
    subst hc
    exact .ext (fields := [⟨"a", .ubyte⟩, ⟨"b", .ubyte⟩, ⟨"c", .uword⟩]) (chk := fun vals => match vals with
      | [_, _, .uword c] => c.toNat ≤ 1024
      | _ => true) ((findChunkType_iff testRegistry_sorted).mp rfl) (by unfold Composite; decide) rfl (by decide)

/-- … those of `C72_check_decides`, and it conforms … -/
example (g : CS) : (∃ ok log', Runs generousApp .TEST_check [chunkV 1] (embC generousApp g ⟨extendedMem, 0, []⟩)
      (truth ok) (embC generousApp g ⟨extendedMem, 0, log'⟩) ∧ (ok = true ↔ ConformsWith testRegistry extended) ∧
      (ConformsWith testRegistry extended → log' = []) ∧
      (¬ ConformsWith testRegistry extended → Reports [] log')) ∧ ConformsWith testRegistry extended :=
  ⟨C72_check_decides generousApp generousApp_linked generousApp_test pc_sane g extendedMem 0 extendedHello
    extendedMem_in extended_checkable (by decide) extendedMem_rep 0 [],
   .inl rfl, .form (accepted_of_legal legal_TEST) (by decide) rfl fun c hc => by
      simp only [List.mem_singleton] at hc
      subst hc
      exact (hello_conforms _ _ _ _ _).mpr (by decide)⟩

/-- … and those of `C72_print`. -/
example (g : CS) : ∃ bs, Runs generousApp .TEST_print [chunkV 1, .int .uint 0]
    (embP generousApp g ⟨extendedMem, 0, []⟩) .void (embP generousApp g ⟨extendedMem, 0, bs⟩) :=
  ⟨_, (C72_print generousApp generousApp_linked generousApp_test g ⟨extendedMem, 0, []⟩ ⟨extendedMem, 0, _⟩ 1 3 0
    (by decide) extendedMem_rep (C50_print (some testRegistry) extendedMem 0 extendedHello extendedMem_in 3
      (by decide) 0 0 [])).1⟩

end Iff.Src
