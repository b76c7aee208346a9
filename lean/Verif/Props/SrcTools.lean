import Verif.Proofs.SrcTools
import Verif.Props.SrcSearch
import Verif.Props.HeapTools
import Verif.Props.Layout
/-
  C68: the text of the tools' functions does what the heap model of them does.
-/
namespace Iff.Src

open Iff.Heap Iff.Spec

set_option maxRecDepth 4000

/-! ### C68 -/

/-- C68, reading: whenever the heap model of opening, reading and closing an input has a result, the text
of `IFF_read` (and `IFF_readFile`, iff.c:54-75) returns it and has the same effects, on a named file and
on the standard input. -/
theorem C68_read (X : Cfg) (hX : X.Linked) (reg : Option Registry) (q : Ptr) (hq : RegArg X reg q)
    (g : CS) (f : Source) (v : V) (hf : SourceArg X g.inp f v)
    (hpr : ∀ bs, f.contents = some bs → PropFine (selectChunkRegistry reg) bs)
    (s s' : TS) (p : Addr) (L : Nat) (hm : MBd L s.mem) (hL : L + f.length ≤ 4294967296)
    (h : lib (Heap.readFile X.alloc X.e reg f.name f.contents) s = .val (p, s')) :
    ∃ rest, Runs X .IFF_read [v, .ptr (.struct .IFF_ChunkRegistry) q] (embC X g s)
      (.ptr (.struct .IFF_Chunk) (.ofAddr p)) (embC X { g with inp := rest } s') :=
  (iffRead_run (stk := g.stk) (out := g.out) (room := g.room) (text := g.text) hX hq
    (N := 536870912) (like_self (by decide)) hf hpr ⟨hL, hL⟩ hm h).2

/-- C68, writing: likewise for `IFF_write` (and `IFF_writeFile`, iff.c:98-120): the result is that of the
heap model, and so is what the destination holds. -/
theorem C68_write (X : Cfg) (hX : X.Linked) (reg : Option Registry) (q : Ptr) (hq : RegArg X reg q)
    (g : CS) (d : Dest) (v : V) (hd : DestArg X g.out g.room d v) (s s' : TS) (p : Addr) (k : Nat)
    (ok : Bool) (o : Option (List Byte)) (hm : Rep s.mem)
    (h : Heap.writeFile X.alloc X.e reg k p d s = .val ((ok, o), s')) :
    s'.mem = s.mem ∧ ∃ out' room', Written d g.out o out' ∧
    Runs X .IFF_write [v, .ptr (.struct .IFF_Chunk) ⟨.heap p, 0⟩, .ptr (.struct .IFF_ChunkRegistry) q]
      (embC X g s) (truth ok) (embC X { g with out := out', room := room' } s') :=
  iffWrite_run (stk := g.stk) (inp := g.inp) (out := g.out) (room := g.room) (text := g.text) hX hq
    (N := 0) (like_self (by decide)) hd hm h

/-- C68, iffpp: whenever the heap model of `IFF_prettyPrint` has a result, its text returns that status,
has printed that output and has made the same changes to the memory. -/
theorem C68_pretty_print (X : Cfg) (hX : X.Linked) (g : CS) (ht : g.text = []) (f : Source) (v : V)
    (hf : SourceArg X g.inp f v) (dis : Bool) (k L : Nat) (hk : k < 4294967296) (s s' : TS) (status : Nat)
    (bs : List Byte) (hm : MBd L s.mem) (hL : L + f.length ≤ 4294967296)
    (h : Heap.prettyPrint X.alloc X.e k f dis s = .val ((status, bs), s')) :
    ∃ rest, Runs X .IFF_prettyPrint [v, .int .int (if dis then 1 else 0)] (embC X g s)
      (.int .int status) (embC X { g with inp := rest, text := bs } s') := by
  obtain ⟨rest, hr⟩ := prettyPrint_run (stk := g.stk) (out := g.out) (room := g.room) hX
    (N := 536870912) (like_self (by decide)) hf hk ⟨hL, hL⟩ hm h
  rw [← ht] at hr
  exact ⟨rest, hr⟩

/-- C68, iffjoin: whenever the heap model of `IFF_join` has a result, its text, given an array of the names
of the inputs, returns that status, the destination holds what the model says, and the same changes have
been made to the memory. -/
theorem C68_join (X : Cfg) (hX : X.Linked) (g : CS) (hi : g.inp = []) (files : List Source) (o : Obj)
    (ho : NamesAt X g.stk o files) (hfiles : ∀ f ∈ files, X.files f.name = f.contents)
    (hlen : files.length < 4294967296) (d : Dest) (v : V) (hd : DestArg X g.out g.room d v)
    (k L : Nat) (s s' : TS) (status : Nat) (b : Option (List Byte)) (hm : MBd L s.mem)
    (hL : L + total files ≤ 4294967296)
    (h : Heap.join X.alloc X.e k files d s = .val ((status, b), s')) :
    ∃ out' room', Written d g.out b out' ∧
    Runs X .IFF_join [.ptr (.ptr (.int .char)) ⟨o, 0⟩, .int .uint files.length, v] (embC X g s)
      (.int .int status) (embC X { g with out := out', room := room' } s') := by
  obtain ⟨out', room', hw, hr⟩ := join_run (stk := g.stk) (out := g.out) (room := g.room)
    (text := g.text) hX (N := 536870912) (like_self (by decide)) hlen hfiles ho hd ⟨hL, hL⟩ hm h
  rw [← hi] at hr
  exact ⟨out', room', hw, hr⟩

/-- Arrays that fit in `N` bytes, if requests of that size are served. -/
theorem arrays_of_serves {X : Cfg} {N : Nat} (h : X.Serves (N + 256)) : X.ArraysOk ((N + 7) / 8) := by
  intro t s n hf hn
  refine h t s _ hf ?_
  have : (n + 1) * (X.e.sizeBits / 8) ≤ (n + 1) * 8 := Nat.mul_le_mul_left _ (by
    rcases X.word with h | h <;> rw [h] <;> decide)
  omega

theorem length_le_total {f : Source} : ∀ {files : List Source}, f ∈ files → f.length ≤ total files := by
  intro files
  induction files with
  | nil => intro h; cases h
  | cons f' fs ih =>
    intro h
    have : total (f' :: fs) = f'.length + 8 + total fs := rfl
    rcases List.mem_cons.mp h with rfl | h
    · omega
    · have := ih h; omega

/-- C68 with C52, the memory: when iffpp comes to an end, whatever has been refused, its text has freed
all that it allocated, and nothing else. -/
theorem C68_pp_frees (X : Cfg) (hX : X.Linked) (hg : X.Grants) (g : CS) (ht : g.text = []) (f : Source)
    (v : V) (hf : SourceArg X g.inp f v) (dis : Bool) (L : Nat) (s s' : TS) (status : Nat)
    (bs : List Byte) (h0 : s.mem 0 = none) (hm : MBd L s.mem) (hL : L + f.length + 4 < 4294967296)
    (h : Heap.prettyPrint X.alloc X.e (f.length + 4) f dis s = .val ((status, bs), s')) :
    ∃ g', Runs X .IFF_prettyPrint [v, .int .int (if dis then 1 else 0)] (embC X g s)
      (.int .int status) g' ∧ g'.heap = (embC X g s).heap := by
  obtain ⟨rest, hr⟩ := C68_pretty_print X hX g ht f v hf dis _ L (by omega) s s' status bs hm (by omega) h
  obtain ⟨m, t, log⟩ := s
  have := C52_frees_everything X.alloc X.e (fun t m n a hp => hg t _ n a hp) m h0 f dis _
    (fun bs hb => by simp [Source.length, hb]) t log _ _ h
  refine ⟨_, hr, ?_⟩
  show heapOf X.e s'.mem = heapOf X.e m
  rw [this]

/-- C68 with C52, the result: if requests that are not much larger than the input are served, the text of
`IFF_prettyPrint` returns the status of the tool on values, having printed its output and made its
diagnostics, and the heap is what it was before. -/
theorem C68_pp_same_result (X : Cfg) (hX : X.Linked) (hg : X.Grants) (g : CS) (ht : g.text = [])
    (f : Source) (v : V) (hf : SourceArg X g.inp f v) (dis : Bool) (L tick : Nat) (m : Mem)
    (hd : ∀ t s n, Finite s → X.e.mallocOk n = true → (X.pick t s n).isSome)
    (hA : ∀ n, n ≤ L + f.length + 256 → X.e.mallocOk n = true)
    (h0 : m 0 = none) (hr : Roomy m) (hm : MBd L m) (hL : L + f.length + 4 < 4294967296)
    (log log' : List Msg) (status : Nat) (bs : List Byte)
    (h : prettyPrint X.e f dis log = .val ((status, bs), log')) :
    ∃ rest tick', Runs X .IFF_prettyPrint [v, .int .int (if dis then 1 else 0)] (embC X g ⟨m, tick, log⟩)
      (.int .int status) (embC X { g with inp := rest, text := bs } ⟨m, tick', log'⟩) := by
  have hsv : X.Serves (L + f.length + 256) := fun t s n hf hn => hd t s n hf (hA n hn)
  obtain ⟨t', h'⟩ := C52_same_result _ X.e (complete_total hg (arrays_of_serves hsv)
    (fun t s n hf hn => hsv t s n hf (by omega)) hd) m h0 hr f dis (f.length + 4)
    (fun bs hb => by simp [Source.length, hb]) tick log
  rw [h] at h'
  obtain ⟨rest, hrun⟩ := prettyPrint_run (stk := g.stk) (out := g.out) (room := g.room) hX
    (like_complete (by omega)) hf (by omega) ⟨by omega, by omega⟩ hm h'
  rw [← ht] at hrun
  exact ⟨rest, t', hrun⟩

/-- C68 with C31 and C56: the text of `IFF_prettyPrint`, on a file below 2 GiB without negative group
sizes, returns 0 and has printed the specified text of the hierarchy in the file if there is one to
print, and otherwise returns 1 and has printed nothing; the heap is what it was before. -/
theorem C68_pp_prints (X : Cfg) (hX : X.Linked) (he : X.e.Sane) (hg : X.Grants) (g : CS)
    (ht : g.text = []) (f : Source) (v : V) (hf : SourceArg X g.inp f v) (dis : Bool) (L tick : Nat)
    (m : Mem) (hd : ∀ t s n, Finite s → X.e.mallocOk n = true → (X.pick t s n).isSome)
    (hA : ∀ n, n ≤ L + f.length + 256 → X.e.mallocOk n = true)
    (h0 : m 0 = none) (hr : Roomy m) (hm : MBd L m) (hL : L + f.length + 4 < 4294967296)
    (hn : ∀ bs, f.contents = some bs → NoNegativeGroups bs ∧ bs.length < 2147483648)
    (log : List Msg) :
    ∃ (status : Nat) (g' : CS), Runs X .IFF_prettyPrint [v, .int .int (if dis then 1 else 0)]
      (embC X g ⟨m, tick, log⟩) (.int .int status) g' ∧ g'.heap = heapOf X.e m ∧ g'.out = g.out ∧
      ((∃ c, Printable X.e f dis c ∧ status = 0 ∧ g'.text = Spec.layout 0 c) ∨
       (¬ ∃ c, Printable X.e f dis c) ∧ status = 1 ∧ g'.text = []) := by
  obtain ⟨status, bs, log', h⟩ := C31_total X.e he f dis log hn
  obtain ⟨rest, t', hrun⟩ := C68_pp_same_result X hX hg g ht f v hf dis L tick m hd hA h0 hr hm hL log log'
    status bs h
  refine ⟨status, _, hrun, rfl, rfl, ?_⟩
  rcases (C31_prints_partial X.e he f dis log).2.2 status bs log' h with ⟨c, hc, h1, h2⟩ | h1
  · obtain ⟨cs, sr, -, hread, -⟩ := id hc
    have hfacts := readFd_facts he hread
    rw [C56_layout c (standard_iff.mp hfacts.sound.dispatched) hfacts.sound.raws 0] at h2
    cases h2
    exact .inl ⟨c, hc, h1, rfl⟩
  · exact .inr h1

/-- C68 with C53, the memory: when iffjoin comes to an end with status 0, whatever has been refused, its
text has freed all that it allocated, and nothing else. -/
theorem C68_join_frees (X : Cfg) (hX : X.Linked) (hg : X.Grants) (g : CS) (hi : g.inp = [])
    (files : List Source) (o : Obj) (ho : NamesAt X g.stk o files)
    (hfiles : ∀ f ∈ files, X.files f.name = f.contents) (hlen : files.length < 4294967296) (d : Dest)
    (v : V) (hd : DestArg X g.out g.room d v) (L : Nat) (s s' : TS) (b : Option (List Byte))
    (h0 : s.mem 0 = none) (hm : MBd L s.mem) (hL : L + total files ≤ 4294967296)
    (h : Heap.join X.alloc X.e (total files + 5) files d s = .val ((0, b), s')) :
    ∃ g', Runs X .IFF_join [.ptr (.ptr (.int .char)) ⟨o, 0⟩, .int .uint files.length, v] (embC X g s)
      (.int .int 0) g' ∧ g'.heap = (embC X g s).heap := by
  obtain ⟨out', room', -, hr⟩ := C68_join X hX g hi files o ho hfiles hlen d v hd _ L s s' 0 b hm hL h
  obtain ⟨m, t, log⟩ := s
  have := C53_frees_on_success X.alloc X.e (fun t m n a hp => hg t _ n a hp) m h0 files d _ (by omega)
    (fun f hf bs hb => by have := length_le_total hf; simp only [Source.length, hb] at this; omega) t log _ _ h
  refine ⟨_, hr, ?_⟩
  show heapOf X.e s'.mem = heapOf X.e m
  rw [this]

/-- C68 with C53, the result: if requests below 2 GiB are served, the text of `IFF_join` returns the status
of the tool on values, the destination holds what it says, and the diagnostics are the same. -/
theorem C68_join_same_result (X : Cfg) (hX : X.Linked) (hg : X.Grants) (g : CS) (hi : g.inp = [])
    (files : List Source) (o : Obj) (ho : NamesAt X g.stk o files)
    (hfiles : ∀ f ∈ files, X.files f.name = f.contents) (hlen : files.length < 4294967296) (d : Dest)
    (v : V) (hdest : DestArg X g.out g.room d v) (L tick : Nat) (m : Mem)
    (hd : ∀ t s n, Finite s → X.e.mallocOk n = true → (X.pick t s n).isSome)
    (hA : ∀ n < 2147483648, X.e.mallocOk n = true) (h0 : m 0 = none) (hr : Roomy m) (hm : MBd L m)
    (hL : L + total files + 256 < 2147483648) (log log' : List Msg) (status : Nat)
    (b : Option (List Byte)) (h : join X.e files d log = .val ((status, b), log')) :
    ∃ out' room' m' tick', Written d g.out b out' ∧ (status = 0 → m' = m) ∧
    Runs X .IFF_join [.ptr (.ptr (.int .char)) ⟨o, 0⟩, .int .uint files.length, v]
      (embC X g ⟨m, tick, log⟩) (.int .int status)
      (embC X { g with out := out', room := room' } ⟨m', tick', log'⟩) := by
  have hsv : X.Serves (L + total files + 256) := fun t s n hf hn => hd t s n hf (hA n (by omega))
  have hT := complete_total hg (arrays_of_serves hsv) (fun t s n hf hn => hsv t s n hf (by omega)) hd
  have hn : ∀ f ∈ files, ∀ bs, f.contents = some bs → bs.length + 5 ≤ total files + 5 :=
    fun f hf bs hb => by have := length_le_total hf; simp only [Source.length, hb] at this; omega
  obtain ⟨m', t', h'⟩ := C53_same_result _ X.e hT hA m h0 hr files d (total files + 5) (by omega) hn tick log
  rw [h] at h'
  obtain ⟨out', room', hw, hrun⟩ := join_run (stk := g.stk) (out := g.out) (room := g.room)
    (text := g.text) hX (like_complete (by omega)) hlen hfiles ho hdest ⟨by omega, by omega⟩ hm h'
  rw [← hi] at hrun
  refine ⟨out', room', m', t', hw, ?_, hrun⟩
  rintro rfl
  exact C53_frees_on_success _ X.e hT.grants m h0 files d _ (by omega) hn tick log _ _ h'

/-- C68 with C30: the text of `IFF_join`, on files without negative group sizes that are not too long
together, returns 0 or 1.  If a file cannot be read or is invalid, the status is 1 and nothing has been written.
Otherwise the destination, if it could be opened, holds as much of the CAT of the hierarchies in the
files as fits, and if the status is 0, the heap is what it was before. -/
theorem C68_join_joins (X : Cfg) (hX : X.Linked) (he : X.e.Sane) (hg : X.Grants) (g : CS) (hi : g.inp = [])
    (files : List Source) (o : Obj) (ho : NamesAt X g.stk o files)
    (hfiles : ∀ f ∈ files, X.files f.name = f.contents) (hlen : files.length < 4294967296) (d : Dest)
    (v : V) (hdest : DestArg X g.out g.room d v) (L tick : Nat) (m : Mem)
    (hd : ∀ t s n, Finite s → X.e.mallocOk n = true → (X.pick t s n).isSome)
    (hA : ∀ n < 2147483648, X.e.mallocOk n = true) (h0 : m 0 = none) (hr : Roomy m) (hm : MBd L m)
    (hL : L + total files + 256 < 2147483648)
    (hn : ∀ f ∈ files, ∀ bs, f.contents = some bs → NoNegativeGroups bs) (log : List Msg) :
    ∃ (status : Nat) (g' : CS), Runs X .IFF_join [.ptr (.ptr (.int .char)) ⟨o, 0⟩,
        .int .uint files.length, v] (embC X g ⟨m, tick, log⟩) (.int .int status) g' ∧
      status ≤ 1 ∧ g'.text = g.text ∧ (status = 0 → g'.heap = heapOf X.e m) ∧
      (((∃ f ∈ files, ¬ ∃ c, Offers X.e f c) ∧ status = 1 ∧ g'.out = g.out) ∨
      ∃ (inputs : List (List Byte × Chunk)) (ty : ID) (size : Int),
        files.map Source.contents = inputs.map (fun i => some i.1) ∧ (∀ i ∈ inputs, Accepts X.e i.1 i.2) ∧
        let cat := encode (.grp idCAT size ty (inputs.map Prod.snd))
        (status = 0 ↔ d.opens = true ∧ cat.length ≤ d.cap + d.slack) ∧
        (d.opens = true → g'.out.take d.cap = cat.take d.cap) ∧ (d.opens = false → g'.out = g.out)) := by
  have hsum : (files.map fun f => (f.contents.getD []).length).sum ≤ total files := by
    clear ho hfiles hlen hL hn
    unfold total
    induction files with
    | nil => exact Nat.le_refl _
    | cons f fs ih =>
      simp only [List.map_cons, List.sum_cons]
      have : f.length = (f.contents.getD []).length := by unfold Source.length; cases f.contents <;> rfl
      omega
  rcases C30_outcome X.e he files d log hn (by omega) with
    ⟨hbad, log', h⟩ | ⟨inputs, ty, size, log', h1, h2, h3⟩
  · obtain ⟨out', room', m', tick', hw, -, hrun⟩ := C68_join_same_result X hX hg g hi files o ho hfiles
      hlen d v hdest L tick m hd hA h0 hr hm hL log log' 1 none h
    refine ⟨1, _, hrun, Nat.le_refl _, rfl, by simp, .inl ⟨hbad, rfl, ?_⟩⟩
    rcases hw with ⟨-, hw⟩ | hw
    · exact hw
    · cases hw
  · obtain ⟨out', room', m', tick', hw, hz, hrun⟩ := C68_join_same_result X hX hg g hi files o ho hfiles
      hlen d v hdest L tick m hd hA h0 hr hm hL log log' _ _ h3
    refine ⟨_, _, hrun, by split <;> decide, rfl, fun h => congrArg (heapOf X.e) (hz h), .inr ⟨inputs, ty, size, h1, h2, ?_, ?_, ?_⟩⟩
    · split <;> simp_all
    · intro hop
      rw [if_pos hop] at hw
      rcases hw with ⟨hw, -⟩ | hw
      · cases hw
      · exact (Option.some.inj hw).symm
    · intro hop
      rw [if_neg (by simp [hop])] at hw
      rcases hw with ⟨-, hw⟩ | hw
      · exact hw
      · cases hw

/-- C68 with C53_leaks: the text of `IFF_join` leaks.  Whenever all files can be read, and iffjoin gives
up though the destination could be opened, the heap of the text has a block that was not there before. -/
theorem C68_join_leaks (X : Cfg) (hX : X.Linked) (hg : X.Grants) (g : CS) (hi : g.inp = [])
    (files : List Source) (o : Obj) (ho : NamesAt X g.stk o files)
    (hfiles : ∀ f ∈ files, X.files f.name = f.contents) (hlen : files.length < 4294967296) (d : Dest)
    (v : V) (hdest : DestArg X g.out g.room d v) (L tick : Nat) (m : Mem)
    (hd : ∀ t s n, Finite s → X.e.mallocOk n = true → (X.pick t s n).isSome)
    (hA : ∀ n < 2147483648, X.e.mallocOk n = true) (h0 : m 0 = none) (hr : Roomy m) (hm : MBd L m)
    (hL : L + total files + 256 < 2147483648) (log log' : List Msg)
    (hread : ∀ f ∈ files, Readable X.e f) (hop : d.opens = true)
    (h : join X.e files d log = .val ((1, none), log')) :
    ∃ (g' : CS) (x : Addr), Runs X .IFF_join [.ptr (.ptr (.int .char)) ⟨o, 0⟩,
        .int .uint files.length, v] (embC X g ⟨m, tick, log⟩) (.int .int 1) g' ∧
      heapOf X.e m x = none ∧ g'.heap x ≠ none := by
  have hsv : X.Serves (L + total files + 256) := fun t s n hf hn => hd t s n hf (hA n (by omega))
  have hT := complete_total hg (arrays_of_serves hsv) (fun t s n hf hn => hsv t s n hf (by omega)) hd
  have hn : ∀ f ∈ files, ∀ bs, f.contents = some bs → bs.length + 5 ≤ total files + 5 :=
    fun f hf bs hb => by have := length_le_total hf; simp only [Source.length, hb] at this; omega
  obtain ⟨c, s', h', -, hh, -⟩ := C53_leaks _ X.e hT hA m h0 hr files d (total files + 5) (by omega) hn tick
    log log' hread hop h
  obtain ⟨out', room', -, hrun⟩ := join_run (stk := g.stk) (out := g.out) (room := g.room)
    (text := g.text) hX (like_complete (by omega)) hlen hfiles ho hdest ⟨by omega, by omega⟩ hm h'
  rw [← hi] at hrun
  refine ⟨_, c.addr, hrun, ?_, ?_⟩
  · simp only [heapOf, hh.adds.1 _ c.addr_mem, Option.map_none]
  · show heapOf X.e s'.mem c.addr ≠ none
    simpa [heapOf] using hh.isIn.mapped c.addr c.addr_mem

/-! ### Examples -/

/-- A file with an empty FORM, and one with a PROP, which is not valid. -/
def sampleFiles : String → Option (List Byte)
  | "a" => some (encode (.grp idFORM 4 idTEST []))
  | "b" => some (encode (.grp idPROP 4 idTEST []))
  | _ => none

def sampleDests : String → Option Nat
  | "o" => some 1000
  | _ => none

/-- A program with a generous allocator, and these files. -/
noncomputable def generousTools : Cfg := { generous with files := sampleFiles, dests := sampleDests }

theorem generousTools_linked : generousTools.Linked := by
  intro g hg; cases g <;> first | rfl | cases hg

theorem generousTools_grants : generousTools.Grants := fun t s n a h => generous_grants t s n a h

theorem generousTools_serves (t : Nat) (s : Nat → Option Nat) (n : Nat) (hs : Finite s)
    (hn : generousTools.e.mallocOk n = true) : (generousTools.pick t s n).isSome :=
  generous_serves t s n hs (of_decide_eq_true hn)

theorem empty_bd {L : Nat} : MBd L (fun _ => none) := fun _ _ h => nomatch h

/-- The hypotheses of `C68_pp_prints` are met by a file with a FORM … -/
example (g : CS) (hi : g.inp = []) (ht : g.text = []) : ∃ (status : Nat) (g' : CS),
    Runs generousTools .IFF_prettyPrint [.str "a", .int .int 0] (embC generousTools g ⟨fun _ => none, 0, []⟩)
      (.int .int status) g' ∧ status = 0 ∧ g'.text = Spec.layout 0 (.grp idFORM 4 idTEST []) := by
  obtain ⟨status, g', h1, -, -, h2⟩ := C68_pp_prints generousTools generousTools_linked pc_sane
    generousTools_grants g ht ⟨"a", some (encode (.grp idFORM 4 idTEST []))⟩ (.str "a")
    (.inl ⟨rfl, hi, rfl⟩) false 0 0 (fun _ => none) generousTools_serves
    (fun n hn => decide_eq_true (show n < 2 ^ 63 by
      have : Source.length ⟨"a", some (encode (.grp idFORM 4 idTEST []))⟩ = 12 := rfl
      omega)) rfl ⟨0, fun _ _ => rfl⟩ empty_bd (by decide) (fun bs hb => by
      cases hb
      exact ⟨noNegativeGroups_of (by decide), by decide⟩) []
  have hp : Printable generousTools.e ⟨"a", some (encode (.grp idFORM 4 idTEST []))⟩ false
      (.grp idFORM 4 idTEST []) := ⟨_, _, rfl, rfl, .inr ⟨_, rfl⟩⟩
  refine ⟨status, g', h1, ?_⟩
  rcases h2 with ⟨c, ⟨bs, s, hb, hr, -⟩, h3, h4⟩ | ⟨h2, -⟩
  · cases hb
    have : readFd pc none ⟨encode (.grp idFORM 4 idTEST []), []⟩ =
      .val (some (.grp idFORM 4 idTEST []), ⟨[], []⟩) := rfl
    rw [show generousTools.e = pc from rfl, this] at hr
    cases hr
    exact ⟨h3, h4⟩
  · exact absurd ⟨_, hp⟩ h2

/-- The files of the sample, and an array of their names on the stack. -/
def sampleSources (names : List String) : List Source := names.map fun n => ⟨n, sampleFiles n⟩

def sampleNames (names : List String) : List Blk := [⟨8 * names.length, fun i => (names[i]?).elim .undef .str⟩]

theorem sample_names (X : Cfg) (h64 : X.e.sizeBits = 64) (names : List String) :
    NamesAt X (sampleNames names) (.stk 0) (sampleSources names) := by
  refine ⟨_, rfl, ?_, fun i f h => ?_⟩
  · simp [sampleSources, h64, Nat.mul_comm]
  · simp only [sampleSources, List.getElem?_map, Option.map_eq_some_iff] at h
    obtain ⟨n, hn, rfl⟩ := h
    show (names[i]?).elim Cell.undef Cell.str = _
    rw [hn]
    rfl

/-- … those of `C68_join_joins` by the same file, twice … -/
example (g : CS) (hi : g.inp = []) : ∃ (status : Nat) (g' : CS),
    Runs generousTools .IFF_join [.ptr (.ptr (.int .char)) ⟨.stk 0, 0⟩, .int .uint 2, .str "o"]
      (embC generousTools { g with stk := sampleNames ["a", "a"] } ⟨fun _ => none, 0, []⟩)
      (.int .int status) g' ∧ status = 0 ∧ g'.heap = heapOf pc fun _ => none := by
  obtain ⟨status, g', h1, -, -, h2, h3⟩ := C68_join_joins generousTools generousTools_linked pc_sane
    generousTools_grants { g with stk := sampleNames ["a", "a"] } hi (sampleSources ["a", "a"]) (.stk 0)
    (sample_names _ rfl _) (by
      intro f hf
      simp only [sampleSources, List.map_cons, List.map_nil, List.mem_cons, List.not_mem_nil, or_false,
        or_self] at hf
      subst hf
      rfl) (by decide) ⟨"o", true, 1000, 0⟩ (.str "o") (.inl ⟨rfl, rfl⟩) 0 0 (fun _ => none)
    generousTools_serves (fun n hn => decide_eq_true (show n < 2 ^ 63 by omega)) rfl ⟨0, fun _ _ => rfl⟩
    empty_bd (by decide) (by
      intro f hf bs hb
      simp only [sampleSources, List.map_cons, List.map_nil, List.mem_cons, List.not_mem_nil, or_false,
        or_self] at hf
      subst hf
      cases hb
      exact noNegativeGroups_of (by decide)) []
  have hacc : Accepts pc (encode (.grp idFORM 4 idTEST [])) (.grp idFORM 4 idTEST []) := ⟨⟨_, rfl⟩, _, rfl⟩
  have hz : status = 0 := by
    rcases h3 with ⟨⟨f, hf, hno⟩, -⟩ | ⟨inputs, ty, size, hin, hacc', hst, -⟩
    · simp only [sampleSources, List.map_cons, List.map_nil, List.mem_cons, List.not_mem_nil, or_false,
        or_self] at hf
      subst hf
      exact absurd ⟨_, _, rfl, hacc⟩ hno
    · refine hst.mpr ⟨rfl, ?_⟩
      have hall : ∀ i ∈ inputs, i.2 = .grp idFORM 4 idTEST [] := by
        intro i hii
        have : some i.1 ∈ (sampleSources ["a", "a"]).map Source.contents := by
          rw [hin]; exact List.mem_map_of_mem (f := fun i : List Byte × Chunk => some i.1) hii
        simp only [sampleSources, List.map_cons, List.map_nil, List.mem_cons, List.not_mem_nil, or_false,
          or_self, sampleFiles, Option.some.injEq] at this
        obtain ⟨⟨s', hr⟩, -⟩ := hacc' i hii
        rw [this] at hr
        have h' : readFd pc none ⟨encode (.grp idFORM 4 idTEST []), []⟩ =
          .val (some (.grp idFORM 4 idTEST []), ⟨[], []⟩) := rfl
        rw [show generousTools.e = pc from rfl, h', Out.val.injEq, Prod.mk.injEq, Option.some.injEq] at hr
        exact hr.1.symm
      have h2 : inputs.map Prod.snd = List.replicate 2 (.grp idFORM 4 idTEST []) := by
        have hl := congrArg List.length hin
        simp only [sampleSources, List.length_map, List.length_cons, List.length_nil] at hl
        rw [List.eq_replicate_iff]
        refine ⟨by simp; omega, fun c hc => ?_⟩
        obtain ⟨i, hi', rfl⟩ := List.mem_map.mp hc
        exact hall i hi'
      rw [h2]
      have hpad : (pad size).length ≤ 1 := by unfold pad; split <;> decide
      have h28 : (encodeAll (List.replicate 2 (Chunk.grp idFORM 4 idTEST []))).length = 24 := by decide
      simp only [encode, List.length_append, header, be_length, h28]
      omega
  exact ⟨status, g', h1, hz, h2 hz⟩

/-- … and those of `C68_join_leaks` by that file and the invalid one. -/
example (g : CS) (hi : g.inp = []) : ∃ (g' : CS) (x : Addr),
    Runs generousTools .IFF_join [.ptr (.ptr (.int .char)) ⟨.stk 0, 0⟩, .int .uint 2, .str "o"]
      (embC generousTools { g with stk := sampleNames ["a", "b"] } ⟨fun _ => none, 0, []⟩)
      (.int .int 1) g' ∧ g'.heap x ≠ none := by
  obtain ⟨g', x, h1, -, h2⟩ := C68_join_leaks generousTools generousTools_linked
    generousTools_grants { g with stk := sampleNames ["a", "b"] } hi (sampleSources ["a", "b"]) (.stk 0)
    (sample_names _ rfl _) (by
      intro f hf
      simp only [sampleSources, List.map_cons, List.map_nil, List.mem_cons, List.not_mem_nil, or_false] at hf
      rcases hf with rfl | rfl <;> rfl) (by decide) ⟨"o", true, 1000, 0⟩ (.str "o") (.inl ⟨rfl, rfl⟩) 0 0
    (fun _ => none) generousTools_serves (fun n hn => decide_eq_true (show n < 2 ^ 63 by omega)) rfl
    ⟨0, fun _ _ => rfl⟩ empty_bd (by decide) [] _ (by
      intro f hf
      simp only [sampleSources, List.map_cons, List.map_nil, List.mem_cons, List.not_mem_nil, or_false] at hf
      rcases hf with rfl | rfl
      · exact ⟨_, .grp idFORM 4 idTEST [], _, rfl, rfl⟩
      · exact ⟨_, .grp idPROP 4 idTEST [], _, rfl, rfl⟩) rfl rfl
  exact ⟨g', x, h1, h2⟩

/-- A program with the numbering allocator, and the files of the sample. -/
def linkedTools (refuse : Nat → Nat → Bool) : Cfg :=
  { linked refuse with files := sampleFiles, dests := sampleDests }

/-- A program that starts, with these file names in an array on the stack. -/
def startedWith (names : List String) : CS := ⟨fun _ => none, 0, sampleNames names, [], [], 0, [], []⟩

/-- The result of a run, the printed text, the written bytes, and the allocated blocks below 20. -/
def toolOf : Out (V × CS) → Option (V × List Byte × List Byte × List Nat)
  | .val (v, g) => some (v, g.text, g.out, (List.range 20).filter fun a => (g.heap a).isSome)
  | _ => none

/-- The text can be run: iffpp prints the FORM, does not print the PROP, and prints it without the check. -/
example :
    toolOf (callFn (linkedTools fun _ _ => false) 40 .IFF_prettyPrint [.str "a", .int .int 0]
      (startedWith [])) = some (.int .int 0, Spec.layout 0 (.grp idFORM 4 idTEST []), [], []) ∧
    toolOf (callFn (linkedTools fun _ _ => false) 40 .IFF_prettyPrint [.str "b", .int .int 0]
      (startedWith [])) = some (.int .int 1, [], [], []) ∧
    toolOf (callFn (linkedTools fun _ _ => false) 40 .IFF_prettyPrint [.str "b", .int .int 1]
      (startedWith [])) = some (.int .int 0, Spec.layout 0 (.grp idPROP 4 idTEST []), [], []) := by
  refine ⟨?_, ?_, ?_⟩ <;> decide +kernel

/-- iffjoin: two FORMs are joined and all is freed; a PROP is rejected, and leaks. -/
theorem C68_join_runs :
    toolOf (callFn (linkedTools fun _ _ => false) 40 .IFF_join [.ptr (.ptr (.int .char)) ⟨.stk 0, 0⟩,
      .int .uint 2, .str "o"] (startedWith ["a", "a"])) = some (.int .int 0, [],
        encode (catOf idTEST [.grp idFORM 4 idTEST [], .grp idFORM 4 idTEST []]), []) ∧
    toolOf (callFn (linkedTools fun _ _ => false) 40 .IFF_join [.ptr (.ptr (.int .char)) ⟨.stk 0, 0⟩,
      .int .uint 2, .str "o"] (startedWith ["a", "b"])) = some (.int .int 1, [], [], [4]) := by
  refine ⟨?_, ?_⟩ <;> decide +kernel

/-- C53 is false of the text, too: `IFF_createEmptyCAT` is refused its memory. -/
theorem C68_join_null : failedWith (callFn (linkedTools fun t _ => t == 0) 40 .IFF_join
    [.ptr (.ptr (.int .char)) ⟨.stk 0, 0⟩, .int .uint 1, .str "o"] (startedWith ["a"])) =
    some .nullDeref := by decide +kernel

end Iff.Src
