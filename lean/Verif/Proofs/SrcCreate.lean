import Verif.Proofs.SrcHeap
/-
  Creating chunks and attaching them to groups: running the text of chunk.c:32-44, rawchunk.c:30-46,
  group.c:33-66, list.c:30-66, group.c:270-279 does what the heap model says.
-/
namespace Iff.Src
set_option maxRecDepth 4000
open Heap (Addr Block Mem HS Hdr Grp Lst)

section
variable {X : Cfg} {n : Nat} {room : Nat} {stk : List Blk} {out text : List Byte} {m : Mem}

theorem malloc_inv {A : Heap.Alloc} {q : Heap.Req} {b : Block} {p : Addr} {s s' : HS}
    (h : Heap.malloc A q b s = .val (p, s')) :
    (A.pick s.tick s.mem q = none ∧ p = 0 ∧ s' = ⟨s.mem, s.tick + 1, s.rs⟩) ∨
    (A.pick s.tick s.mem q = some p ∧ p ≠ 0 ∧ s' = ⟨s.mem.set p (some b), s.tick + 1, s.rs⟩) := by
  unfold Heap.malloc at h
  cases hp : A.pick s.tick s.mem q with
  | none => rw [hp] at h; cases h; exact .inl ⟨rfl, rfl, rfl⟩
  | some a => rw [hp] at h; cases h; exact .inr ⟨rfl, (A.sound hp).1, rfl⟩

theorem toSize_mul1 {x : Int} : toSize X.e ((toSize X.e x : Int) * (toSize X.e 1 : Int)) = toSize X.e x := by
  rw [show toSize X.e 1 = 1 from toSize_lit (by decide), Int.natCast_one, Int.mul_one, toSize_toSize]

theorem sizes_setHeap {heap : Nat → Option Blk} {a k : Nat} {c c' : Nat → Cell} :
    sizes (setHeap heap a (some ⟨k, c⟩)) = sizes (setHeap heap a (some ⟨k, c'⟩)) := by
  funext x; simp only [sizes, setHeap]; split <;> rfl

theorem setHeap_comm {heap : Nat → Option Blk} {a b : Nat} {x y : Option Blk} (h : a ≠ b) :
    setHeap (setHeap heap a x) b y = setHeap (setHeap heap b y) a x := by
  funext z; simp only [setHeap]
  by_cases h1 : z = b
  · subst h1; simp [Ne.symm h]
  · simp [h1]

theorem setHeap_ne {heap : Nat → Option Blk} {a b : Nat} {x : Option Blk} (h : b ≠ a) :
    setHeap heap a x b = heap b := by simp [setHeap, h]

theorem freeC_some {heap : Nat → Option Blk} {tick : Nat} {inp : List Byte} {log : List ErrPrint}
    {a : Nat} {b : Blk} (h0 : a ≠ 0) (h : heap a = some b) :
    freeC a ⟨heap, tick, stk, inp, out, room, text, log⟩ =
      .val (.void, ⟨setHeap heap a none, tick, stk, inp, out, room, text, log⟩) := by
  simp only [freeC, if_neg h0, h]

/-- rawchunk.c:30-46 -/
theorem createRaw_run {id : ID} {size : Int} {p : Addr} {s s' : HS} (hs : inInt size)
    (h : Heap.createRaw X.alloc X.e id size s = .val (p, s')) :
    callFn X (n + 3) .IFF_createRawChunk [.int .uint id.toNat, .int .int size]
      (st X stk out room text s) = .val (.ptr (.struct .IFF_Chunk) (.ofAddr p),
        st X stk out room text s') := by
  obtain ⟨m, tick, ⟨inp, ml⟩⟩ := s
  have hsm := size_small X (s := .IFF_RawChunk) (by simp)
  unfold Heap.createRaw at h
  obtain ⟨p1, s1, h1, h2⟩ := bind_inv h
  rw [callFn_code rfl]
  rcases malloc_inv h1 with ⟨hp, rfl, rfl⟩ | ⟨hp, h0, rfl⟩
  · rw [if_pos rfl] at h2
    obtain ⟨rfl, rfl⟩ := pure_inv h2
    rw [pick_alloc rfl] at hp
    crun [IFF_createRawChunk.code, wrapInt_of hs, createChunk_none hs hsm hp, Ty.size, addr_bne_null',
      bne_self_eq_false, List.take_length]
  · rw [if_neg h0] at h2
    obtain ⟨d, s2, h3, h4⟩ := bind_inv h2
    rw [pick_alloc rfl] at hp
    have hb0 : (p1 != 0) = true := by simpa using h0
    rcases malloc_inv h3 with ⟨hp2, rfl, rfl⟩ | ⟨hp2, h02, rfl⟩
    · rw [if_pos rfl] at h4
      obtain ⟨u, s3, h5, h6⟩ := bind_inv h4
      obtain ⟨rfl, rfl⟩ := pure_inv h6
      rcases free_inv h5 with ⟨rfl, rfl⟩ | ⟨-, -, rfl⟩
      · exact absurd rfl h0
      rw [pick_alloc rfl, heapOf_set, Option.map_some] at hp2
      have hp3 : X.pick (tick + 1) (sizes (setHeap (heapOf X.e m) p1
          (some ⟨Struct.size X.e .IFF_RawChunk,
            cells [.ptr Ptr.null, .int .uint id.toNat, .int .int size]⟩))) (toSize X.e size) = none := by
        rw [← hp2]; exact congrArg (X.pick _ · _) sizes_setHeap
      crun [IFF_createRawChunk.code, wrapInt_of hs, createChunk_some hs hsm (size_IFF_Chunk_IFF_RawChunk X) hp,
        Ty.size, scalarSize, ITy.bits, addr_bne_null', hb0, List.take_length, toSize_mul1, toSize_toSize,
        mallocC_none hp3, blkOf_heap setHeap_self, setHeap_setHeap, addr_beq_null', null_beq_null,
        freeC_some h0 setHeap_self]
      simp only [st, heapOf_set, Option.map_none, setHeap_setHeap]
    · rw [if_neg h02] at h4
      obtain ⟨u, s3, h5, h6⟩ := bind_inv h4
      obtain ⟨rfl, rfl⟩ := pure_inv h6
      obtain ⟨-, rfl⟩ := store_inv h5
      have hne : p ≠ d := by
        rintro rfl
        have := (X.alloc.sound hp2).2
        simp [Heap.Mem.set] at this
      rw [pick_alloc rfl, heapOf_set, Option.map_some] at hp2
      have hp3 : X.pick (tick + 1) (sizes (setHeap (heapOf X.e m) p
          (some ⟨Struct.size X.e .IFF_RawChunk,
            cells [.ptr Ptr.null, .int .uint id.toNat, .int .int size]⟩))) (toSize X.e size) = some d := by
        rw [← hp2]; exact congrArg (X.pick _ · _) sizes_setHeap
      have hd0 : (d == 0) = false := by simpa using h02
      have hp1 : setHeap (setHeap (heapOf X.e m) p (some ⟨Struct.size X.e .IFF_RawChunk,
        cells [.ptr Ptr.null, .int .uint id.toNat, .int .int size]⟩)) d
          (some ⟨toSize X.e size, cells []⟩) p = some ⟨Struct.size X.e .IFF_RawChunk,
        cells [.ptr Ptr.null, .int .uint id.toNat, .int .int size]⟩ := by
        rw [setHeap_ne hne, setHeap_self]
      crun [IFF_createRawChunk.code, wrapInt_of hs, createChunk_some hs hsm (size_IFF_Chunk_IFF_RawChunk X) hp,
        Ty.size, scalarSize, ITy.bits, addr_bne_null', hb0, List.take_length, toSize_mul1, toSize_toSize,
        mallocC_some hp3, blkOf_heap hp1, blkOf_heap setHeap_self, addr_beq_null', hd0]
      simp only [st, heapOf_set, Option.map_some, layout, hdrCells, List.cons_append, List.nil_append,
        setHeap_comm hne, setHeap_setHeap, List.length_replicate, ← cells_nil_bytes]

theorem set_new4 {sz : Nat} {a b c d x : Cell} :
    Blk.set ⟨sz, cells [a, b, c, d]⟩ 4 x = ⟨sz, cells [a, b, c, d, x]⟩ := set_new
theorem set_new5 {sz : Nat} {a b c d e x : Cell} :
    Blk.set ⟨sz, cells [a, b, c, d, e]⟩ 5 x = ⟨sz, cells [a, b, c, d, e, x]⟩ := set_new
theorem set_new7 {sz : Nat} {a b c d e f x : Cell} :
    Blk.set ⟨sz, cells [a, b, c, d, e, f]⟩ 7 x = ⟨sz, cells [a, b, c, d, e, f, .undef, x]⟩ := by
  simp only [Blk.set, Blk.mk.injEq, true_and]
  funext j
  match j with
  | 0 | 1 | 2 | 3 | 4 | 5 | 6 | 7 => rfl
  | j + 8 => simp [cells]

/-- group.c:33-38 -/
theorem initGroup_run {a sz : Nat} {c0 c1 c2 : Cell} {ty : ID} {heap : Nat → Option Blk}
    {tick : Nat} {inp : List Byte} {log : List ErrPrint}
    (h : heap a = some ⟨sz, cells [c0, c1, c2]⟩) (hsz : Struct.size X.e .IFF_Group ≤ sz) :
    callFn X (n + 1) .IFF_initGroup [.ptr (.struct .IFF_Group) ⟨.heap a, 0⟩, .int .uint ty.toNat]
      ⟨heap, tick, stk, inp, out, room, text, log⟩ = .val (.void,
        ⟨setHeap heap a (some ⟨sz, cells [c0, c1, c2, .int .uint ty.toNat, .int .uint 0,
          .ptr Ptr.null]⟩), tick, stk, inp, out, room, text, log⟩) := by
  rw [callFn_code rfl]
  crun [IFF_initGroup.code, blkOf_heap h, hsz, blkOf_heap setHeap_self, setHeap_setHeap, set_new4,
    set_new5, List.take_length]

/-- group.c:40-48 -/
theorem createGroup_run {t u v : ITy} {id ty : ID} {size : Int} {p : Addr} {s s' : HS} (hs : inInt size)
    (h : Heap.newStruct X.alloc (.grp ⟨0, id, size⟩ ty 0 0) s = .val (p, s')) :
    callFn X (n + 3) .IFF_createGroup [.int t id.toNat, .int u size, .int v ty.toNat]
      (st X stk out room text s) = .val (.ptr (.struct .IFF_Group) (.ofAddr p),
        st X stk out room text s') := by
  obtain ⟨m, tick, ⟨inp, ml⟩⟩ := s
  have hsm := size_small X (s := .IFF_Group) (by simp)
  rw [callFn_code rfl]
  rcases malloc_inv h with ⟨hp, rfl, rfl⟩ | ⟨hp, h0, rfl⟩
  · rw [pick_alloc rfl] at hp
    crun [IFF_createGroup.code, wrapInt_of hs, createChunk_none hs hsm hp, Ty.size, addr_bne_null',
      bne_self_eq_false, List.take_length]
  · rw [pick_alloc rfl] at hp
    have hb0 : (p != 0) = true := by simpa using h0
    crun [IFF_createGroup.code, wrapInt_of hs, createChunk_some hs hsm (size_IFF_Chunk_IFF_Group X) hp,
      Ty.size, addr_bne_null', hb0, List.take_length, initGroup_run setHeap_self (Nat.le_refl _),
      setHeap_setHeap]
    simp only [st, heapOf_set, Option.map_some, layout, hdrCells, List.cons_append, List.nil_append,
      Int.ofNat_zero]

theorem zero_toNat : ((BitVec.toNat (0 : ID) : Nat) : Int) = 0 := rfl

/-- group.c:55-58 -/
theorem createUnparsedGroup_run {id : ID} {size : Int} {p : Addr} {s s' : HS} (hs : inInt size)
    (h : Heap.newStruct X.alloc (.grp ⟨0, id, size⟩ 0 0 0) s = .val (p, s')) :
    callFn X (n + 4) .IFF_createUnparsedGroup [.int .uint id.toNat, .int .int size]
      (st X stk out room text s) = .val (.ptr (.struct .IFF_Chunk) (.ofAddr p),
        st X stk out room text s') := by
  have h1 := createGroup_run (n := n) (stk := stk) (out := out) (room := room) (text := text)
    (t := .uint) (u := .int) (v := .int) hs h
  rw [zero_toNat] at h1
  rw [callFn_code rfl]
  crun [IFF_createUnparsedGroup.code, wrapInt_of hs, List.take_length, h1]

/-- list.c:30-43 -/
theorem createList_run {u v : ITy} {ty : ID} {size : Int} {p : Addr} {s s' : HS} (hs : inInt size)
    (h : Heap.newStruct X.alloc (.lst ⟨0, idLIST, size⟩ ty 0 0 0 0) s = .val (p, s')) :
    callFn X (n + 3) .IFF_createList [.int u size, .int v ty.toNat]
      (st X stk out room text s) = .val (.ptr (.struct .IFF_List) (.ofAddr p),
        st X stk out room text s') := by
  obtain ⟨m, tick, ⟨inp, ml⟩⟩ := s
  have hsm := size_small X (s := .IFF_List) (by simp)
  rw [callFn_code rfl]
  rcases malloc_inv h with ⟨hp, rfl, rfl⟩ | ⟨hp, h0, rfl⟩
  · rw [pick_alloc rfl] at hp
    crun [IFF_createList.code, wrapInt_of hs, evalE_LIST, createChunk_none hs hsm hp, Ty.size, addr_bne_null',
      bne_self_eq_false, List.take_length]
  · rw [pick_alloc rfl] at hp
    have hb0 : (p != 0) = true := by simpa using h0
    crun [IFF_createList.code, wrapInt_of hs, evalE_LIST, createChunk_some hs hsm (size_IFF_Chunk_IFF_List X) hp,
      Ty.size, addr_bne_null', hb0, List.take_length, initGroup_run setHeap_self (size_IFF_Group_IFF_List X),
      setHeap_setHeap, blkOf_heap setHeap_self, set_new7]
    simp only [st, heapOf_set, Option.map_some, layout, hdrCells, List.cons_append, List.nil_append,
      Int.ofNat_zero]

/-- list.c:55-58 -/
theorem createUnparsedList_run {id : ID} {size : Int} {p : Addr} {s s' : HS} (hs : inInt size)
    (h : Heap.newStruct X.alloc (.lst ⟨0, idLIST, size⟩ 0 0 0 0 0) s = .val (p, s')) :
    callFn X (n + 4) .IFF_createUnparsedList [.int .uint id.toNat, .int .int size]
      (st X stk out room text s) = .val (.ptr (.struct .IFF_Chunk) (.ofAddr p),
        st X stk out room text s') := by
  have h1 := createList_run (n := n) (stk := stk) (out := out) (room := room) (text := text)
    (u := .int) (v := .int) hs h
  rw [zero_toNat] at h1
  rw [callFn_code rfl]
  crun [IFF_createUnparsedList.code, wrapInt_of hs, List.take_length, h1]

/-- tests/hello.c:29-41 -/
theorem createHello_run {t u : ITy} {id : ID} {size : Int} {p : Addr} {s s' : HS} (hs : inInt size)
    (h : Heap.create X.alloc X.e helloType id size s = .val (p, s')) :
    callFn X (n + 3) .TEST_createHelloChunk [.int t id.toNat, .int u size]
      (st X stk out room text s) = .val (.ptr (.struct .IFF_Chunk) (.ofAddr p),
        st X stk out room text s') := by
  obtain ⟨m, tick, ⟨inp, ml⟩⟩ := s
  have hsm := size_small X (s := .TEST_Hello) (by simp)
  have hle : Struct.size X.e .IFF_Chunk ≤ Struct.size X.e .TEST_Hello := size_chunk_ext X [.ubyte, .ubyte, .uword]
  rw [callFn_code rfl]
  rcases malloc_inv h with ⟨hp, rfl, rfl⟩ | ⟨hp, h0, rfl⟩
  · rw [pick_alloc (k := Struct.size X.e .TEST_Hello) rfl] at hp
    crun [TEST_createHelloChunk.code, wrapInt_of hs, createChunk_none hs hsm hp, Ty.size, addr_bne_null',
      bne_self_eq_false, List.take_length]
  · rw [pick_alloc (k := Struct.size X.e .TEST_Hello) rfl] at hp
    have hb0 : (p != 0) = true := by simpa using h0
    crun [TEST_createHelloChunk.code, wrapInt_of hs, createChunk_some hs hsm hle hp,
      Ty.size, addr_bne_null', hb0, List.take_length, setHeap_setHeap, blkOf_heap setHeap_self, set_new3, set_new4, set_new5,
      find_Hello_a, find_Hello_b, find_Hello_c, find_Bye_one, find_Bye_two]
    simp only [st, heapOf_set, Option.map_some]
    rfl

/-- tests/bye.c:29-40 -/
theorem createBye_run {t u : ITy} {id : ID} {size : Int} {p : Addr} {s s' : HS} (hs : inInt size)
    (h : Heap.create X.alloc X.e byeType id size s = .val (p, s')) :
    callFn X (n + 3) .TEST_createByeChunk [.int t id.toNat, .int u size]
      (st X stk out room text s) = .val (.ptr (.struct .IFF_Chunk) (.ofAddr p),
        st X stk out room text s') := by
  obtain ⟨m, tick, ⟨inp, ml⟩⟩ := s
  have hsm := size_small X (s := .TEST_Bye) (by simp)
  have hle : Struct.size X.e .IFF_Chunk ≤ Struct.size X.e .TEST_Bye := size_chunk_ext X [.long, .long]
  rw [callFn_code rfl]
  rcases malloc_inv h with ⟨hp, rfl, rfl⟩ | ⟨hp, h0, rfl⟩
  · rw [pick_alloc (k := Struct.size X.e .TEST_Bye) rfl] at hp
    crun [TEST_createByeChunk.code, wrapInt_of hs, createChunk_none hs hsm hp, Ty.size, addr_bne_null',
      bne_self_eq_false, List.take_length]
  · rw [pick_alloc (k := Struct.size X.e .TEST_Bye) rfl] at hp
    have hb0 : (p != 0) = true := by simpa using h0
    crun [TEST_createByeChunk.code, wrapInt_of hs, createChunk_some hs hsm hle hp,
      Ty.size, addr_bne_null', hb0, List.take_length, setHeap_setHeap, blkOf_heap setHeap_self, set_new3, set_new4, set_new5,
      find_Hello_a, find_Hello_b, find_Hello_c, find_Bye_one, find_Bye_two]
    simp only [st, heapOf_set, Option.map_some]
    rfl

/-- The create function of a chunk type. -/
theorem create_run {hd : Handler} {fs : List Fn} (hf : FnsOf hd fs) {id : ID} {size : Int}
    {p : Addr} {s s' : HS} (hs : inInt size)
    (h : Heap.create X.alloc X.e hd id size s = .val (p, s')) :
    ∃ f, fs[0]? = some f ∧ callFn X (n + 5) f [.int .uint id.toNat, .int .int size]
      (st X stk out room text s) = .val (.ptr (.struct .IFF_Chunk) (.ofAddr p),
        st X stk out room text s') := by
  cases hd with
  | raw => cases hf; exact ⟨_, rfl, createRaw_run hs h⟩
  | form =>
    cases hf
    refine ⟨_, rfl, ?_⟩
    rw [callFn_code rfl]
    crun [IFF_createUnparsedForm.code, wrapInt_of hs, List.take_length, createUnparsedGroup_run hs h]
  | cat =>
    cases hf
    refine ⟨_, rfl, ?_⟩
    rw [callFn_code rfl]
    crun [IFF_createUnparsedCAT.code, wrapInt_of hs, List.take_length, createUnparsedGroup_run hs h]
  | prop =>
    cases hf
    refine ⟨_, rfl, ?_⟩
    rw [callFn_code rfl]
    crun [IFF_createUnparsedProp.code, wrapInt_of hs, List.take_length, createUnparsedGroup_run hs h]
  | list => cases hf; exact ⟨_, rfl, createUnparsedList_run hs h⟩
  | ext a b =>
    cases hf
    · exact ⟨_, rfl, createHello_run hs h⟩
    · exact ⟨_, rfl, createBye_run hs h⟩

end

end Iff.Src
