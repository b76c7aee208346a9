import Verif.Proofs.SrcTest
import Verif.Proofs.HeapSuffix
/-
  Reading chunks: chunk.c:46-78, rawchunk.c:68-84, group.c:74-111, list.c:84-128, iff.c:40-61.
-/
namespace Iff.Src
set_option maxRecDepth 4000
set_option quotPrecheck false
open Heap (Addr Block Mem HS Hdr Grp Lst)

/-- Before a step of the parser: the arrays are not longer than what was read. -/
def Pre (K : Nat) (s : HS) : Prop := s.rs.inp.length ≤ K ∧ MBd (K - s.rs.inp.length) s.mem

theorem Pre.io {K : Nat} {s s' : HS} (h : Pre K s) (hi : s'.rs.inp.length ≤ s.rs.inp.length)
    (hm : s'.mem = s.mem) : Pre K s' :=
  ⟨Nat.le_trans hi h.1, by rw [hm]; exact h.2.mono (by omega)⟩

/-- After the fields of a chunk have been read. -/
def Post (K : Nat) (s s' : HS) (bp' : Int) : Prop :=
  Pre K s' ∧ s'.rs.inp.length ≤ s.rs.inp.length ∧ inInt bp'

/-- The object `bytesProcessed`. -/
@[reducible] def bpObj (bp : Int) : Blk := ⟨4, cells [.int .int bp]⟩

section
variable {X : Cfg} {N : Nat} {T : List Byte} {room : Nat} {stk : List Blk} {out text : List Byte}

/-- `fread` of bytes into the contents of a raw chunk. -/
theorem fread_bytes {d : Addr} {cs : List (Option Byte)} {k : Nat} {m : Mem} {tick : Nat}
    {inp : List Byte} {log : List ErrPrint} (hd : m d = some (.bytes cs))
    (hl : (inp.take k).length ≤ cs.length) :
    freadC X .uchar ⟨.heap d, 0⟩ 1 k ⟨heapOf X.e m, tick, stk, inp, out, room, text, log⟩ =
      .val (.int .size (inp.take k).length,
        ⟨heapOf X.e (m.set d (some (.bytes ((inp.take k).map some ++ cs.drop (inp.take k).length)))),
          tick, stk, inp.drop k, out, room, text, log⟩) := by
  have hs : (layout X.e (.bytes cs)).size = cs.length := rfl
  simp only [freadC, CS.blk, heapOf_some hd, and_self, if_true, hs, if_pos hl, CS.setBlk,
    layout_putBytes hl, heapOf_set, Option.map_some]

/-- rawchunk.c:68-84 -/
theorem readRaw_run {q : Ptr} {p : Addr} {bp bp' : Int} {ok : Bool} {K n : Nat} {s s' : HS}
    (hp : Pre K s) (hbp : inInt bp) (h : Heap.readRaw X.e p bp s = .val ((ok, bp'), s')) :
    Post K s s' bp' ∧
    callFn X (n + 8) .IFF_readRawChunk [.file .inp, .ptr (.struct .IFF_Chunk) ⟨.heap p, 0⟩,
      .ptr (.struct .IFF_ChunkRegistry) q, .ptr (.int .int) ⟨.stk stk.length, 0⟩]
      (st X (stk ++ [bpObj bp]) out room text s) =
      .val (truth ok, st X (stk ++ [bpObj bp']) out room text s') := by
  unfold Heap.readRaw at h
  obtain ⟨b, s1, h1, k1⟩ := bind_inv h
  clear h
  obtain ⟨hm1, rfl⟩ := load_inv h1
  cases b <;> first | (cases k1; done) | skip
  rename_i hd d
  obtain ⟨data, s2, h2, k2⟩ := bind_inv k1
  obtain ⟨rs2, h2', rfl⟩ := io_inv h2
  cases h2'
  obtain ⟨b3, s3, h3, k3⟩ := bind_inv k2
  obtain ⟨hm3, rfl⟩ := load_inv h3
  cases b3 <;> first | (cases k3; done) | skip
  rename_i cs
  have hsz := hp.2.hdr hm1 rfl
  by_cases hlen : (s1.rs.inp.take (toSize X.e hd.size)).length ≤ cs.length
  · simp only [if_pos hlen] at k3
    obtain ⟨u4, s4, h4, k4⟩ := bind_inv k3
    obtain ⟨-, rfl⟩ := store_inv h4
    have hl2 : (s1.rs.inp.take (toSize X.e hd.size)).length ≤ toSize X.e hd.size := by
      rw [List.length_take]; omega
    have hne : d ≠ p := by
      rintro rfl
      have := hm1.symm.trans hm3
      cases this
    have hb1 := heapOf_some (e := X.e) hm1
    have hb2 : heapOf X.e (s1.mem.set d (some (.bytes ((s1.rs.inp.take (toSize X.e hd.size)).map some ++
      cs.drop (s1.rs.inp.take (toSize X.e hd.size)).length)))) p = some (layout X.e (.raw hd d)) := by
      rw [← hb1]; simp only [heapOf, Mem.set, if_neg (Ne.symm hne)]
    have hfr := @fread_bytes X room (stk ++ [bpObj bp]) out text d cs (toSize X.e hd.size) s1.mem s1.tick s1.rs.inp
      (errCalls X.e s1.rs.log) hm3 hlen
    have hpost : ∀ {l : List Msg} {b : Int}, inInt b → Post K s1 ⟨s1.mem.set d (some (.bytes ((s1.rs.inp.take (toSize X.e hd.size)).map some ++
      cs.drop (s1.rs.inp.take (toSize X.e hd.size)).length))), s1.tick,
        ⟨s1.rs.inp.drop (toSize X.e hd.size), l⟩⟩ b := by
      intro l b hb
      have : (s1.rs.inp.drop (toSize X.e hd.size)).length ≤ s1.rs.inp.length := by
        rw [List.length_drop]; omega
      exact ⟨⟨Nat.le_trans this hp.1, (hp.2.mono (by show K - s1.rs.inp.length ≤ K - (s1.rs.inp.drop (toSize X.e hd.size)).length; omega)).set trivial⟩, this, hb⟩
    have hts : toSize X.e ((s1.rs.inp.take (toSize X.e hd.size)).length : Int) = (s1.rs.inp.take (toSize X.e hd.size)).length := by
      rw [toSize, Int.emod_eq_of_lt (by omega), Int.toNat_natCast]
      have : (toSize X.e hd.size : Int) < ((2 ^ X.e.sizeBits : Nat) : Int) := by
        rw [toSize, Int.toNat_of_nonneg (Int.emod_nonneg _ (by have := Nat.two_pow_pos X.e.sizeBits; omega))]
        exact Int.emod_lt_of_pos _ (by have := Nat.two_pow_pos X.e.sizeBits; omega)
      omega
    rw [callFn_code rfl]
    by_cases hsh : (s1.rs.inp.take (toSize X.e hd.size)).length < toSize X.e hd.size
    · simp only [if_pos hsh] at k4
      obtain ⟨u5, s5, h5, k5⟩ := bind_inv k4
      obtain ⟨rs5, h5', rfl⟩ := io_inv h5
      cases h5'
      cases k5
      refine ⟨hpost hbp, ?_⟩
      crun [IFF_readRawChunk.code, blkOf_heap hb1, layout, hdrCells, List.cons_append, List.nil_append,
        Ty.size, scalarSize, ITy.bits, toSize_lit, hfr, blkOf_heap hb2, hts, decide_eq_true (show ((s1.rs.inp.take (toSize X.e hd.size)).length : Int) < toSize X.e hd.size by omega),
        error0, errorId_run, List.append_assoc]
      simp only [st, errCalls_snoc, Msg.prints, List.cons_append, List.nil_append]
      rfl
    · simp only [if_neg hsh] at k4
      obtain ⟨bp5, s5, h5, k5⟩ := bind_inv k4
      obtain ⟨h5', rfl⟩ := ofOut_inv h5
      cases k5
      obtain ⟨h6, rfl⟩ := addInt_inv h5'
      refine ⟨hpost h6, ?_⟩
      crun [IFF_readRawChunk.code, blkOf_heap hb1, layout, hdrCells, List.cons_append, List.nil_append,
        Ty.size, scalarSize, ITy.bits, toSize_lit, hfr, blkOf_heap hb2, hts, decide_eq_false (show ¬ ((s1.rs.inp.take (toSize X.e hd.size)).length : Int) < toSize X.e hd.size by omega),
        blkOf_stk stk_get0, h6, wrapInt_of h6, wrapInt_of hsz, wrapInt_of hbp]
      rfl
  · simp only [if_neg hlen] at k3
    cases k3

/-! ### The input gets shorter -/

theorem readULong_len {e : Env} {id : ID} {a : String} {rs rs' : RS} {v : Option (BitVec 32)}
    (h : readULong e id a rs = .val (v, rs')) : rs'.inp.length ≤ rs.inp.length ∧
      (∀ x, v = some x → rs'.inp.length + 4 = rs.inp.length) := by
  obtain ⟨inp, log⟩ := rs
  simp only [readULong, M.bind_apply, fread] at h
  rcases inp with _ | ⟨b0, _ | ⟨b1, _ | ⟨b2, _ | ⟨b3, inp⟩⟩⟩⟩ <;> simp [M.bind_apply, RS.emit] at h <;>
    obtain ⟨rfl, rfl⟩ := h <;> simp <;> omega

theorem readLong_len {e : Env} {id : ID} {a : String} {rs rs' : RS} {v : Option (BitVec 32)}
    (h : readLong e id a rs = .val (v, rs')) : rs'.inp.length ≤ rs.inp.length ∧
      (∀ x, v = some x → rs'.inp.length + 4 = rs.inp.length) := readULong_len h

theorem readIdField_len {e : Env} {id : ID} {size : Int} {a : String} {cur v : Val} {bp bp' : Int}
    {rs rs' : RS} {fs : FieldStatus}
    (h : readField e .id id size a cur bp rs = .val ((fs, v, bp'), rs')) (hbp : inInt bp) :
    rs'.inp.length ≤ rs.inp.length ∧ inInt bp' := by
  unfold readField at h
  by_cases h1 : fieldDoesNotFitInChunk e (FieldKind.size .id) size bp = true
  · simp only [if_pos h1] at h
    obtain ⟨h2, rfl⟩ := pure_inv h
    cases h2
    exact ⟨Nat.le_refl _, hbp⟩
  · simp only [if_neg h1] at h
    obtain ⟨v, rs1, h2, h3⟩ := bind_inv h
    simp only [readVal] at h2
    obtain ⟨v2, rs2, h4, h5⟩ := bind_inv h2
    obtain ⟨rfl, rfl⟩ := pure_inv h5
    have := (readULong_len h4).1
    cases v2
    · obtain ⟨h6, rfl⟩ := pure_inv h3
      cases h6
      exact ⟨this, hbp⟩
    · obtain ⟨h6, rfl⟩ := pure_inv h3
      cases h6
      exact ⟨this, inInt_wrap⟩

theorem skip_len {e : Env} {id : ID} {size bp : Int} {rs rs' : RS} {r : Bool}
    (h : skipUnknownBytes e id size bp rs = .val (r, rs')) : rs'.inp.length ≤ rs.inp.length := by
  unfold skipUnknownBytes at h
  by_cases h1 : bp < size
  · simp only [if_pos h1] at h
    obtain ⟨k, rs1, h2, h3⟩ := bind_inv h
    obtain ⟨-, rfl⟩ := ofOut_inv h2
    obtain ⟨b, rs2, h4, h5⟩ := bind_inv h3
    unfold fseekCur at h4
    by_cases h6 : e.seekable = true
    · simp only [if_pos h6] at h4
      cases h4
      cases h5
      simp
    · simp only [if_neg h6] at h4
      cases h4
      cases h5
      exact Nat.le_refl _
  · simp only [if_neg h1] at h
    cases h
    exact Nat.le_refl _

theorem padding_len {id : ID} {size : Int} {rs rs' : RS} {r : Bool}
    (h : readPaddingByte size id rs = .val (r, rs')) : rs'.inp.length ≤ rs.inp.length := by
  unfold readPaddingByte at h
  by_cases h1 : isOdd size = true
  · simp only [if_pos h1] at h
    obtain ⟨inp, log⟩ := rs
    cases inp with
    | nil => simp [fgetc, M.bind_apply, RS.emit] at h; obtain ⟨-, rfl⟩ := h; simp
    | cons b inp =>
      simp only [fgetc, M.bind_apply] at h
      by_cases hb : b = 0
      · rw [if_neg (by simpa using hb)] at h; cases h; simp
      · rw [if_pos hb] at h; cases h; simp
  · simp only [if_neg h1] at h
    cases h
    exact Nat.le_refl _

/-- `IFF_readIdField(file, &group->groupType, chunk, name, bytesProcessed)` -/
theorem readTypeField_run {p : Addr} {bp bp' : Int} {name : String} {fs : FieldStatus} {K n : Nat}
    {s s' : HS} (hp : Pre K s) (hbp : inInt bp)
    (h : Heap.readTypeField X.e name p bp s = .val ((fs, bp'), s')) :
    Post K s s' bp' ∧
    callFn X (n + 10) .IFF_readIdField
      [.file .inp, .ptr (.int .uint) ⟨.heap p, 3⟩, .ptr (.struct .IFF_Chunk) ⟨.heap p, 0⟩,
        .str name, .ptr (.int .int) ⟨.stk stk.length, 0⟩]
      (st X (stk ++ [bpObj bp]) out room text s) =
      .val (statusVal fs, st X (stk ++ [bpObj bp']) out room text s') ∧
    ∃ sz rest, Struct.size X.e .IFF_Chunk ≤ sz ∧ Struct.size X.e .IFF_Group ≤ sz ∧
      heapOf X.e s.mem p = some ⟨sz, cells rest⟩ := by
  unfold Heap.readTypeField at h
  obtain ⟨hd, s1, h1, k1⟩ := bind_inv h
  clear h
  obtain ⟨⟨b, hm, hb⟩, rfl⟩ := getHdr_inv h1
  obtain ⟨g, s2, h2, k2⟩ := bind_inv k1
  obtain ⟨⟨b', hm', hg⟩, rfl⟩ := getGrp_inv h2
  rw [hm] at hm'; cases hm'
  obtain ⟨⟨fs3, v3, bp3⟩, s3, h3, k3⟩ := bind_inv k2
  obtain ⟨rs3, h3', rfl⟩ := io_inv h3
  obtain ⟨u4, s4, h4, k4⟩ := bind_inv k3
  cases k4
  obtain ⟨hl3, hbp3⟩ := readIdField_len h3' hbp
  have hp3 : Pre K ⟨s2.mem, s2.tick, rs3⟩ := hp.io hl3 rfl
  obtain ⟨hm4, hr4⟩ := updGrp_bd hp3.2 (by intro _ h; exact h) h4
  obtain ⟨b5, g5, hm5, hg5, rfl⟩ := updGrp_inv h4
  rw [hm] at hm5; cases hm5
  rw [hg] at hg5; cases hg5
  obtain ⟨hd', sz, rest, hh, hz, hz2, hl, hl'⟩ := grp_layout X hg
  rw [hb] at hh; cases hh
  have ha := heapOf_some (e := X.e) hm
  rw [hl] at ha
  have hr := @readIdField_run X n (heapOf X.e s2.mem) s2.tick room stk s2.rs.inp out text p sz _ _ _ _ _ _ _ name _ _ _ s2.rs.log
    ha hz (hp.2.hdr hm hb) hbp h3'
  refine ⟨⟨⟨hp3.1, hm4⟩, hl3, hbp3⟩, ?_, sz, _, hz, hz2, ha⟩
  rw [st, st, hr]
  simp only [heapOf_set, Option.map_some, hl']

/-! ### Allocators that are alike -/

theorem malloc_like {A : Heap.Alloc} (hA : Like X N A) {q : Heap.Req}
    (hq : ∀ n, q = .array n → n ≤ N) {b : Block}
    (hx : ∀ ks, q = .struct (.ext ks) → ks.length ≤ 3 := by intro ks h; cases h) :
    Heap.malloc A q b = Heap.malloc X.alloc q b := by
  funext s; simp only [Heap.malloc, hA.2.2 _ _ _ hq hx]

theorem create_like {A : Heap.Alloc} (hA : Like X N A) {hd : Handler} {fs : List Fn} (hf : FnsOf hd fs)
    {id : ID} {size : Int} :
    Heap.create A X.e hd id size = Heap.create X.alloc X.e hd id size := by
  have hs : ∀ b : Block, (∀ ks, b.skind = .ext ks → ks.length ≤ 3) →
      Heap.malloc A (.struct b.skind) b = Heap.malloc X.alloc (.struct b.skind) b :=
    fun b hb => malloc_like hA (by intro n h; cases h) (by intro ks h; exact hb ks (Heap.Req.struct.inj h))
  have ht : ∀ k b, Heap.malloc A (.data k) b = Heap.malloc X.alloc (.data k) b :=
    fun k b => malloc_like hA (by intro n h; cases h)
  cases hf
  · simp only [Heap.create, Heap.createRaw, Heap.newStruct, hs (.raw ⟨0, id, size⟩ 0) (by intro ks h; cases h), ht]
  all_goals
    simp only [Heap.create, Heap.newStruct, helloType, byeType]
    exact hs _ (by intro ks h; cases h <;> exact Nat.le_of_ble_eq_true rfl)

theorem realloc_like {A : Heap.Alloc} (hA : Like X N A) {a k : Nat} (hk : k ≤ N) :
    Heap.reallocPtrs A a k = Heap.reallocPtrs X.alloc a k := by
  funext s
  have hq : ∀ n, Heap.Req.array k = .array n → n ≤ N := by intro n h; cases h; exact hk
  simp only [Heap.reallocPtrs, malloc_like hA hq, hA.2.2 _ _ _ hq (by intro ks h; cases h), hA.2.1]
  rfl

theorem attachToGroup_like {A : Heap.Alloc} (hA : Like X N A) {p c : Addr} {s : HS} {L : Nat}
    (hm : MBd L s.mem) (hL : L + 8 ≤ 8 * N) {r : Unit × HS}
    (h : Heap.attachToGroup A p c s = .val r) : Heap.attachToGroup X.alloc p c s = .val r := by
  unfold Heap.attachToGroup at h ⊢
  obtain ⟨g, s1, h1, k1⟩ := bind_inv h
  obtain ⟨⟨b, hb, hg⟩, rfl⟩ := getGrp_inv h1
  have := hm.grp hb hg
  rw [realloc_like hA (show g.len + 1 ≤ N by omega)] at k1
  rw [M.bind_apply, h1]
  exact k1

theorem attachProp_like {A : Heap.Alloc} (hA : Like X N A) {p c : Addr} {s : HS} {L : Nat}
    (hm : MBd L s.mem) (hL : L + 8 ≤ 8 * N) {r : Unit × HS}
    (h : Heap.attachProp A p c s = .val r) : Heap.attachProp X.alloc p c s = .val r := by
  unfold Heap.attachProp at h ⊢
  obtain ⟨g, s1, h1, k1⟩ := bind_inv h
  obtain ⟨⟨b, hb, hg⟩, rfl⟩ := getLst_inv h1
  have := hm.lst hb hg
  rw [realloc_like hA (show g.plen + 1 ≤ N by omega)] at k1
  rw [M.bind_apply, h1]
  exact k1

/-! ### The loops -/

/-- What is known about reading a sub chunk. -/
def ReadIH (X : Cfg) (N : Nat) (T : List Byte) (q : Ptr) (out : List Byte) (room : Nat) (text : List Byte)
    (rc : ID → M HS Addr) : Prop :=
  ∀ {stk : List Blk} {ft : ID} {p : Addr} {s s' : HS} {K : Nat}, K ≤ 4294967296 ∧ K ≤ 8 * N → Pre K s →
    s.rs.inp <:+ T → rc ft s = .val (p, s') →
    Pre K s' ∧ s'.rs.inp.length ≤ s.rs.inp.length ∧
    (p ≠ 0 → s'.rs.inp.length + 8 ≤ s.rs.inp.length ∧ MBd (K - 8 - s'.rs.inp.length) s'.mem) ∧
    Runs X .IFF_readChunk [.file .inp, .int .uint ft.toNat, .ptr (.struct .IFF_ChunkRegistry) q]
      (st X stk out room text s) (.ptr (.struct .IFF_Chunk) (.ofAddr p)) (st X stk out room text s')

local notation "gCond" => (Expr.bin .lt (.deref (.var .bytesProcessed)) (.arrow (.var .group) .chunkSize))
local notation "gBody" => (Stmt.seq (.decl .chunk (.ptr (.struct .IFF_Chunk)) (some (.call (.fn .IFF_readChunk) (.cons (.var .file) (.cons (.arrow (.var .group) .groupType) (.cons (.var .chunkRegistry) .nil))))))
          (.seq (.ite (.bin .eq (.var .chunk) .null)
            (.ret (.num .int 0))
            .skip)
          (.seq (.expr (.call (.fn .IFF_attachToGroup) (.cons (.var .group) (.cons (.var .chunk) .nil))))
          (.expr (.assign (.deref (.var .bytesProcessed)) (.call (.fn .IFF_incrementChunkSize) (.cons (.deref (.var .bytesProcessed)) (.cons (.var .chunk) .nil))))))))
local notation "gRest" => (Stmt.seq (.ite (.bin .gt (.deref (.var .bytesProcessed)) (.arrow (.var .group) .chunkSize))
        (.expr (.call (.fn .IFF_error) (.cons (.str "WARNING: truncated group chunk! The size specifies: %d but the total amount of its sub chunks is: %d bytes. The parser may get confused!\n") (.cons (.arrow (.var .group) .chunkSize) (.cons (.var .bytesProcessed) .nil)))))
        .skip)
      (.ret (.num .int 1)))

/-- What is known about reading the sub chunks of a group. -/
def SubsIH (X : Cfg) (N : Nat) (T : List Byte) (q : Ptr) (out : List Byte) (room : Nat) (text : List Byte)
    (subs : Addr → Int → M HS (Bool × Int)) : Prop :=
  ∀ {stk : List Blk} {p : Addr} {bp bp' : Int} {ok : Bool} {s s' : HS} {K : Nat},
    K ≤ 4294967296 ∧ K ≤ 8 * N → Pre K s → s.rs.inp <:+ T → inInt bp → subs p bp s = .val ((ok, bp'), s') →
    Post K s s' bp' ∧ ∃ N, ∀ n, N ≤ n → ∀ j, N ≤ j → ∀ loc : Var → Slot,
      loc .group = .reg (.ptr (.struct .IFF_Group)) (.ptr (.struct .IFF_Group) ⟨.heap p, 0⟩) →
      loc .file = .reg (.ptr .file) (.file .inp) →
      loc .chunkRegistry = .reg (.ptr (.struct .IFF_ChunkRegistry)) (.ptr (.struct .IFF_ChunkRegistry) q) →
      loc .bytesProcessed = .reg (.ptr (.int .int)) (.ptr (.int .int) ⟨.stk stk.length, 0⟩) →
      ∃ loc', obind (whileN (evalC X (callFn X n) gCond) (exec X (callFn X n) n gBody) j
          ⟨loc, st X (stk ++ [bpObj bp]) out room text s⟩)
          (fun r => r.1.andThen (exec X (callFn X n) n gRest) r.2) =
        .val (.ret (truth ok), ⟨loc', st X (stk ++ [bpObj bp']) out room text s'⟩)

/-- group.c:78-94 -/
theorem readGroupSubs_run {q : Ptr} {A : Heap.Alloc} {r : Registry} {k : Nat} (hA : Like X N A)
    (IHc : ReadIH X N T q out room text (Heap.readChunk A X.e r k))
    (IHs : SubsIH X N T q out room text (Heap.readGroupSubs A X.e r k)) :
    SubsIH X N T q out room text (Heap.readGroupSubs A X.e r (k + 1)) := by
  intro stk p bp bp' ok s s' K hK hp hT hbp h
  unfold Heap.readGroupSubs at h
  obtain ⟨hd, s1, h1, k1⟩ := bind_inv h
  clear h
  obtain ⟨⟨b, hm, hb⟩, rfl⟩ := getHdr_inv h1
  have hs := hp.2.hdr hm hb
  obtain ⟨g, s2, h2, k2⟩ := bind_inv k1
  obtain ⟨rfl, hd', sz, rest, hz, hz2, ⟨b', hm', hb', hg⟩, hh⟩ := getGrp_step (X := X) h2
  rw [hm] at hm'; cases hm'
  rw [hb] at hb'; cases hb'
  by_cases hlt : bp < hd.size
  · simp only [if_pos hlt] at k2
    obtain ⟨c, s3, h3, k3⟩ := bind_inv k2
    obtain ⟨hp3, hi3, hc3, N3, hN3⟩ := IHc (stk := stk ++ [bpObj bp]) hK hp hT h3
    have hT3 := (((Heap.suf_read A X.e r k).1 _).le _ _ _ h3).trans hT
    by_cases hc : c = 0
    · simp only [if_pos hc] at k3
      obtain ⟨h4, rfl⟩ := pure_inv k3
      cases h4
      subst hc
      refine ⟨⟨hp3, hi3, hbp⟩, N3 + 1, fun n hn j hj loc lg lf lr lb => ?_⟩
      obtain ⟨j, rfl⟩ : ∃ j', j = j' + 1 := ⟨j - 1, by omega⟩
      have hr := hN3 n (by omega)
      rw [whileN_succ]
      crun [lg, lf, lr, lb, blkOf_heap hh, hz, hz2, blkOf_stk stk_get0, wrapInt_of hs, wrapInt_of hbp, decide_eq_true hlt, hr, addr_beq_null, beq_self_eq_true]
      exact ⟨_, rfl⟩
    · simp only [if_neg hc] at k3
      obtain ⟨u4, s4, h4, k4⟩ := bind_inv k3
      obtain ⟨hi8, hm8⟩ := hc3 hc
      have hatt := fun n => @attachToGroup_run X n room (stk ++ [bpObj bp]) out text _ _ _ _ _ _
        (by have := hp.1; omega) hm8 (attachToGroup_like hA hm8 (by have := hp.1; omega) h4)
      obtain ⟨-, hm4, hrs4⟩ := hatt 0
      obtain ⟨hd5, s5, h5, k5⟩ := bind_inv k4
      obtain ⟨⟨b5, hm5, hb5⟩, -⟩ := getHdr_inv h5
      obtain ⟨rfl, sz5, rest5, hz5, hh5⟩ := getHdr_step (X := X) h5
      obtain ⟨bp6, s6, h6, k6⟩ := bind_inv k5
      obtain ⟨h6', hs6⟩ := ofOut_inv h6
      subst hs6
      have hs5 := hm4.hdr hm5 hb5
      have hbp6 := (incrementChunkSize_inv h6').2.1
      have hp5 : Pre K s6 := by
        have := hp.1
        refine ⟨by rw [hrs4]; omega, hm4.mono ?_⟩
        rw [hrs4]; omega
      obtain ⟨⟨hpe, hle, hbe⟩, N, hN⟩ := IHs (stk := stk) hK hp5 (by rw [hrs4]; exact hT3) hbp6 k6
      refine ⟨⟨hpe, by rw [hrs4] at hle; omega, hbe⟩, max N N3 + 3, fun n hn j hj loc lg lf lr lb => ?_⟩
      obtain ⟨j, rfl⟩ : ∃ j', j = j' + 1 := ⟨j - 1, by omega⟩
      obtain ⟨n, rfl⟩ : ∃ n', n = n' + 2 := ⟨n - 2, by omega⟩
      have hr := hN3 (n + 2) (by omega)
      have hra := (hatt n).1
      have hinc := @incrementChunkSize_run X (n + 1) s6.tick room (stk ++ [bpObj bp]) out text bp hd5.size bp6 c sz5 _ _ rest5
        (heapOf X.e s6.mem) s6.rs.inp (errCalls X.e s6.rs.log) hz5 hh5 hbp hs5 h6'
      have hco : (c == 0) = false := by simpa using hc
      obtain ⟨loc', hw⟩ := hN (n + 2) (by omega) j (by omega) (setLoc loc .chunk (.reg (.ptr (.struct .IFF_Chunk)) (.ptr (.struct .IFF_Chunk) (.ofAddr c))))
        (by simp [setLoc, lg]) (by simp [setLoc, lf]) (by simp [setLoc, lr]) (by simp [setLoc, lb])
      refine ⟨loc', ?_⟩
      rw [whileN_succ]
      crun [lg, lf, lr, lb, blkOf_heap hh, hz, hz2, blkOf_stk stk_get0, wrapInt_of hs, wrapInt_of hbp, decide_eq_true hlt, hr, addr_beq_null, hco,
        hra, hinc, wrapInt_of hbp6]
      exact hw
  · simp only [if_neg hlt] at k2
    by_cases hgt : bp > hd.size
    · simp only [if_pos hgt] at k2
      obtain ⟨u4, s4, h4, k4⟩ := bind_inv k2
      obtain ⟨rs4, h4', rfl⟩ := io_inv h4
      cases h4'
      cases k4
      refine ⟨⟨hp.io (Nat.le_refl _) rfl, Nat.le_refl _, hbp⟩, 2, fun n hn j hj loc lg lf lr lb => ⟨loc, ?_⟩⟩
      obtain ⟨j, rfl⟩ : ∃ j', j = j' + 1 := ⟨j - 1, by omega⟩
      obtain ⟨n, rfl⟩ : ∃ n', n = n' + 1 := ⟨n - 1, by omega⟩
      rw [whileN_succ]
      crun [lg, lf, lr, lb, blkOf_heap hh, hz, hz2, blkOf_stk stk_get0, wrapInt_of hs, wrapInt_of hbp, decide_eq_false hlt, decide_eq_true hgt, error_int_ptr]
      simp only [st, errCalls_snoc, Msg.prints]
      rfl
    · simp only [if_neg hgt] at k2
      cases k2
      refine ⟨⟨hp, Nat.le_refl _, hbp⟩, 2, fun n hn j hj loc lg lf lr lb => ⟨loc, ?_⟩⟩
      obtain ⟨j, rfl⟩ : ∃ j', j = j' + 1 := ⟨j - 1, by omega⟩
      obtain ⟨n, rfl⟩ : ∃ n', n = n' + 1 := ⟨n - 1, by omega⟩
      rw [whileN_succ]
      crun [lg, lf, lr, lb, blkOf_heap hh, hz, hz2, blkOf_stk stk_get0, wrapInt_of hs, wrapInt_of hbp, decide_eq_false hlt, decide_eq_false hgt]
      rfl

local notation "lCond" => (Expr.bin .lt (.deref (.var .bytesProcessed)) (.arrow (.var .«list») .chunkSize))
local notation "lBody" => (Stmt.seq (.decl .chunk (.ptr (.struct .IFF_Chunk)) (some (.call (.fn .IFF_readChunk) (.cons (.var .file) (.cons (.arrow (.var .«list») .contentsType) (.cons (.var .chunkRegistry) .nil))))))
          (.seq (.ite (.bin .eq (.var .chunk) .null)
            (.ret (.num .int 0))
            .skip)
          (.seq (.ite (.bin .eq (.arrow (.var .chunk) .chunkId) IFF_ID_PROP)
            (.expr (.call (.fn .addPropToList) (.cons (.var .«list») (.cons (.cast (.ptr (.struct .IFF_Form)) (.var .chunk)) .nil))))
            (.expr (.call (.fn .IFF_attachToGroup) (.cons (.cast (.ptr (.struct .IFF_Group)) (.var .«list»)) (.cons (.var .chunk) .nil)))))
          (.expr (.assign (.deref (.var .bytesProcessed)) (.call (.fn .IFF_incrementChunkSize) (.cons (.deref (.var .bytesProcessed)) (.cons (.var .chunk) .nil))))))))
local notation "lRest" => (Stmt.seq (.ite (.bin .gt (.deref (.var .bytesProcessed)) (.arrow (.var .«list») .chunkSize))
        (.expr (.call (.fn .IFF_error) (.cons (.str "WARNING: truncated LIST chunk! The size specifies: %d but the total amount of its sub chunks is: %d bytes. The parser may get confused!\n") (.cons (.arrow (.var .«list») .chunkSize) (.cons (.var .bytesProcessed) .nil)))))
        .skip)
      (.ret (.num .int 1)))

/-- What is known about reading the sub chunks of a list. -/
def ListIH (X : Cfg) (N : Nat) (T : List Byte) (q : Ptr) (out : List Byte) (room : Nat) (text : List Byte)
    (subs : Addr → Int → M HS (Bool × Int)) : Prop :=
  ∀ {stk : List Blk} {p : Addr} {bp bp' : Int} {ok : Bool} {s s' : HS} {K : Nat},
    K ≤ 4294967296 ∧ K ≤ 8 * N → Pre K s → s.rs.inp <:+ T → inInt bp → subs p bp s = .val ((ok, bp'), s') →
    Post K s s' bp' ∧ ∃ N, ∀ n, N ≤ n → ∀ j, N ≤ j → ∀ loc : Var → Slot,
      loc .«list» = .reg (.ptr (.struct .IFF_List)) (.ptr (.struct .IFF_List) ⟨.heap p, 0⟩) →
      loc .file = .reg (.ptr .file) (.file .inp) →
      loc .chunkRegistry = .reg (.ptr (.struct .IFF_ChunkRegistry)) (.ptr (.struct .IFF_ChunkRegistry) q) →
      loc .bytesProcessed = .reg (.ptr (.int .int)) (.ptr (.int .int) ⟨.stk stk.length, 0⟩) →
      ∃ loc', obind (whileN (evalC X (callFn X n) lCond) (exec X (callFn X n) n lBody) j
          ⟨loc, st X (stk ++ [bpObj bp]) out room text s⟩)
          (fun r => r.1.andThen (exec X (callFn X n) n lRest) r.2) =
        .val (.ret (truth ok), ⟨loc', st X (stk ++ [bpObj bp']) out room text s'⟩)

theorem _root_.Iff.Src.MBd.grpAt {L : Nat} {m : Mem} {a : Addr} {b : Block} {hd : Hdr} (hm : MBd L m)
    (h : m a = some b) (hb : b.hdr? = some hd) (hi : hd.id = idPROP) : GrpAt m a := by
  obtain ⟨g, hg⟩ := hm.prop h hb hi
  exact ⟨b, g, h, hg⟩

/-- list.c:88-107 -/
theorem readListSubs_run {q : Ptr} {A : Heap.Alloc} {r : Registry} {k : Nat} (hA : Like X N A)
    (IHc : ReadIH X N T q out room text (Heap.readChunk A X.e r k))
    (IHs : ListIH X N T q out room text (Heap.readListSubs A X.e r k)) :
    ListIH X N T q out room text (Heap.readListSubs A X.e r (k + 1)) := by
  intro stk p bp bp' ok s s' K hK hp hT hbp h
  unfold Heap.readListSubs at h
  obtain ⟨hd, s1, h1, k1⟩ := bind_inv h
  clear h
  obtain ⟨⟨b, hm, hb⟩, rfl⟩ := getHdr_inv h1
  have hs := hp.2.hdr hm hb
  obtain ⟨l, s2, h2, k2⟩ := bind_inv k1
  obtain ⟨rfl, hd', g, ⟨b', hm', hb', hg, hl⟩, hh⟩ := getLst_step (X := X) h2
  rw [hm] at hm'; cases hm'
  rw [hb] at hb'; cases hb'
  by_cases hlt : bp < hd.size
  · simp only [if_pos hlt] at k2
    obtain ⟨g', s2', h2', k2'⟩ := bind_inv k2
    obtain ⟨⟨b', hm', hg'⟩, rfl⟩ := getGrp_inv h2'
    rw [hm] at hm'; cases hm'
    rw [hg] at hg'; cases hg'
    obtain ⟨c, s3, h3, k3⟩ := bind_inv k2'
    obtain ⟨hp3, hi3, hc3, N3, hN3⟩ := IHc (stk := stk ++ [bpObj bp]) hK hp hT h3
    have hT3 := (((Heap.suf_read A X.e r k).1 _).le _ _ _ h3).trans hT
    by_cases hc : c = 0
    · simp only [if_pos hc] at k3
      obtain ⟨h4, rfl⟩ := pure_inv k3
      cases h4
      subst hc
      refine ⟨⟨hp3, hi3, hbp⟩, N3 + 1, fun n hn j hj loc lg lf lr lb => ?_⟩
      obtain ⟨j, rfl⟩ : ∃ j', j = j' + 1 := ⟨j - 1, by omega⟩
      have hr := hN3 n (by omega)
      rw [whileN_succ]
      crun [lg, lf, lr, lb, blkOf_heap hh, blkOf_stk stk_get0, wrapInt_of hs, wrapInt_of hbp, decide_eq_true hlt, hr, addr_beq_null, beq_self_eq_true]
      exact ⟨_, rfl⟩
    · simp only [if_neg hc] at k3
      obtain ⟨hd0, s0, h0, k0⟩ := bind_inv k3
      obtain ⟨⟨b0, hm0, hb0⟩, -⟩ := getHdr_inv h0
      obtain ⟨rfl, sz0, rest0, hz0, hh0⟩ := getHdr_step (X := X) h0
      obtain ⟨hi8, hm8⟩ := hc3 hc
      have hco : (c == 0) = false := by simpa using hc
      by_cases hpr : hd0.id = idPROP
      · simp only [if_pos hpr] at k0
        obtain ⟨u4, s4, h4, k4⟩ := bind_inv k0
        have hatt := fun n => @addPropToList_run X n room (stk ++ [bpObj bp]) out text _ _ _ _ _ _
          (by have := hp.1; omega) hm8 (attachProp_like hA hm8 (by have := hp.1; omega) h4) (hm8.grpAt hm0 hb0 hpr)
        obtain ⟨-, hm4, hrs4⟩ := hatt 0
        obtain ⟨hd5, s5, h5, k5⟩ := bind_inv k4
        obtain ⟨⟨b5, hm5, hb5⟩, -⟩ := getHdr_inv h5
        obtain ⟨rfl, sz5, rest5, hz5, hh5⟩ := getHdr_step (X := X) h5
        obtain ⟨bp6, s6, h6, k6⟩ := bind_inv k5
        obtain ⟨h6', hs6⟩ := ofOut_inv h6
        subst hs6
        have hs5 := hm4.hdr hm5 hb5
        have hbp6 := (incrementChunkSize_inv h6').2.1
        have hp5 : Pre K s6 := by
          have := hp.1
          refine ⟨by rw [hrs4]; omega, hm4.mono ?_⟩
          rw [hrs4]; omega
        obtain ⟨⟨hpe, hle, hbe⟩, N, hN⟩ := IHs (stk := stk) hK hp5 (by rw [hrs4]; exact hT3) hbp6 k6
        refine ⟨⟨hpe, by rw [hrs4] at hle; omega, hbe⟩, max N N3 + 3, fun n hn j hj loc lg lf lr lb => ?_⟩
        obtain ⟨j, rfl⟩ : ∃ j', j = j' + 1 := ⟨j - 1, by omega⟩
        obtain ⟨n, rfl⟩ : ∃ n', n = n' + 2 := ⟨n - 2, by omega⟩
        have hr := hN3 (n + 2) (by omega)
        have hra := (hatt n).1
        have hinc := @incrementChunkSize_run X (n + 1) s6.tick room (stk ++ [bpObj bp]) out text bp hd5.size bp6 c sz5 _ _ rest5
          (heapOf X.e s6.mem) s6.rs.inp (errCalls X.e s6.rs.log) hz5 hh5 hbp hs5 h6'
        obtain ⟨loc', hw⟩ := hN (n + 2) (by omega) j (by omega) (setLoc loc .chunk (.reg (.ptr (.struct .IFF_Chunk)) (.ptr (.struct .IFF_Chunk) (.ofAddr c))))
          (by simp [setLoc, lg]) (by simp [setLoc, lf]) (by simp [setLoc, lr]) (by simp [setLoc, lb])
        refine ⟨loc', ?_⟩
        have hid : ((hd0.id.toNat : Int) == (idPROP.toNat : Int)) = true := by rw [hpr]; exact beq_self_eq_true _
        rw [whileN_succ]
        crun [lg, lf, lr, lb, blkOf_heap hh, blkOf_stk stk_get0, wrapInt_of hs, wrapInt_of hbp, decide_eq_true hlt, hr, addr_beq_null, hco,
          blkOf_heap hh0, hz0, ↓evalE_PROP, hid, hra, hinc, wrapInt_of hbp6]
        exact hw
      · simp only [if_neg hpr] at k0
        obtain ⟨u4, s4, h4, k4⟩ := bind_inv k0
        have hatt := fun n => @attachToGroup_run X n room (stk ++ [bpObj bp]) out text _ _ _ _ _ _
          (by have := hp.1; omega) hm8 (attachToGroup_like hA hm8 (by have := hp.1; omega) h4)
        obtain ⟨-, hm4, hrs4⟩ := hatt 0
        obtain ⟨hd5, s5, h5, k5⟩ := bind_inv k4
        obtain ⟨⟨b5, hm5, hb5⟩, -⟩ := getHdr_inv h5
        obtain ⟨rfl, sz5, rest5, hz5, hh5⟩ := getHdr_step (X := X) h5
        obtain ⟨bp6, s6, h6, k6⟩ := bind_inv k5
        obtain ⟨h6', hs6⟩ := ofOut_inv h6
        subst hs6
        have hs5 := hm4.hdr hm5 hb5
        have hbp6 := (incrementChunkSize_inv h6').2.1
        have hp5 : Pre K s6 := by
          have := hp.1
          refine ⟨by rw [hrs4]; omega, hm4.mono ?_⟩
          rw [hrs4]; omega
        obtain ⟨⟨hpe, hle, hbe⟩, N, hN⟩ := IHs (stk := stk) hK hp5 (by rw [hrs4]; exact hT3) hbp6 k6
        refine ⟨⟨hpe, by rw [hrs4] at hle; omega, hbe⟩, max N N3 + 3, fun n hn j hj loc lg lf lr lb => ?_⟩
        obtain ⟨j, rfl⟩ : ∃ j', j = j' + 1 := ⟨j - 1, by omega⟩
        obtain ⟨n, rfl⟩ : ∃ n', n = n' + 2 := ⟨n - 2, by omega⟩
        have hr := hN3 (n + 2) (by omega)
        have hra := (hatt n).1
        have hinc := @incrementChunkSize_run X (n + 1) s6.tick room (stk ++ [bpObj bp]) out text bp hd5.size bp6 c sz5 _ _ rest5
          (heapOf X.e s6.mem) s6.rs.inp (errCalls X.e s6.rs.log) hz5 hh5 hbp hs5 h6'
        obtain ⟨loc', hw⟩ := hN (n + 2) (by omega) j (by omega) (setLoc loc .chunk (.reg (.ptr (.struct .IFF_Chunk)) (.ptr (.struct .IFF_Chunk) (.ofAddr c))))
          (by simp [setLoc, lg]) (by simp [setLoc, lf]) (by simp [setLoc, lr]) (by simp [setLoc, lb])
        refine ⟨loc', ?_⟩
        have hid : ((hd0.id.toNat : Int) == (idPROP.toNat : Int)) = false := by
          rw [beq_eq_false_iff_ne]; intro hx; exact hpr (BitVec.eq_of_toNat_eq (by omega))
        rw [whileN_succ]
        crun [lg, lf, lr, lb, blkOf_heap hh, blkOf_stk stk_get0, wrapInt_of hs, wrapInt_of hbp, decide_eq_true hlt, hr, addr_beq_null, hco,
          blkOf_heap hh0, hz0, ↓evalE_PROP, hid, hra, hinc, wrapInt_of hbp6]
        exact hw
  · simp only [if_neg hlt] at k2
    by_cases hgt : bp > hd.size
    · simp only [if_pos hgt] at k2
      obtain ⟨u4, s4, h4, k4⟩ := bind_inv k2
      obtain ⟨rs4, h4', rfl⟩ := io_inv h4
      cases h4'
      cases k4
      refine ⟨⟨hp.io (Nat.le_refl _) rfl, Nat.le_refl _, hbp⟩, 2, fun n hn j hj loc lg lf lr lb => ⟨loc, ?_⟩⟩
      obtain ⟨j, rfl⟩ : ∃ j', j = j' + 1 := ⟨j - 1, by omega⟩
      obtain ⟨n, rfl⟩ : ∃ n', n = n' + 1 := ⟨n - 1, by omega⟩
      rw [whileN_succ]
      crun [lg, lf, lr, lb, blkOf_heap hh, blkOf_stk stk_get0, wrapInt_of hs, wrapInt_of hbp, decide_eq_false hlt, decide_eq_true hgt, error_int_ptr]
      simp only [st, errCalls_snoc, Msg.prints]
      rfl
    · simp only [if_neg hgt] at k2
      cases k2
      refine ⟨⟨hp, Nat.le_refl _, hbp⟩, 2, fun n hn j hj loc lg lf lr lb => ⟨loc, ?_⟩⟩
      obtain ⟨j, rfl⟩ : ∃ j', j = j' + 1 := ⟨j - 1, by omega⟩
      obtain ⟨n, rfl⟩ : ∃ n', n = n' + 1 := ⟨n - 1, by omega⟩
      rw [whileN_succ]
      crun [lg, lf, lr, lb, blkOf_heap hh, blkOf_stk stk_get0, wrapInt_of hs, wrapInt_of hbp, decide_eq_false hlt, decide_eq_false hgt]
      rfl

/-- group.c:74-95 -/
theorem readGroupSubChunks_run {q : Ptr} {subs : Addr → Int → M HS (Bool × Int)}
    (IH : SubsIH X N T q out room text subs) {p : Addr} {bp bp' : Int} {ok : Bool} {s s' : HS} {K : Nat}
    (hK : K ≤ 4294967296 ∧ K ≤ 8 * N) (hp : Pre K s) (hT : s.rs.inp <:+ T) (hbp : inInt bp) (h : subs p bp s = .val ((ok, bp'), s')) :
    Runs X .readGroupSubChunks [.file .inp, .ptr (.struct .IFF_Group) ⟨.heap p, 0⟩,
      .ptr (.struct .IFF_ChunkRegistry) q, .ptr (.int .int) ⟨.stk stk.length, 0⟩]
      (st X (stk ++ [bpObj bp]) out room text s) (truth ok)
      (st X (stk ++ [bpObj bp']) out room text s') := by
  obtain ⟨-, N, hN⟩ := IH (stk := stk) hK hp hT hbp h
  refine ⟨N + 1, fun n hn => ?_⟩
  obtain ⟨n, rfl⟩ : ∃ n', n = n' + 1 := ⟨n - 1, by omega⟩
  obtain ⟨loc', hw⟩ := hN n (by omega) n (by omega)
    (setLoc (setLoc (setLoc (setLoc (fun _ => .none) .bytesProcessed (.reg (.ptr (.int .int)) (.ptr (.int .int) ⟨.stk stk.length, 0⟩)))
      .chunkRegistry (.reg (.ptr (.struct .IFF_ChunkRegistry)) (.ptr (.struct .IFF_ChunkRegistry) q)))
      .group (.reg (.ptr (.struct .IFF_Group)) (.ptr (.struct .IFF_Group) ⟨.heap p, 0⟩)))
      .file (.reg (.ptr .file) (.file .inp)))
    (by simp [setLoc]) (by simp [setLoc]) (by simp [setLoc]) (by simp [setLoc])
  rw [callFn_code rfl]
  crun [readGroupSubChunks.code, ↓exec_while, hw]

/-- list.c:84-108 -/
theorem readListSubChunks_run {q : Ptr} {subs : Addr → Int → M HS (Bool × Int)}
    (IH : ListIH X N T q out room text subs) {p : Addr} {bp bp' : Int} {ok : Bool} {s s' : HS} {K : Nat}
    (hK : K ≤ 4294967296 ∧ K ≤ 8 * N) (hp : Pre K s) (hT : s.rs.inp <:+ T) (hbp : inInt bp) (h : subs p bp s = .val ((ok, bp'), s')) :
    Runs X .readListSubChunks [.file .inp, .ptr (.struct .IFF_List) ⟨.heap p, 0⟩,
      .ptr (.struct .IFF_ChunkRegistry) q, .ptr (.int .int) ⟨.stk stk.length, 0⟩]
      (st X (stk ++ [bpObj bp]) out room text s) (truth ok)
      (st X (stk ++ [bpObj bp']) out room text s') := by
  obtain ⟨-, N, hN⟩ := IH (stk := stk) hK hp hT hbp h
  refine ⟨N + 1, fun n hn => ?_⟩
  obtain ⟨n, rfl⟩ : ∃ n', n = n' + 1 := ⟨n - 1, by omega⟩
  obtain ⟨loc', hw⟩ := hN n (by omega) n (by omega)
    (setLoc (setLoc (setLoc (setLoc (fun _ => .none) .bytesProcessed (.reg (.ptr (.int .int)) (.ptr (.int .int) ⟨.stk stk.length, 0⟩)))
      .chunkRegistry (.reg (.ptr (.struct .IFF_ChunkRegistry)) (.ptr (.struct .IFF_ChunkRegistry) q)))
      .«list» (.reg (.ptr (.struct .IFF_List)) (.ptr (.struct .IFF_List) ⟨.heap p, 0⟩)))
      .file (.reg (.ptr .file) (.file .inp)))
    (by simp [setLoc]) (by simp [setLoc]) (by simp [setLoc]) (by simp [setLoc])
  rw [callFn_code rfl]
  crun [readListSubChunks.code, ↓exec_while, hw]

/-- group.c:97-111 -/
theorem readGroup_run {q : Ptr} {subs : Addr → Int → M HS (Bool × Int)}
    (IH : SubsIH X N T q out room text subs) {name : String} {p : Addr} {bp' : Int} {ok : Bool}
    {s s' : HS} {K : Nat} (hK : K ≤ 4294967296 ∧ K ≤ 8 * N) (hp : Pre K s) (hT : s.rs.inp <:+ T)
    (h : (do
      let (st, bp) ← Heap.readTypeField X.e name p 0
      match st with
      | .more => subs p bp
      | st => pure (deriveSuccess st, bp) : M HS (Bool × Int)) s = .val ((ok, bp'), s')) :
    Post K s s' bp' ∧
    Runs X .IFF_readGroup [.file .inp, .ptr (.struct .IFF_Chunk) ⟨.heap p, 0⟩, .str name,
      .ptr (.struct .IFF_ChunkRegistry) q, .ptr (.int .int) ⟨.stk stk.length, 0⟩]
      (st X (stk ++ [bpObj 0]) out room text s) (truth ok)
      (st X (stk ++ [bpObj bp']) out room text s') := by
  obtain ⟨⟨fs, bp1⟩, s1, h1, k1⟩ := bind_inv h
  clear h
  have hT1 := ((Heap.suf_readTypeField ..).le _ _ _ h1).trans hT
  have hf := fun n => @readTypeField_run X room stk out text p 0 bp1 name fs K n s s1 hp (by decide) h1
  obtain ⟨⟨hp1, hl1, hbp1⟩, -, sz, rest, hz, hz2, hh⟩ := hf 0
  cases fs with
  | more =>
    obtain ⟨⟨hp2, hl2, hbp2⟩, -⟩ := IH (stk := stk) hK hp1 hT1 hbp1 k1
    obtain ⟨N, hN⟩ := readGroupSubChunks_run (stk := stk) IH hK hp1 hT1 hbp1 k1
    refine ⟨⟨hp2, by omega, hbp2⟩, N + 11, fun n hn => ?_⟩
    obtain ⟨n, rfl⟩ : ∃ n', n = n' + 11 := ⟨n - 11, by omega⟩
    have h1 := (hf n).2.1
    have h2 := hN (n + 10) (by omega)
    rw [callFn_code rfl]
    cases ok <;>
    crun [IFF_readGroup.code, blkOf_heap hh, hz, hz2, h1, statusVal, IFF_FIELD_MORE, h2] <;> rfl
  | failure =>
    obtain ⟨h2, rfl⟩ := pure_inv k1
    cases h2
    refine ⟨⟨hp1, by omega, hbp1⟩, 11, fun n hn => ?_⟩
    obtain ⟨n, rfl⟩ : ∃ n', n = n' + 11 := ⟨n - 11, by omega⟩
    have h1 := (hf n).2.1
    have hd := fun g => @deriveSuccess_run X (n + 9) .failure g
    simp only [statusVal] at hd
    rw [callFn_code rfl]
    crun [IFF_readGroup.code, blkOf_heap hh, hz, hz2, h1, statusVal, IFF_FIELD_MORE, hd]
  | last =>
    obtain ⟨h2, rfl⟩ := pure_inv k1
    cases h2
    refine ⟨⟨hp1, by omega, hbp1⟩, 11, fun n hn => ?_⟩
    obtain ⟨n, rfl⟩ : ∃ n', n = n' + 11 := ⟨n - 11, by omega⟩
    have h1 := (hf n).2.1
    have hd := fun g => @deriveSuccess_run X (n + 9) .last g
    simp only [statusVal] at hd
    rw [callFn_code rfl]
    crun [IFF_readGroup.code, blkOf_heap hh, hz, hz2, h1, statusVal, IFF_FIELD_MORE, hd]

/-- A list. -/
def LstAt (m : Mem) (c : Addr) : Prop := ∃ b l, m c = some b ∧ b.lst? = some l

/-- list.c:110-128 -/
theorem readList_run {q : Ptr} {subs : Addr → Int → M HS (Bool × Int)}
    (IH : ListIH X N T q out room text subs) {p : Addr} {bp' : Int} {ok : Bool}
    {s s' : HS} {K : Nat} (hK : K ≤ 4294967296 ∧ K ≤ 8 * N) (hp : Pre K s) (hT : s.rs.inp <:+ T) (hlst : LstAt s.mem p)
    (h : (do
      let (st, bp) ← Heap.readTypeField X.e "contentsType" p 0
      match st with
      | .more =>
        let (ok, bp) ← subs p bp
        if ok then pure (true, bp)
        else do
          Heap.io (RS.emit .listRead)
          pure (false, bp)
      | st => pure (deriveSuccess st, bp) : M HS (Bool × Int)) s = .val ((ok, bp'), s')) :
    Post K s s' bp' ∧
    Runs X .IFF_readList [.file .inp, .ptr (.struct .IFF_Chunk) ⟨.heap p, 0⟩,
      .ptr (.struct .IFF_ChunkRegistry) q, .ptr (.int .int) ⟨.stk stk.length, 0⟩]
      (st X (stk ++ [bpObj 0]) out room text s) (truth ok)
      (st X (stk ++ [bpObj bp']) out room text s') := by
  obtain ⟨⟨fs, bp1⟩, s1, h1, k1⟩ := bind_inv h
  clear h
  have hT1 := ((Heap.suf_readTypeField ..).le _ _ _ h1).trans hT
  have hf := fun n => @readTypeField_run X room stk out text p 0 bp1 "contentsType" fs K n s s1 hp (by decide) h1
  obtain ⟨⟨hp1, hl1, hbp1⟩, -, -, -, -, -, -⟩ := hf 0
  obtain ⟨b, l, hb, hl⟩ := hlst
  obtain ⟨hd, g, -, -, hly, -⟩ := lst_layout X hl
  have hh := heapOf_some (e := X.e) hb
  rw [hly] at hh
  cases fs with
  | more =>
    obtain ⟨⟨ok2, bp2⟩, s2, h2, k2⟩ := bind_inv k1
    obtain ⟨⟨hp2, hl2, hbp2⟩, -⟩ := IH (stk := stk) hK hp1 hT1 hbp1 h2
    obtain ⟨N, hN⟩ := readListSubChunks_run (stk := stk) IH hK hp1 hT1 hbp1 h2
    cases ok2 with
    | true =>
      cases k2
      refine ⟨⟨hp2, by omega, hbp2⟩, N + 11, fun n hn => ?_⟩
      obtain ⟨n, rfl⟩ : ∃ n', n = n' + 11 := ⟨n - 11, by omega⟩
      have h1 := (hf n).2.1
      have h2 := hN (n + 10) (by omega)
      rw [callFn_code rfl]
      crun [IFF_readList.code, blkOf_heap hh, h1, statusVal, IFF_FIELD_MORE, h2]
      rfl
    | false =>
      obtain ⟨u3, s3, h3, k3⟩ := bind_inv k2
      obtain ⟨rs3, h3', rfl⟩ := io_inv h3
      cases h3'
      cases k3
      refine ⟨⟨hp2.io (Nat.le_refl _) rfl, by show s2.rs.inp.length ≤ _; omega, hbp2⟩, N + 11, fun n hn => ?_⟩
      obtain ⟨n, rfl⟩ : ∃ n', n = n' + 11 := ⟨n - 11, by omega⟩
      have h1 := (hf n).2.1
      have h2 := hN (n + 10) (by omega)
      rw [callFn_code rfl]
      crun [IFF_readList.code, blkOf_heap hh, h1, statusVal, IFF_FIELD_MORE, h2, error0]
      simp only [st, errCalls_snoc, Msg.prints]
      rfl
  | failure =>
    obtain ⟨h2, rfl⟩ := pure_inv k1
    cases h2
    refine ⟨⟨hp1, by omega, hbp1⟩, 11, fun n hn => ?_⟩
    obtain ⟨n, rfl⟩ : ∃ n', n = n' + 11 := ⟨n - 11, by omega⟩
    have h1 := (hf n).2.1
    have hd := fun g => @deriveSuccess_run X (n + 9) .failure g
    simp only [statusVal] at hd
    rw [callFn_code rfl]
    crun [IFF_readList.code, blkOf_heap hh, h1, statusVal, IFF_FIELD_MORE, hd]
  | last =>
    obtain ⟨h2, rfl⟩ := pure_inv k1
    cases h2
    refine ⟨⟨hp1, by omega, hbp1⟩, 11, fun n hn => ?_⟩
    obtain ⟨n, rfl⟩ : ∃ n', n = n' + 11 := ⟨n - 11, by omega⟩
    have h1 := (hf n).2.1
    have hd := fun g => @deriveSuccess_run X (n + 9) .last g
    simp only [statusVal] at hd
    rw [callFn_code rfl]
    crun [IFF_readList.code, blkOf_heap hh, h1, statusVal, IFF_FIELD_MORE, hd]

/-- The block of an application's chunk. -/
def ExtAt (m : Mem) (c : Addr) (fields : List Field) : Prop :=
  ∃ hd vals, m c = some (.ext hd vals) ∧ vals.map Val.kind = fields.map (·.kind)

/-- The read function of a chunk type. -/
theorem readFields_run {q : Ptr} {subs listSubs : Addr → Int → M HS (Bool × Int)}
    (IHg : SubsIH X N T q out room text subs) (IHl : ListIH X N T q out room text listSubs)
    {hd : Handler} {fs : List Fn} (hf : FnsOf hd fs) {p : Addr} {bp' : Int} {ok : Bool}
    {s s' : HS} {K : Nat} (hK : K ≤ 4294967296 ∧ K ≤ 8 * N) (hp : Pre K s) (hT : s.rs.inp <:+ T) (hlst : hd = .list → LstAt s.mem p)
    (hext : ∀ fields chk, hd = .ext fields chk → ExtAt s.mem p fields)
    (h : Heap.readFields X.e subs listSubs hd p s = .val ((ok, bp'), s')) :
    Post K s s' bp' ∧ ∃ f, fs[1]? = some f ∧
    Runs X f [.file .inp, .ptr (.struct .IFF_Chunk) ⟨.heap p, 0⟩,
      .ptr (.struct .IFF_ChunkRegistry) q, .ptr (.int .int) ⟨.stk stk.length, 0⟩]
      (st X (stk ++ [bpObj 0]) out room text s) (truth ok)
      (st X (stk ++ [bpObj bp']) out room text s') := by
  cases hd with
  | raw =>
    cases hf
    refine ⟨(readRaw_run (stk := stk) (out := out) (text := text) (room := room) (q := q) (n := 0) hp (by decide) h).1, _, rfl, 8, fun n hn => ?_⟩
    obtain ⟨n, rfl⟩ : ∃ n', n = n' + 8 := ⟨n - 8, by omega⟩
    exact (readRaw_run hp (by decide) h).2
  | form =>
    cases hf
    obtain ⟨hpost, N, hN⟩ := readGroup_run (stk := stk) IHg hK hp hT h
    refine ⟨hpost, _, rfl, N + 1, fun n hn => ?_⟩
    obtain ⟨n, rfl⟩ : ∃ n', n = n' + 1 := ⟨n - 1, by omega⟩
    have h1 := hN n (by omega)
    rw [callFn_code rfl]
    crun [IFF_readForm.code, FORM_GROUPTYPENAME, h1]
  | cat =>
    cases hf
    obtain ⟨hpost, N, hN⟩ := readGroup_run (stk := stk) IHg hK hp hT h
    refine ⟨hpost, _, rfl, N + 1, fun n hn => ?_⟩
    obtain ⟨n, rfl⟩ : ∃ n', n = n' + 1 := ⟨n - 1, by omega⟩
    have h1 := hN n (by omega)
    rw [callFn_code rfl]
    crun [IFF_readCAT.code, CAT_GROUPTYPENAME, h1]
  | prop =>
    cases hf
    obtain ⟨hpost, N, hN⟩ := readGroup_run (stk := stk) IHg hK hp hT h
    refine ⟨hpost, _, rfl, N + 1, fun n hn => ?_⟩
    obtain ⟨n, rfl⟩ : ∃ n', n = n' + 1 := ⟨n - 1, by omega⟩
    have h1 := hN n (by omega)
    rw [callFn_code rfl]
    crun [IFF_readProp.code, PROP_GROUPTYPENAME, h1]
  | list =>
    cases hf
    obtain ⟨hpost, hr⟩ := readList_run (stk := stk) IHl hK hp hT (hlst rfl) h
    exact ⟨hpost, _, rfl, hr⟩
  | ext fields chk =>
    obtain ⟨hd, vals, hm, hv⟩ := hext fields chk rfl
    have hs := hp.2.hdr hm rfl
    have hpost : ExtPost s s' p hd bp' → Post K s s' bp' := by
      rintro ⟨⟨vals', hm'⟩, hl, hb⟩
      refine ⟨⟨Nat.le_trans hl hp.1, ?_⟩, hl, hb⟩
      rw [hm']
      have hb0 : Bd (K - s.rs.inp.length) (.ext hd vals) := hp.2 _ _ hm
      exact (hp.2.set (show Bd _ (.ext hd vals') from hb0)).mono (by omega)
    cases hf
    · rcases vals with _ | ⟨a, _ | ⟨b, _ | ⟨c, _ | ⟨d, vals⟩⟩⟩⟩ <;> simp at hv
      obtain ⟨ha, hb, hc⟩ := hv
      refine ⟨hpost (readHello_run (stk := stk) (out := out) (text := text) (room := room) (q := q) (n := 0) hm ha hb hc hs h).1, _, rfl, 13, fun n hn => ?_⟩
      obtain ⟨n, rfl⟩ : ∃ n', n = n' + 13 := ⟨n - 13, by omega⟩
      exact (readHello_run hm ha hb hc hs h).2
    · rcases vals with _ | ⟨a, _ | ⟨b, _ | ⟨c, vals⟩⟩⟩ <;> simp at hv
      obtain ⟨ha, hb⟩ := hv
      refine ⟨hpost (readBye_run (stk := stk) (out := out) (text := text) (room := room) (q := q) (n := 0) hm ha hb hs h).1, _, rfl, 13, fun n hn => ?_⟩
      obtain ⟨n, rfl⟩ : ∃ n', n = n' + 13 := ⟨n - 13, by omega⟩
      exact (readBye_run hm ha hb hs h).2

/-! ### A chunk -/

theorem create_bd {L : Nat} {hd : Handler} {id : ID} {size : Int} {p : Addr} {s s' : HS}
    (hm : MBd L s.mem) (hs : inInt size) (hid : id = idPROP → hd ≠ .raw)
    (hext : id = idPROP → ∀ a b, hd ≠ .ext a b)
    (h : Heap.create X.alloc X.e hd id size s = .val (p, s')) :
    MBd L s'.mem ∧ s'.rs = s.rs ∧ (p ≠ 0 → hd = .list → LstAt s'.mem p) ∧
      (p ≠ 0 → ∀ fields chk, hd = .ext fields chk → ExtAt s'.mem p fields) := by
  cases hd with
  | raw =>
    simp only [Heap.create] at h
    unfold Heap.createRaw at h
    have hne : id ≠ idPROP := fun hx => hid hx rfl
    obtain ⟨a, s1, h1, k1⟩ := bind_inv h
    clear h
    obtain ⟨hm1, hr1⟩ := malloc_bd hm (show Bd L (.raw ⟨0, id, size⟩ 0) from ⟨hs, hne⟩) h1
    by_cases ha : a = 0
    · simp only [if_pos ha] at k1
      obtain ⟨rfl, rfl⟩ := pure_inv k1
      exact ⟨hm1, hr1, (fun _ h => nomatch h), (fun _ _ _ h => nomatch h)⟩
    · simp only [if_neg ha] at k1
      obtain ⟨d, s2, h2, k2⟩ := bind_inv k1
      obtain ⟨hm2, hr2⟩ := malloc_bd hm1 (by exact trivial) h2
      by_cases hd0 : d = 0
      · simp only [if_pos hd0] at k2
        obtain ⟨u3, s3, h3, k3⟩ := bind_inv k2
        obtain ⟨hm3, hr3⟩ := free_bd hm2 h3
        obtain ⟨rfl, rfl⟩ := pure_inv k3
        exact ⟨hm3, hr3.trans (hr2.trans hr1), (fun _ h => nomatch h), (fun _ _ _ h => nomatch h)⟩
      · simp only [if_neg hd0] at k2
        obtain ⟨u3, s3, h3, k3⟩ := bind_inv k2
        obtain ⟨-, rfl⟩ := store_inv h3
        obtain ⟨rfl, rfl⟩ := pure_inv k3
        exact ⟨hm2.set ⟨hs, hne⟩, hr2.trans hr1, (fun _ h => nomatch h), (fun _ _ _ h => nomatch h)⟩
  | form =>
    obtain ⟨h1, h2⟩ := malloc_bd hm (show Bd L (.grp ⟨0, id, size⟩ 0 0 0) from ⟨hs, Nat.zero_le _⟩) h
    exact ⟨h1, h2, (fun _ h => nomatch h), (fun _ _ _ h => nomatch h)⟩
  | cat =>
    obtain ⟨h1, h2⟩ := malloc_bd hm (show Bd L (.grp ⟨0, id, size⟩ 0 0 0) from ⟨hs, Nat.zero_le _⟩) h
    exact ⟨h1, h2, (fun _ h => nomatch h), (fun _ _ _ h => nomatch h)⟩
  | prop =>
    obtain ⟨h1, h2⟩ := malloc_bd hm (show Bd L (.grp ⟨0, id, size⟩ 0 0 0) from ⟨hs, Nat.zero_le _⟩) h
    exact ⟨h1, h2, (fun _ h => nomatch h), (fun _ _ _ h => nomatch h)⟩
  | list =>
    obtain ⟨h1, h2⟩ := malloc_bd hm (show Bd L (.lst ⟨0, idLIST, size⟩ 0 0 0 0 0) from
      ⟨hs, Nat.zero_le _, Nat.zero_le _⟩) h
    refine ⟨h1, h2, fun hp _ => ?_, fun _ _ _ h => nomatch h⟩
    rcases malloc_inv h with ⟨-, hp0, -⟩ | ⟨-, -, rfl⟩
    · exact absurd hp0 hp
    · refine ⟨.lst ⟨0, idLIST, size⟩ 0 0 0 0 0, _, ?_, rfl⟩
      simp [Mem.set]
  | ext a b =>
    have hne : id ≠ idPROP := fun hx => hext hx a b rfl
    obtain ⟨h1, h2⟩ := malloc_bd hm (show Bd L (.ext ⟨0, id, size⟩ (a.map fun f => f.kind.zero)) from ⟨hs, hne⟩) h
    refine ⟨h1, h2, (fun _ h => nomatch h), fun hp fields chk he => ?_⟩
    cases he
    rcases malloc_inv h with ⟨-, hp0, -⟩ | ⟨-, -, rfl⟩
    · exact absurd hp0 hp
    · refine ⟨⟨0, id, size⟩, a.map fun f => f.kind.zero, by simp only [Mem.set, if_true], ?_⟩
      rw [List.map_map]
      refine List.map_congr_left fun f _ => ?_
      cases f with | mk nm k => cases k <;> rfl

end

end Iff.Src
