import Verif.Proofs.SrcIff
import Verif.Spec.SrcWalk
/-
  What the functions that only look at a hierarchy need: reading of members, arrays and bytes.
-/
namespace Iff.Src
set_option maxRecDepth 4000
open Heap (Addr Block Mem HS Hdr Grp Lst HX)

theorem Rep.of_bd {L : Nat} {m : Mem} (h : MBd L m) (hL : L ≤ 4294967296) : Rep m := by
  intro a b hb
  have := h a b hb
  cases b <;> simp only [Bd, Fits] at this ⊢
  · exact this.1
  · exact ⟨this.1, by omega⟩
  · exact ⟨this.1, by omega, by omega⟩
  · exact this.1

theorem Rep.hdr {m : Mem} {a : Addr} {b : Block} {hd : Hdr} (hm : Rep m)
    (h : m a = some b) (hb : b.hdr? = some hd) : inInt hd.size := by
  have := hm a b h
  cases b <;> cases hb <;> first | exact this | exact this.1

theorem Rep.grp {m : Mem} {a : Addr} {b : Block} {g : Grp} (hm : Rep m)
    (h : m a = some b) (hb : b.grp? = some g) : g.len < 4294967296 := by
  have := hm a b h
  cases b <;> cases hb
  · exact this.2
  · exact this.2.1

theorem Rep.lst {m : Mem} {a : Addr} {b : Block} {l : Lst} (hm : Rep m)
    (h : m a = some b) (hb : b.lst? = some l) : l.plen < 4294967296 := by
  have := hm a b h
  cases b <;> cases hb
  exact this.2.2

theorem getHdr_step' {X : Cfg} {p : Addr} {hd : Hdr} {s s' : HS} (h : Heap.getHdr p s = .val (hd, s')) :
    s' = s ∧ ∃ (sz : Nat) (rest : List Cell), Struct.size X.e .IFF_Chunk ≤ sz ∧
      (∃ b, s.mem p = some b ∧ b.hdr? = some hd) ∧
      heapOf X.e s.mem p = some ⟨sz, cells (.ptr (.ofAddr hd.parent) :: .int .uint hd.id.toNat ::
        .int .int hd.size :: rest)⟩ := by
  obtain ⟨⟨b, hm, hb⟩, rfl⟩ := getHdr_inv h
  obtain ⟨sz, rest, hsz, hl, -⟩ := hdr_layout X hb
  exact ⟨rfl, sz, rest, hsz, ⟨b, hm, hb⟩, by rw [heapOf_some hm, hl]⟩

/-! ### Bytes -/

theorem byte_ofInt (b : Byte) : BitVec.ofInt 8 (b.toNat : Int) = b := by simp

theorem getBytes_cells {cs : List (Option Byte)} : ∀ {n : Nat}, n ≤ cs.length →
    (List.range n).mapM (fun i => (byteCells cs i).byte?) = (cs.take n).mapM id := by
  intro n
  induction n with
  | zero => intro _; rfl
  | succ n ih =>
    intro h
    have hn : n < cs.length := by omega
    rw [List.range_succ, List.mapM_append, ih (by omega), List.take_succ_eq_append_getElem hn,
      List.mapM_append]
    congr 1
    funext l
    simp only [byteCells, List.getElem?_eq_getElem hn, List.mapM_cons, List.mapM_nil, id]
    cases cs[n] <;> simp [Cell.byte?]

theorem readBytes_step {X : Cfg} {d : Addr} {n : Nat} {bs : List Byte} {s s' : HS}
    (h : Heap.readBytes d n s = .val (bs, s')) : s' = s ∧ ∃ B : Blk, heapOf X.e s.mem d = some B ∧
      n ≤ B.size ∧ B.getBytes n = some bs := by
  unfold Heap.readBytes at h
  obtain ⟨b, s1, h1, k1⟩ := bind_inv h
  obtain ⟨hm, rfl⟩ := load_inv h1
  cases b <;> first | (cases k1; done) | skip
  rename_i cs
  simp only at k1
  by_cases hn : n ≤ cs.length
  · rw [if_pos hn] at k1
    cases hx : (cs.take n).mapM id with
    | none => simp only [hx] at k1; cases k1
    | some bs' =>
      simp only [hx] at k1
      obtain ⟨rfl, rfl⟩ := pure_inv k1
      refine ⟨rfl, _, heapOf_some hm, hn, ?_⟩
      simp only [Blk.getBytes, layout]
      rw [getBytes_cells hn, hx]
  · rw [if_neg hn] at k1; cases k1

theorem getRaw_inv {p d : Addr} {s s' : HS} (h : Heap.getRaw p s = .val (d, s')) :
    s' = s ∧ ∃ hd, s.mem p = some (.raw hd d) := by
  unfold Heap.getRaw at h
  obtain ⟨b, s1, h1, k1⟩ := bind_inv h
  obtain ⟨hm, rfl⟩ := load_inv h1
  cases b <;> first | (cases k1; done) | skip
  obtain ⟨rfl, rfl⟩ := pure_inv k1
  exact ⟨rfl, _, hm⟩

/-! ### Accesses to the heap by operations with output -/

section
variable {ω α : Type}

theorem heap_inv {m : M HS α} {s s' : HX ω} {a : α} (h : Heap.heap m s = .val (a, s')) :
    ∃ h' : HS, m ⟨s.mem, s.tick, ⟨[], []⟩⟩ = .val (a, h') ∧ s' = ⟨h'.mem, h'.tick, s.st⟩ := by
  unfold Heap.heap at h
  cases hm : m ⟨s.mem, s.tick, ⟨[], []⟩⟩ with
  | val y => rw [hm] at h; cases h; exact ⟨_, rfl, rfl⟩
  | ub u => rw [hm] at h; cases h
  | loop => rw [hm] at h; cases h

theorem dev_inv {m : M ω α} {s s' : HX ω} {a : α} (h : Heap.dev m s = .val (a, s')) :
    ∃ w, m s.st = .val (a, w) ∧ s' = ⟨s.mem, s.tick, w⟩ := by
  unfold Heap.dev at h
  cases hm : m s.st with
  | val y => rw [hm] at h; cases h; exact ⟨_, rfl, rfl⟩
  | ub u => rw [hm] at h; cases h
  | loop => rw [hm] at h; cases h

variable {X : Cfg} {s s' : HX ω} {p : Addr}

theorem hgetHdr {hd : Hdr} (h : Heap.heap (Heap.getHdr p) s = .val (hd, s')) :
    s' = s ∧ ∃ (sz : Nat) (rest : List Cell), Struct.size X.e .IFF_Chunk ≤ sz ∧
      (∃ b, s.mem p = some b ∧ b.hdr? = some hd) ∧
      heapOf X.e s.mem p = some ⟨sz, cells (.ptr (.ofAddr hd.parent) :: .int .uint hd.id.toNat ::
        .int .int hd.size :: rest)⟩ := by
  obtain ⟨h', h1, rfl⟩ := heap_inv h
  obtain ⟨rfl, h2⟩ := getHdr_step' (X := X) h1
  exact ⟨rfl, h2⟩

theorem getExt_step {p : Addr} {s s' : HS} {fields : List Field} {vals : List Val}
    (h : Heap.getExt fields p s = .val (vals, s')) :
    s' = s ∧ ∃ hd, s.mem p = some (.ext hd vals) ∧ vals.map Val.kind = fields.map Field.kind := by
  unfold Heap.getExt at h
  obtain ⟨b, s1, h2, k2⟩ := bind_inv h
  obtain ⟨hm, rfl⟩ := load_inv h2
  cases b <;> first | (cases k2; done) | skip
  rename_i hd vs
  by_cases hk : vs.map Val.kind = fields.map Field.kind
  · simp only [if_pos hk] at k2
    obtain ⟨rfl, rfl⟩ := pure_inv k2
    exact ⟨rfl, hd, hm, hk⟩
  · simp only [if_neg hk] at k2
    cases k2

theorem hgetExt {fields : List Field} {vals : List Val}
    (h : Heap.heap (Heap.getExt fields p) s = .val (vals, s')) :
    s' = s ∧ ∃ hd, s.mem p = some (.ext hd vals) ∧ vals.map Val.kind = fields.map Field.kind := by
  obtain ⟨h', h1, rfl⟩ := heap_inv h
  obtain ⟨rfl, h2⟩ := getExt_step h1
  exact ⟨rfl, h2⟩

/-- The block of a `TEST_Hello`. -/
theorem hello_at {m : Mem} {hd : Hdr} {vals : List Val} (hm : m p = some (.ext hd vals))
    (hk : vals.map Val.kind = [.ubyte, .ubyte, .uword]) : ∃ a b c, vals = [.ubyte a, .ubyte b, .uword c] ∧
    heapOf X.e m p = some ⟨Struct.size X.e .TEST_Hello, cells (.ptr (.ofAddr hd.parent) :: .int .uint hd.id.toNat ::
      .int .int hd.size :: [.int .uchar a.toNat, .int .uchar b.toNat, .int .ushort c.toNat])⟩ := by
  rcases vals with _ | ⟨a, _ | ⟨b, _ | ⟨c, _ | ⟨d, vals⟩⟩⟩⟩ <;> simp at hk
  obtain ⟨ha, hb, hc⟩ := hk
  cases a <;> cases ha
  cases b <;> cases hb
  cases c <;> cases hc
  refine ⟨_, _, _, rfl, ?_⟩
  rw [heapOf_some hm]
  rfl

/-- The block of a `TEST_Bye`. -/
theorem bye_at {m : Mem} {hd : Hdr} {vals : List Val} (hm : m p = some (.ext hd vals))
    (hk : vals.map Val.kind = [.long, .long]) : ∃ a b, vals = [.long a, .long b] ∧
    heapOf X.e m p = some ⟨Struct.size X.e .TEST_Bye, cells (.ptr (.ofAddr hd.parent) :: .int .uint hd.id.toNat ::
      .int .int hd.size :: [.int .int a.toInt, .int .int b.toInt])⟩ := by
  rcases vals with _ | ⟨a, _ | ⟨b, _ | ⟨c, vals⟩⟩⟩ <;> simp at hk
  obtain ⟨ha, hb⟩ := hk
  cases a <;> cases ha
  cases b <;> cases hb
  refine ⟨_, _, rfl, ?_⟩
  rw [heapOf_some hm]
  rfl

theorem hgetGrp {g : Grp} (h : Heap.heap (Heap.getGrp p) s = .val (g, s')) :
    s' = s ∧ ∃ (hd : Hdr) (sz : Nat) (rest : List Cell), Struct.size X.e .IFF_Chunk ≤ sz ∧ Struct.size X.e .IFF_Group ≤ sz ∧
      (∃ b, s.mem p = some b ∧ b.hdr? = some hd ∧ b.grp? = some g) ∧
      heapOf X.e s.mem p = some ⟨sz, cells (.ptr (.ofAddr hd.parent) :: .int .uint hd.id.toNat ::
        .int .int hd.size :: .int .uint g.ty.toNat :: .int .uint g.len :: .ptr (.ofAddr g.arr) ::
        rest)⟩ := by
  obtain ⟨h', h1, rfl⟩ := heap_inv h
  obtain ⟨rfl, h2⟩ := getGrp_step (X := X) h1
  exact ⟨rfl, h2⟩

theorem hgetLst {l : Lst} (h : Heap.heap (Heap.getLst p) s = .val (l, s')) :
    s' = s ∧ ∃ (hd : Hdr) (g : Grp), (∃ b, s.mem p = some b ∧ b.hdr? = some hd ∧ b.grp? = some g ∧ b.lst? = some l) ∧
      heapOf X.e s.mem p = some ⟨Struct.size X.e .IFF_List, cells (.ptr (.ofAddr hd.parent) ::
        .int .uint hd.id.toNat :: .int .int hd.size :: .int .uint g.ty.toNat :: .int .uint g.len ::
        .ptr (.ofAddr g.arr) :: .int .uint l.plen :: .ptr (.ofAddr l.parr) :: [])⟩ := by
  obtain ⟨h', h1, rfl⟩ := heap_inv h
  obtain ⟨rfl, h2⟩ := getLst_step (X := X) h1
  exact ⟨rfl, h2⟩

theorem hgetPtr {arr a : Addr} {i : Nat} (h : Heap.heap (Heap.getPtr arr i) s = .val (a, s')) :
    s' = s ∧ ∃ B : Blk, heapOf X.e s.mem arr = some B ∧ (i + 1) * (X.e.sizeBits / 8) ≤ B.size ∧
      B.cell i = .ptr ⟨.heap a, 0⟩ := by
  obtain ⟨h', h1, rfl⟩ := heap_inv h
  obtain ⟨rfl, h2⟩ := getPtr_step (X := X) h1
  exact ⟨rfl, h2⟩

theorem hgetRaw {d : Addr} (h : Heap.heap (Heap.getRaw p) s = .val (d, s')) :
    s' = s ∧ ∃ hd, s.mem p = some (.raw hd d) := by
  obtain ⟨h', h1, rfl⟩ := heap_inv h
  obtain ⟨rfl, h2⟩ := getRaw_inv h1
  exact ⟨rfl, h2⟩

theorem hreadBytes {d : Addr} {n : Nat} {bs : List Byte}
    (h : Heap.heap (Heap.readBytes d n) s = .val (bs, s')) : s' = s ∧ ∃ B : Blk,
      heapOf X.e s.mem d = some B ∧ n ≤ B.size ∧ B.getBytes n = some bs := by
  obtain ⟨h', h1, rfl⟩ := heap_inv h
  obtain ⟨rfl, h2⟩ := readBytes_step (X := X) h1
  exact ⟨rfl, h2⟩

end

/-! ### The chunk type of a chunk -/

/-- The functions of the handler that is found; member `i + 1` of the struct is its `i`th function. -/
theorem find_run {X : Cfg} {q : Ptr} {r : Registry} (hr : RegAt X q r) (ft id : ID) :
    ∃ fns, FnsOf (findChunkType r ft id) fns ∧ ∀ (g : CS) (n : Nat), Registry.depth r + 4 ≤ n →
      ∃ kk jj b, callFn X n .IFF_findChunkType [.ptr (.struct .IFF_ChunkRegistry) q,
          .int .uint ft.toNat, .int .uint id.toNat] g =
        .val (.ptr (.struct .IFF_ChunkType) ⟨.static kk, jj * 8⟩, g) ∧ X.img kk = some b ∧
        (∀ (m : Member) (i : Nat), Struct.find .IFF_ChunkType m = some (i, .fn) → ∀ s,
          memberOf X (.ptr (.struct .IFF_ChunkType) ⟨.static kk, jj * 8⟩) m s =
            .val (.mem .fn ⟨.static kk, jj * 8 + i⟩, s)) ∧
        ∀ i f, fns[i]? = some f → b.cell (jj * 8 + (i + 1)) = .fn f := by
  obtain ⟨q', id', hq, ⟨-, -, -, fns, -, -, -, -, hf, -⟩⟩ :=
    findChunkType_run (ft := ft) (id := id) hr (Registry.depth r + 4)
      ⟨fun _ => none, 0, [], [], [], 0, [], []⟩ (Nat.le_refl _)
  refine ⟨fns, hf, fun g n hn => ?_⟩
  obtain ⟨q2, id2, hq2, ⟨kk, jj, b, fns', rfl, hi, his, -, hf', hfs⟩⟩ :=
    findChunkType_run (ft := ft) (id := id) hr n g hn
  cases hf.unique hf'
  exact ⟨kk, jj, b, hq2, hi, fun m i hm s => memberOf_static hi rfl (by decide) his hm, hfs⟩

end Iff.Src
