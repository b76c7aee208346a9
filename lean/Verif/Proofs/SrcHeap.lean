import Verif.Proofs.SrcReg
import Verif.Proofs.HeapBase
/-
  The heap of the C semantics against the heap model: layout, allocation, release.
-/
namespace Iff.Src
set_option maxRecDepth 4000
open Heap (Addr Block Mem HS Hdr Grp Lst)

/-- The state of the machine for a state of the heap model. -/
@[reducible] def st (X : Cfg) (stk : List Blk) (out : List Byte) (room : Nat) (text : List Byte)
    (s : HS) : CS :=
  ⟨heapOf X.e s.mem, s.tick, stk, s.rs.inp, out, room, text, errCalls X.e s.rs.log⟩

section
variable {X : Cfg} {n : Nat} {heap : Nat → Option Blk} {tick room : Nat} {stk : List Blk}
  {inp out text : List Byte} {log : List ErrPrint} {m : Mem}

/-! ### Inversion of the heap model -/

theorem bind_inv {σ α β : Type} {x : M σ α} {f : α → M σ β} {s s' : σ} {r : β}
    (h : (x >>= f) s = .val (r, s')) : ∃ a s1, x s = .val (a, s1) ∧ f a s1 = .val (r, s') := by
  rw [M.bind_apply] at h
  cases hx : x s with
  | val y => rw [hx] at h; exact ⟨y.1, y.2, rfl, h⟩
  | ub u => rw [hx] at h; cases h
  | loop => rw [hx] at h; cases h

theorem pure_inv {σ α : Type} {a r : α} {s s' : σ} (h : (pure a : M σ α) s = .val (r, s')) :
    r = a ∧ s' = s := by
  rw [M.pure_apply] at h; cases h; exact ⟨rfl, rfl⟩

theorem ofOut_inv {σ α : Type} {o : Out α} {r : α} {s s' : σ}
    (h : (M.ofOut o : M σ α) s = .val (r, s')) : o = .val r ∧ s' = s := by
  unfold M.ofOut at h
  cases o <;> simp at h
  obtain ⟨rfl, rfl⟩ := h; exact ⟨rfl, rfl⟩

theorem io_inv {α : Type} {c : M RS α} {r : α} {s s' : HS} (h : Heap.io c s = .val (r, s')) :
    ∃ rs', c s.rs = .val (r, rs') ∧ s' = { s with rs := rs' } := by
  unfold Heap.io at h
  cases hc : c s.rs with
  | val y => rw [hc] at h; cases h; exact ⟨y.2, rfl, rfl⟩
  | ub u => rw [hc] at h; cases h
  | loop => rw [hc] at h; cases h

theorem load_inv {p : Addr} {b : Block} {s s' : HS} (h : Heap.load p s = .val (b, s')) :
    s.mem p = some b ∧ s' = s := by
  unfold Heap.load at h
  cases hm : s.mem p with
  | none => rw [hm] at h; cases h
  | some b' => rw [hm] at h; cases h; exact ⟨rfl, rfl⟩

theorem store_inv {p : Addr} {b : Block} {s s' : HS} {u : Unit}
    (h : Heap.store p b s = .val (u, s')) :
    (∃ b0, s.mem p = some b0) ∧ s' = { s with mem := s.mem.set p (some b) } := by
  unfold Heap.store at h
  cases hm : s.mem p with
  | none => rw [hm] at h; cases h
  | some b' => rw [hm] at h; cases h; exact ⟨⟨b', rfl⟩, rfl⟩

theorem getHdr_inv {p : Addr} {hd : Hdr} {s s' : HS} (h : Heap.getHdr p s = .val (hd, s')) :
    (∃ b, s.mem p = some b ∧ b.hdr? = some hd) ∧ s' = s := by
  unfold Heap.getHdr at h
  obtain ⟨b, s1, h1, h2⟩ := bind_inv h
  obtain ⟨hm, rfl⟩ := load_inv h1
  cases hb : b.hdr? with
  | none => rw [hb] at h2; cases h2
  | some x =>
    rw [hb] at h2
    obtain ⟨rfl, rfl⟩ := pure_inv h2
    exact ⟨⟨b, hm, hb⟩, rfl⟩

theorem getGrp_inv {p : Addr} {hd : Grp} {s s' : HS} (h : Heap.getGrp p s = .val (hd, s')) :
    (∃ b, s.mem p = some b ∧ b.grp? = some hd) ∧ s' = s := by
  unfold Heap.getGrp at h
  obtain ⟨b, s1, h1, h2⟩ := bind_inv h
  obtain ⟨hm, rfl⟩ := load_inv h1
  cases hb : b.grp? with
  | none => rw [hb] at h2; cases h2
  | some x =>
    rw [hb] at h2
    obtain ⟨rfl, rfl⟩ := pure_inv h2
    exact ⟨⟨b, hm, hb⟩, rfl⟩

theorem getLst_inv {p : Addr} {hd : Lst} {s s' : HS} (h : Heap.getLst p s = .val (hd, s')) :
    (∃ b, s.mem p = some b ∧ b.lst? = some hd) ∧ s' = s := by
  unfold Heap.getLst at h
  obtain ⟨b, s1, h1, h2⟩ := bind_inv h
  obtain ⟨hm, rfl⟩ := load_inv h1
  cases hb : b.lst? with
  | none => rw [hb] at h2; cases h2
  | some x =>
    rw [hb] at h2
    obtain ⟨rfl, rfl⟩ := pure_inv h2
    exact ⟨⟨b, hm, hb⟩, rfl⟩

theorem updHdr_inv {p : Addr} {f : Hdr → Hdr} {s s' : HS} {u : Unit}
    (h : Heap.updHdr p f s = .val (u, s')) :
    ∃ b hd, s.mem p = some b ∧ b.hdr? = some hd ∧
      s' = { s with mem := s.mem.set p (some (b.setHdr (f hd))) } := by
  unfold Heap.updHdr at h
  obtain ⟨b, s1, h1, h2⟩ := bind_inv h
  obtain ⟨hm, rfl⟩ := load_inv h1
  cases hb : b.hdr? with
  | none => rw [hb] at h2; cases h2
  | some x =>
    rw [hb] at h2
    exact ⟨b, _, hm, hb, (store_inv h2).2⟩

theorem updGrp_inv {p : Addr} {f : Grp → Grp} {s s' : HS} {u : Unit}
    (h : Heap.updGrp p f s = .val (u, s')) :
    ∃ b hd, s.mem p = some b ∧ b.grp? = some hd ∧
      s' = { s with mem := s.mem.set p (some (b.setGrp (f hd))) } := by
  unfold Heap.updGrp at h
  obtain ⟨b, s1, h1, h2⟩ := bind_inv h
  obtain ⟨hm, rfl⟩ := load_inv h1
  cases hb : b.grp? with
  | none => rw [hb] at h2; cases h2
  | some x =>
    rw [hb] at h2
    exact ⟨b, _, hm, hb, (store_inv h2).2⟩

theorem updLst_inv {p : Addr} {f : Lst → Lst} {s s' : HS} {u : Unit}
    (h : Heap.updLst p f s = .val (u, s')) :
    ∃ b hd, s.mem p = some b ∧ b.lst? = some hd ∧
      s' = { s with mem := s.mem.set p (some (b.setLst (f hd))) } := by
  unfold Heap.updLst at h
  obtain ⟨b, s1, h1, h2⟩ := bind_inv h
  obtain ⟨hm, rfl⟩ := load_inv h1
  cases hb : b.lst? with
  | none => rw [hb] at h2; cases h2
  | some x =>
    rw [hb] at h2
    exact ⟨b, _, hm, hb, (store_inv h2).2⟩

theorem getPtr_inv {arr : Addr} {i : Nat} {a : Addr} {s s' : HS}
    (h : Heap.getPtr arr i s = .val (a, s')) :
    (∃ cs, s.mem arr = some (.ptrs cs) ∧ cs[i]? = some (some a)) ∧ s' = s := by
  unfold Heap.getPtr at h
  obtain ⟨b, s1, h1, h2⟩ := bind_inv h
  obtain ⟨hm, rfl⟩ := load_inv h1
  split at h2
  · rename_i cs
    rcases hc : cs[i]? with _ | _ | x
    · rw [hc] at h2; cases h2
    · rw [hc] at h2; cases h2
    · rw [hc] at h2
      obtain ⟨rfl, rfl⟩ := pure_inv h2
      exact ⟨⟨_, hm, hc⟩, rfl⟩
  · cases h2

theorem setPtr_inv {arr : Addr} {i : Nat} {a : Addr} {s s' : HS} {u : Unit}
    (h : Heap.setPtr arr i a s = .val (u, s')) :
    ∃ cs, s.mem arr = some (.ptrs cs) ∧ i < cs.length ∧
      s' = { s with mem := s.mem.set arr (some (.ptrs (cs.set i (some a)))) } := by
  unfold Heap.setPtr at h
  obtain ⟨b, s1, h1, h2⟩ := bind_inv h
  obtain ⟨hm, rfl⟩ := load_inv h1
  split at h2
  · split at h2
    · exact ⟨_, hm, ‹_›, (store_inv h2).2⟩
    · cases h2
  · cases h2

theorem free_inv {p : Addr} {s s' : HS} {u : Unit} (h : Heap.free p s = .val (u, s')) :
    (p = 0 ∧ s' = s) ∨ (p ≠ 0 ∧ (∃ b, s.mem p = some b) ∧
      s' = { s with mem := s.mem.set p none }) := by
  unfold Heap.free at h
  by_cases h0 : p = 0
  · rw [if_pos h0] at h; cases h; exact .inl ⟨h0, rfl⟩
  · rw [if_neg h0] at h
    cases hm : s.mem p with
    | none => rw [hm] at h; cases h
    | some b => rw [hm] at h; cases h; exact .inr ⟨h0, ⟨b, rfl⟩, rfl⟩

/-! ### Layout -/

theorem heapOf_set {e : Env} {a : Addr} {b : Option Block} :
    heapOf e (m.set a b) = setHeap (heapOf e m) a (b.map (layout e)) := by
  funext x; simp only [heapOf, Mem.set, setHeap]; split <;> rfl

theorem heapOf_some {e : Env} {a : Addr} {b : Block} (h : m a = some b) :
    heapOf e m a = some (layout e b) := by simp only [heapOf, h, Option.map_some]

theorem setHeap_self {a : Nat} {b : Option Blk} : setHeap heap a b a = b := by simp [setHeap]
theorem setHeap_setHeap {a : Nat} {b c : Option Blk} :
    setHeap (setHeap heap a b) a c = setHeap heap a c := by
  funext x; simp only [setHeap]; split <;> rfl

theorem size_small (X : Cfg) {s : Struct} (h : s = .IFF_Chunk ∨ s = .IFF_Group ∨ s = .IFF_List ∨
    s = .IFF_RawChunk ∨ s = .TEST_Hello ∨ s = .TEST_Bye) : Struct.size X.e s < 256 := by
  rcases X.word with hw | hw <;> rcases h with rfl | rfl | rfl | rfl | rfl | rfl <;>
    simp [Struct.size, Struct.members, scalarSize, ITy.bits, hw, roundUp]

theorem find_Hello_a : Struct.find .TEST_Hello .a = some (3, .int .uchar) := rfl
theorem find_Hello_b : Struct.find .TEST_Hello .b = some (4, .int .uchar) := rfl
theorem find_Hello_c : Struct.find .TEST_Hello .c = some (5, .int .ushort) := rfl
theorem find_Bye_one : Struct.find .TEST_Bye .one = some (3, .int .int) := rfl
theorem find_Bye_two : Struct.find .TEST_Bye .two = some (4, .int .int) := rfl

theorem le_roundUp {n a : Nat} (ha : 0 < a) : n ≤ roundUp n a := by
  unfold roundUp
  have h := Nat.div_add_mod (n + a - 1) a
  have h2 := Nat.mod_lt (n + a - 1) ha
  rw [Nat.mul_comm] at h
  omega

theorem roundUp_mono {n m a : Nat} (h : n ≤ m) : roundUp n a ≤ roundUp m a :=
  Nat.mul_le_mul_right _ (Nat.div_le_div_right (by omega))

theorem scalarSize_pos (X : Cfg) (t : Ty) : 0 < scalarSize X.e t := by
  rcases X.word with hw | hw <;> cases t <;> simp [scalarSize, hw]
  all_goals (rename_i t; cases t <;> simp [ITy.bits, hw])

theorem foldl_size (X : Cfg) (l : List Ty) (n : Nat) :
    n ≤ l.foldl (fun n t => roundUp n (scalarSize X.e t) + scalarSize X.e t) n := by
  induction l generalizing n with
  | nil => exact Nat.le_refl _
  | cons t l ih =>
    have := le_roundUp (n := n) (scalarSize_pos X t)
    exact Nat.le_trans (show n ≤ roundUp n (scalarSize X.e t) + scalarSize X.e t by omega) (ih _)

theorem size_chunk_ext (X : Cfg) (ks : List FieldKind) : Struct.size X.e .IFF_Chunk ≤ extSize X.e ks := by
  unfold Struct.size extSize
  rw [List.foldl_append]
  refine roundUp_mono (Nat.le_trans (Nat.le_of_eq ?_) (foldl_size X _ _))
  rfl

theorem roundUp_le {n a : Nat} (ha : 0 < a) : roundUp n a ≤ n + a := by
  unfold roundUp
  have h := Nat.div_add_mod (n + a - 1) a
  rw [Nat.mul_comm] at h
  omega

theorem scalarSize_le (X : Cfg) (t : Ty) : scalarSize X.e t ≤ 8 := by
  rcases X.word with hw | hw <;> cases t <;> simp [scalarSize, hw]
  all_goals (rename_i t; cases t <;> simp [ITy.bits, hw])

theorem foldl_size_le (X : Cfg) (l : List Ty) (n : Nat) :
    l.foldl (fun n t => roundUp n (scalarSize X.e t) + scalarSize X.e t) n ≤ n + 16 * l.length := by
  induction l generalizing n with
  | nil => exact Nat.le_refl _
  | cons t l ih =>
    have h1 := roundUp_le (n := n) (scalarSize_pos X t)
    have h2 := scalarSize_le X t
    refine Nat.le_trans (ih _) ?_
    show roundUp n (scalarSize X.e t) + scalarSize X.e t + 16 * l.length ≤ n + 16 * (l.length + 1)
    omega

theorem ext_small (X : Cfg) {ks : List FieldKind} (h : ks.length ≤ 3) : extSize X.e ks ≤ 256 := by
  unfold extSize
  have hw : 0 < X.e.sizeBits / 8 ∧ X.e.sizeBits / 8 ≤ 8 := by rcases X.word with hw | hw <;> rw [hw] <;> decide
  refine Nat.le_trans (roundUp_le hw.1) ?_
  have := foldl_size_le X ((Struct.members .IFF_Chunk).map (·.2) ++ ks.map fun k => Ty.int (ctype k)) 0
  have hl : ((Struct.members .IFF_Chunk).map (·.2) ++ ks.map fun k => Ty.int (ctype k)).length = 3 + ks.length := by
    rw [List.length_append, List.length_map, List.length_map]; rfl
  rw [hl] at this
  omega

theorem hdr_layout (X : Cfg) {b : Block} {hd : Hdr} (h : b.hdr? = some hd) : ∃ sz rest,
    Struct.size X.e .IFF_Chunk ≤ sz ∧
    layout X.e b = ⟨sz, cells (.ptr (.ofAddr hd.parent) :: .int .uint hd.id.toNat ::
      .int .int hd.size :: rest)⟩ ∧
    ∀ hd' : Hdr, layout X.e (b.setHdr hd') = ⟨sz, cells (.ptr (.ofAddr hd'.parent) ::
      .int .uint hd'.id.toNat :: .int .int hd'.size :: rest)⟩ := by
  cases b <;> cases h
  · exact ⟨_, _, size_IFF_Chunk_IFF_RawChunk X, rfl, fun _ => rfl⟩
  · exact ⟨_, _, size_IFF_Chunk_IFF_Group X, rfl, fun _ => rfl⟩
  · exact ⟨_, _, size_IFF_Chunk_IFF_List X, rfl, fun _ => rfl⟩
  · exact ⟨_, _, size_chunk_ext X _, rfl, fun _ => rfl⟩

theorem grp_layout (X : Cfg) {b : Block} {g : Grp} (h : b.grp? = some g) : ∃ hd sz rest,
    b.hdr? = some hd ∧ Struct.size X.e .IFF_Chunk ≤ sz ∧ Struct.size X.e .IFF_Group ≤ sz ∧
    layout X.e b = ⟨sz, cells (.ptr (.ofAddr hd.parent) :: .int .uint hd.id.toNat ::
      .int .int hd.size :: .int .uint g.ty.toNat :: .int .uint g.len :: .ptr (.ofAddr g.arr) ::
      rest)⟩ ∧
    ∀ g' : Grp, layout X.e (b.setGrp g') = ⟨sz, cells (.ptr (.ofAddr hd.parent) ::
      .int .uint hd.id.toNat :: .int .int hd.size :: .int .uint g'.ty.toNat :: .int .uint g'.len ::
      .ptr (.ofAddr g'.arr) :: rest)⟩ := by
  cases b <;> cases h
  · exact ⟨_, _, _, rfl, size_IFF_Chunk_IFF_Group X, Nat.le_refl _, rfl, fun _ => rfl⟩
  · exact ⟨_, _, _, rfl, size_IFF_Chunk_IFF_List X, size_IFF_Group_IFF_List X, rfl, fun _ => rfl⟩

theorem lst_layout (X : Cfg) {b : Block} {l : Lst} (h : b.lst? = some l) : ∃ hd g,
    b.hdr? = some hd ∧ b.grp? = some g ∧
    layout X.e b = ⟨Struct.size X.e .IFF_List, cells (.ptr (.ofAddr hd.parent) ::
      .int .uint hd.id.toNat :: .int .int hd.size :: .int .uint g.ty.toNat :: .int .uint g.len ::
      .ptr (.ofAddr g.arr) :: .int .uint l.plen :: .ptr (.ofAddr l.parr) :: [])⟩ ∧
    ∀ l' : Lst, layout X.e (b.setLst l') = ⟨Struct.size X.e .IFF_List,
      cells (.ptr (.ofAddr hd.parent) :: .int .uint hd.id.toNat :: .int .int hd.size ::
      .int .uint g.ty.toNat :: .int .uint g.len :: .ptr (.ofAddr g.arr) ::
      .int .uint l'.plen :: .ptr (.ofAddr l'.parr) :: [])⟩ := by
  cases b <;> cases h
  exact ⟨_, _, rfl, rfl, rfl, fun _ => rfl⟩

theorem cells_nil_bytes {k : Nat} : cells [] = byteCells (List.replicate k none) := by
  funext i
  simp only [cells, byteCells, List.getElem?_replicate]
  by_cases h : i < k <;> simp [h]

theorem cells_nil_ptrs {k : Nat} : cells [] = ptrCells (List.replicate k none) := by
  funext i
  simp only [cells, ptrCells, List.getElem?_replicate]
  by_cases h : i < k <;> simp [h]

theorem layout_setPtr {e : Env} {cs : List (Option Addr)} {i a : Nat} (h : i < cs.length) :
    (layout e (.ptrs cs)).set i (.ptr (.ofAddr a)) = layout e (.ptrs (cs.set i (some a))) := by
  simp only [layout, Blk.set, List.length_set]
  congr 1
  funext j
  simp only [ptrCells, List.getElem?_set]
  by_cases hj : j = i
  · subst hj; simp [h]
  · simp [hj, Ne.symm hj]

theorem layout_putBytes {e : Env} {cs : List (Option Byte)} {bs : List Byte}
    (h : bs.length ≤ cs.length) :
    (layout e (.bytes cs)).putBytes bs =
      layout e (.bytes (bs.map some ++ cs.drop bs.length)) := by
  simp only [layout, Blk.putBytes, List.length_append, List.length_map, List.length_drop]
  congr 1
  · omega
  · funext j
    simp only [byteCells, List.getElem?_append, List.length_map]
    by_cases hj : j < bs.length
    · simp [hj]
    · simp only [hj, dif_neg, not_false_eq_true, if_false, List.getElem?_drop]
      rw [Nat.add_sub_cancel' (by omega)]

/-! ### Allocation -/

theorem pick_alloc {t : Nat} {q : Heap.Req} {k : Nat} (h : reqBytes X.e q = k) :
    X.alloc.pick t m q = X.pick t (sizes (heapOf X.e m)) k := by subst h; rfl

theorem mallocC_none {k : Nat} {c : Nat → Cell} (h : X.pick tick (sizes heap) k = none) :
    mallocC X k c ⟨heap, tick, stk, inp, out, room, text, log⟩ =
      .val (.ptr .void Ptr.null, ⟨heap, tick + 1, stk, inp, out, room, text, log⟩) := by
  simp only [mallocC, h]

theorem mallocC_some {k a : Nat} {c : Nat → Cell} (h : X.pick tick (sizes heap) k = some a) :
    mallocC X k c ⟨heap, tick, stk, inp, out, room, text, log⟩ =
      .val (.ptr .void (.ofAddr a),
        ⟨setHeap heap a (some ⟨k, c⟩), tick + 1, stk, inp, out, room, text, log⟩) := by
  simp only [mallocC, h]

theorem addr_beq_null {a : Nat} : (Ptr.ofAddr a == Ptr.null) = (a == 0) := by
  rw [Bool.eq_iff_iff]
  simp [Ptr.ofAddr, Ptr.null]
theorem addr_bne_null {a : Nat} : (Ptr.ofAddr a != Ptr.null) = (a != 0) := by
  simp only [bne, addr_beq_null]
theorem addr_beq_null' {a : Nat} : ((⟨.heap a, 0⟩ : Ptr) == Ptr.null) = (a == 0) := addr_beq_null
theorem addr_bne_null' {a : Nat} : ((⟨.heap a, 0⟩ : Ptr) != Ptr.null) = (a != 0) := addr_bne_null

/-- free of the C library -/
theorem free_run {p : Addr} {s s' : HS} {u : Unit} {t : Ty} (h : Heap.free p s = .val (u, s')) :
    callFn X (n + 1) .free [.ptr t ⟨.heap p, 0⟩] (st X stk out room text s) =
      .val (.void, st X stk out room text s') := by
  rw [call_free, prim_free]
  unfold freeC
  rcases free_inv h with ⟨rfl, rfl⟩ | ⟨h0, ⟨b, hb⟩, rfl⟩
  · rfl
  · simp only [if_neg h0, st, heapOf_some hb, heapOf_set, Option.map_none]

/-- chunk.c:32-44 -/
theorem createChunk_none {t u v : ITy} {id : ID} {size : Int} {sz : Nat} (hs : inInt size) (hsz : sz < 256)
    (h : X.pick tick (sizes heap) sz = none) :
    callFn X (n + 2) .IFF_createChunk [.int t id.toNat, .int u size, .int v sz]
      ⟨heap, tick, stk, inp, out, room, text, log⟩ =
      .val (.ptr (.struct .IFF_Chunk) Ptr.null,
        ⟨heap, tick + 1, stk, inp, out, room, text, log⟩) := by
  rw [callFn_code rfl]
  crun [IFF_createChunk.code, wrapInt_of hs, toSize_small hsz, mallocC_none h, addr_bne_null',
    bne_self_eq_false, List.take_length]

theorem createChunk_some {t u v : ITy} {id : ID} {size : Int} {sz a : Nat} (hs : inInt size) (hsz : sz < 256)
    (hsz' : Struct.size X.e .IFF_Chunk ≤ sz)
    (h : X.pick tick (sizes heap) sz = some a) :
    callFn X (n + 2) .IFF_createChunk [.int t id.toNat, .int u size, .int v sz]
      ⟨heap, tick, stk, inp, out, room, text, log⟩ =
      .val (.ptr (.struct .IFF_Chunk) (.ofAddr a),
        ⟨setHeap heap a (some ⟨sz, cells [.ptr Ptr.null, .int .uint id.toNat, .int .int size]⟩),
          tick + 1, stk, inp, out, room, text, log⟩) := by
  rw [callFn_code rfl]
  have h0 : (a != 0) = true := by simpa using (X.sound h).1
  crun [IFF_createChunk.code, wrapInt_of hs, toSize_small hsz, mallocC_some h, addr_bne_null', h0,
    List.take_length, blkOf_heap setHeap_self, hsz', setHeap_setHeap]

end

end Iff.Src
