import Verif.Proofs.SrcWalk
import Verif.Heap.Write
/-
  The functions of io.c, id.c and field.c that the write path uses.
-/
namespace Iff.Src
set_option maxRecDepth 4000
open Heap (Addr Block Mem HS Hdr Grp Lst HX)

/-- The state of the C semantics for a state of the heap model that writes to a stream. -/
@[reducible] def sw (X : Cfg) (stk : List Blk) (inp text : List Byte) (s : HX WS) : CS :=
  ⟨heapOf X.e s.mem, s.tick, stk, inp, s.st.out, s.st.room, text, errCalls X.e s.st.log⟩

/-- A state of the C semantics that writes to a stream, with any heap. -/
@[reducible] def wst (X : Cfg) (heap : Nat → Option Blk) (tick : Nat) (stk : List Blk) (inp text : List Byte) (w : WS) : CS :=
  ⟨heap, tick, stk, inp, w.out, w.room, text, errCalls X.e w.log⟩

theorem byte_at {v : BitVec 32} (i : Nat) :
    BitVec.ofNat 8 (v.toNat / 256 ^ i) = v.extractLsb' (8 * i) 8 := by
  apply BitVec.eq_of_toNat_eq
  rw [BitVec.toNat_ofNat, BitVec.extractLsb'_toNat, Nat.shiftRight_eq_div_pow, Nat.pow_mul]

theorem bytes_at {v : BitVec 32} : (List.range 4).map (fun i => BitVec.ofNat 8 (v.toNat / 256 ^ i)) =
      [v.extractLsb' 0 8, v.extractLsb' 8 8, v.extractLsb' 16 8, v.extractLsb' 24 8] := by
  simp only [byte_at, show List.range 4 = [0, 1, 2, 3] from rfl, List.map, Nat.reduceMul]

theorem toBytes_eq {X : Cfg} {t : ITy} {x : Int} {v : BitVec 32} (ht : t.bits X.e = 32)
    (hx : (BitVec.ofInt (t.bits X.e) x).toNat = v.toNat) : toBytes X.e t x = store32 X.e v := by
  unfold toBytes store32
  simp only [hx]
  rw [show t.bits X.e / 8 = 4 from by rw [ht], bytes_at]
  by_cases hb : X.e.bigEndian = true
  · rw [if_pos hb, if_pos hb]; rfl
  · rw [if_neg hb, if_neg hb]

theorem toBytes_uint {X : Cfg} {v : BitVec 32} : toBytes X.e .uint v.toNat = store32 X.e v :=
  toBytes_eq rfl (by
    show (BitVec.ofInt 32 (v.toNat : Int)).toNat = v.toNat
    rw [BitVec.ofInt_natCast, BitVec.ofNat_toNat, BitVec.setWidth_eq])
theorem toBytes_int {X : Cfg} {v : BitVec 32} : toBytes X.e .int v.toInt = store32 X.e v :=
  toBytes_eq rfl (by simp [ITy.bits])

theorem store32_length {e : Env} {v : BitVec 32} : (store32 e v).length = 4 := by
  simp only [store32]; split <;> rfl

theorem prim_fwrite {X : Cfg} {call} {g : CS} {t u v : ITy} {p : Ptr} {size n : Int} :
    prim X call .fwrite [.ptr (.int t) p, .int u size, .int v n, .file .out] g =
      fwriteC X t p (toSize X.e size) (toSize X.e n) g := rfl
theorem prim_fputc {X : Cfg} {call} {g : CS} {t : ITy} {x : Int} :
    prim X call .fputc [.int t x, .file .out] g = .val (.int .int (if min 1 g.room = 1 then x % 256 else -1),
      { g with out := g.out ++ [BitVec.ofInt 8 x].take g.room, room := g.room - 1 }) := rfl
theorem prim_calloc {X : Cfg} {call} {g : CS} {t u : ITy} {n m : Int} :
    prim X call .calloc [.int t n, .int u m] g =
      if (toSize X.e n) * (toSize X.e m) < 2 ^ X.e.sizeBits then
        mallocC X ((toSize X.e n) * (toSize X.e m)) (cells (List.replicate (toSize X.e n) (.int .uchar 0))) g
      else .val (.ptr .void Ptr.null, g) := by
  show (ite _ _ _ : M CS V) g = _
  split <;> rfl

section
variable {X : Cfg} {n : Nat} {heap : Nat → Option Blk} {tick room : Nat} {stk : List Blk}
  {inp out text : List Byte} {log : List ErrPrint}

theorem fwrite_int {t : ITy} {k : Nat} {x : Int} {bs : List Byte} (ht : t ≠ .uchar)
    (hs : t.bits X.e / 8 = 4) (hb : toBytes X.e t x = bs) (hl : bs.length = 4)
    (hk : stk[k]? = some ⟨4, cells [.int t x]⟩) :
    fwriteC X t ⟨.stk k, 0⟩ 4 1 ⟨heap, tick, stk, inp, out, room, text, log⟩ =
      .val (.int .size (if min 4 room = 4 then 1 else 0), ⟨heap, tick, stk, inp, out ++ bs.take room,
        room - 4, text, log⟩) := by
  subst hb
  simp only [fwriteC, CS.blk, hk, ht, hs, cells_0, putOut, hl, and_self, and_true, if_true, and_false, if_false]

theorem fwrite_bytes {a k : Nat} {B : Blk} {bs : List Byte} (hk : heap a = some B)
    (hB : k ≤ B.size) (hb : B.getBytes k = some bs) :
    fwriteC X .uchar ⟨.heap a, 0⟩ 1 k ⟨heap, tick, stk, inp, out, room, text, log⟩ =
      .val (.int .size (min bs.length room : Nat), ⟨heap, tick, stk, inp, out ++ bs.take room,
        room - bs.length, text, log⟩) := by
  simp only [fwriteC, CS.blk, hk, hB, hb, putOut, and_self, if_true]

/-- io.c:152-168 -/
theorem writeULong_raw {v : BitVec 32} {id : ID} {attr : String} {w0 : WS} {r : Bool} {w : WS}
    (h : writeULong X.e v id attr w0 = .val (r, w)) :
    callFn X (n + 8) .IFF_writeULong
      [.file .out, .int .uint v.toNat, .int .uint id.toNat, .str attr] (wst X heap tick stk inp text w0) =
    .val (truth r, wst X heap tick stk inp text w) := by
  obtain ⟨out, room, log⟩ := w0
  have hf := @fwrite_int X heap tick room (stk ++ [⟨4, cells [.int .uint (fromHost32 X.e v).toNat]⟩]) inp
    out text (errCalls X.e log) .uint stk.length (fromHost32 X.e v).toNat _ (by decide) (by simp only [ITy.bits])
    toBytes_uint store32_length stk_get0
  simp only [writeULong, M.bind_apply, fwrite, store32_length] at h
  rw [callFn_code rfl]
  by_cases hr : min 4 room = 4
  · simp only [hr, if_true] at h hf
    obtain ⟨rfl, rfl⟩ := pure_inv h
    unfold fromHost32 at hf ⊢
    by_cases hb : X.e.bigEndian = true
    · simp only [hb, if_true] at hf ⊢
      crun [IFF_writeULong.code, Ty.size, scalarSize, ITy.bits, toSize_lit, prim_fwrite, hf,
        blkOf_stk stk_get0, hb, toNat_emod, set_new0]
      rfl
    · simp only [hb, swap32_eq, Bool.false_eq_true, if_false] at hf ⊢
      crun [IFF_writeULong.code, Ty.size, scalarSize, ITy.bits, toSize_lit, prim_fwrite, hf,
        blkOf_stk stk_get0, hb, toNat_emod, band_uint, band_uint_uint, shl_uint, shr_uint, bor_uint, set_new0]
      rfl
  · simp only [hr, if_false, M.bind_apply, WS.emit] at h hf
    obtain ⟨rfl, rfl⟩ := pure_inv h
    unfold fromHost32 at hf ⊢
    by_cases hb : X.e.bigEndian = true
    · simp only [hb, if_true] at hf ⊢
      crun [IFF_writeULong.code, Ty.size, scalarSize, ITy.bits, toSize_lit, prim_fwrite, hf,
        blkOf_stk stk_get0, hb, toNat_emod, set_new0, writeError_run]
      simp only [wst, errCalls_snoc]
      rfl
    · simp only [hb, swap32_eq, Bool.false_eq_true, if_false] at hf ⊢
      crun [IFF_writeULong.code, Ty.size, scalarSize, ITy.bits, toSize_lit, prim_fwrite, hf,
        blkOf_stk stk_get0, hb, toNat_emod, band_uint, band_uint_uint, shl_uint, shr_uint, bor_uint, set_new0, writeError_run]
      simp only [wst, errCalls_snoc]
      rfl

/-- The same, of a state of the heap model. -/
theorem writeULong_run {v : BitVec 32} {id : ID} {attr : String} {s : HX WS} {r : Bool} {w : WS}
    (h : writeULong X.e v id attr s.st = .val (r, w)) :
    callFn X (n + 8) .IFF_writeULong
      [.file .out, .int .uint v.toNat, .int .uint id.toNat, .str attr] (sw X stk inp text s) =
    .val (truth r, sw X stk inp text ⟨s.mem, s.tick, w⟩) :=
  writeULong_raw h

/-- io.c:191-207 -/
theorem writeLong_raw {v : BitVec 32} {id : ID} {attr : String} {w0 : WS} {r : Bool} {w : WS}
    (h : writeLong X.e v id attr w0 = .val (r, w)) :
    callFn X (n + 8) .IFF_writeLong
      [.file .out, .int .int v.toInt, .int .uint id.toNat, .str attr] (wst X heap tick stk inp text w0) =
    .val (truth r, wst X heap tick stk inp text w) := by
  obtain ⟨out, room, log⟩ := w0
  have hf := @fwrite_int X heap tick room (stk ++ [⟨4, cells [.int .int (fromHost32 X.e v).toInt]⟩]) inp
    out text (errCalls X.e log) .int stk.length (fromHost32 X.e v).toInt _ (by decide) (by simp only [ITy.bits])
    toBytes_int store32_length stk_get0
  simp only [writeLong, M.bind_apply, fwrite, store32_length] at h
  rw [callFn_code rfl]
  by_cases hr : min 4 room = 4
  · simp only [hr, if_true] at h hf
    obtain ⟨rfl, rfl⟩ := pure_inv h
    unfold fromHost32 at hf ⊢
    by_cases hb : X.e.bigEndian = true
    · simp only [hb, if_true] at hf ⊢
      crun [IFF_writeLong.code, Ty.size, scalarSize, ITy.bits, toSize_lit, prim_fwrite, hf,
        blkOf_stk stk_get0, hb, wrapInt_toInt, set_new0]
      rfl
    · simp only [hb, swap32_eq, Bool.false_eq_true, if_false] at hf ⊢
      crun [IFF_writeLong.code, Ty.size, scalarSize, ITy.bits, toSize_lit, prim_fwrite, hf,
        blkOf_stk stk_get0, hb, wrapInt_toInt, band_int, band_int_uint, shl_int, shr_int, shr_uint,
        bor_int, bor_int_uint, sshiftRight_band (m := BitVec.ofInt 32 16711680) rfl, set_new0]
      rfl
  · simp only [hr, if_false, M.bind_apply, WS.emit] at h hf
    obtain ⟨rfl, rfl⟩ := pure_inv h
    unfold fromHost32 at hf ⊢
    by_cases hb : X.e.bigEndian = true
    · simp only [hb, if_true] at hf ⊢
      crun [IFF_writeLong.code, Ty.size, scalarSize, ITy.bits, toSize_lit, prim_fwrite, hf,
        blkOf_stk stk_get0, hb, wrapInt_toInt, set_new0, writeError_run]
      simp only [wst, errCalls_snoc]
      rfl
    · simp only [hb, swap32_eq, Bool.false_eq_true, if_false] at hf ⊢
      crun [IFF_writeLong.code, Ty.size, scalarSize, ITy.bits, toSize_lit, prim_fwrite, hf,
        blkOf_stk stk_get0, hb, wrapInt_toInt, band_int, band_int_uint, shl_int, shr_int, shr_uint,
        bor_int, bor_int_uint, sshiftRight_band (m := BitVec.ofInt 32 16711680) rfl, set_new0, writeError_run]
      simp only [wst, errCalls_snoc]
      rfl

/-- The same, of a state of the heap model. -/
theorem writeLong_run {v : BitVec 32} {id : ID} {attr : String} {s : HX WS} {r : Bool} {w : WS}
    (h : writeLong X.e v id attr s.st = .val (r, w)) :
    callFn X (n + 8) .IFF_writeLong
      [.file .out, .int .int v.toInt, .int .uint id.toNat, .str attr] (sw X stk inp text s) =
    .val (truth r, sw X stk inp text ⟨s.mem, s.tick, w⟩) :=
  writeLong_raw h

/-- id.c:32-35 -/
theorem writeId_raw {v id : ID} {attr : String} {w0 : WS} {r : Bool} {w : WS}
    (h : writeId X.e v id attr w0 = .val (r, w)) :
    callFn X (n + 9) .IFF_writeId
      [.file .out, .int .uint v.toNat, .int .uint id.toNat, .str attr] (wst X heap tick stk inp text w0) =
    .val (truth r, wst X heap tick stk inp text w) := by
  have hc := writeULong_raw (n := n) (heap := heap) (tick := tick) (stk := stk) (inp := inp) (text := text) h
  rw [callFn_code rfl]
  crun [IFF_writeId.code, hc, toNat_emod, List.take_length]

/-- The same, of a state of the heap model. -/
theorem writeId_run {v id : ID} {attr : String} {s : HX WS} {r : Bool} {w : WS}
    (h : writeId X.e v id attr s.st = .val (r, w)) :
    callFn X (n + 9) .IFF_writeId
      [.file .out, .int .uint v.toNat, .int .uint id.toNat, .str attr] (sw X stk inp text s) =
    .val (truth r, sw X stk inp text ⟨s.mem, s.tick, w⟩) :=
  writeId_raw h

/-- io.c:271-287 -/
theorem writePaddingByte_run {size : Int} {id : ID} {s : HX WS} {r : Bool} {w : WS} (hs : inInt size)
    (h : writePaddingByte size id s.st = .val (r, w)) :
    callFn X (n + 7) .IFF_writePaddingByte [.file .out, .int .int size, .int .uint id.toNat]
      (sw X stk inp text s) = .val (truth r, sw X stk inp text ⟨s.mem, s.tick, w⟩) := by
  obtain ⟨mem, tick, out, room, log⟩ := s
  rw [callFn_code rfl]
  unfold writePaddingByte at h
  by_cases h1 : isOdd size = true
  · rw [if_pos h1] at h
    simp only [M.bind_apply, fwrite, List.length_cons, List.length_nil, Nat.zero_add] at h
    simp only [isOdd] at h1
    by_cases hr : min 1 room = 1
    · simp only [hr, if_true] at h
      obtain ⟨rfl, rfl⟩ := pure_inv h
      crun [IFF_writePaddingByte.code, wrapInt_of hs, wrapInt_odd, h1, prim_fputc, hr, if_true, List.take_length]
      rfl
    · simp only [hr, if_false, M.bind_apply, WS.emit] at h
      obtain ⟨rfl, rfl⟩ := pure_inv h
      crun [IFF_writePaddingByte.code, wrapInt_of hs, wrapInt_odd, h1, prim_fputc, hr, if_false, error0,
        errorId_run, List.append_assoc, List.cons_append, List.nil_append, List.take_length]
      simp only [sw, errCalls_snoc, Msg.prints]
      rfl
  · rw [if_neg h1] at h
    obtain ⟨rfl, rfl⟩ := pure_inv h
    simp only [isOdd, Bool.not_eq_true] at h1
    crun [IFF_writePaddingByte.code, wrapInt_of hs, wrapInt_odd, h1, List.take_length]
    rfl

theorem malloc_cases {q : Heap.Req} {b : Block} {p : Addr} {s s' : HS}
    (h : Heap.malloc X.alloc q b s = .val (p, s')) :
    (p = 0 ∧ X.pick s.tick (sizes (heapOf X.e s.mem)) (reqBytes X.e q) = none ∧
      s' = ⟨s.mem, s.tick + 1, s.rs⟩) ∨
    (p ≠ 0 ∧ s.mem p = none ∧ X.pick s.tick (sizes (heapOf X.e s.mem)) (reqBytes X.e q) = some p ∧
      s' = ⟨s.mem.set p (some b), s.tick + 1, s.rs⟩) := by
  unfold Heap.malloc at h
  cases hp : X.alloc.pick s.tick s.mem q with
  | none => rw [hp] at h; cases h; exact .inl ⟨rfl, hp, rfl⟩
  | some a =>
    rw [hp] at h; cases h
    obtain ⟨h0, h1⟩ := X.alloc.sound hp
    exact .inr ⟨h0, h1, hp, rfl⟩

theorem cells_zero {k : Nat} :
    cells (List.replicate k (.int .uchar 0)) = byteCells (List.replicate k (some 0)) := by
  funext i
  simp only [cells, byteCells, List.getElem?_replicate, List.getD]
  by_cases h : i < k <;> simp [h]

/-- calloc of the C library -/
theorem calloc_run {k : Nat} {p : Addr} {s s' : HS} (hk : k < 4294967296)
    (h : Heap.malloc X.alloc (.data k) (.bytes (List.replicate k (some 0))) s = .val (p, s')) :
    callFn X (n + 1) .calloc [.int .size k, .int .size 1]
      ⟨heapOf X.e s.mem, s.tick, stk, inp, out, room, text, log⟩ =
      .val (.ptr .void ⟨.heap p, 0⟩, ⟨heapOf X.e s'.mem, s'.tick, stk, inp, out, room, text, log⟩) := by
  have hlt : k * 1 < 2 ^ X.e.sizeBits := by
    rcases X.word with hw | hw <;> rw [hw] <;> omega
  rw [callFn_prim rfl, prim_calloc, toSize_nat hk, toSize_lit (by decide), if_pos hlt, Nat.mul_one]
  rcases malloc_cases h with ⟨rfl, hp, rfl⟩ | ⟨h0, h1, hp, rfl⟩
  · have := mallocC_none (X := X) (stk := stk) (inp := inp) (out := out) (room := room) (text := text)
      (log := log) (c := cells (List.replicate k (.int .uchar 0))) hp
    exact this
  · have := mallocC_some (X := X) (stk := stk) (inp := inp) (out := out) (room := room) (text := text)
      (log := log) (c := cells (List.replicate k (.int .uchar 0))) hp
    rw [heapOf_set]
    simp only [Option.map_some, layout, List.length_replicate]
    rw [← cells_zero]
    exact this

theorem freeHX_run {ω : Type} {p : Addr} {s s' : HX ω} {u : Unit} {t : Ty}
    (h : Heap.heap (Heap.free p) s = .val (u, s')) :
    callFn X (n + 1) .free [.ptr t ⟨.heap p, 0⟩]
      ⟨heapOf X.e s.mem, s.tick, stk, inp, out, room, text, log⟩ =
      .val (.void, ⟨heapOf X.e s'.mem, s'.tick, stk, inp, out, room, text, log⟩) := by
  obtain ⟨h', h1, rfl⟩ := heap_inv h
  rw [call_free, prim_free]
  unfold freeC
  rcases free_inv h1 with ⟨rfl, rfl⟩ | ⟨h0, ⟨b, hb⟩, rfl⟩
  · rfl
  · simp only [if_neg h0, heapOf_some hb, heapOf_set, Option.map_none]

theorem error_size {fmt : String} {x : Int} : callFn X (n + 1) .IFF_error [.str fmt, .int .size x]
    ⟨heap, tick, stk, inp, out, room, text, log⟩ =
      .val (.void, ⟨heap, tick, stk, inp, out, room, text, log ++ [⟨fmt, [.sizeT x.toNat]⟩]⟩) := by
  rw [IFF_error_run]; rfl

theorem mapM_length {α β : Type} {f : α → Option β} : ∀ {l : List α} {r : List β},
    l.mapM f = some r → r.length = l.length
  | [], r, h => by simp at h; subst h; rfl
  | a :: l, r, h => by
    rw [List.mapM_cons] at h
    cases hf : f a with
    | none => rw [hf] at h; cases h
    | some b =>
      rw [hf] at h
      cases hl : l.mapM f with
      | none => rw [hl] at h; cases h
      | some bs =>
        rw [hl] at h
        cases h
        simp only [List.length_cons, mapM_length hl]

theorem getBytes_length {B : Blk} {k : Nat} {bs : List Byte} (h : B.getBytes k = some bs) :
    bs.length = k := by
  rw [mapM_length h, List.length_range]

theorem truth_true : truth true = .int .int 1 := rfl
theorem truth_false : truth false = .int .int 0 := rfl

/-- io.c:229-249 -/
theorem writeZeroFillerBytes_run {id : ID} {size bp : Int} {s s' : HX WS} {r : Bool}
    (hs : inInt size) (hbp : inInt bp)
    (h : Heap.writeZeroFillerBytes X.alloc id size bp s = .val (r, s')) : s'.mem = s.mem ∧
    callFn X (n + 7) .IFF_writeZeroFillerBytes
      [.file .out, .int .uint id.toNat, .int .int size, .int .int bp] (sw X stk inp text s) =
    .val (truth r, sw X stk inp text s') := by
  unfold Heap.writeZeroFillerBytes at h
  by_cases h1 : bp < size
  · rw [if_pos h1] at h
    obtain ⟨d, s1, h2, k2⟩ := bind_inv h
    obtain ⟨hd, rfl⟩ := ofOut_inv h2
    unfold subInt at hd
    by_cases hi : inInt (size - bp)
    · rw [if_pos hi] at hd
      cases hd
      obtain ⟨p, s2, h3, k3⟩ := bind_inv k2
      obtain ⟨hs2, h3', rfl⟩ := heap_inv h3
      have hk : (size - bp).toNat < 4294967296 := by simp only [inInt] at hi; omega
      have hts : toSize X.e (size - bp) = (size - bp).toNat := toSize_lt (by omega) (by simp only [inInt] at hi; omega)
      have hcal : ∀ n (log : List ErrPrint), _ := fun n log =>
        calloc_run (X := X) (n := n) (stk := stk) (inp := inp) (out := s1.st.out) (room := s1.st.room)
          (text := text) (log := log) hk h3'
      obtain ⟨bs, s3, h4, k4⟩ := bind_inv k3
      obtain ⟨rfl, B, hB, hBs, hBb⟩ := hreadBytes (X := X) h4
      obtain ⟨k, s4, h5, k5⟩ := bind_inv k4
      obtain ⟨w, h5', rfl⟩ := dev_inv h5
      simp only [fwrite] at h5'
      cases h5'
      have hfw := @fwrite_bytes X (heapOf X.e hs2.mem) hs2.tick s1.st.room stk inp s1.st.out text
        (errCalls X.e s1.st.log) p _ B bs hB hBs hBb
      have hlen := getBytes_length hBb
      have hmn : toSize X.e ((min bs.length s1.st.room : Nat) : Int) = min bs.length s1.st.room :=
        toSize_nat (by omega)
      have hmem : ∀ (st2 : WS) (u : Unit) (s5 : HX WS),
          Heap.heap (Heap.free p) ⟨hs2.mem, hs2.tick, st2⟩ = .val (u, s5) → s5.mem = s1.mem ∧ s5.st = st2 := by
        intro st2 u s5 hf
        obtain ⟨hs5, hf', rfl⟩ := heap_inv hf
        refine ⟨?_, rfl⟩
        rcases malloc_cases h3' with ⟨rfl, -, rfl⟩ | ⟨h0, hn, -, rfl⟩
        · rcases free_inv hf' with ⟨-, rfl⟩ | ⟨h0, -, -⟩
          · rfl
          · exact absurd rfl h0
        · rcases free_inv hf' with ⟨h0', -⟩ | ⟨-, -, rfl⟩
          · exact absurd h0' h0
          · funext x
            simp only [Mem.set]
            by_cases hx : x = p
            · subst hx; simp only [if_true]; exact hn.symm
            · simp [hx]
      by_cases hk2 : min bs.length s1.st.room = (size - bp).toNat
      · simp only [if_pos hk2] at k5
        obtain ⟨u, s5, h6, k6⟩ := bind_inv k5
        obtain ⟨rfl, rfl⟩ := pure_inv k6
        obtain ⟨hm1, hm2⟩ := hmem _ _ _ h6
        refine ⟨hm1, ?_⟩
        have hfr := freeHX_run (X := X) (n := n + 5) (stk := stk) (inp := inp) (out := s1.st.out ++ bs.take s1.st.room)
          (room := s1.st.room - bs.length) (text := text) (log := errCalls X.e s1.st.log) (t := .int .uchar) h6
        rw [callFn_code rfl]
        have hcal := hcal (n + 5) (errCalls X.e s1.st.log)
        rw [call_calloc] at hcal
        rw [call_free] at hfr
        crun [IFF_writeZeroFillerBytes.code, wrapInt_of hs, wrapInt_of hbp, h1, hi, hts, toSize_nat hk, Ty.size, scalarSize, ITy.bits, toSize_lit, hcal, prim_fwrite, hfw, hk2, beq_self_eq_true, hfr, truth_true, List.take_length]
        simp only [sw, hm2]
      · simp only [if_neg hk2] at k5
        obtain ⟨u, s5, h6, k6⟩ := bind_inv k5
        obtain ⟨w, h6', rfl⟩ := dev_inv h6
        cases h6'
        obtain ⟨u, s5, h7, k7⟩ := bind_inv k6
        obtain ⟨rfl, rfl⟩ := pure_inv k7
        obtain ⟨hm1, hm2⟩ := hmem _ _ _ h7
        refine ⟨hm1, ?_⟩
        have hfr := freeHX_run (X := X) (n := n + 5) (stk := stk) (inp := inp) (out := s1.st.out ++ bs.take s1.st.room)
          (room := s1.st.room - bs.length) (text := text) (log := errCalls X.e (s1.st.log ++ [Msg.fillerFailed (size - bp).toNat id])) (t := .int .uchar) h7
        rw [callFn_code rfl]
        have hcal := hcal (n + 5) (errCalls X.e s1.st.log)
        rw [call_calloc] at hcal
        rw [call_free] at hfr
        have hk3 : (((min bs.length s1.st.room : Nat) : Int) == ((size - bp).toNat : Int)) = false := by
          rw [beq_eq_false_iff_ne]; omega
        simp only [errCalls_snoc, Msg.prints, List.append_assoc, List.cons_append, List.nil_append] at hfr
        crun [IFF_writeZeroFillerBytes.code, wrapInt_of hs, wrapInt_of hbp, h1, hi, hts, toSize_nat hk, Ty.size, scalarSize, ITy.bits, toSize_lit, hcal, prim_fwrite, hfw, hmn, hk3, truth_false, error_size, errorId_run, error0, Int.toNat_natCast, List.append_assoc, List.cons_append, List.nil_append, hfr, List.take_length]
        simp only [sw, hm2, errCalls_snoc, Msg.prints]
        rfl
    · rw [if_neg hi] at hd; cases hd
  · rw [if_neg h1] at h
    obtain ⟨rfl, rfl⟩ := pure_inv h
    refine ⟨rfl, ?_⟩
    rw [callFn_code rfl]
    crun [IFF_writeZeroFillerBytes.code, wrapInt_of hs, wrapInt_of hbp, h1, List.take_length]
    rfl

/-- field.c:171-187 -/
theorem writeIdField_run {a sz : Nat} {c0 : Cell} {rest : List Cell} {id ty : ID} {size bp bp' : Int}
    {attr : String} {fs : FieldStatus} {s : HX WS} {w : WS}
    (ha : heapOf X.e s.mem a = some ⟨sz, cells (c0 :: .int .uint id.toNat :: .int .int size :: rest)⟩)
    (hsz : Struct.size X.e .IFF_Chunk ≤ sz) (hs : inInt size) (hbp : inInt bp)
    (h : writeField X.e (.id ty) id size attr bp s.st = .val ((fs, bp'), w)) :
    callFn X (n + 10) .IFF_writeIdField
      [.file .out, .int .uint ty.toNat, .ptr (.struct .IFF_Chunk) ⟨.heap a, 0⟩,
        .str attr, .ptr (.int .int) ⟨.stk stk.length, 0⟩]
      (sw X (stk ++ [⟨4, cells [.int .int bp]⟩]) inp text s) =
    .val (statusVal fs, sw X (stk ++ [⟨4, cells [.int .int bp']⟩]) inp text ⟨s.mem, s.tick, w⟩) := by
  unfold writeField at h
  have hd := @doesNotFit_run X (n + 8) 4 size bp
    (sw X (stk ++ [⟨4, cells [.int .int bp]⟩]) inp text s) (by decide) hs hbp
  have hk : FieldKind.size (Val.kind (.id ty)) = 4 := rfl
  rw [hk] at h
  simp only [Int.cast_ofNat_Int] at hd
  rw [callFn_code rfl]
  by_cases h1 : fieldDoesNotFitInChunk X.e 4 size bp = true
  · rw [if_pos h1] at h
    obtain ⟨h2, rfl⟩ := pure_inv h
    cases h2
    rw [h1] at hd
    crun [IFF_writeIdField.code, Ty.size, scalarSize, ITy.bits, toSize_lit, blkOf_heap ha, hsz,
      blkOf_stk stk_get0, hd, IFF_FIELD_LAST, toNat_emod]
    rfl
  · rw [if_neg h1] at h
    simp only [Bool.not_eq_true] at h1
    rw [h1] at hd
    obtain ⟨r, w1, h2, k2⟩ := bind_inv h
    have hw := writeId_run (n := n) (stk := stk ++ [⟨4, cells [.int .int bp]⟩]) (inp := inp) (text := text) h2
    cases r with
    | true =>
      obtain ⟨h3, rfl⟩ := pure_inv k2
      cases h3
      have hi := @increase_run X (n + 8) (heapOf X.e s.mem) s.tick w.room stk inp w.out text
        (errCalls X.e w.log) 4 bp (by decide)
      simp only [Int.cast_ofNat_Int] at hi
      crun [IFF_writeIdField.code, Ty.size, scalarSize, ITy.bits, toSize_lit, blkOf_heap ha, hsz,
        blkOf_stk stk_get0, hd, IFF_FIELD_MORE, hw, hi, toNat_emod]
      rfl
    | false =>
      obtain ⟨h3, rfl⟩ := pure_inv k2
      cases h3
      crun [IFF_writeIdField.code, Ty.size, scalarSize, ITy.bits, toSize_lit, blkOf_heap ha, hsz,
        blkOf_stk stk_get0, hd, IFF_FIELD_FAILURE, hw, toNat_emod]
      rfl

theorem toSize_le {e : Env} {x : Int} {k : Nat} (h : k ≤ toSize e x) : toSize e (k : Int) = k := by
  have hp : (0 : Int) < ((2 ^ e.sizeBits : Nat) : Int) := by
    have := Nat.two_pow_pos e.sizeBits; omega
  have h1 : x % ((2 ^ e.sizeBits : Nat) : Int) < ((2 ^ e.sizeBits : Nat) : Int) := Int.emod_lt_of_pos _ hp
  have h2 : 0 ≤ x % ((2 ^ e.sizeBits : Nat) : Int) := Int.emod_nonneg _ (by omega)
  simp only [toSize] at h ⊢
  have hr : ((2 ^ e.sizeBits : Nat) : Int) = (2 : Int) ^ e.sizeBits := by simp
  try rw [← hr] at h
  try rw [← hr]
  rw [Int.emod_eq_of_lt (by omega) (by omega)]
  rfl

/-- rawchunk.c:86-102 -/
theorem writeRawChunk_run {q : Ptr} {p : Addr} {bp bp' : Int} {s s' : HX WS} {r : Bool}
    (hm : Rep s.mem) (hbp : inInt bp)
    (h : Heap.writeRawChunk X.e p bp s = .val ((r, bp'), s')) :
    s'.mem = s.mem ∧ inInt bp' ∧ callFn X (n + 7) .IFF_writeRawChunk
      [.file .out, .ptr (.struct .IFF_Chunk) ⟨.heap p, 0⟩, .ptr (.struct .IFF_ChunkRegistry) q,
        .ptr (.int .int) ⟨.stk stk.length, 0⟩]
      (sw X (stk ++ [⟨4, cells [.int .int bp]⟩]) inp text s) =
    .val (truth r, sw X (stk ++ [⟨4, cells [.int .int bp']⟩]) inp text s') := by
  unfold Heap.writeRawChunk at h
  obtain ⟨d, s1, h1, k1⟩ := bind_inv h
  clear h
  obtain ⟨rfl, hd, hp⟩ := hgetRaw h1
  obtain ⟨hd2, s2, h3, k3⟩ := bind_inv k1
  obtain ⟨rfl, -, -, -, ⟨b, hb1, hb2⟩, -⟩ := hgetHdr (X := X) h3
  rw [hp] at hb1; cases hb1; cases hb2
  obtain ⟨bs, s3, h4, k4⟩ := bind_inv k3
  obtain ⟨rfl, B, hB, hBs, hBb⟩ := hreadBytes (X := X) h4
  obtain ⟨k, s4, h5, k5⟩ := bind_inv k4
  obtain ⟨w, h5', rfl⟩ := dev_inv h5
  simp only [fwrite] at h5'
  cases h5'
  have hs : inInt hd.size := hm.hdr hp rfl
  have hb := heapOf_some (e := X.e) hp
  have hlen := getBytes_length hBb
  have hfw := @fwrite_bytes X (heapOf X.e s3.mem) s3.tick s3.st.room (stk ++ [⟨4, cells [.int .int bp]⟩]) inp s3.st.out text
        (errCalls X.e s3.st.log) d _ B bs hB hBs hBb
  have hmn : toSize X.e ((min bs.length s3.st.room : Nat) : Int) = min bs.length s3.st.room := by
    apply toSize_le (x := hd.size)
    omega
  by_cases hlt : min bs.length s3.st.room < toSize X.e hd.size
  · simp only [if_pos hlt] at k5
    obtain ⟨u, s5, h6, k6⟩ := bind_inv k5
    obtain ⟨w, h6', rfl⟩ := dev_inv h6
    cases h6'
    obtain ⟨h7, rfl⟩ := pure_inv k6
    cases h7
    refine ⟨rfl, hbp, ?_⟩
    rw [callFn_code rfl]
    crun [IFF_writeRawChunk.code, blkOf_heap hb, layout, hdrCells, List.cons_append, List.nil_append,
      Ty.size, scalarSize, ITy.bits, toSize_lit, prim_fwrite, toSize_toSize, hfw, hmn, Int.ofNat_lt, hlt,
      decide_true, error0, errorId_run, toNat_emod, List.append_assoc]
    simp only [sw, errCalls_snoc, Msg.prints]
    rfl
  · simp only [if_neg hlt] at k5
    obtain ⟨x, s5, h6, k6⟩ := bind_inv k5
    obtain ⟨hx, rfl⟩ := ofOut_inv h6
    obtain ⟨hi, rfl⟩ := addInt_inv hx
    obtain ⟨h7, rfl⟩ := pure_inv k6
    cases h7
    refine ⟨rfl, hi, ?_⟩
    rw [callFn_code rfl]
    crun [IFF_writeRawChunk.code, blkOf_heap hb, layout, hdrCells, List.cons_append, List.nil_append,
      Ty.size, scalarSize, ITy.bits, toSize_lit, prim_fwrite, toSize_toSize, hfw, hmn, Int.ofNat_lt, hlt,
      decide_false, blkOf_stk stk_get0, wrapInt_of hs, wrapInt_of hbp, hi, wrapInt_of hi]
    rfl

end

end Iff.Src
