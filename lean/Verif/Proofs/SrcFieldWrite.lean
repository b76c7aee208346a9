import Verif.Proofs.SrcFields
import Verif.Proofs.SrcWriteIo
/-
  The writers of io.c, id.c and field.c for all kinds of fields.
-/
namespace Iff.Src
set_option maxRecDepth 4000
open Heap (Addr Block Mem HS Hdr Grp Lst HX)

section
variable {X : Cfg} {n : Nat} {heap : Nat → Option Blk} {tick room : Nat} {stk : List Blk}
  {inp out text : List Byte} {log : List ErrPrint}

theorem store16_length {e : Env} {v : BitVec 16} : (store16 e v).length = 2 := by
  simp only [store16]; split <;> rfl

theorem byte_at16 (i : Nat) {v : BitVec 16} :
    BitVec.ofNat 8 (v.toNat / 256 ^ i) = v.extractLsb' (8 * i) 8 := by
  apply BitVec.eq_of_toNat_eq
  rw [BitVec.toNat_ofNat, BitVec.extractLsb'_toNat, Nat.shiftRight_eq_div_pow, Nat.pow_mul]

theorem toBytes16 {t : ITy} {x : Int} {v : BitVec 16} (ht : t.bits X.e = 16)
    (hx : (BitVec.ofInt (t.bits X.e) x).toNat = v.toNat) : toBytes X.e t x = store16 X.e v := by
  unfold toBytes store16
  simp only [hx]
  rw [show t.bits X.e / 8 = 2 from by rw [ht]]
  simp only [byte_at16, show List.range 2 = [0, 1] from rfl, List.map, Nat.reduceMul]
  by_cases hb : X.e.bigEndian = true
  · rw [if_pos hb, if_pos hb]; rfl
  · rw [if_neg hb, if_neg hb]

theorem fwrite_short {t : ITy} {k : Nat} {x : Int} {bs : List Byte} (ht : t ≠ .uchar)
    (hs : t.bits X.e / 8 = 2) (hb : toBytes X.e t x = bs) (hl : bs.length = 2)
    (hk : stk[k]? = some ⟨2, cells [.int t x]⟩) :
    fwriteC X t ⟨.stk k, 0⟩ 2 1 ⟨heap, tick, stk, inp, out, room, text, log⟩ =
      .val (.int .size (if min 2 room = 2 then 1 else 0), ⟨heap, tick, stk, inp, out ++ bs.take room,
        room - 2, text, log⟩) := by
  subst hb
  simp only [fwriteC, CS.blk, hk, ht, hs, cells_0, putOut, hl, and_self, and_true, if_true, and_false, if_false]

/-- io.c:42-51 -/
theorem writeUByte_raw {v : Byte} {id : ID} {attr : String} {w0 w : WS} {r : Bool}
    (h : writeUByte v id attr w0 = .val (r, w)) :
    callFn X (n + 8) .IFF_writeUByte
      [.file .out, .int .uchar v.toNat, .int .uint id.toNat, .str attr] (wst X heap tick stk inp text w0) =
    .val (truth r, wst X heap tick stk inp text w) := by
  obtain ⟨out, room, log⟩ := w0
  have h3 : (v.toNat : Int) % 256 = v.toNat := by omega
  have h2 : ((v.toNat : Int) == -1) = false := by rw [beq_eq_false_iff_ne]; omega
  have h4 : wrapInt (v.toNat : Int) = v.toNat := wrapInt_of (by simp only [inInt]; omega)
  simp only [writeUByte, M.bind_apply, fwrite, List.length_cons, List.length_nil, Nat.zero_add] at h
  rw [callFn_code rfl]
  by_cases hr : min 1 room = 1
  · simp only [hr, if_true] at h
    obtain ⟨rfl, rfl⟩ := pure_inv h
    crun [IFF_writeUByte.code, prim_fputc, hr, if_true, h2, h3, h4, List.take_length]
    simp
    rfl
  · simp only [hr, if_false, M.bind_apply, WS.emit] at h
    obtain ⟨rfl, rfl⟩ := pure_inv h
    crun [IFF_writeUByte.code, prim_fputc, hr, if_false, h3, h4, writeError_run, List.take_length]
    simp only [wst, errCalls_snoc]
    simp
    rfl

/-- io.c:75-91 -/
theorem writeUWord_raw {v : BitVec 16} {id : ID} {attr : String} {w0 w : WS} {r : Bool}
    (h : writeUWord X.e v id attr w0 = .val (r, w)) :
    callFn X (n + 8) .IFF_writeUWord
      [.file .out, .int .ushort v.toNat, .int .uint id.toNat, .str attr] (wst X heap tick stk inp text w0) =
    .val (truth r, wst X heap tick stk inp text w) := by
  obtain ⟨out, room, log⟩ := w0
  have hf := @fwrite_short X heap tick room (stk ++ [⟨2, cells [.int .ushort (fromHost16 X.e v).toNat]⟩]) inp
    out text (errCalls X.e log) .ushort stk.length (fromHost16 X.e v).toNat _ (by decide) (by simp only [ITy.bits])
    (toBytes16 rfl (by
      show (BitVec.ofInt 16 ((fromHost16 X.e v).toNat : Int)).toNat = _
      rw [BitVec.ofInt_natCast, BitVec.ofNat_toNat, BitVec.setWidth_eq])) store16_length stk_get0
  have hm : ∀ v : BitVec 16, convI X.e .ushort (v.toNat : Int) = v.toNat := by
    intro v; show (v.toNat : Int) % 65536 = _; have := v.isLt; omega
  have hm' : ∀ x : BitVec 32, convI X.e .ushort x.toInt = (x.setWidth 16).toNat := fun x => convI_ushort (e := X.e)
  simp only [writeUWord, M.bind_apply, fwrite, store16_length] at h
  rw [callFn_code rfl]
  by_cases hr : min 2 room = 2
  · simp only [hr, if_true] at h hf
    obtain ⟨rfl, rfl⟩ := pure_inv h
    unfold fromHost16 at hf ⊢
    by_cases hb : X.e.bigEndian = true
    · simp only [hb, if_true] at hf ⊢
      crun [IFF_writeUWord.code, Ty.size, scalarSize, ITy.bits, toSize_lit, prim_fwrite, hf,
        blkOf_stk stk_get0, hb, hm, set_new0]
      rfl
    · simp only [hb, Bool.false_eq_true, if_false] at hf ⊢
      crun [IFF_writeUWord.code, Ty.size, scalarSize, ITy.bits, toSize_lit, prim_fwrite, hf,
        blkOf_stk stk_get0, hb, hm, hm', band_ushort, shl_int, shr_int, bor_int, swap_zero, set_new0]
      rfl
  · simp only [hr, if_false, M.bind_apply, WS.emit] at h hf
    obtain ⟨rfl, rfl⟩ := pure_inv h
    unfold fromHost16 at hf ⊢
    by_cases hb : X.e.bigEndian = true
    · simp only [hb, if_true] at hf ⊢
      crun [IFF_writeUWord.code, Ty.size, scalarSize, ITy.bits, toSize_lit, prim_fwrite, hf,
        blkOf_stk stk_get0, hb, hm, set_new0, writeError_run]
      simp only [wst, errCalls_snoc]
      rfl
    · simp only [hb, Bool.false_eq_true, if_false] at hf ⊢
      crun [IFF_writeUWord.code, Ty.size, scalarSize, ITy.bits, toSize_lit, prim_fwrite, hf,
        blkOf_stk stk_get0, hb, hm, hm', band_ushort, shl_int, shr_int, bor_int, swap_zero, set_new0, writeError_run]
      simp only [wst, errCalls_snoc]
      rfl

/-- io.c:114-129 -/
theorem writeWord_raw {v : BitVec 16} {id : ID} {attr : String} {w0 w : WS} {r : Bool}
    (h : writeWord X.e v id attr w0 = .val (r, w)) :
    callFn X (n + 8) .IFF_writeWord
      [.file .out, .int .short v.toInt, .int .uint id.toNat, .str attr] (wst X heap tick stk inp text w0) =
    .val (truth r, wst X heap tick stk inp text w) := by
  obtain ⟨out, room, log⟩ := w0
  have hf := @fwrite_short X heap tick room (stk ++ [⟨2, cells [.int .short (fromHost16 X.e v).toInt]⟩]) inp
    out text (errCalls X.e log) .short stk.length (fromHost16 X.e v).toInt _ (by decide) (by simp only [ITy.bits])
    (toBytes16 rfl (by
      show (BitVec.ofInt 16 (fromHost16 X.e v).toInt).toNat = _
      rw [BitVec.ofInt_toInt])) store16_length stk_get0
  have hm : ∀ v : BitVec 16, convI X.e .short v.toInt = v.toInt := by
    intro v; show (BitVec.ofInt 16 v.toInt).toInt = _; rw [BitVec.ofInt_toInt]
  have hm' : ∀ x : BitVec 32, convI X.e .short x.toInt = (x.setWidth 16).toInt :=
    fun x => convI_short (e := X.e)
  simp only [writeWord, M.bind_apply, fwrite, store16_length] at h
  rw [callFn_code rfl]
  by_cases hr : min 2 room = 2
  · simp only [hr, if_true] at h hf
    obtain ⟨rfl, rfl⟩ := pure_inv h
    unfold fromHost16 at hf ⊢
    by_cases hb : X.e.bigEndian = true
    · simp only [hb, if_true] at hf ⊢
      crun [IFF_writeWord.code, Ty.size, scalarSize, ITy.bits, toSize_lit, prim_fwrite, hf,
        blkOf_stk stk_get0, hb, hm, set_new0]
      rfl
    · simp only [hb, Bool.false_eq_true, if_false] at hf ⊢
      crun [IFF_writeWord.code, Ty.size, scalarSize, ITy.bits, toSize_lit, prim_fwrite, hf,
        blkOf_stk stk_get0, hb, hm, hm', band_short, shl_int, shr_int, bor_int, swap_sign, set_new0]
      rfl
  · simp only [hr, if_false, M.bind_apply, WS.emit] at h hf
    obtain ⟨rfl, rfl⟩ := pure_inv h
    unfold fromHost16 at hf ⊢
    by_cases hb : X.e.bigEndian = true
    · simp only [hb, if_true] at hf ⊢
      crun [IFF_writeWord.code, Ty.size, scalarSize, ITy.bits, toSize_lit, prim_fwrite, hf,
        blkOf_stk stk_get0, hb, hm, set_new0, writeError_run]
      simp only [wst, errCalls_snoc]
      rfl
    · simp only [hb, Bool.false_eq_true, if_false] at hf ⊢
      crun [IFF_writeWord.code, Ty.size, scalarSize, ITy.bits, toSize_lit, prim_fwrite, hf,
        blkOf_stk stk_get0, hb, hm, hm', band_short, shl_int, shr_int, bor_int, swap_sign, set_new0, writeError_run]
      simp only [wst, errCalls_snoc]
      rfl

/-- io.c:42-51, 75-91, 114-129, 152-168, 191-207, id.c:32-35 -/
theorem writeVal_run {v : Val} {id : ID} {attr : String} {w0 w : WS} {r : Bool}
    (h : writeVal X.e v id attr w0 = .val (r, w)) :
    callFn X (n + 9) (writerOf v.kind) [.file .out, .int (ctype v.kind) (number v), .int .uint id.toNat, .str attr]
      (wst X heap tick stk inp text w0) = .val (truth r, wst X heap tick stk inp text w) := by
  cases v with
  | ubyte v => exact writeUByte_raw (n := n + 1) h
  | uword v => exact writeUWord_raw (n := n + 1) h
  | word v => exact writeWord_raw (n := n + 1) h
  | ulong v => exact writeULong_raw (n := n + 1) h
  | long v => exact writeLong_raw (n := n + 1) h
  | id v => exact writeId_raw h

/-- field.c:56-69, 86-99, 116-129, 146-159, 176-189, 206-219 -/
theorem writeField_run {v : Val} {a sz j : Nat} {c0 : Cell} {rest : List Cell} {id : ID} {size bp bp' : Int}
    {attr : String} {st : FieldStatus} {w0 w : WS}
    (ha : heap a = some ⟨sz, cells (c0 :: .int .uint id.toNat :: .int .int size :: rest)⟩)
    (hsz : Struct.size X.e .IFF_Chunk ≤ sz) (hs : inInt size) (hbp : inInt bp)
    (hj : stk[j]? = some ⟨4, cells [.int .int bp]⟩)
    (h : writeField X.e v id size attr bp w0 = .val ((st, bp'), w)) :
    callFn X (n + 11) (fieldWriterOf v.kind)
      [.file .out, .int (ctype v.kind) (number v), .ptr (.struct .IFF_Chunk) ⟨.heap a, 0⟩,
        .str attr, .ptr (.int .int) ⟨.stk j, 0⟩] (wst X heap tick stk inp text w0) =
    .val (statusVal st, wst X heap tick (stk.set j ⟨4, cells [.int .int bp']⟩) inp text w) := by
  have hnum : convI X.e (ctype v.kind) (number v) = number v := by
    cases v with
    | ubyte v => show (v.toNat : Int) % 256 = v.toNat; omega
    | uword v => show (v.toNat : Int) % 65536 = v.toNat; omega
    | word v => show (BitVec.ofInt 16 v.toInt).toInt = v.toInt; rw [BitVec.ofInt_toInt]
    | ulong v => exact toNat_emod v
    | long v => exact wrapInt_toInt v
    | id v => exact toNat_emod v
  unfold writeField at h
  have hks : v.kind.size < 256 := by cases v <;> simp only [Val.kind] <;> decide
  have hd := @doesNotFit_run X (n + 9) v.kind.size size bp (wst X heap tick stk inp text w0) hks hs hbp
  by_cases h1 : fieldDoesNotFitInChunk X.e v.kind.size size bp = true
  · rw [if_pos h1] at h
    obtain ⟨h2, rfl⟩ := pure_inv h
    cases h2
    rw [h1] at hd
    rw [set_self hj]
    cases v <;> simp only [Val.kind, FieldKind.size, fieldWriterOf, ctype, Int.cast_ofNat_Int, convI_int, convI_uint, convI_uchar] at hd hnum ⊢ <;> rw [callFn_code rfl] <;>
      crun [IFF_writeUByteField.code, IFF_writeUWordField.code, IFF_writeWordField.code, IFF_writeULongField.code,
        IFF_writeLongField.code, IFF_writeIdField.code, Ty.size, scalarSize, ITy.bits, toSize_lit, blkOf_heap ha, hsz,
        blkOf_stk hj, hd, hnum, IFF_FIELD_LAST, List.take_length] <;> rfl
  · rw [if_neg h1] at h
    simp only [Bool.not_eq_true] at h1
    rw [h1] at hd
    obtain ⟨r, w1, h2, k2⟩ := bind_inv h
    have hr := @writeVal_run X (n + 1) heap tick stk inp text v id attr w0 w1 r h2
    cases r with
    | false =>
      obtain ⟨h3, rfl⟩ := pure_inv k2
      cases h3
      rw [set_self hj]
      cases v <;> simp only [Val.kind, FieldKind.size, fieldWriterOf, writerOf, ctype, Int.cast_ofNat_Int, convI_int, convI_uint, convI_uchar] at hd hnum hr ⊢ <;> rw [callFn_code rfl] <;>
        crun [IFF_writeUByteField.code, IFF_writeUWordField.code, IFF_writeWordField.code, IFF_writeULongField.code,
          IFF_writeLongField.code, IFF_writeIdField.code, Ty.size, scalarSize, ITy.bits, toSize_lit, blkOf_heap ha, hsz,
          blkOf_stk hj, hd, hnum, hr, IFF_FIELD_FAILURE, List.take_length] <;> rfl
    | true =>
      obtain ⟨h3, rfl⟩ := pure_inv k2
      cases h3
      have hi := @increase_at X (n + 9) heap tick w.room stk inp w.out text (errCalls X.e w.log) v.kind.size j bp hks hj
      have ht : ∀ b : Blk, (stk.set j b).take stk.length = stk.set j b := by
        intro b; rw [List.take_of_length_le (by simp)]
      cases v <;> simp only [Val.kind, FieldKind.size, fieldWriterOf, writerOf, ctype, Int.cast_ofNat_Int, convI_int, convI_uint, convI_uchar] at hd hnum hr hi ⊢ <;> rw [callFn_code rfl] <;>
        crun [IFF_writeUByteField.code, IFF_writeUWordField.code, IFF_writeWordField.code, IFF_writeULongField.code,
          IFF_writeLongField.code, IFF_writeIdField.code, Ty.size, scalarSize, ITy.bits, toSize_lit, blkOf_heap ha, hsz,
          blkOf_stk hj, hd, hnum, hr, hi, IFF_FIELD_MORE, ht] <;> rfl

end

end Iff.Src
