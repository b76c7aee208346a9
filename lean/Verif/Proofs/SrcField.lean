import Verif.Proofs.SrcHeap
import Mathlib.Tactic.IntervalCases
/-
  The functions of io.c and field.c that only applications use.
-/
namespace Iff.Src
set_option maxRecDepth 4000
open Heap (Addr Block Mem HS Hdr Grp Lst)

/-! ### 16-bit integers -/

section
variable {e : Env} {v : BitVec 16} {k : Int} {x : BitVec 32}

theorem toInt_setWidth : (v.setWidth 32).toInt = v.toNat := by
  rw [BitVec.toInt_setWidth, Int.bmod_eq_of_le (by omega) (by have := v.isLt; omega)]

theorem toInt_signExtend : (v.signExtend 32).toInt = v.toInt := by
  rw [BitVec.toInt_signExtend_of_le (by decide)]

theorem band_ushort : binop e .band (.int .ushort v.toNat) (.int .int k) =
    .val (.int .int (v.setWidth 32 &&& BitVec.ofInt 32 k).toInt) := by
  rw [← band_int (e := e), toInt_setWidth]
  rfl

theorem band_short : binop e .band (.int .short v.toInt) (.int .int k) =
    .val (.int .int (v.signExtend 32 &&& BitVec.ofInt 32 k).toInt) := by
  rw [← band_int (e := e), toInt_signExtend]
  rfl

theorem convI_ushort : convI e .ushort x.toInt = (x.setWidth 16).toNat := by
  show x.toInt % 65536 = _
  rw [BitVec.toNat_setWidth, BitVec.toInt_eq_toNat_bmod, Int.bmod_def]
  omega

theorem convI_short : convI e .short x.toInt = (x.setWidth 16).toInt := by
  show (BitVec.ofInt 16 x.toInt).toInt = _
  congr 1
  apply BitVec.eq_of_toNat_eq
  rw [BitVec.toNat_ofInt, BitVec.toNat_setWidth, BitVec.toInt_eq_toNat_bmod, Int.bmod_def]
  omega

theorem swap_zero : BitVec.setWidth 16 ((v.setWidth 32 &&& BitVec.ofInt 32 255) <<< 8 |||
    (v.setWidth 32 &&& BitVec.ofInt 32 65280).sshiftRight 8) = swap16 v := by
  rw [sshiftRight_band rfl]
  ext i hi
  interval_cases i <;> simp [swap16]

theorem swap_sign : BitVec.setWidth 16 ((v.signExtend 32 &&& BitVec.ofInt 32 255) <<< 8 |||
    (v.signExtend 32 &&& BitVec.ofInt 32 65280).sshiftRight 8) = swap16 v := by
  rw [sshiftRight_band rfl]
  ext i hi
  interval_cases i <;> simp [swap16, BitVec.getElem_signExtend]
end

section
variable {X : Cfg} {n : Nat} {heap : Nat → Option Blk} {tick room : Nat} {stk : List Blk}
  {inp out text : List Byte} {log : List ErrPrint}

theorem toNat_append16 {b0 b1 : Byte} : (b0 ++ b1 : BitVec 16).toNat = b0.toNat * 256 + b1.toNat := by
  rw [BitVec.toNat_append, ← Nat.shiftLeft_add_eq_or_of_lt b1.isLt, Nat.shiftLeft_eq]

theorem fromBytes16 {b0 b1 : Byte} :
    fromBytes X.e .ushort [b0, b1] = (load16 X.e b0 b1).toNat ∧
    fromBytes X.e .short [b0, b1] = (load16 X.e b0 b1).toInt := by
  have key : ((if X.e.bigEndian then [b0, b1] else [b0, b1].reverse).foldl
      (fun (n : Nat) b => n * 256 + b.toNat) 0) = (load16 X.e b0 b1).toNat := by
    unfold load16
    split <;> rw [toNat_append16] <;> simp
  simp only [fromBytes, key]
  constructor
  · show ((load16 X.e b0 b1).toNat : Int) % 65536 = _
    have := (load16 X.e b0 b1).isLt
    omega
  · show (BitVec.ofInt 16 ((load16 X.e b0 b1).toNat : Int)).toInt = _
    rw [BitVec.ofInt_natCast, BitVec.ofNat_toNat, BitVec.setWidth_eq]

/-- io.c:26-40 -/
theorem readUByte_ok {p : Ptr} {id : ID} {attr : String} {b : Byte} {rest : List Byte}
    {heap' : Nat → Option Blk} {stk' : List Blk} (hl : stk'.length = stk.length)
    (hp : Stores X heap stk p (.int .uchar b.toNat) heap' stk') :
    callFn X (n + 8) .IFF_readUByte
      [.file .inp, .ptr (.int .uchar) p, .int .uint id.toNat, .str attr]
      ⟨heap, tick, stk, b :: rest, out, room, text, log⟩ =
    .val (.int .int 1, ⟨heap', tick, stk', rest, out, room, text, log⟩) := by
  have hb : wrapInt (b.toNat : Int) = b.toNat := wrapInt_of (by simp only [inInt]; omega)
  have h2 : ((b.toNat : Int) == -1) = false := by rw [beq_eq_false_iff_ne]; omega
  have h3 : (b.toNat : Int) % 256 = b.toNat := by omega
  have hp' : ∀ inp, CS.store X ⟨heap, tick, stk, inp, out, room, text, log⟩ p (.int .uchar b.toNat) =
      .val ⟨heap', tick, stk', inp, out, room, text, log⟩ := by
    intro inp
    have := hp tick [] inp out room text log
    simpa only [List.append_nil] using this
  rw [callFn_code rfl]
  have ht : stk'.take stk.length = stk' := by rw [← hl]; exact List.take_length
  crun [IFF_readUByte.code, hb, h2, h3, hp', ht]

/-- io.c:26-40, at the end of the file -/
theorem readUByte_short {p : Ptr} {id : ID} {attr : String} :
    callFn X (n + 8) .IFF_readUByte
      [.file .inp, .ptr (.int .uchar) p, .int .uint id.toNat, .str attr]
      ⟨heap, tick, stk, [], out, room, text, log⟩ =
    .val (.int .int 0, ⟨heap, tick, stk, [], out, room, text, log ++ Msg.prints X.e (.readError id attr)⟩) := by
  rw [callFn_code rfl]
  crun [IFF_readUByte.code, readError_run, List.take_length]

/-- io.c:53-73, enough input -/
theorem readUWord_ok {p : Ptr} {id : ID} {attr : String} {b0 b1 : Byte} {rest : List Byte}
    {heap' : Nat → Option Blk} {stk' : List Blk} (hl : stk'.length = stk.length)
    (hp : Stores X heap stk p (.int .ushort (fromHost16 X.e (load16 X.e b0 b1)).toNat) heap' stk') :
    callFn X (n + 8) .IFF_readUWord
      [.file .inp, .ptr (.int .ushort) p, .int .uint id.toNat, .str attr]
      ⟨heap, tick, stk, b0 :: b1 :: rest, out, room, text, log⟩ =
    .val (.int .int 1, ⟨heap', tick, stk', rest, out, room, text, log⟩) := by
  have hf := @fread_ok X heap tick room (stk ++ [⟨2, cells []⟩]) out text log .ushort stk.length 2
    [b0, b1] rest (by decide) (by simp only [ITy.bits]) rfl stk_get0
  simp only [List.cons_append, List.nil_append, stk_set0, fromBytes16.1] at hf
  have ht : ∀ x, (stk' ++ [x]).take stk.length = stk' := by intro x; rw [← hl]; exact stk_take0
  rw [callFn_code rfl]
  unfold Stores fromHost16 at hp
  have hm : ∀ v : BitVec 16, convI X.e .ushort (v.toNat : Int) = v.toNat := by
    intro v; show (v.toNat : Int) % 65536 = _; have := v.isLt; omega
  by_cases hb : X.e.bigEndian = true
  · simp only [hb, if_true] at hp
    crun [IFF_readUWord.code, Ty.size, scalarSize, ITy.bits, toSize_lit, hf, hm,
      blkOf_stk stk_get0, hb, hp, ht]
  · simp only [hb, Bool.false_eq_true, if_false] at hp
    crun [IFF_readUWord.code, Ty.size, scalarSize, ITy.bits, toSize_lit, hf,
      blkOf_stk stk_get0, hb, hp, ht, band_ushort, shl_int, shr_int, bor_int, convI_ushort, swap_zero]

/-- io.c:53-73, not enough input -/
theorem readUWord_short {p : Ptr} {id : ID} {attr : String} (hi : inp.length < 2) :
    callFn X (n + 8) .IFF_readUWord
      [.file .inp, .ptr (.int .ushort) p, .int .uint id.toNat, .str attr]
      ⟨heap, tick, stk, inp, out, room, text, log⟩ =
    .val (.int .int 0, ⟨heap, tick, stk, [], out, room, text,
      log ++ Msg.prints X.e (.readError id attr)⟩) := by
  have hf := @fread_short X heap tick room (stk ++ [⟨2, cells []⟩]) inp out text log .ushort
    stk.length 2 (by decide) (by simp only [ITy.bits]) hi stk_get0
  simp only [stk_set0] at hf
  rw [callFn_code rfl]
  crun [IFF_readUWord.code, Ty.size, scalarSize, ITy.bits, toSize_lit, hf, readError_run]

/-- io.c:93-112, enough input -/
theorem readWord_ok {p : Ptr} {id : ID} {attr : String} {b0 b1 : Byte} {rest : List Byte}
    {heap' : Nat → Option Blk} {stk' : List Blk} (hl : stk'.length = stk.length)
    (hp : Stores X heap stk p (.int .short (fromHost16 X.e (load16 X.e b0 b1)).toInt) heap' stk') :
    callFn X (n + 8) .IFF_readWord
      [.file .inp, .ptr (.int .short) p, .int .uint id.toNat, .str attr]
      ⟨heap, tick, stk, b0 :: b1 :: rest, out, room, text, log⟩ =
    .val (.int .int 1, ⟨heap', tick, stk', rest, out, room, text, log⟩) := by
  have hf := @fread_ok X heap tick room (stk ++ [⟨2, cells []⟩]) out text log .short stk.length 2
    [b0, b1] rest (by decide) (by simp only [ITy.bits]) rfl stk_get0
  simp only [List.cons_append, List.nil_append, stk_set0, fromBytes16.2] at hf
  have ht : ∀ x, (stk' ++ [x]).take stk.length = stk' := by intro x; rw [← hl]; exact stk_take0
  rw [callFn_code rfl]
  unfold Stores fromHost16 at hp
  have hm : ∀ v : BitVec 16, convI X.e .short v.toInt = v.toInt := by
    intro v; show (BitVec.ofInt 16 v.toInt).toInt = _; rw [BitVec.ofInt_toInt]
  by_cases hb : X.e.bigEndian = true
  · simp only [hb, if_true] at hp
    crun [IFF_readWord.code, Ty.size, scalarSize, ITy.bits, toSize_lit, hf, hm,
      blkOf_stk stk_get0, hb, hp, ht]
  · simp only [hb, Bool.false_eq_true, if_false] at hp
    crun [IFF_readWord.code, Ty.size, scalarSize, ITy.bits, toSize_lit, hf,
      blkOf_stk stk_get0, hb, hp, ht, band_short, shl_int, shr_int, bor_int, convI_short, swap_sign]

/-- io.c:93-112, not enough input -/
theorem readWord_short {p : Ptr} {id : ID} {attr : String} (hi : inp.length < 2) :
    callFn X (n + 8) .IFF_readWord
      [.file .inp, .ptr (.int .short) p, .int .uint id.toNat, .str attr]
      ⟨heap, tick, stk, inp, out, room, text, log⟩ =
    .val (.int .int 0, ⟨heap, tick, stk, [], out, room, text,
      log ++ Msg.prints X.e (.readError id attr)⟩) := by
  have hf := @fread_short X heap tick room (stk ++ [⟨2, cells []⟩]) inp out text log .short
    stk.length 2 (by decide) (by simp only [ITy.bits]) hi stk_get0
  simp only [stk_set0] at hf
  rw [callFn_code rfl]
  crun [IFF_readWord.code, Ty.size, scalarSize, ITy.bits, toSize_lit, hf, readError_run]

end

end Iff.Src
