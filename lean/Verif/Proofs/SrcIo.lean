import Verif.Proofs.SrcBase
import Verif.Proofs.Bits
import Verif.Spec.Src
/-
  The functions of error.c, id.c, io.c and field.c that the read path uses: running their text does
  what the model says.
-/
namespace Iff.Src
set_option maxRecDepth 4000

/-! ### Integers -/

theorem toSize_lt {X : Cfg} {x : Int} (h0 : 0 ≤ x) (h : x < 4294967296) : toSize X.e x = x.toNat := by
  rcases X.word with hw | hw <;> simp only [toSize, hw] <;> congr 1 <;>
    exact Int.emod_eq_of_lt h0 (by omega)

theorem toSize_lit {X : Cfg} {k : Nat} (h : k < 4294967296) :
    toSize X.e (no_index (OfNat.ofNat k)) = k := by
  have : (OfNat.ofNat k : Int) = (k : Int) := rfl
  rw [this, toSize_lt (by omega) (by omega)]; rfl

theorem toSize_nat {X : Cfg} {k : Nat} (h : k < 4294967296) : toSize X.e (k : Int) = k := by
  rw [toSize_lt (by omega) (by omega)]; rfl

theorem toSize_toSize {e : Env} {x : Int} : toSize e (toSize e x : Int) = toSize e x := by
  simp only [toSize]
  have : (0 : Int) < ((2 ^ e.sizeBits : Nat) : Int) := by
    have := Nat.two_pow_pos e.sizeBits; omega
  have h1 := Int.emod_nonneg x (Int.ne_of_gt this)
  rw [Int.toNat_of_nonneg h1, Int.emod_emod]

theorem sshiftRight_band {a : BitVec 32} {m : BitVec 32} {k : Nat} (h : m.msb = false) :
    (a &&& m).sshiftRight k = (a &&& m) >>> k := by
  apply BitVec.sshiftRight_eq_of_msb_false
  simp [h]

section
variable {X : Cfg} {n : Nat} {heap : Nat → Option Blk} {tick room : Nat} {stk : List Blk}
  {inp out text : List Byte} {log : List ErrPrint}

/-! ### error.c -/

theorem error0 {fmt : String} : callFn X (n + 1) .IFF_error [.str fmt]
    ⟨heap, tick, stk, inp, out, room, text, log⟩ =
      .val (.void, ⟨heap, tick, stk, inp, out, room, text, log ++ [⟨fmt, []⟩]⟩) := by
  rw [IFF_error_run]; rfl
theorem error_char {fmt : String} {x : Int} : callFn X (n + 1) .IFF_error [.str fmt, .int .char x]
    ⟨heap, tick, stk, inp, out, room, text, log⟩ =
      .val (.void, ⟨heap, tick, stk, inp, out, room, text, log ++ [⟨fmt, [.int x]⟩]⟩) := by
  rw [IFF_error_run]; rfl
theorem error_int {fmt : String} {x : Int} : callFn X (n + 1) .IFF_error [.str fmt, .int .int x]
    ⟨heap, tick, stk, inp, out, room, text, log⟩ =
      .val (.void, ⟨heap, tick, stk, inp, out, room, text, log ++ [⟨fmt, [.int x]⟩]⟩) := by
  rw [IFF_error_run]; rfl
theorem error_long {fmt : String} {x : Int} : callFn X (n + 1) .IFF_error [.str fmt, .int .long x]
    ⟨heap, tick, stk, inp, out, room, text, log⟩ =
      .val (.void, ⟨heap, tick, stk, inp, out, room, text, log ++ [⟨fmt, [.long x]⟩]⟩) := by
  rw [IFF_error_run]; rfl
theorem error_str {fmt a : String} : callFn X (n + 1) .IFF_error [.str fmt, .str a]
    ⟨heap, tick, stk, inp, out, room, text, log⟩ =
      .val (.void, ⟨heap, tick, stk, inp, out, room, text,
        log ++ [⟨fmt, [.charPtr (cString a)]⟩]⟩) := by
  rw [IFF_error_run]; rfl
theorem error_int_ptr {fmt : String} {x : Int} {p : Ptr} :
    callFn X (n + 1) .IFF_error [.str fmt, .int .int x, .ptr (.int .int) p]
    ⟨heap, tick, stk, inp, out, room, text, log⟩ =
      .val (.void, ⟨heap, tick, stk, inp, out, room, text, log ++ [⟨fmt, [.int x, .intPtr]⟩]⟩) := by
  rw [IFF_error_run]; rfl

/-- id.c:37-43 -/
theorem idToString_run {id : ID} :
    callFn X (n + 1) .IFF_idToString [.int .uint id.toNat, .ptr (.int .char) ⟨.stk stk.length, 0⟩]
      ⟨heap, tick, stk ++ [⟨4, cells []⟩], inp, out, room, text, log⟩ =
    .val (.void, ⟨heap, tick,
      stk ++ [⟨4, cells ((idToString id).map fun b => .int .char (charVal X.e b))⟩],
      inp, out, room, text, log⟩) := by
  rw [callFn_code rfl]
  crun [IFF_idToString.code, blkOf_stk stk_get0, scalarSize, ITy.bits, shr_uint, band_uint, char_conv]
  rfl

/-- error.c:41-50 -/
theorem errorId_run {id : ID} :
    callFn X (n + 6) .IFF_errorId [.int .uint id.toNat]
      ⟨heap, tick, stk, inp, out, room, text, log⟩ =
    .val (.void, ⟨heap, tick, stk, inp, out, room, text, log ++ idPrints X.e id⟩) := by
  rw [callFn_code rfl]
  crun [IFF_errorId.code, blkOf_stk stk_get0, scalarSize, ITy.bits, Ty.size, idToString_run,
    exec_for, whileN_succ, idToString, List.map, error_char, List.append_assoc, List.cons_append,
    List.nil_append]
  rfl

/-- error.c:52-57 -/
theorem readError_run {id : ID} {attr : String} :
    callFn X (n + 7) .IFF_readError [.int .uint id.toNat, .str attr]
      ⟨heap, tick, stk, inp, out, room, text, log⟩ =
    .val (.void, ⟨heap, tick, stk, inp, out, room, text,
      log ++ Msg.prints X.e (.readError id attr)⟩) := by
  rw [callFn_code rfl]
  crun [IFF_readError.code, error0, errorId_run, error_str, List.take_length, Msg.prints,
    List.append_assoc, List.cons_append, List.nil_append]

/-- error.c:59-64 -/
theorem writeError_run {id : ID} {attr : String} :
    callFn X (n + 7) .IFF_writeError [.int .uint id.toNat, .str attr]
      ⟨heap, tick, stk, inp, out, room, text, log⟩ =
    .val (.void, ⟨heap, tick, stk, inp, out, room, text,
      log ++ Msg.prints X.e (.writeError id attr)⟩) := by
  rw [callFn_code rfl]
  crun [IFF_writeError.code, error0, errorId_run, error_str, List.take_length, Msg.prints,
    List.append_assoc, List.cons_append, List.nil_append]

/-! ### io.c -/

/-- Writing a scalar through a pointer, whatever is pushed on the stack. -/
def Stores (X : Cfg) (heap : Nat → Option Blk) (stk : List Blk) (p : Ptr) (c : Cell)
    (heap' : Nat → Option Blk) (stk' : List Blk) : Prop :=
  ∀ tick xs inp out room text log,
    CS.store X ⟨heap, tick, stk ++ xs, inp, out, room, text, log⟩ p c =
      .val ⟨heap', tick, stk' ++ xs, inp, out, room, text, log⟩

theorem stores_heap {a i : Nat} {b : Blk} {c : Cell} (h : heap a = some b) :
    Stores X heap stk ⟨.heap a, i⟩ c (setHeap heap a (some (b.set i c))) stk := by
  intro tick xs inp out room text log
  crun [blkOf_heap h]

theorem stores_stk {i : Nat} {b : Blk} {c : Cell} :
    Stores X heap (stk ++ [b]) ⟨.stk stk.length, i⟩ c heap (stk ++ [b.set i c]) := by
  intro tick xs inp out room text log
  simp only [CS.store, CS.blk, CS.setBlk, stk_push1, stk_get0, stk_set0]

theorem fromBytes32 {b0 b1 b2 b3 : Byte} :
    fromBytes X.e .uint [b0, b1, b2, b3] = (load32 X.e b0 b1 b2 b3).toNat ∧
    fromBytes X.e .int [b0, b1, b2, b3] = (load32 X.e b0 b1 b2 b3).toInt := by
  have key : ((if X.e.bigEndian then [b0, b1, b2, b3] else [b0, b1, b2, b3].reverse).foldl
      (fun (n : Nat) b => n * 256 + b.toNat) 0) = (load32 X.e b0 b1 b2 b3).toNat := by
    unfold load32
    split <;> rw [toNat_append32] <;> simp
  simp only [fromBytes, key]
  exact ⟨toNat_emod _, wrapInt_toNat _⟩

theorem fromBytes_uint {b0 b1 b2 b3 : Byte} :
    fromBytes X.e .uint [b0, b1, b2, b3] = (load32 X.e b0 b1 b2 b3).toNat := fromBytes32.1
theorem fromBytes_int {b0 b1 b2 b3 : Byte} :
    fromBytes X.e .int [b0, b1, b2, b3] = (load32 X.e b0 b1 b2 b3).toInt := fromBytes32.2

theorem swap32_eq (v : BitVec 32) : swap32 v =
    ((v &&& BitVec.ofInt 32 255) <<< 24) ||| ((v &&& BitVec.ofInt 32 65280) <<< 8) |||
    ((v &&& BitVec.ofInt 32 16711680) >>> 8) ||| ((v &&& BitVec.ofInt 32 4278190080) >>> 24) := rfl

/-- `fread` of one integer into a new object. -/
theorem fread_ok {t : ITy} {k size : Nat} {bs rest : List Byte} (ht : t ≠ .uchar)
    (hs : t.bits X.e / 8 = size) (hb : bs.length = size) (hk : stk[k]? = some ⟨size, cells []⟩) :
    freadC X t ⟨.stk k, 0⟩ size 1 ⟨heap, tick, stk, bs ++ rest, out, room, text, log⟩ =
      .val (.int .size 1, ⟨heap, tick, stk.set k ⟨size, cells [.int t (fromBytes X.e t bs)]⟩,
        rest, out, room, text, log⟩) := by
  subst hb
  simp [freadC, CS.blk, CS.setBlk, hk, ht, hs, set_new0]

theorem fread_short {t : ITy} {k size : Nat} (ht : t ≠ .uchar)
    (hs : t.bits X.e / 8 = size) (hb : inp.length < size) (hk : stk[k]? = some ⟨size, cells []⟩) :
    freadC X t ⟨.stk k, 0⟩ size 1 ⟨heap, tick, stk, inp, out, room, text, log⟩ =
      .val (.int .size 0, ⟨heap, tick, stk.set k ⟨size, cells [.undef]⟩,
        [], out, room, text, log⟩) := by
  have h1 : ¬ size ≤ inp.length := by omega
  have h2 : inp.drop size = [] := List.drop_eq_nil_of_le (by omega)
  have h3 : ¬ min size inp.length = size := by omega
  simp [freadC, CS.blk, CS.setBlk, hk, ht, hs, set_new0, h2, h3]

/-- io.c:131-150, enough input -/
theorem readULong_ok {p : Ptr} {id : ID} {attr : String} {b0 b1 b2 b3 : Byte} {rest : List Byte}
    {heap' : Nat → Option Blk} {stk' : List Blk} (hl : stk'.length = stk.length)
    (hp : Stores X heap stk p (.int .uint (fromHost32 X.e (load32 X.e b0 b1 b2 b3)).toNat)
      heap' stk') :
    callFn X (n + 8) .IFF_readULong
      [.file .inp, .ptr (.int .uint) p, .int .uint id.toNat, .str attr]
      ⟨heap, tick, stk, b0 :: b1 :: b2 :: b3 :: rest, out, room, text, log⟩ =
    .val (.int .int 1, ⟨heap', tick, stk', rest, out, room, text, log⟩) := by
  have hf := @fread_ok X heap tick room (stk ++ [⟨4, cells []⟩]) out text log .uint stk.length 4
    [b0, b1, b2, b3] rest (by decide) (by simp only [ITy.bits]) rfl stk_get0
  simp only [List.cons_append, List.nil_append, stk_set0, fromBytes_uint] at hf
  have ht : ∀ x, (stk' ++ [x]).take stk.length = stk' := by intro x; rw [← hl]; exact stk_take0
  rw [callFn_code rfl]
  unfold Stores fromHost32 at hp
  by_cases hb : X.e.bigEndian = true
  · simp only [hb, if_true] at hp
    crun [IFF_readULong.code, Ty.size, scalarSize, ITy.bits, toSize_lit, hf,
      blkOf_stk stk_get0, hb, hp, ht]
  · simp only [hb, swap32_eq, Bool.false_eq_true, if_false] at hp
    crun [IFF_readULong.code, Ty.size, scalarSize, ITy.bits, toSize_lit, hf,
      blkOf_stk stk_get0, hb, hp, ht, band_uint, band_uint_uint, shl_uint, shr_uint, bor_uint]

/-- io.c:131-150, not enough input -/
theorem readULong_short {p : Ptr} {id : ID} {attr : String} (hi : inp.length < 4) :
    callFn X (n + 8) .IFF_readULong
      [.file .inp, .ptr (.int .uint) p, .int .uint id.toNat, .str attr]
      ⟨heap, tick, stk, inp, out, room, text, log⟩ =
    .val (.int .int 0, ⟨heap, tick, stk, [], out, room, text,
      log ++ Msg.prints X.e (.readError id attr)⟩) := by
  have hf := @fread_short X heap tick room (stk ++ [⟨4, cells []⟩]) inp out text log .uint
    stk.length 4 (by decide) (by simp only [ITy.bits]) hi stk_get0
  simp only [stk_set0] at hf
  rw [callFn_code rfl]
  crun [IFF_readULong.code, Ty.size, scalarSize, ITy.bits, toSize_lit, hf, readError_run]

/-- io.c:170-189, enough input -/
theorem readLong_ok {p : Ptr} {id : ID} {attr : String} {b0 b1 b2 b3 : Byte} {rest : List Byte}
    {heap' : Nat → Option Blk} {stk' : List Blk} (hl : stk'.length = stk.length)
    (hp : Stores X heap stk p (.int .int (fromHost32 X.e (load32 X.e b0 b1 b2 b3)).toInt)
      heap' stk') :
    callFn X (n + 8) .IFF_readLong
      [.file .inp, .ptr (.int .int) p, .int .uint id.toNat, .str attr]
      ⟨heap, tick, stk, b0 :: b1 :: b2 :: b3 :: rest, out, room, text, log⟩ =
    .val (.int .int 1, ⟨heap', tick, stk', rest, out, room, text, log⟩) := by
  have hf := @fread_ok X heap tick room (stk ++ [⟨4, cells []⟩]) out text log .int stk.length 4
    [b0, b1, b2, b3] rest (by decide) (by simp only [ITy.bits]) rfl stk_get0
  simp only [List.cons_append, List.nil_append, stk_set0, fromBytes_int] at hf
  have ht : ∀ x, (stk' ++ [x]).take stk.length = stk' := by intro x; rw [← hl]; exact stk_take0
  rw [callFn_code rfl]
  unfold Stores fromHost32 at hp
  by_cases hb : X.e.bigEndian = true
  · simp only [hb, if_true] at hp
    crun [IFF_readLong.code, Ty.size, scalarSize, ITy.bits, toSize_lit, hf,
      blkOf_stk stk_get0, hb, hp, ht]
  · simp only [hb, swap32_eq, Bool.false_eq_true, if_false] at hp
    crun [IFF_readLong.code, Ty.size, scalarSize, ITy.bits, toSize_lit, hf,
      blkOf_stk stk_get0, hb, hp, ht, band_int, band_int_uint, shl_int, shr_int, shr_uint,
      bor_int, bor_int_uint, sshiftRight_band (m := BitVec.ofInt 32 16711680) rfl]

/-- io.c:170-189, not enough input -/
theorem readLong_short {p : Ptr} {id : ID} {attr : String} (hi : inp.length < 4) :
    callFn X (n + 8) .IFF_readLong
      [.file .inp, .ptr (.int .int) p, .int .uint id.toNat, .str attr]
      ⟨heap, tick, stk, inp, out, room, text, log⟩ =
    .val (.int .int 0, ⟨heap, tick, stk, [], out, room, text,
      log ++ Msg.prints X.e (.readError id attr)⟩) := by
  have hf := @fread_short X heap tick room (stk ++ [⟨4, cells []⟩]) inp out text log .int
    stk.length 4 (by decide) (by simp only [ITy.bits]) hi stk_get0
  simp only [stk_set0] at hf
  rw [callFn_code rfl]
  crun [IFF_readLong.code, Ty.size, scalarSize, ITy.bits, toSize_lit, hf, readError_run]

/-- id.c:27-30 -/
theorem readId_ok {p : Ptr} {id : ID} {attr : String} {b0 b1 b2 b3 : Byte} {rest : List Byte}
    {heap' : Nat → Option Blk} {stk' : List Blk} (hl : stk'.length = stk.length)
    (hp : Stores X heap stk p (.int .uint (fromHost32 X.e (load32 X.e b0 b1 b2 b3)).toNat)
      heap' stk') :
    callFn X (n + 9) .IFF_readId
      [.file .inp, .ptr (.int .uint) p, .int .uint id.toNat, .str attr]
      ⟨heap, tick, stk, b0 :: b1 :: b2 :: b3 :: rest, out, room, text, log⟩ =
    .val (.int .int 1, ⟨heap', tick, stk', rest, out, room, text, log⟩) := by
  rw [callFn_code rfl]
  crun [IFF_readId.code, readULong_ok hl hp, List.take_length]
  rw [← hl, List.take_length]

theorem readId_short {p : Ptr} {id : ID} {attr : String} (hi : inp.length < 4) :
    callFn X (n + 9) .IFF_readId
      [.file .inp, .ptr (.int .uint) p, .int .uint id.toNat, .str attr]
      ⟨heap, tick, stk, inp, out, room, text, log⟩ =
    .val (.int .int 0, ⟨heap, tick, stk, [], out, room, text,
      log ++ Msg.prints X.e (.readError id attr)⟩) := by
  rw [callFn_code rfl]
  crun [IFF_readId.code, readULong_short hi, List.take_length]

theorem errCalls_snoc {e : Env} {l : List Msg} {m : Msg} :
    errCalls e (l ++ [m]) = errCalls e l ++ m.prints e := by simp [errCalls]

/-- io.c:209-227 -/
theorem skip_run {id : ID} {size bp : Int} {r : Bool} {rs' : RS} {ml : List Msg}
    (hs : inInt size) (hbp : inInt bp)
    (h : skipUnknownBytes X.e id size bp ⟨inp, ml⟩ = .val (r, rs')) :
    callFn X (n + 7) .IFF_skipUnknownBytes
      [.file .inp, .int .uint id.toNat, .int .int size, .int .int bp]
      ⟨heap, tick, stk, inp, out, room, text, errCalls X.e ml⟩ =
    .val (truth r, ⟨heap, tick, stk, rs'.inp, out, room, text, errCalls X.e rs'.log⟩) := by
  rw [callFn_code rfl]
  unfold skipUnknownBytes at h
  by_cases h1 : bp < size
  · rw [if_pos h1] at h
    simp only [M.bind_apply, subInt] at h
    by_cases h2 : inInt (size - bp)
    · have h3 : 0 ≤ size - bp := by omega
      by_cases h4 : X.e.seekable = true
      · simp [M.ofOut, h2, fseekCur, h4, M.bind_apply, RS.emit] at h
        obtain ⟨rfl, rfl⟩ := h
        crun [IFF_skipUnknownBytes.code, wrapInt_of hs, wrapInt_of hbp, h1, h2, h3, h4, error_long,
          errorId_run, error0, errCalls_snoc, Msg.prints, List.append_assoc, List.cons_append,
          List.nil_append, List.take_length]
        rfl
      · simp [M.ofOut, h2, fseekCur, h4, M.bind_apply] at h
        obtain ⟨rfl, rfl⟩ := h
        crun [IFF_skipUnknownBytes.code, wrapInt_of hs, wrapInt_of hbp, h1, h2, h3, h4,
          List.take_length]
        rfl
    · simp [M.ofOut, h2] at h
  · simp [h1] at h
    obtain ⟨rfl, rfl⟩ := h
    crun [IFF_skipUnknownBytes.code, wrapInt_of hs, wrapInt_of hbp, h1, List.take_length]
    rfl

theorem wrapInt_odd {x : Int} : wrapInt (x.tmod 2) = x.tmod 2 :=
  wrapInt_of (by
    have h1 := Int.lt_tmod_of_pos x (b := 2) (by decide)
    have h2 := Int.tmod_lt_of_pos x (b := 2) (by decide)
    simp only [inInt]; omega)

/-- io.c:251-269 -/
theorem padding_run {id : ID} {size : Int} {r : Bool} {rs' : RS} {ml : List Msg}
    (hs : inInt size) (h : readPaddingByte size id ⟨inp, ml⟩ = .val (r, rs')) :
    callFn X (n + 7) .IFF_readPaddingByte
      [.file .inp, .int .int size, .int .uint id.toNat]
      ⟨heap, tick, stk, inp, out, room, text, errCalls X.e ml⟩ =
    .val (truth r, ⟨heap, tick, stk, rs'.inp, out, room, text, errCalls X.e rs'.log⟩) := by
  rw [callFn_code rfl]
  unfold readPaddingByte at h
  by_cases h1 : isOdd size = true
  · rw [if_pos h1] at h
    simp only [M.bind_apply] at h
    simp only [isOdd] at h1
    cases inp with
    | nil =>
      simp [fgetc, M.bind_apply, RS.emit] at h
      obtain ⟨rfl, rfl⟩ := h
      crun [IFF_readPaddingByte.code, wrapInt_of hs, wrapInt_odd, h1, error0,
        errorId_run, error0, errCalls_snoc, Msg.prints, List.append_assoc, List.cons_append,
        List.nil_append, List.take_length]
      rfl
    | cons b bs =>
      have hb : wrapInt (b.toNat : Int) = b.toNat := wrapInt_of (by simp only [inInt]; omega)
      have h2 : ((b.toNat : Int) == -1) = false := by rw [beq_eq_false_iff_ne]; omega
      by_cases h0 : b = 0
      · have h3 : ((b.toNat : Int) != 0) = false := by subst h0; rfl
        simp only [fgetc, h0, ne_eq, not_true_eq_false, if_false] at h
        simp at h
        obtain ⟨rfl, rfl⟩ := h
        crun [IFF_readPaddingByte.code, wrapInt_of hs, wrapInt_odd, h1, hb, h2, h3,
          List.take_length]
        rfl
      · have h3 : ((b.toNat : Int) != 0) = true := by
          rw [bne_iff_ne]
          intro hc
          exact h0 (BitVec.eq_of_toNat_eq (by simpa using hc))
        simp only [fgetc] at h
        rw [if_pos h0] at h
        simp [M.bind_apply, RS.emit] at h
        obtain ⟨rfl, rfl⟩ := h
        crun [IFF_readPaddingByte.code, wrapInt_of hs, wrapInt_odd, h1, hb, h2, h3, error0,
          errCalls_snoc, Msg.prints, List.take_length]
        rfl
  · simp [h1] at h
    obtain ⟨rfl, rfl⟩ := h
    simp only [isOdd, Bool.not_eq_true] at h1
    crun [IFF_readPaddingByte.code, wrapInt_of hs, wrapInt_odd, h1, List.take_length]
    rfl

/-! ### field.c -/

/-- The value of an `IFF_FieldStatus`. -/
def statusVal : FieldStatus → V
  | .more => .int .uint 0
  | .failure => .int .uint 1
  | .last => .int .uint 2

/-- field.c:26-29 -/
theorem deriveSuccess_run {st : FieldStatus} {g : CS} :
    callFn X (n + 1) .IFF_deriveSuccess [statusVal st] g = .val (truth (deriveSuccess st), g) := by
  rw [callFn_code rfl]
  cases st <;> crun [IFF_deriveSuccess.code, statusVal, IFF_FIELD_FAILURE, List.take_length] <;> rfl

theorem toSize_small {X : Cfg} {k : Nat} (h : k < 256) : toSize X.e (k : Int) = k :=
  toSize_nat (by omega)

/-- field.c:31-34 -/
theorem doesNotFit_run {k : Nat} {size bp : Int} {g : CS} (hk : k < 256) (hs : inInt size)
    (hbp : inInt bp) :
    callFn X (n + 1) .fieldDoesNotFitInChunk [.int .size k, .int .int size, .int .int bp] g =
      .val (truth (fieldDoesNotFitInChunk X.e k size bp), g) := by
  rw [callFn_code rfl]
  crun [fieldDoesNotFitInChunk.code, List.take_length, wrapInt_of hs, wrapInt_of hbp, toSize_toSize,
    toSize_small hk]
  simp [fieldDoesNotFitInChunk]

/-- field.c:36-39 -/
theorem increase_run {k : Nat} {bp : Int} (hk : k < 256) :
    callFn X (n + 1) .increaseBytesProcessed
      [.ptr (.int .int) ⟨.stk stk.length, 0⟩, .int .size k]
      ⟨heap, tick, stk ++ [⟨4, cells [.int .int bp]⟩], inp, out, room, text, log⟩ =
    .val (.void, ⟨heap, tick, stk ++ [⟨4, cells [.int .int (increaseBytesProcessed X.e bp k)]⟩],
      inp, out, room, text, log⟩) := by
  rw [callFn_code rfl]
  crun [increaseBytesProcessed.code, toSize_toSize, toSize_small hk, blkOf_stk stk_get0]
  rfl

theorem setHeap_same {a : Nat} {b : Blk} (h : heap a = some b) : setHeap heap a (some b) = heap := by
  funext x
  simp only [setHeap]
  split
  · rename_i hx; rw [hx, h]
  · rfl

/-- field.c:191-204, with `&group->groupType` of the chunk -/
theorem readIdField_run {a sz : Nat} {c0 : Cell} {rest : List Cell} {id ty : ID} {size bp bp' : Int}
    {attr : String} {st : FieldStatus} {v : Val} {rs' : RS} {ml : List Msg}
    (ha : heap a = some ⟨sz, cells (c0 :: .int .uint id.toNat :: .int .int size ::
      .int .uint ty.toNat :: rest)⟩)
    (hsz : Struct.size X.e .IFF_Chunk ≤ sz) (hs : inInt size) (hbp : inInt bp)
    (h : readField X.e .id id size attr (.id ty) bp ⟨inp, ml⟩ = .val ((st, v, bp'), rs')) :
    callFn X (n + 10) .IFF_readIdField
      [.file .inp, .ptr (.int .uint) ⟨.heap a, 3⟩, .ptr (.struct .IFF_Chunk) ⟨.heap a, 0⟩,
        .str attr, .ptr (.int .int) ⟨.stk stk.length, 0⟩]
      ⟨heap, tick, stk ++ [⟨4, cells [.int .int bp]⟩], inp, out, room, text, errCalls X.e ml⟩ =
    .val (statusVal st, ⟨setHeap heap a (some ⟨sz, cells (c0 :: .int .uint id.toNat ::
      .int .int size :: .int .uint v.toId.toNat :: rest)⟩), tick,
      stk ++ [⟨4, cells [.int .int bp']⟩], rs'.inp, out, room, text, errCalls X.e rs'.log⟩) := by
  rw [callFn_code rfl]
  unfold readField at h
  have hd := @doesNotFit_run X (n + 8) 4 size bp
    ⟨heap, tick, stk ++ [⟨4, cells [.int .int bp]⟩], inp, out, room, text, errCalls X.e ml⟩
    (by decide) hs hbp
  have hk : FieldKind.size .id = 4 := rfl
  rw [hk] at h
  simp only [Int.cast_ofNat_Int] at hd
  by_cases h1 : fieldDoesNotFitInChunk X.e 4 size bp = true
  · rw [if_pos h1] at h
    simp at h
    obtain ⟨⟨rfl, rfl, rfl⟩, rfl⟩ := h
    rw [h1] at hd
    crun [IFF_readIdField.code, Ty.size, scalarSize, ITy.bits, toSize_lit, blkOf_heap ha, hsz,
      blkOf_stk stk_get0, hd, IFF_FIELD_LAST, Val.toId, setHeap_same ha]
    rfl
  · rw [if_neg h1] at h
    simp only [Bool.not_eq_true] at h1
    rw [h1] at hd
    simp only [readVal, readId, readULong, M.bind_apply, fread] at h
    rcases inp with _ | ⟨b0, _ | ⟨b1, _ | ⟨b2, _ | ⟨b3, inp⟩⟩⟩⟩
    case cons.cons.cons.cons =>
      simp at h
      obtain ⟨⟨rfl, rfl, rfl⟩, rfl⟩ := h
      have hr := @readId_ok X n heap tick room (stk ++ [⟨4, cells [.int .int bp]⟩]) out text
        (errCalls X.e ml) ⟨.heap a, 3⟩ id attr b0 b1 b2 b3 inp _ _ rfl (stores_heap ha)
      have hi := @increase_run X (n + 8) (setHeap heap a (some ⟨sz, cells (c0 :: .int .uint id.toNat ::
        .int .int size :: .int .uint (fromHost32 X.e (load32 X.e b0 b1 b2 b3)).toNat :: rest)⟩))
        tick room stk inp out text (errCalls X.e ml) 4 bp (by decide)
      simp only [Int.cast_ofNat_Int, set_3] at hi hr
      crun [IFF_readIdField.code, Ty.size, scalarSize, ITy.bits, toSize_lit, blkOf_heap ha, hsz,
        blkOf_stk stk_get0, hd, IFF_FIELD_MORE, Val.toId, hr, hi]
      rfl
    all_goals
      simp [M.bind_apply, RS.emit] at h
      obtain ⟨⟨rfl, rfl, rfl⟩, rfl⟩ := h
      crun [IFF_readIdField.code, Ty.size, scalarSize, ITy.bits, toSize_lit, blkOf_heap ha, hsz,
        blkOf_stk stk_get0, hd, IFF_FIELD_FAILURE, Val.toId, readId_short, List.length_nil,
        List.length_cons, setHeap_same ha, errCalls_snoc]
      rfl

end
end Iff.Src
