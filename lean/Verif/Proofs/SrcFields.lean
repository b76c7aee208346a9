import Verif.Spec.SrcField
import Verif.Proofs.SrcField
/-
  The readers and writers of io.c, id.c and field.c for all kinds of fields.
-/
namespace Iff.Src
set_option maxRecDepth 4000
open Heap (Addr Block Mem HS Hdr Grp Lst)

section
variable {X : Cfg} {n : Nat} {heap : Nat → Option Blk} {tick room : Nat} {stk : List Blk}
  {inp out text : List Byte} {log : List ErrPrint}

/-- What reading a value does with the object it is read into. -/
def Fills (X : Cfg) (heap : Nat → Option Blk) (stk : List Blk) (p : Ptr) (k : FieldKind) (r : Option Val)
    (heap' : Nat → Option Blk) (stk' : List Blk) : Prop :=
  match r with
  | some v => stk'.length = stk.length ∧ Stores X heap stk p (.int (ctype k) (number v)) heap' stk'
  | none => heap' = heap ∧ stk' = stk

/-- io.c:26-40, 53-73, 93-112, 131-150, 170-189, id.c:27-30 -/
theorem readVal_run {k : FieldKind} {p : Ptr} {id : ID} {attr : String} {ml : List Msg} {r : Option Val} {rs' : RS}
    {heap' : Nat → Option Blk} {stk' : List Blk}
    (h : readVal X.e k id attr ⟨inp, ml⟩ = .val (r, rs')) (hp : Fills X heap stk p k r heap' stk') :
    callFn X (n + 9) (readerOf k) [.file .inp, .ptr (.int (ctype k)) p, .int .uint id.toNat, .str attr]
      ⟨heap, tick, stk, inp, out, room, text, errCalls X.e ml⟩ =
    .val (truth r.isSome, ⟨heap', tick, stk', rs'.inp, out, room, text, errCalls X.e rs'.log⟩) := by
  cases k with
  | ubyte =>
    simp only [readVal, readUByte, M.bind_apply, fgetc] at h
    cases inp with
    | nil =>
      simp [M.bind_apply, RS.emit] at h
      obtain ⟨rfl, rfl⟩ := h
      obtain ⟨rfl, rfl⟩ := hp
      refine (readUByte_short (n := n + 1)).trans ?_
      simp only [errCalls_snoc]; rfl
    | cons b inp =>
      simp at h
      obtain ⟨rfl, rfl⟩ := h
      exact readUByte_ok (n := n + 1) hp.1 hp.2
  | uword =>
    simp only [readVal, readUWord, M.bind_apply, fread] at h
    rcases inp with _ | ⟨b0, _ | ⟨b1, inp⟩⟩
    case cons.cons =>
      simp at h
      obtain ⟨rfl, rfl⟩ := h
      exact readUWord_ok (n := n + 1) hp.1 hp.2
    all_goals
      simp [M.bind_apply, RS.emit] at h
      obtain ⟨rfl, rfl⟩ := h
      obtain ⟨rfl, rfl⟩ := hp
      refine (readUWord_short (n := n + 1) (by simp)).trans ?_
      simp only [errCalls_snoc]; rfl
  | word =>
    simp only [readVal, readWord, M.bind_apply, fread] at h
    rcases inp with _ | ⟨b0, _ | ⟨b1, inp⟩⟩
    case cons.cons =>
      simp at h
      obtain ⟨rfl, rfl⟩ := h
      exact readWord_ok (n := n + 1) hp.1 hp.2
    all_goals
      simp [M.bind_apply, RS.emit] at h
      obtain ⟨rfl, rfl⟩ := h
      obtain ⟨rfl, rfl⟩ := hp
      refine (readWord_short (n := n + 1) (by simp)).trans ?_
      simp only [errCalls_snoc]; rfl
  | ulong =>
    simp only [readVal, readULong, M.bind_apply, fread] at h
    rcases inp with _ | ⟨b0, _ | ⟨b1, _ | ⟨b2, _ | ⟨b3, inp⟩⟩⟩⟩
    case cons.cons.cons.cons =>
      simp at h
      obtain ⟨rfl, rfl⟩ := h
      exact readULong_ok (n := n + 1) hp.1 hp.2
    all_goals
      simp [M.bind_apply, RS.emit] at h
      obtain ⟨rfl, rfl⟩ := h
      obtain ⟨rfl, rfl⟩ := hp
      refine (readULong_short (n := n + 1) (by simp)).trans ?_
      simp only [errCalls_snoc]; rfl
  | long =>
    simp only [readVal, readLong, M.bind_apply, fread] at h
    rcases inp with _ | ⟨b0, _ | ⟨b1, _ | ⟨b2, _ | ⟨b3, inp⟩⟩⟩⟩
    case cons.cons.cons.cons =>
      simp at h
      obtain ⟨rfl, rfl⟩ := h
      exact readLong_ok (n := n + 1) hp.1 hp.2
    all_goals
      simp [M.bind_apply, RS.emit] at h
      obtain ⟨rfl, rfl⟩ := h
      obtain ⟨rfl, rfl⟩ := hp
      refine (readLong_short (n := n + 1) (by simp)).trans ?_
      simp only [errCalls_snoc]; rfl
  | id =>
    simp only [readVal, readId, readULong, M.bind_apply, fread] at h
    rcases inp with _ | ⟨b0, _ | ⟨b1, _ | ⟨b2, _ | ⟨b3, inp⟩⟩⟩⟩
    case cons.cons.cons.cons =>
      simp at h
      obtain ⟨rfl, rfl⟩ := h
      exact readId_ok hp.1 hp.2
    all_goals
      simp [M.bind_apply, RS.emit] at h
      obtain ⟨rfl, rfl⟩ := h
      obtain ⟨rfl, rfl⟩ := hp
      refine (readId_short (by simp)).trans ?_
      simp only [errCalls_snoc]; rfl

/-- field.c:36-39, of any local variable -/
theorem increase_at {k j : Nat} {bp : Int} (hk : k < 256) (hj : stk[j]? = some ⟨4, cells [.int .int bp]⟩) :
    callFn X (n + 1) .increaseBytesProcessed [.ptr (.int .int) ⟨.stk j, 0⟩, .int .size k]
      ⟨heap, tick, stk, inp, out, room, text, log⟩ =
    .val (.void, ⟨heap, tick, stk.set j ⟨4, cells [.int .int (increaseBytesProcessed X.e bp k)]⟩,
      inp, out, room, text, log⟩) := by
  have ht : ∀ b : Blk, (stk.set j b).take stk.length = stk.set j b := by
    intro b; rw [List.take_of_length_le (by simp)]
  rw [callFn_code rfl]
  crun [increaseBytesProcessed.code, toSize_toSize, toSize_small hk, blkOf_stk hj, ht]
  rfl

theorem set_self {j : Nat} {b : Blk} (hj : stk[j]? = some b) : stk.set j b = stk := by
  apply List.ext_getElem?
  intro i
  rw [List.getElem?_set]
  split
  · rename_i h; subst h
    split
    · exact hj.symm
    · rename_i h; rw [List.getElem?_eq_none (by omega)]
  · rfl

/-- The value of a field that has been read. -/
def readOf : FieldStatus → Val → Option Val
  | .more, v => some v
  | _, _ => none

/-- field.c:41-54, 71-84, 101-114, 131-144, 161-174, 191-204 -/
theorem readField_run {k : FieldKind} {a sz j : Nat} {c0 : Cell} {rest : List Cell} {id : ID} {size bp bp' : Int}
    {attr : String} {st : FieldStatus} {cur v : Val} {rs' : RS} {ml : List Msg} {p : Ptr}
    {heap' : Nat → Option Blk} {stk' : List Blk}
    (ha : heap a = some ⟨sz, cells (c0 :: .int .uint id.toNat :: .int .int size :: rest)⟩)
    (hsz : Struct.size X.e .IFF_Chunk ≤ sz) (hs : inInt size) (hbp : inInt bp)
    (hj : stk[j]? = some ⟨4, cells [.int .int bp]⟩)
    (h : readField X.e k id size attr cur bp ⟨inp, ml⟩ = .val ((st, v, bp'), rs'))
    (hp : Fills X heap stk p k (readOf st v) heap' stk') (hj' : stk'[j]? = stk[j]?) :
    callFn X (n + 11) (fieldReaderOf k)
      [.file .inp, .ptr (.int (ctype k)) p, .ptr (.struct .IFF_Chunk) ⟨.heap a, 0⟩,
        .str attr, .ptr (.int .int) ⟨.stk j, 0⟩]
      ⟨heap, tick, stk, inp, out, room, text, errCalls X.e ml⟩ =
    .val (statusVal st, ⟨heap', tick, stk'.set j ⟨4, cells [.int .int bp']⟩, rs'.inp, out, room, text,
      errCalls X.e rs'.log⟩) := by
  unfold readField at h
  have hks : k.size < 256 := by cases k <;> decide
  have hd := @doesNotFit_run X (n + 9) k.size size bp
    ⟨heap, tick, stk, inp, out, room, text, errCalls X.e ml⟩ hks hs hbp
  by_cases h1 : fieldDoesNotFitInChunk X.e k.size size bp = true
  · rw [if_pos h1] at h
    obtain ⟨h2, rfl⟩ := pure_inv h
    cases h2
    obtain ⟨rfl, rfl⟩ := hp
    rw [h1] at hd
    rw [set_self hj]
    cases k <;> simp only [FieldKind.size, fieldReaderOf, ctype, Int.cast_ofNat_Int] at hd ⊢ <;> rw [callFn_code rfl] <;>
      crun [IFF_readUByteField.code, IFF_readUWordField.code, IFF_readWordField.code, IFF_readULongField.code,
        IFF_readLongField.code, IFF_readIdField.code, Ty.size, scalarSize, ITy.bits, toSize_lit, blkOf_heap ha, hsz,
        blkOf_stk hj, hd, IFF_FIELD_LAST, List.take_length] <;> rfl
  · rw [if_neg h1] at h
    simp only [Bool.not_eq_true] at h1
    rw [h1] at hd
    obtain ⟨r, rs1, h2, k2⟩ := bind_inv h
    cases r with
    | none =>
      obtain ⟨h3, rfl⟩ := pure_inv k2
      cases h3
      obtain ⟨rfl, rfl⟩ := hp
      rw [set_self hj]
      have hr := @readVal_run X (n + 1) heap' tick room stk' inp out text k p id attr ml none _ heap' stk' h2 ⟨rfl, rfl⟩
      cases k <;> simp only [FieldKind.size, fieldReaderOf, readerOf, ctype, Int.cast_ofNat_Int, Option.isSome] at hd hr ⊢ <;> rw [callFn_code rfl] <;>
        crun [IFF_readUByteField.code, IFF_readUWordField.code, IFF_readWordField.code, IFF_readULongField.code,
          IFF_readLongField.code, IFF_readIdField.code, Ty.size, scalarSize, ITy.bits, toSize_lit, blkOf_heap ha, hsz,
          blkOf_stk hj, hd, hr, IFF_FIELD_FAILURE, List.take_length] <;> rfl
    | some v =>
      obtain ⟨h3, rfl⟩ := pure_inv k2
      cases h3
      obtain ⟨hl, hst⟩ := hp
      have hr := @readVal_run X (n + 1) heap tick room stk inp out text k p id attr ml (some _) _ heap' stk' h2 ⟨hl, hst⟩
      have hi := @increase_at X (n + 9) heap' tick room stk' rs'.inp out text (errCalls X.e rs'.log) k.size j bp hks
        (hj'.trans hj)
      have ht : ∀ b : Blk, (stk'.set j b).take stk.length = stk'.set j b := by
        intro b; rw [List.take_of_length_le (by simp [hl])]
      cases k <;> simp only [FieldKind.size, fieldReaderOf, readerOf, ctype, Int.cast_ofNat_Int, Option.isSome] at hd hr hi ⊢ <;> rw [callFn_code rfl] <;>
        crun [IFF_readUByteField.code, IFF_readUWordField.code, IFF_readWordField.code, IFF_readULongField.code,
          IFF_readLongField.code, IFF_readIdField.code, Ty.size, scalarSize, ITy.bits, toSize_lit, blkOf_heap ha, hsz,
          blkOf_stk hj, hd, hr, hi, IFF_FIELD_MORE, ht] <;> rfl

end
end Iff.Src
