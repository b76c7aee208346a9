import Verif.Spec.SrcField
import Verif.Proofs.SrcFieldWrite
import Verif.Props.Field
/-
  C71 The program text of the functions for the fields of application-defined chunks.
-/
namespace Iff.Src
set_option maxRecDepth 4000
open Spec

theorem wide (X : Cfg) : 32 ≤ X.e.sizeBits := by rcases X.word with h | h <;> rw [h] <;> decide

theorem width_le4 (k : FieldKind) : width k ≤ 4 := by cases k <;> decide

/-- A run of a reader of field.c, from a run of the model. -/
theorem reads {X : Cfg} {k : FieldKind} {id : ID} {size bp bp' : Int} {attr : String} {a b i j : Nat} {B : Blk}
    {st : FieldStatus} {cur v : Val} {rs' : RS} {ml : List Msg} {g : CS} (hc : ChunkAt X g.heap a id size)
    (hs : inInt size) (hb : inInt bp) (hB : g.heap b = some B) (hj : g.stk[j]? = some (intVar bp))
    (hl : g.log = errCalls X.e ml)
    (h : readField X.e k id size attr cur bp ⟨g.inp, ml⟩ = .val ((st, v, bp'), rs')) :
    Runs X (fieldReaderOf k) (readFieldArgs k b i a j attr) g (statusVal st)
      { g with heap := match readOf st v with
                 | some v => setHeap g.heap b (some (B.set i (.int (ctype k) (number v))))
                 | none => g.heap,
               stk := g.stk.set j (intVar bp'), inp := rs'.inp, log := errCalls X.e rs'.log } := by
  obtain ⟨sz, c0, rest, ha, hsz⟩ := hc
  refine ⟨11, fun n hn => ?_⟩
  obtain ⟨n, rfl⟩ := Nat.exists_eq_add_of_le' hn
  obtain ⟨heap, tick, stk, inp, out, room, text, log⟩ := g
  subst hl
  refine readField_run ha hsz hs hb hj h ?_ rfl
  cases readOf st v with
  | none => exact ⟨rfl, rfl⟩
  | some v => exact ⟨rfl, stores_heap hB⟩

/-- A run of a writer of field.c, from a run of the model. -/
theorem writes {X : Cfg} {v : Val} {id : ID} {size bp bp' : Int} {attr : String} {a j : Nat}
    {st : FieldStatus} {w : WS} {ml : List Msg} {g : CS} (hc : ChunkAt X g.heap a id size)
    (hs : inInt size) (hb : inInt bp) (hj : g.stk[j]? = some (intVar bp)) (hl : g.log = errCalls X.e ml)
    (h : writeField X.e v id size attr bp ⟨g.out, g.room, ml⟩ = .val ((st, bp'), w)) :
    Runs X (fieldWriterOf v.kind) (writeFieldArgs v a j attr) g (statusVal st)
      { g with stk := g.stk.set j (intVar bp'), out := w.out, room := w.room, log := errCalls X.e w.log } := by
  obtain ⟨sz, c0, rest, ha, hsz⟩ := hc
  refine ⟨11, fun n hn => ?_⟩
  obtain ⟨n, rfl⟩ := Nat.exists_eq_add_of_le' hn
  obtain ⟨heap, tick, stk, inp, out, room, text, log⟩ := g
  subst hl
  exact writeField_run (w0 := ⟨out, room, ml⟩) ha hsz hs hb hj h

theorem notFits {X : Cfg} {n : Nat} {size bp : Int} (hs : inInt size) (hb : inInt bp) (h0 : 0 ≤ bp)
    (hw : (n : Int) ≤ size) (hf : ¬ Spec.Fits n size bp) : fieldDoesNotFitInChunk X.e n size bp = true := by
  cases h : fieldDoesNotFitInChunk X.e n size bp with
  | true => rfl
  | false => exact absurd ⟨h0, (fits_iff X.e (wide X) hw hs.2 h0 hb.2).mp h⟩ hf

theorem small {X : Cfg} {n : Nat} {size bp : Int} (hn : n ≤ 4) (hs : inInt size) (hk : size < n) (h0 : 0 ≤ bp)
    (hb : inInt (bp + n)) : fieldDoesNotFitInChunk X.e n size bp = false := by
  unfold fieldDoesNotFitInChunk
  have hs' : -2147483648 ≤ size := hs.1
  have hb' : bp + n < 2147483648 := hb.2
  have h1 := toSize_neg X.e (wide X) (x := size - n) (by omega) (by omega)
  have hp := pow_ge X.e (wide X)
  have h2 : toSize X.e ((toSize X.e size : Int) - n) = toSize X.e (size - n) := by
    rw [show (toSize X.e size : Int) - n = (toSize X.e size : Int) + (-n) by omega, toSize_add_toSize_left]
    rfl
  rw [toSize_nonneg X.e (wide X) h0 (by omega), h2]
  simp only [gt_iff_lt, decide_eq_false_iff_not]
  omega

theorem readField_of {X : Cfg} {v cur : Val} {id : ID} {size bp : Int} {attr : String} {bs rest : List Byte}
    {ml : List Msg} (he : IsEncodingOf bs v) (hf : fieldDoesNotFitInChunk X.e (width v.kind) size bp = false)
    (hi : inInt (bp + width v.kind)) :
    readField X.e v.kind id size attr cur bp ⟨bs ++ rest, ml⟩ =
      .val ((.more, v, bp + width v.kind), ⟨rest, ml⟩) := by
  simp only [readField, size_width, hf]
  rw [if_neg (by simp), M.bind_apply, C01_read_big_endian X.e v id attr bs rest ml he]
  simp only [M.pure_apply, increaseBytesProcessed_ok X.e (wide X) hi]

/-- The bytes that the writer of a value hands to `fwrite`. -/
theorem writeVal_bytes (e : Env) (v : Val) (id : ID) (attr : String) : ∃ bs : List Byte, bs.length = width v.kind ∧
    ∀ s : WS, writeVal e v id attr s =
      if min (width v.kind) s.room = width v.kind then
        .val (true, ⟨s.out ++ bs.take s.room, s.room - width v.kind, s.log⟩)
      else .val (false, ⟨s.out ++ bs.take s.room, s.room - width v.kind, s.log ++ [.writeError id attr]⟩) := by
  cases v with
  | ubyte v =>
    refine ⟨[v], rfl, fun s => ?_⟩
    simp only [writeVal, writeUByte, M.bind_apply, fwrite, Val.kind, width, List.length_cons, List.length_nil, Nat.zero_add]
    by_cases hr : min 1 s.room = 1 <;> simp only [hr, if_true, if_false] <;> rfl
  | uword v =>
    refine ⟨store16 e (fromHost16 e v), store16_length, fun s => ?_⟩
    simp only [writeVal, writeUWord, M.bind_apply, fwrite, Val.kind, width, store16_length]
    by_cases hr : min 2 s.room = 2 <;> simp only [hr, if_true, if_false] <;> rfl
  | word v =>
    refine ⟨store16 e (fromHost16 e v), store16_length, fun s => ?_⟩
    simp only [writeVal, writeWord, M.bind_apply, fwrite, Val.kind, width, store16_length]
    by_cases hr : min 2 s.room = 2 <;> simp only [hr, if_true, if_false] <;> rfl
  | ulong v =>
    refine ⟨store32 e (fromHost32 e v), store32_length, fun s => ?_⟩
    simp only [writeVal, writeULong, M.bind_apply, fwrite, Val.kind, width, store32_length]
    by_cases hr : min 4 s.room = 4 <;> simp only [hr, if_true, if_false] <;> rfl
  | long v =>
    refine ⟨store32 e (fromHost32 e v), store32_length, fun s => ?_⟩
    simp only [writeVal, writeLong, M.bind_apply, fwrite, Val.kind, width, store32_length]
    by_cases hr : min 4 s.room = 4 <;> simp only [hr, if_true, if_false] <;> rfl
  | id v =>
    refine ⟨store32 e (fromHost32 e v), store32_length, fun s => ?_⟩
    simp only [writeVal, writeId, writeULong, M.bind_apply, fwrite, Val.kind, width, store32_length]
    by_cases hr : min 4 s.room = 4 <;> simp only [hr, if_true, if_false] <;> rfl

theorem writeVal_spec (e : Env) (v : Val) (id : ID) (attr : String) : ∃ bs : List Byte, IsEncodingOf bs v ∧
    ∀ s : WS, writeVal e v id attr s =
      if width v.kind ≤ s.room then .val (true, ⟨s.out ++ bs, s.room - width v.kind, s.log⟩)
      else .val (false, ⟨s.out ++ bs.take s.room, 0, s.log ++ [.writeError id attr]⟩) := by
  obtain ⟨bs, hl, h⟩ := writeVal_bytes e v id attr
  refine ⟨bs, ?_, fun s => ?_⟩
  · obtain ⟨bs', hb', hw⟩ := C01_write_big_endian e v id attr ⟨[], width v.kind, []⟩ (Nat.le_refl _)
    rw [h, if_pos (Nat.min_self _)] at hw
    have : bs.take (width v.kind) = bs := List.take_of_length_le (by omega)
    simp only [this, List.nil_append] at hw
    injection hw with hw
    simp only [Prod.mk.injEq, WS.mk.injEq, true_and] at hw
    rw [hw.1]
    exact hb'
  · rw [h]
    by_cases hr : width v.kind ≤ s.room
    · rw [if_pos hr, if_pos (by omega), List.take_of_length_le (by omega)]
    · rw [if_neg hr, if_neg (by omega)]
      congr 4
      omega

/-! ### Reading -/

/-- C71: a field that fits in its chunk and is in the file is read: the object gets the number that the bytes
denote most significant byte first, on every platform, these bytes are consumed, `bytesProcessed` advances by their
number, and `IFF_FIELD_MORE` is returned. -/
theorem C71_read (X : Cfg) (v : Val) (id : ID) (size bp : Int) (attr : String) (a b i j : Nat) (B : Blk)
    (bs rest : List Byte) (ml : List Msg) (g : CS) (hc : ChunkAt X g.heap a id size) (hs : inInt size)
    (hB : g.heap b = some B) (hj : g.stk[j]? = some (intVar bp)) (hl : g.log = errCalls X.e ml)
    (hf : Spec.Fits (width v.kind) size bp) (he : IsEncodingOf bs v) (hin : g.inp = bs ++ rest) :
    Runs X (fieldReaderOf v.kind) (readFieldArgs v.kind b i a j attr) g fieldMore
      { g with heap := setHeap g.heap b (some (B.set i (.int (ctype v.kind) (number v)))),
               stk := g.stk.set j (intVar (bp + width v.kind)), inp := rest } := by
  obtain ⟨h0, h1⟩ := hf
  have hb : inInt bp := by unfold inInt at *; omega
  have hi : inInt (bp + width v.kind) := by unfold inInt at *; omega
  have hn := (fits_iff X.e (wide X) (n := width v.kind) (by omega) hs.2 h0 hb.2).mpr h1
  have h := readField_of (cur := v) (id := id) (attr := attr) (rest := rest) (ml := ml) he hn hi
  rw [← hin] at h
  have := reads (i := i) hc hs hb hB hj hl h
  simp only [readOf, ← hl] at this
  exact this

/-- C71: a field that fits in its chunk but not in the rest of the file is not read: nothing is stored,
`bytesProcessed` stays, the rest of the file is consumed, there is one message, and `IFF_FIELD_FAILURE` is returned. -/
theorem C71_truncated (X : Cfg) (k : FieldKind) (id : ID) (size bp : Int) (attr : String) (a b i j : Nat) (B : Blk)
    (ml : List Msg) (g : CS) (hc : ChunkAt X g.heap a id size) (hs : inInt size)
    (hB : g.heap b = some B) (hj : g.stk[j]? = some (intVar bp)) (hl : g.log = errCalls X.e ml)
    (hf : Spec.Fits (width k) size bp) (hin : g.inp.length < width k) :
    Runs X (fieldReaderOf k) (readFieldArgs k b i a j attr) g fieldFailure
      { g with inp := [], log := errCalls X.e (ml ++ [.readError id attr]) } := by
  obtain ⟨h0, h1⟩ := hf
  have hb : inInt bp := by unfold inInt at *; omega
  have hn := (fits_iff X.e (wide X) (n := width k) (by omega) hs.2 h0 hb.2).mpr h1
  have h : readField X.e k id size attr k.zero bp ⟨g.inp, ml⟩ =
      .val ((.failure, k.zero, bp), ⟨[], ml ++ [.readError id attr]⟩) := by
    simp only [readField, size_width, hn]
    rw [if_neg (by simp), M.bind_apply, (C02_read_iff_enough X.e k id attr ⟨g.inp, ml⟩).2 hin]
    rfl
  have := reads (i := i) hc hs hb hB hj hl h
  rw [set_self hj] at this
  exact this

/-- C71: a field that does not fit in its chunk, which has at least its size, is neither read nor written:
`IFF_FIELD_LAST` is returned and nothing changes. -/
theorem C71_last (X : Cfg) (v : Val) (id : ID) (size bp : Int) (attr : String) (a b i j : Nat) (B : Blk)
    (ml : List Msg) (g : CS) (hc : ChunkAt X g.heap a id size) (hs : inInt size) (hb : inInt bp) (h0 : 0 ≤ bp)
    (hB : g.heap b = some B) (hj : g.stk[j]? = some (intVar bp)) (hl : g.log = errCalls X.e ml)
    (hw : (width v.kind : Int) ≤ size) (hf : ¬ Spec.Fits (width v.kind) size bp) :
    Runs X (fieldReaderOf v.kind) (readFieldArgs v.kind b i a j attr) g fieldLast g ∧
    Runs X (fieldWriterOf v.kind) (writeFieldArgs v a j attr) g fieldLast g := by
  have hn := notFits (X := X) hs hb h0 hw hf
  constructor
  · have h : readField X.e v.kind id size attr v bp ⟨g.inp, ml⟩ = .val ((.last, v, bp), ⟨g.inp, ml⟩) := by
      simp only [readField, size_width, hn, if_true, M.pure_apply]
    have := reads (i := i) hc hs hb hB hj hl h
    rw [set_self hj] at this
    simp only [readOf, ← hl] at this
    exact this
  · have h : writeField X.e v id size attr bp ⟨g.out, g.room, ml⟩ = .val ((.last, bp), ⟨g.out, g.room, ml⟩) := by
      simp only [writeField, size_width, hn, if_true, M.pure_apply]
    have := writes hc hs hb hj hl h
    rw [set_self hj] at this
    simp only [← hl] at this
    exact this

/-! ### Writing -/

/-- C71: a field that fits in its chunk is written most significant byte first on every platform, `bytesProcessed`
advances by the number of bytes, and `IFF_FIELD_MORE` is returned; if the stream does not accept all bytes, those it
accepts are written, `bytesProcessed` stays, there is one message, and `IFF_FIELD_FAILURE` is returned. -/
theorem C71_write (X : Cfg) (v : Val) (id : ID) (size bp : Int) (attr : String) (a j : Nat)
    (ml : List Msg) (g : CS) (hc : ChunkAt X g.heap a id size) (hs : inInt size)
    (hj : g.stk[j]? = some (intVar bp)) (hl : g.log = errCalls X.e ml) (hf : Spec.Fits (width v.kind) size bp) :
    ∃ bs, IsEncodingOf bs v ∧
      (width v.kind ≤ g.room →
        Runs X (fieldWriterOf v.kind) (writeFieldArgs v a j attr) g fieldMore
          { g with stk := g.stk.set j (intVar (bp + width v.kind)), out := g.out ++ bs,
                   room := g.room - width v.kind }) ∧
      (g.room < width v.kind →
        Runs X (fieldWriterOf v.kind) (writeFieldArgs v a j attr) g fieldFailure
          { g with out := g.out ++ bs.take g.room, room := 0,
                   log := errCalls X.e (ml ++ [.writeError id attr]) }) := by
  obtain ⟨h0, h1⟩ := hf
  have hb : inInt bp := by unfold inInt at *; omega
  have hi : inInt (bp + width v.kind) := by unfold inInt at *; omega
  have hn := (fits_iff X.e (wide X) (n := width v.kind) (by omega) hs.2 h0 hb.2).mpr h1
  obtain ⟨bs, hbs, hw⟩ := writeVal_spec X.e v id attr
  refine ⟨bs, hbs, fun hr => ?_, fun hr => ?_⟩
  · have h : writeField X.e v id size attr bp ⟨g.out, g.room, ml⟩ =
        .val ((.more, bp + width v.kind), ⟨g.out ++ bs, g.room - width v.kind, ml⟩) := by
      simp only [writeField, size_width, hn]
      rw [if_neg (by simp), M.bind_apply, hw, if_pos hr]
      simp only [if_true, M.pure_apply, increaseBytesProcessed_ok X.e (wide X) hi]
    have := writes hc hs hb hj hl h
    simp only [← hl] at this
    exact this
  · have h : writeField X.e v id size attr bp ⟨g.out, g.room, ml⟩ =
        .val ((.failure, bp), ⟨g.out ++ bs.take g.room, 0, ml ++ [.writeError id attr]⟩) := by
      simp only [writeField, size_width, hn]
      rw [if_neg (by simp), M.bind_apply, hw, if_neg (by simp only; omega)]
      rfl
    have := writes hc hs hb hj hl h
    rw [set_self hj] at this
    exact this

/-- C71: what the text writes on one platform, it reads on any other: the same number gets into the object. -/
theorem C71_exchange (X Y : Cfg) (v : Val) (id id' : ID) (size size' bp bp' : Int) (attr attr' : String)
    (a j a' b i j' : Nat) (B : Blk) (rest : List Byte) (ml ml' : List Msg) (g h : CS)
    (hc : ChunkAt X g.heap a id size) (hs : inInt size) (hj : g.stk[j]? = some (intVar bp))
    (hl : g.log = errCalls X.e ml) (hf : Spec.Fits (width v.kind) size bp) (hr : width v.kind ≤ g.room)
    (hc' : ChunkAt Y h.heap a' id' size') (hs' : inInt size') (hB : h.heap b = some B)
    (hj' : h.stk[j']? = some (intVar bp')) (hl' : h.log = errCalls Y.e ml') (hf' : Spec.Fits (width v.kind) size' bp') :
    ∃ bs, Runs X (fieldWriterOf v.kind) (writeFieldArgs v a j attr) g fieldMore
        { g with stk := g.stk.set j (intVar (bp + width v.kind)), out := g.out ++ bs,
                 room := g.room - width v.kind } ∧
      Runs Y (fieldReaderOf v.kind) (readFieldArgs v.kind b i a' j' attr') { h with inp := bs ++ rest } fieldMore
        { h with heap := setHeap h.heap b (some (B.set i (.int (ctype v.kind) (number v)))),
                 stk := h.stk.set j' (intVar (bp' + width v.kind)), inp := rest } := by
  obtain ⟨bs, hbs, hw, -⟩ := C71_write X v id size bp attr a j ml g hc hs hj hl hf
  exact ⟨bs, hw hr, C71_read Y v id' size' bp' attr' a' b i j' B bs rest ml' { h with inp := bs ++ rest }
    hc' hs' hB hj' hl' hf' hbs rfl⟩

/-! ### Chunks smaller than a field -/

/-- C71: in a chunk that is smaller than the field (`size - fieldSize` wraps around in `size_t`), the text reads the
field wherever it starts, from bytes that do not belong to the chunk, and writes it. -/
theorem C71_overrun (X : Cfg) (v : Val) (id : ID) (size bp : Int) (attr : String) (a b i j : Nat) (B : Blk)
    (bs rest : List Byte) (ml : List Msg) (g : CS) (hc : ChunkAt X g.heap a id size) (hs : inInt size)
    (hw : size < width v.kind) (h0 : 0 ≤ bp) (hb : inInt (bp + width v.kind))
    (hB : g.heap b = some B) (hj : g.stk[j]? = some (intVar bp)) (hl : g.log = errCalls X.e ml)
    (he : IsEncodingOf bs v) (hin : g.inp = bs ++ rest) (hr : width v.kind ≤ g.room) :
    ¬ Spec.Fits (width v.kind) size bp ∧
    Runs X (fieldReaderOf v.kind) (readFieldArgs v.kind b i a j attr) g fieldMore
      { g with heap := setHeap g.heap b (some (B.set i (.int (ctype v.kind) (number v)))),
               stk := g.stk.set j (intVar (bp + width v.kind)), inp := rest } ∧
    ∃ bs', bs'.length = width v.kind ∧ Runs X (fieldWriterOf v.kind) (writeFieldArgs v a j attr) g fieldMore
      { g with stk := g.stk.set j (intVar (bp + width v.kind)), out := g.out ++ bs',
               room := g.room - width v.kind } := by
  have h4 := width_le4 v.kind
  refine ⟨fun h => by unfold Spec.Fits at h; omega, ?_⟩
  have hb' : inInt bp := by unfold inInt at *; omega
  have hn := small (X := X) h4 hs hw h0 hb
  constructor
  · have h := readField_of (cur := v) (id := id) (attr := attr) (rest := rest) (ml := ml) he hn hb
    rw [← hin] at h
    have := reads (i := i) hc hs hb' hB hj hl h
    simp only [readOf, ← hl] at this
    exact this
  · obtain ⟨bs', hbs, hwr⟩ := writeVal_spec X.e v id attr
    refine ⟨bs', hbs.1, ?_⟩
    have h : writeField X.e v id size attr bp ⟨g.out, g.room, ml⟩ =
        .val ((.more, bp + width v.kind), ⟨g.out ++ bs', g.room - width v.kind, ml⟩) := by
      simp only [writeField, size_width, hn]
      rw [if_neg (by simp), M.bind_apply, hwr, if_pos hr]
      simp only [if_true, M.pure_apply, increaseBytesProcessed_ok X.e (wide X) hb]
    have := writes hc hs hb' hj hl h
    simp only [← hl] at this
    exact this

/-! ### Examples -/

/-- A chunk with one field, of `size` bytes; 4 bytes are processed; two bytes of input, room for two bytes of output. -/
def oneField (X : Cfg) (size : Int) : CS :=
  ⟨fun a => if a = 1 then some ⟨Struct.size X.e .IFF_Chunk + 4,
      cells [.ptr Ptr.null, .int .uint idFORM.toNat, .int .int size, .undef]⟩ else none,
    0, [intVar 4], [0xfe, 0xdc], [], 2, [], []⟩

/-- The hypotheses of `C71_read`, `C71_write` and `C71_exchange` are met by a signed 16-bit field in the last two of 6
bytes; the number is negative. -/
example (X : Cfg) : ChunkAt X (oneField X 6).heap 1 idFORM 6 ∧ inInt 6 ∧ (oneField X 6).heap 1 ≠ none ∧
    (oneField X 6).stk[0]? = some (intVar 4) ∧ (oneField X 6).log = errCalls X.e [] ∧
    Spec.Fits (width (.word)) 6 4 ∧ IsEncodingOf [0xfe, 0xdc] (.word 0xfedc) ∧ (oneField X 6).inp = [0xfe, 0xdc] ++ [] ∧
    number (.word 0xfedc) = -292 ∧ width .word ≤ (oneField X 6).room :=
  ⟨⟨_, _, _, rfl, by simp⟩, by decide, by simp [oneField], rfl, rfl, by decide, by constructor <;> decide, rfl,
    by decide, by simp [oneField, width]⟩

/-- A 4-byte field does not fit there (`C71_last`); in a chunk of 8 bytes it does, but it is not
in the file (`C71_truncated`), and a chunk of 1 byte is smaller than a 16-bit field (`C71_overrun`). -/
example (X : Cfg) : ¬ Spec.Fits (width .ulong) 6 4 ∧ (width .ulong : Int) ≤ 6 ∧ Spec.Fits (width .ulong) 8 4 ∧
    (oneField X 8).inp.length < width .ulong ∧ (1 : Int) < width .word ∧ inInt (4 + width .word) := by
  refine ⟨by decide, by decide, by decide, ?_, by decide, by decide⟩
  simp [oneField, width]

end Iff.Src
