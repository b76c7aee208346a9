import Verif.Model.Write
import Verif.Proofs.Tree
import Verif.Proofs.Io
import Verif.Proofs.Arith
/-
  The writer appends the encoding, or, when the stream stops accepting bytes, a proper prefix of it.
-/
namespace Iff
open Spec

/-- At least one diagnostic was added to the log. -/
def Reports (log log' : List Msg) : Prop := ∃ m ms, log' = log ++ m :: ms

theorem Reports.append {log log' : List Msg} (h : Reports log log') (m : Msg) :
    Reports log (log' ++ [m]) := by
  obtain ⟨a, as, rfl⟩ := h
  exact ⟨a, as ++ [m], by simp⟩

theorem Reports.one (log : List Msg) (m : Msg) : Reports log (log ++ [m]) := ⟨m, [], rfl⟩

/-- `m` writes `bs` and returns TRUE; or, if there is no room, a prefix of `bs`, and returns FALSE
with a diagnostic. -/
structure Writes (m : M WS Bool) (bs : List Byte) : Prop where
  full : ∀ s : WS, bs.length ≤ s.room →
    m s = .val (true, ⟨s.out ++ bs, s.room - bs.length, s.log⟩)
  short : ∀ s : WS, s.room < bs.length →
    ∃ log', m s = .val (false, ⟨s.out ++ bs.take s.room, 0, log'⟩) ∧ Reports s.log log'

/-- The same for functions that also update `*bytesProcessed`. -/
structure WritesI (m : M WS (Bool × Int)) (bs : List Byte) (bp : Int) : Prop where
  full : ∀ s : WS, bs.length ≤ s.room →
    m s = .val ((true, bp), ⟨s.out ++ bs, s.room - bs.length, s.log⟩)
  short : ∀ s : WS, s.room < bs.length →
    ∃ bp' log', m s = .val ((false, bp'), ⟨s.out ++ bs.take s.room, 0, log'⟩) ∧ Reports s.log log'

/-- The same for the field functions. -/
structure WritesF (m : M WS (FieldStatus × Int)) (bs : List Byte) (bp : Int) : Prop where
  full : ∀ s : WS, bs.length ≤ s.room →
    m s = .val ((.more, bp), ⟨s.out ++ bs, s.room - bs.length, s.log⟩)
  short : ∀ s : WS, s.room < bs.length →
    ∃ bp' log', m s = .val ((.failure, bp'), ⟨s.out ++ bs.take s.room, 0, log'⟩) ∧
      Reports s.log log'

theorem take_append_short {α : Type} {l₁ l₂ : List α} {n : Nat} (h : n < l₁.length) :
    (l₁ ++ l₂).take n = l₁.take n := by
  rw [List.take_append_of_le_length (Nat.le_of_lt h)]

theorem Writes.seq {m m' : M WS Bool} {bs bs' : List Byte} (h : Writes m bs) (h' : Writes m' bs') :
    Writes (do if ← m then m' else pure false) (bs ++ bs') where
  full s hs := by
    rw [List.length_append] at hs
    rw [M.bind_apply, h.full s (by omega)]
    simp only [if_true]
    rw [h'.full _ (by simp only; omega)]
    simp only [List.length_append, List.append_assoc, Nat.sub_sub]
  short s hs := by
    rw [List.length_append] at hs
    by_cases h1 : bs.length ≤ s.room
    · obtain ⟨log', e, r⟩ := h'.short ⟨s.out ++ bs, s.room - bs.length, s.log⟩ (by simp only; omega)
      refine ⟨log', ?_, r⟩
      rw [M.bind_apply, h.full s h1]
      simp only [if_true]
      rw [e]
      simp only [List.take_append, List.append_assoc, List.take_of_length_le h1]
    · obtain ⟨log', e, r⟩ := h.short s (by omega)
      refine ⟨log', ?_, r⟩
      rw [M.bind_apply, e, take_append_short (by omega)]
      rfl

theorem WritesI.seq {m : M WS (Bool × Int)} {m' : Int → M WS Bool} {bs bs' : List Byte} {bp : Int}
    (h : WritesI m bs bp) (h' : Writes (m' bp) bs') :
    Writes (do let (ok, bp) ← m; if ok then m' bp else pure false) (bs ++ bs') where
  full s hs := by
    rw [List.length_append] at hs
    rw [M.bind_apply, h.full s (by omega)]
    simp only [if_true]
    rw [h'.full _ (by simp only; omega)]
    simp only [List.length_append, List.append_assoc, Nat.sub_sub]
  short s hs := by
    rw [List.length_append] at hs
    by_cases h1 : bs.length ≤ s.room
    · obtain ⟨log', e, r⟩ := h'.short ⟨s.out ++ bs, s.room - bs.length, s.log⟩ (by simp only; omega)
      refine ⟨log', ?_, r⟩
      rw [M.bind_apply, h.full s h1]
      simp only [if_true]
      rw [e]
      simp only [List.take_append, List.append_assoc, List.take_of_length_le h1]
    · obtain ⟨bp', log', e, r⟩ := h.short s (by omega)
      refine ⟨log', ?_, r⟩
      rw [M.bind_apply, e, take_append_short (by omega)]
      rfl

theorem WritesI.seqI {m : M WS (Bool × Int)} {m' : Int → M WS (Bool × Int)} {bs bs' : List Byte}
    {bp bp2 : Int} (h : WritesI m bs bp) (h' : WritesI (m' bp) bs' bp2) :
    WritesI (do let (ok, bp) ← m; if ok then m' bp else pure (false, bp)) (bs ++ bs') bp2 where
  full s hs := by
    rw [List.length_append] at hs
    rw [M.bind_apply, h.full s (by omega)]
    simp only [if_true]
    rw [h'.full _ (by simp only; omega)]
    simp only [List.length_append, List.append_assoc, Nat.sub_sub]
  short s hs := by
    rw [List.length_append] at hs
    by_cases h1 : bs.length ≤ s.room
    · obtain ⟨bp', log', e, r⟩ :=
        h'.short ⟨s.out ++ bs, s.room - bs.length, s.log⟩ (by simp only; omega)
      refine ⟨bp', log', ?_, r⟩
      rw [M.bind_apply, h.full s h1]
      simp only [if_true]
      rw [e]
      simp only [List.take_append, List.append_assoc, List.take_of_length_le h1]
    · obtain ⟨bp', log', e, r⟩ := h.short s (by omega)
      refine ⟨bp', log', ?_, r⟩
      rw [M.bind_apply, e, take_append_short (by omega)]
      rfl

/-- A field write followed by the rest, as in IFF_writeGroup and in application chunks. -/
theorem WritesF.seqI {m : M WS (FieldStatus × Int)} {m' : Int → M WS (Bool × Int)}
    {bs bs' : List Byte} {bp bp2 : Int} (h : WritesF m bs bp) (h' : WritesI (m' bp) bs' bp2) :
    WritesI (do
      let (st, bp) ← m
      match st with
      | .more => m' bp
      | st => pure (deriveSuccess st, bp)) (bs ++ bs') bp2 where
  full s hs := by
    rw [List.length_append] at hs
    rw [M.bind_apply, h.full s (by omega)]
    simp only
    rw [h'.full _ (by simp only; omega)]
    simp only [List.length_append, List.append_assoc, Nat.sub_sub]
  short s hs := by
    rw [List.length_append] at hs
    by_cases h1 : bs.length ≤ s.room
    · obtain ⟨bp', log', e, r⟩ :=
        h'.short ⟨s.out ++ bs, s.room - bs.length, s.log⟩ (by simp only; omega)
      refine ⟨bp', log', ?_, r⟩
      rw [M.bind_apply, h.full s h1]
      simp only
      rw [e]
      simp only [List.take_append, List.append_assoc, List.take_of_length_le h1]
    · obtain ⟨bp', log', e, r⟩ := h.short s (by omega)
      refine ⟨bp', log', ?_, r⟩
      rw [M.bind_apply, e, take_append_short (by omega)]
      rfl

theorem WritesI.nil (bp : Int) : WritesI (pure (true, bp)) [] bp where
  full s _ := by simp
  short s h := by simp at h

theorem writes_ulong (e : Env) (v : BitVec 32) (id : ID) (a : String) :
    Writes (writeULong e v id a) (be 4 v.toNat) where
  full s h := by rw [be4_eq] at *; exact writeULong_full e v id a s h
  short s h := by
    rw [be4_eq] at *
    exact ⟨_, writeULong_short e v id a s h, .one _ _⟩

theorem writes_uword (e : Env) (v : BitVec 16) (id : ID) (a : String) :
    Writes (writeUWord e v id a) (be 2 v.toNat) where
  full s h := by rw [be2_eq] at *; exact writeUWord_full e v id a s h
  short s h := by
    rw [be2_eq] at *
    exact ⟨_, writeUWord_short e v id a s h, .one _ _⟩

theorem writes_ubyte (v : Byte) (id : ID) (a : String) :
    Writes (writeUByte v id a) (be 1 v.toNat) where
  full s h := by rw [be1_eq] at *; exact writeUByte_full v id a s h
  short s h := by
    rw [be1_eq] at *
    have h0 : s.room = 0 := by simp at h; omega
    refine ⟨_, ?_, .one _ (.writeError id a)⟩
    rw [writeUByte_short v id a s (by simpa using h), h0]
    simp

theorem writes_val (e : Env) (v : Val) (id : ID) (a : String) :
    Writes (writeVal e v id a) (encodeVal v) := by
  cases v with
  | ubyte v => exact writes_ubyte v id a
  | uword v => exact writes_uword e v id a
  | word v => exact writes_uword e v id a
  | ulong v => exact writes_ulong e v id a
  | long v => exact writes_ulong e v id a
  | id v => exact writes_ulong e v id a

theorem writes_field (e : Env) (v : Val) (id : ID) (size : Int) (a : String) (bp : Int)
    (hf : fieldDoesNotFitInChunk e v.kind.size size bp = false) :
    WritesF (writeField e v id size a bp) (encodeVal v) (increaseBytesProcessed e bp v.kind.size)
    where
  full s h := by
    simp only [writeField, hf]
    rw [if_neg (by simp), M.bind_apply, (writes_val e v id a).full s h]
    rfl
  short s h := by
    obtain ⟨log', h1, r⟩ := (writes_val e v id a).short s h
    refine ⟨bp, log', ?_, r⟩
    simp only [writeField, hf]
    rw [if_neg (by simp), M.bind_apply, h1]
    rfl

theorem writes_filler (id : ID) {size bp : Int} (h : bp ≤ size) (h2 : size - bp < 2147483648) :
    Writes (writeZeroFillerBytes id size bp) (List.replicate (size - bp).toNat 0) where
  full s hs := by
    rw [List.length_replicate] at hs
    unfold writeZeroFillerBytes
    by_cases hlt : bp < size
    · rw [if_pos hlt, subInt_ok (by unfold inInt; omega)]
      simp only [M.bind_apply, M.ofOut_val]
      rw [fwrite_full _ _ (by simpa using hs)]
      simp
    · rw [if_neg hlt]
      have : (size - bp).toNat = 0 := by omega
      simp [this]
  short s hs := by
    rw [List.length_replicate] at hs
    unfold writeZeroFillerBytes
    have hlt : bp < size := by omega
    rw [if_pos hlt, subInt_ok (by unfold inInt; omega)]
    refine ⟨_, ?_, .one _ (.fillerFailed (size - bp).toNat id)⟩
    simp only [M.bind_apply, M.ofOut_val]
    rw [fwrite_short _ _ (by simpa using hs)]
    simp only [Nat.ne_of_lt hs, if_false]
    rfl

theorem writes_pad (size : Int) (id : ID) : Writes (writePaddingByte size id) (pad size) where
  full s hs := by
    unfold writePaddingByte
    by_cases ho : isOdd size = true
    · have hp : pad size = [0] := by rw [isOdd_iff] at ho; simp [pad, ho]
      rw [hp] at hs ⊢
      rw [if_pos ho, M.bind_apply, fwrite_full _ _ hs]
      rfl
    · have hp : pad size = [] := by rw [isOdd_iff] at ho; simp [pad, ho]
      rw [if_neg ho, hp]
      simp
  short s hs := by
    unfold writePaddingByte
    by_cases ho : isOdd size = true
    · have hp : pad size = [0] := by rw [isOdd_iff] at ho; simp [pad, ho]
      rw [hp] at hs ⊢
      have h0 : s.room = 0 := by simp at hs; omega
      refine ⟨_, ?_, .one _ (.padWriteFailed id)⟩
      rw [if_pos ho, M.bind_apply, fwrite_short _ _ hs]
      simp only [h0]
      rfl
    · have hp : pad size = [] := by rw [isOdd_iff] at ho; simp [pad, ho]
      rw [hp] at hs; simp at hs

/-- IFF_writeChunk, given its fields. -/
theorem writes_chunkWith (e : Env) (c : Chunk) (fields : M WS (Bool × Int)) (body : List Byte)
    (bp : Int) (h0 : 0 ≤ c.size) (h1 : c.size < 2147483648) (hb : bp ≤ c.size) (hb0 : 0 ≤ bp)
    (hf : WritesI fields body bp) :
    Writes (writeChunkWith e c fields)
      (header c.id c.size ++ (body ++ List.replicate (c.size - bp).toNat 0) ++ pad c.size) := by
  have hsz := writes_ulong e (BitVec.ofInt 32 c.size) c.id "chunkSize"
  rw [be4_eq, ← be4_size h0 (by omega)] at hsz
  have := (writes_ulong e c.id c.id "chunkId").seq
    (hsz.seq (hf.seq (m' := fun bp => do
        if ← writeZeroFillerBytes c.id c.size bp then writePaddingByte c.size c.id
        else pure false)
      ((writes_filler c.id hb (by omega)).seq (writes_pad c.size c.id))))
  simp only [header, List.append_assoc] at *
  exact this

theorem writes_raw (e : Env) (he : 32 ≤ e.sizeBits) (id : ID) {size : Int} {data : List Byte}
    (hs : size = (data.length : Int)) (hs2 : size < 2147483648) :
    WritesI (writeRawChunk e id size data 0) data size := by
  have ht : toSize e size = data.length := by
    rw [toSize_nonneg e he (by omega) (by omega)]; omega
  constructor
  · intro s h
    unfold writeRawChunk
    rw [ht, if_pos (Nat.le_refl _), List.take_length, M.bind_apply, fwrite_full _ _ h]
    simp only [Nat.lt_irrefl, if_false]
    rw [M.bind_apply, addInt_ok (by unfold inInt; omega)]
    simp
  · intro s h
    refine ⟨0, _, ?_, .one _ (.rawWrite id)⟩
    unfold writeRawChunk
    rw [ht, if_pos (Nat.le_refl _), List.take_length, M.bind_apply, fwrite_short _ _ h]
    simp only [h, if_true]
    rfl

theorem writes_ext (e : Env) (he : 32 ≤ e.sizeBits) (id : ID) (size : Int)
    (hs : size < 2147483648) :
    ∀ (fields : List Field) (vals : List Val) (room : Nat) (bp : Int),
      vals.map Val.kind = fields.map Field.kind → 0 ≤ bp → bp + room = size →
      TailOk size vals room →
      WritesI (writeExtFields e id size fields vals bp) ((fitting vals room).flatMap encodeVal)
        (bp + ((fitting vals room).flatMap encodeVal).length)
  | [], [], room, bp, _, _, _, _ => by
    simpa [writeExtFields, fitting] using WritesI.nil bp
  | f :: fs, v :: vs, room, bp, hk, h0, hr, ht => by
    simp only [List.map_cons, List.cons.injEq] at hk
    have hl := encodeVal_length v
    unfold fitting
    unfold TailOk at ht
    unfold writeExtFields
    by_cases hfit : (encodeVal v).length ≤ room
    · rw [if_pos hfit] at ht ⊢
      have hfit' : fieldDoesNotFitInChunk e v.kind.size size bp = false := by
        rw [fits_iff e he (by omega) hs h0 (by omega)]; omega
      have hw := writes_field e v id size f.name bp hfit'
      rw [increaseBytesProcessed_ok e he (by unfold inInt; omega)] at hw
      have ih := writes_ext e he id size hs fs vs (room - (encodeVal v).length)
        (bp + v.kind.size) hk.2 (by omega) (by omega) ht
      have := hw.seqI (m' := fun bp => writeExtFields e id size fs vs bp) ih
      simp only [List.flatMap_cons, List.length_append]
      have he : bp + (((encodeVal v).length + ((fitting vs (room - (encodeVal v).length)).flatMap
          encodeVal).length : Nat) : Int) = bp + (v.kind.size : Int) +
          (((fitting vs (room - (encodeVal v).length)).flatMap encodeVal).length : Int) := by
        omega
      rw [he]
      exact this
    · rw [if_neg hfit] at ht ⊢
      have hnf : fieldDoesNotFitInChunk e v.kind.size size bp = true := by
        cases hc : fieldDoesNotFitInChunk e v.kind.size size bp with
        | true => rfl
        | false => rw [fits_iff e he (by omega) hs h0 (by omega)] at hc; omega
      constructor
      · intro s _
        simp [M.bind_apply, writeField, hnf, deriveSuccess]
      · intro s h; simp at h

theorem writes_subs (e : Env) (he : 32 ≤ e.sizeBits) (r : Registry) (ty : ID) :
    ∀ (subs : List Chunk) (bp : Int), 0 ≤ bp →
      bp + ((encodeAll subs).length : Int) < 2147483648 → (∀ c ∈ subs, Consistent c) →
      (∀ c ∈ subs, Writes (writeChunk e r ty c) (encode c)) →
      WritesI (writeGroupSubChunks e r ty subs bp) (encodeAll subs)
        (bp + (encodeAll subs).length)
  | [], bp, _, _, _, _ => by simpa [writeGroupSubChunks, encodeAll] using WritesI.nil bp
  | c :: cs, bp, h0, hlt, hc, hw => by
    have hcc := hc c List.mem_cons_self
    have hlen := hcc.length
    have hrange := hcc.range
    simp only [encodeAll, List.length_append] at hlt ⊢
    have hinc : incrementChunkSize e bp c.size = .val (bp + (encode c).length) := by
      rw [incrementChunkSize_ok e he h0 hrange.1 (by omega), hlen]
    have ih := writes_subs e he r ty cs (bp + (encode c).length) (by omega) (by omega)
      (fun d hd => hc d (List.mem_cons_of_mem _ hd)) (fun d hd => hw d (List.mem_cons_of_mem _ hd))
    have hwc := hw c List.mem_cons_self
    unfold writeChunk at hwc
    have hbp : bp + (((encode c).length + (encodeAll cs).length : Nat) : Int) =
        bp + (encode c).length + (encodeAll cs).length := by omega
    rw [hbp]
    constructor
    · intro s hs
      rw [List.length_append] at hs
      unfold writeGroupSubChunks
      rw [M.bind_apply, hwc.full s (by omega)]
      simp only [if_true, M.bind_apply, hinc, M.ofOut_val]
      rw [ih.full _ (by simp only; omega)]
      simp only [List.length_append, List.append_assoc, Nat.sub_sub]
    · intro s hs
      rw [List.length_append] at hs
      unfold writeGroupSubChunks
      by_cases h1 : (encode c).length ≤ s.room
      · obtain ⟨bp', log', e', r⟩ :=
          ih.short ⟨s.out ++ encode c, s.room - (encode c).length, s.log⟩ (by simp only; omega)
        refine ⟨bp', log', ?_, r⟩
        rw [M.bind_apply, hwc.full s h1]
        simp only [if_true, M.bind_apply, hinc, M.ofOut_val]
        rw [e']
        simp only [List.take_append, List.append_assoc, List.take_of_length_le h1]
      · obtain ⟨log', e', r⟩ := hwc.short s (by omega)
        refine ⟨bp, _, ?_, r.append .subWrite⟩
        rw [M.bind_apply, e', take_append_short (by omega)]
        rfl

theorem writes_props (e : Env) (he : 32 ≤ e.sizeBits) (r : Registry) :
    ∀ (subs : List Chunk) (bp : Int), 0 ≤ bp →
      bp + ((encodeAll subs).length : Int) < 2147483648 → (∀ c ∈ subs, Consistent c) →
      (∀ c ∈ subs, Writes (writeChunk e r 0 c) (encode c)) →
      WritesI (writeListPropChunks e r subs bp) (encodeAll subs)
        (bp + (encodeAll subs).length)
  | [], bp, _, _, _, _ => by simpa [writeListPropChunks, encodeAll] using WritesI.nil bp
  | c :: cs, bp, h0, hlt, hc, hw => by
    have hcc := hc c List.mem_cons_self
    have hlen := hcc.length
    have hrange := hcc.range
    simp only [encodeAll, List.length_append] at hlt ⊢
    have hinc : incrementChunkSize e bp c.size = .val (bp + (encode c).length) := by
      rw [incrementChunkSize_ok e he h0 hrange.1 (by omega), hlen]
    have ih := writes_props e he r cs (bp + (encode c).length) (by omega) (by omega)
      (fun d hd => hc d (List.mem_cons_of_mem _ hd)) (fun d hd => hw d (List.mem_cons_of_mem _ hd))
    have hwc := hw c List.mem_cons_self
    unfold writeChunk at hwc
    have hbp : bp + (((encode c).length + (encodeAll cs).length : Nat) : Int) =
        bp + (encode c).length + (encodeAll cs).length := by omega
    rw [hbp]
    constructor
    · intro s hs
      rw [List.length_append] at hs
      unfold writeListPropChunks
      rw [M.bind_apply, hwc.full s (by omega)]
      simp only [if_true, M.bind_apply, hinc, M.ofOut_val]
      rw [ih.full _ (by simp only; omega)]
      simp only [List.length_append, List.append_assoc, Nat.sub_sub]
    · intro s hs
      rw [List.length_append] at hs
      unfold writeListPropChunks
      by_cases h1 : (encode c).length ≤ s.room
      · obtain ⟨bp', log', e', r⟩ :=
          ih.short ⟨s.out ++ encode c, s.room - (encode c).length, s.log⟩ (by simp only; omega)
        refine ⟨bp', log', ?_, r⟩
        rw [M.bind_apply, hwc.full s h1]
        simp only [if_true, M.bind_apply, hinc, M.ofOut_val]
        rw [e']
        simp only [List.take_append, List.append_assoc, List.take_of_length_le h1]
      · obtain ⟨log', e', r⟩ := hwc.short s (by omega)
        refine ⟨bp, _, ?_, r.append .propWrite⟩
        rw [M.bind_apply, e', take_append_short (by omega)]
        rfl

theorem writes_groupWith (e : Env) (he : 32 ≤ e.sizeBits) (id : ID) {size : Int} (ty : ID)
    (attr : String) {subs : Int → M WS (Bool × Int)} {bs : List Byte} {bp : Int}
    (h4 : 4 ≤ size) (hs : size < 2147483648) (h : WritesI (subs 4) bs bp) :
    WritesI (writeGroupWith e id size ty attr subs 0) (be 4 ty.toNat ++ bs) bp := by
  have hf : fieldDoesNotFitInChunk e (Val.id ty).kind.size size 0 = false := by
    rw [fits_iff e he (by simpa [Val.kind, FieldKind.size] using h4) hs (by omega) (by omega)]
    simpa [Val.kind, FieldKind.size] using h4
  have hw := writes_field e (.id ty) id size attr 0 hf
  rw [increaseBytesProcessed_ok e he (by simp [Val.kind, FieldKind.size, inInt])] at hw
  exact hw.seqI (m' := subs) h

/-- Writing a consistent chunk. -/
theorem writes_chunk (e : Env) (he : 32 ≤ e.sizeBits) {r : Registry} (hr : RegistrySorted r)
    (c : Chunk) : ∀ ft, Consistent c → Dispatched r ft c →
      Writes (writeChunk e r ft c) (encode c) := by
  induction c using Chunk.ind with
  | raw id size data =>
    intro ft hc hd
    cases hc with
    | raw hs hs2 =>
      cases hd with
      | raw hh =>
        unfold writeChunk
        rw [show (Chunk.raw id size data).id = id from rfl, (findChunkType_iff hr).mpr hh]
        have := writes_chunkWith e (.raw id size data) _ data size
          (by simp only [Chunk.size]; omega) hs2 (Int.le_refl _) (by omega)
          (writes_raw e he id hs hs2)
        simpa [encode, writeFields, Chunk.id, Chunk.size] using this
  | ext id size vals =>
    intro ft hc hd
    cases hc with
    | ext hs hs2 ht =>
      cases hd with
      | @ext _ _ _ _ fields chk hh hk =>
        unfold writeChunk
        rw [show (Chunk.ext id size vals).id = id from rfl, (findChunkType_iff hr).mpr hh]
        have hw := writes_ext e he id size hs2 fields vals size.toNat 0 hk (by omega) (by omega) ht
        have hl := encodeFields_length vals size
        have := writes_chunkWith e (.ext id size vals) _ _ _ hs hs2
          (by show 0 + ((encodeFields vals size).length : Int) ≤ size; omega)
          (by omega) hw
        simp only [writeFields, hk, if_true]
        have hr : (size - (encodeFields vals size).length).toNat =
          size.toNat - (encodeFields vals size).length := by omega
        simpa [encode, Chunk.id, Chunk.size, encodeFields, ← hr] using this
  | grp id size ty subs ih =>
    intro ft hc hd
    cases hc with
    | grp hs hs2 hcs =>
      cases hd with
      | @grp _ _ _ _ _ h hh hk hds =>
        unfold writeChunk
        rw [show (Chunk.grp id size ty subs).id = id from rfl, (findChunkType_iff hr).mpr hh]
        have hsub := writes_subs e he r ty subs 4 (by omega) (by omega) hcs
          (fun c hc => ih c hc ty (hcs c hc) (hds c hc))
        have hw : WritesI (writeFields e r h (.grp id size ty subs))
            (be 4 ty.toNat ++ encodeAll subs) size := by
          rw [hs]
          rw [hs] at hs2
          rcases hk with rfl | rfl | rfl <;>
            exact writes_groupWith e he id ty _ (by omega) hs2 hsub
        have := writes_chunkWith e (.grp id size ty subs) _ _ size
          (by simp only [Chunk.size]; omega) hs2 (Int.le_refl _) (by omega) hw
        simpa [encode, Chunk.id, Chunk.size] using this
  | lst id size ty subs props ih ih2 =>
    intro ft hc hd
    cases hc with
    | lst hs hs2 hcs hcp =>
      cases hd with
      | lst hh hds hdp =>
        unfold writeChunk
        rw [show (Chunk.lst id size ty subs props).id = id from rfl, (findChunkType_iff hr).mpr hh]
        have hprop := writes_props e he r props 4 (by omega) (by omega) hcp
          (fun c hc => ih2 c hc 0 (hcp c hc) (hdp c hc))
        have hsub := writes_subs e he r ty subs (4 + (encodeAll props).length) (by omega)
          (by omega) hcs (fun c hc => ih c hc ty (hcs c hc) (hds c hc))
        have hw : WritesI (writeFields e r .list (.lst id size ty subs props))
            (be 4 ty.toNat ++ (encodeAll props ++ encodeAll subs)) size := by
          rw [hs]
          rw [hs] at hs2
          exact writes_groupWith e he id ty _ (by omega) hs2
            (subs := fun bp => do
              let (ok, bp') ← writeListPropChunks e r props bp
              if ok then writeGroupSubChunks e r ty subs bp' else pure (false, bp'))
            (hprop.seqI (m' := fun bp => writeGroupSubChunks e r ty subs bp) hsub)
        have := writes_chunkWith e (.lst id size ty subs props) _ _ size
          (by simp only [Chunk.size]; omega) hs2 (Int.le_refl _) (by omega) hw
        simpa [encode, Chunk.id, Chunk.size] using this

end Iff
