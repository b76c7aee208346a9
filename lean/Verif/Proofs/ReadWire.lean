import Verif.Proofs.ReadBase
/-
  Reading a well-formed byte string: the relation `Wire` between byte strings and the hierarchies
  they denote under a registry, and the proof that the reader computes it.
-/
namespace Iff
open Spec

/-- Bytes, the chunk they denote, and the diagnostics that reading them emits. -/
structure Piece where
  w : List Byte
  c : Chunk
  notes : List Msg

/-- The concatenated bytes. -/
def wires (ps : List Piece) : List Byte := ps.flatMap Piece.w

/-- `w` is a well-formed encoding of `c` for the reader (any padding byte; PROPs anywhere in a LIST;
any filler after the fields of an application chunk). -/
inductive Wire (e : Env) (r : Registry) : ID → List Byte → Chunk → List Msg → Prop
  | raw {ft id size data p pn} : findChunkType r ft id = .raw →
      size = ((data.length : Nat) : Int) → size < 2147483648 → e.mallocOk data.length = true →
      PadWire size p pn → Wire e r ft (header id size ++ data ++ p) (.raw id size data) pn
  | grp {ft id size ty p pn h} (ps : List Piece) : findChunkType r ft id = h →
      h = .form ∨ h = .cat ∨ h = .prop →
      size = 4 + ((wires ps).length : Int) → size < 2147483648 →
      (∀ q ∈ ps, Wire e r ty q.w q.c q.notes) → PadWire size p pn →
      Wire e r ft (header id size ++ (be 4 ty.toNat ++ wires ps) ++ p)
        (.grp id size ty (ps.map Piece.c)) (ps.flatMap Piece.notes ++ pn)
  | lst {ft size ty p pn} (ps : List Piece) : findChunkType r ft idLIST = .list →
      size = 4 + ((wires ps).length : Int) → size < 2147483648 →
      (∀ q ∈ ps, Wire e r ty q.w q.c q.notes) → PadWire size p pn →
      Wire e r ft (header idLIST size ++ (be 4 ty.toNat ++ wires ps) ++ p)
        (.lst idLIST size ty ((ps.map Piece.c).filter fun c => c.id ≠ idPROP)
          ((ps.map Piece.c).filter fun c => c.id = idPROP)) (ps.flatMap Piece.notes ++ pn)
  | ext {ft id size vals filler p pn fields chk} :
      findChunkType r ft id = .ext fields chk → vals.map Val.kind = fields.map Field.kind →
      0 ≤ size → size < 2147483648 → TailOk size vals size.toNat →
      ((encodeFields vals size).length : Int) + filler.length = size →
      (filler = [] ∨ e.seekable = true) → PadWire size p pn →
      Wire e r ft (header id size ++ (encodeFields vals size ++ filler) ++ p)
        (.ext id size (fitting vals size.toNat ++
          (fields.map fun f => f.kind.zero).drop (fitting vals size.toNat).length))
        ((if filler = [] then [] else [.skipped filler.length id]) ++ pn)

theorem Wire.length {e : Env} {r : Registry} {ft : ID} {w : List Byte} {c : Chunk}
    {notes : List Msg} (h : Wire e r ft w c notes) :
    (w.length : Int) = 8 + c.size + c.size % 2 ∧ 0 ≤ c.size ∧ c.size < 2147483648 := by
  cases h with
  | raw _ h2 h3 _ hp =>
    have := hp.length
    simp only [List.length_append, header_length, Chunk.size]; omega
  | grp _ _ _ h2 h3 _ hp =>
    have := hp.length
    simp only [List.length_append, header_length, Chunk.size, be_length]; omega
  | lst _ _ h2 h3 _ hp =>
    have := hp.length
    simp only [List.length_append, header_length, Chunk.size, be_length]; omega
  | ext _ _ h0 h1 _ h2 _ hp =>
    have := hp.length
    simp only [List.length_append, header_length, Chunk.size]; omega

theorem readVal_ok (e : Env) (v : Val) (id : ID) (a : String) (rest : List Byte) (log : List Msg) :
    readVal e v.kind id a ⟨encodeVal v ++ rest, log⟩ = .val (some v, ⟨rest, log⟩) := by
  cases v with
  | ubyte v =>
    simp only [encodeVal, be1_eq]; rfl
  | uword v =>
    simp only [encodeVal, be2_eq, bytes16, List.cons_append, List.nil_append, readVal, Val.kind,
      M.bind_apply]
    rw [readUWord_ok, extract_append16]; rfl
  | word v =>
    simp only [encodeVal, be2_eq, bytes16, List.cons_append, List.nil_append, readVal, Val.kind,
      M.bind_apply, readWord_eq]
    rw [readUWord_ok, extract_append16]; rfl
  | ulong v =>
    simp only [encodeVal, be4_eq, bytes32, List.cons_append, List.nil_append, readVal, Val.kind,
      M.bind_apply]
    rw [readULong_ok, extract_append32]; rfl
  | long v =>
    simp only [encodeVal, be4_eq, bytes32, List.cons_append, List.nil_append, readVal, Val.kind,
      M.bind_apply, readLong_eq]
    rw [readULong_ok, extract_append32]; rfl
  | id v =>
    simp only [encodeVal, be4_eq, bytes32, List.cons_append, List.nil_append, readVal, Val.kind,
      M.bind_apply, readId_eq]
    rw [readULong_ok, extract_append32]; rfl

/-- Reading the fields of an application chunk. -/
theorem reads_ext (e : Env) (he : 32 ≤ e.sizeBits) (id : ID) (size : Int)
    (hs : size < 2147483648) (rest : List Byte) (log : List Msg) :
    ∀ (fields : List Field) (vals cur done : List Val) (room : Nat) (bp : Int),
      vals.map Val.kind = fields.map Field.kind → cur.length = fields.length →
      0 ≤ bp → bp + room = size → TailOk size vals room →
      readExtFields e id size fields cur done bp
        ⟨(fitting vals room).flatMap encodeVal ++ rest, log⟩ =
      .val ((true, done ++ (fitting vals room ++ cur.drop (fitting vals room).length),
        bp + (((fitting vals room).flatMap encodeVal).length : Int)), ⟨rest, log⟩)
  | [], [], [], done, room, bp, _, _, _, _, _ => by
    simp [readExtFields, fitting]
  | f :: fs, v :: vs, u :: us, done, room, bp, hk, hc, h0, hr, ht => by
    simp only [List.map_cons, List.cons.injEq] at hk
    simp only [List.length_cons, Nat.add_right_cancel_iff] at hc
    have hl := encodeVal_length v
    unfold fitting
    unfold TailOk at ht
    unfold readExtFields
    rw [← hk.1]
    by_cases hfit : (encodeVal v).length ≤ room
    · rw [if_pos hfit] at ht ⊢
      have hfit' : fieldDoesNotFitInChunk e v.kind.size size bp = false := by
        rw [fits_iff e he (by omega) hs h0 (by omega)]; omega
      have ih := reads_ext e he id size hs rest log fs vs us (done ++ [v])
        (room - (encodeVal v).length) (bp + v.kind.size) hk.2 hc (by omega) (by omega) ht
      simp only [List.flatMap_cons, List.append_assoc]
      simp only [M.bind_apply, readField, hfit', Bool.false_eq_true, if_false]
      rw [readVal_ok]
      simp only [M.pure_apply]
      rw [increaseBytesProcessed_ok e he (by unfold inInt; omega)]
      rw [ih]
      simp only [List.append_assoc, List.length_append, List.cons_append, List.nil_append,
        List.length_cons, List.drop_succ_cons]
      congr 4
      omega
    · rw [if_neg hfit] at ht ⊢
      have hnf : fieldDoesNotFitInChunk e v.kind.size size bp = true := by
        cases hc : fieldDoesNotFitInChunk e v.kind.size size bp with
        | true => rfl
        | false => rw [fits_iff e he (by omega) hs h0 (by omega)] at hc; omega
      simp [M.bind_apply, readField, hnf, deriveSuccess]
  | [], v :: vs, _, _, _, _, hk, _, _, _, _ => by simp at hk
  | f :: fs, [], _, _, _, _, hk, _, _, _, _ => by simp at hk
  | [], _, u :: us, _, _, _, _, hc, _, _, _ => by simp at hc
  | f :: fs, _, [], _, _, _, _, hc, _, _, _ => by simp at hc

theorem header_bytes (id : ID) {size : Int} (h0 : 0 ≤ size) (h1 : size < 4294967296) :
    header id size = bytes32 id ++ bytes32 (BitVec.ofInt 32 size) := by
  rw [header, be4_eq, be4_size h0 h1]

theorem ofInt_toInt {size : Int} (h : inInt size) : (BitVec.ofInt 32 size).toInt = size := by
  rw [BitVec.toInt_ofInt]
  unfold inInt at h
  rw [Int.bmod_def]
  simp only [Nat.reducePow]
  split <;> omega

theorem readChunk_at (e : Env) (r : Registry) (n : Nat) (ft id : ID) {size : Int}
    (h0 : 0 ≤ size) (h1 : size < 2147483648) (rest : List Byte) (log : List Msg) :
    readChunk e r (n + 1) ft ⟨header id size ++ rest, log⟩ =
      readBody e r n (findChunkType r ft id) id size ⟨rest, log⟩ := by
  rw [header_bytes id h0 (by omega), readChunk_header, ofInt_toInt (by unfold inInt; omega)]

theorem wires_cons (q : Piece) (ps : List Piece) : wires (q :: ps) = q.w ++ wires ps := rfl

/-- The loop of `readGroupSubChunks` on well-formed members. -/
theorem reads_group {e : Env} (he : 32 ≤ e.sizeBits) {r : Registry} {ty : ID} {size : Int}
    (hs : size < 2147483648) :
    ∀ (ps : List Piece),
      (∀ q ∈ ps, Wire e r ty q.w q.c q.notes) →
      (∀ q ∈ ps, ∀ n rest log, q.w.length ≤ n →
        readChunk e r n ty ⟨q.w ++ rest, log⟩ = .val (some q.c, ⟨rest, log ++ q.notes⟩)) →
      ∀ (n : Nat) (subs : List Chunk) (bp : Int) (rest : List Byte) (log : List Msg),
        0 ≤ bp → bp + ((wires ps).length : Int) = size → (wires ps).length < n →
        readGroupSubChunks e r n ty size subs bp ⟨wires ps ++ rest, log⟩ =
          .val ((true, subs ++ ps.map Piece.c, size), ⟨rest, log ++ ps.flatMap Piece.notes⟩) := by
  intro ps
  induction ps with
  | nil =>
    intro _ _ n subs bp rest log h0 hb hn
    obtain ⟨n, rfl⟩ : ∃ k, n = k + 1 := ⟨n - 1, by omega⟩
    have hbp : bp = size := by simpa [wires] using hb
    subst hbp
    unfold readGroupSubChunks
    rw [if_neg (by omega), if_neg (by omega)]
    simp [wires]
  | cons q ps ih =>
    intro hw hr n subs bp rest log h0 hb hn
    obtain ⟨n, rfl⟩ : ∃ k, n = k + 1 := ⟨n - 1, by omega⟩
    have hl := (hw q List.mem_cons_self).length
    rw [wires_cons, List.length_append] at hb hn
    unfold readGroupSubChunks
    rw [if_pos (by omega), M.bind_apply, wires_cons, List.append_assoc,
      hr q List.mem_cons_self n _ _ (by omega)]
    simp only [M.bind_apply]
    rw [incrementChunkSize_ok e he h0 hl.2.1 (by omega)]
    simp only [M.ofOut_val]
    rw [ih (fun p hp => hw p (List.mem_cons_of_mem _ hp))
      (fun p hp => hr p (List.mem_cons_of_mem _ hp)) n _ _ _ _ (by omega) (by omega) (by omega)]
    simp

/-- The loop of `readListSubChunks` on well-formed members. -/
theorem reads_list {e : Env} (he : 32 ≤ e.sizeBits) {r : Registry} {ty : ID} {size : Int}
    (hs : size < 2147483648) :
    ∀ (ps : List Piece),
      (∀ q ∈ ps, Wire e r ty q.w q.c q.notes) →
      (∀ q ∈ ps, ∀ n rest log, q.w.length ≤ n →
        readChunk e r n ty ⟨q.w ++ rest, log⟩ = .val (some q.c, ⟨rest, log ++ q.notes⟩)) →
      ∀ (n : Nat) (subs props : List Chunk) (bp : Int) (rest : List Byte) (log : List Msg),
        0 ≤ bp → bp + ((wires ps).length : Int) = size → (wires ps).length < n →
        readListSubChunks e r n ty size subs props bp ⟨wires ps ++ rest, log⟩ =
          .val ((true, subs ++ (ps.map Piece.c).filter (fun c => c.id ≠ idPROP),
            props ++ (ps.map Piece.c).filter (fun c => c.id = idPROP), size),
            ⟨rest, log ++ ps.flatMap Piece.notes⟩) := by
  intro ps
  induction ps with
  | nil =>
    intro _ _ n subs props bp rest log h0 hb hn
    obtain ⟨n, rfl⟩ : ∃ k, n = k + 1 := ⟨n - 1, by omega⟩
    have hbp : bp = size := by simpa [wires] using hb
    subst hbp
    unfold readListSubChunks
    rw [if_neg (by omega), if_neg (by omega)]
    simp [wires]
  | cons q ps ih =>
    intro hw hr n subs props bp rest log h0 hb hn
    obtain ⟨n, rfl⟩ : ∃ k, n = k + 1 := ⟨n - 1, by omega⟩
    have hl := (hw q List.mem_cons_self).length
    rw [wires_cons, List.length_append] at hb hn
    unfold readListSubChunks
    rw [if_pos (by omega), M.bind_apply, wires_cons, List.append_assoc,
      hr q List.mem_cons_self n _ _ (by omega)]
    simp only [M.bind_apply]
    rw [incrementChunkSize_ok e he h0 hl.2.1 (by omega)]
    simp only [M.ofOut_val]
    by_cases hp : q.c.id = idPROP
    · rw [if_pos hp]
      rw [ih (fun p hp => hw p (List.mem_cons_of_mem _ hp))
        (fun p hp => hr p (List.mem_cons_of_mem _ hp)) n _ _ _ _ _ (by omega) (by omega) (by omega)]
      simp [hp]
    · rw [if_neg hp]
      rw [ih (fun p hp => hw p (List.mem_cons_of_mem _ hp))
        (fun p hp => hr p (List.mem_cons_of_mem _ hp)) n _ _ _ _ _ (by omega) (by omega) (by omega)]
      simp [hp]

/-- The reader on a well-formed byte string. -/
theorem Wire.reads {e : Env} (he : 32 ≤ e.sizeBits) {r : Registry} {ft : ID} {w : List Byte}
    {c : Chunk} {notes : List Msg} (h : Wire e r ft w c notes) :
    ∀ n rest log, w.length ≤ n →
      readChunk e r n ft ⟨w ++ rest, log⟩ = .val (some c, ⟨rest, log ++ notes⟩) := by
  induction h with
  | @raw ft id size data p pn hh h2 h3 hm hp =>
    intro n rest log hn
    simp only [List.length_append, header_length] at hn
    obtain ⟨n, rfl⟩ : ∃ k, n = k + 1 := ⟨n - 1, by omega⟩
    simp only [List.append_assoc]
    rw [readChunk_at e r n ft id (by omega) h3, hh]
    have ht : toSize e size = data.length := by
      rw [toSize_nonneg e he (by omega) (by omega)]; omega
    simp only [readBody, createChunk, ht, hm, if_true]
    simp only [M.bind_apply, readRawChunk, fread, ht, List.take_left', List.drop_left',
      Nat.lt_irrefl, if_false]
    rw [addInt_ok (by unfold inInt; omega)]
    simp only [M.ofOut_val, M.pure_apply]
    rw [finishChunk_done e _ (by omega), readPaddingByte_ok hp]
  | @grp ft id size ty p pn h ps hh hk h2 h3 hw hp ih =>
    intro n rest log hn
    simp only [List.length_append, header_length, be_length] at hn
    obtain ⟨n, rfl⟩ : ∃ k, n = k + 1 := ⟨n - 1, by omega⟩
    simp only [List.append_assoc]
    rw [readChunk_at e r n ft id (by omega) h3, hh]
    have key : readBody e r n h id size = (do
        let (st, v, bp) ← readField e .id id size
          (match h with | .cat => "contentsType" | _ => "formType") (.id 0) 0
        match st with
        | .more =>
          let (ok, subs, bp) ← readGroupSubChunks e r n v.toId size [] bp
          finishChunk e size ok (.grp id size v.toId subs) bp
        | st => finishChunk e size (deriveSuccess st) (.grp id size v.toId []) bp) := by
      rcases hk with rfl | rfl | rfl <;> rfl
    rw [key, be4_eq, M.bind_apply, readField_id_ok e he]
    simp only [Val.toId, M.bind_apply]
    rw [reads_group he h3 ps hw ih n [] 4 _ _ (by omega) (by omega) (by omega)]
    simp only [List.nil_append]
    rw [finishChunk_done e _ (by omega), readPaddingByte_ok hp]
    simp
  | @lst ft size ty p pn ps hh h2 h3 hw hp ih =>
    intro n rest log hn
    simp only [List.length_append, header_length, be_length] at hn
    obtain ⟨n, rfl⟩ : ∃ k, n = k + 1 := ⟨n - 1, by omega⟩
    simp only [List.append_assoc]
    rw [readChunk_at e r n ft idLIST (by omega) h3, hh]
    simp only [readBody, createChunk]
    rw [be4_eq, M.bind_apply, readField_id_ok e he]
    simp only [Val.toId, M.bind_apply]
    rw [reads_list he h3 ps hw ih n [] [] 4 _ _ (by omega) (by omega) (by omega)]
    simp only [List.nil_append, if_true]
    rw [finishChunk_done e _ (by omega), readPaddingByte_ok hp]
    simp
  | @ext ft id size vals filler p pn fields chk hh hk h0 h1 ht hf hsk hp =>
    intro n rest log hn
    simp only [List.length_append, header_length] at hn
    obtain ⟨n, rfl⟩ : ∃ k, n = k + 1 := ⟨n - 1, by omega⟩
    simp only [List.append_assoc]
    rw [readChunk_at e r n ft id h0 h1, hh]
    simp only [readBody, createChunk]
    rw [M.bind_apply]
    have hx := reads_ext e he id size h1 (filler ++ (p ++ rest)) log fields vals
      (fields.map fun f => f.kind.zero) [] size.toNat 0 hk (by simp) (by omega) (by omega) ht
    unfold encodeFields
    rw [hx]
    simp only [List.nil_append]
    have hfl : (0 : Int) + (((fitting vals size.toNat).flatMap encodeVal).length : Int) =
        size - filler.length := by
      have : ((fitting vals size.toNat).flatMap encodeVal).length =
        (encodeFields vals size).length := rfl
      omega
    rw [hfl]
    by_cases hfe : filler = []
    · subst hfe
      simp only [List.length_nil, List.nil_append, if_true]
      rw [finishChunk_done e _ (by omega), readPaddingByte_ok hp]
    · have hse := hsk.resolve_left hfe
      have hpos : 0 < filler.length := List.length_pos_iff.mpr hfe
      unfold finishChunk skipUnknownBytes
      have hlt : size - (filler.length : Int) < size := by omega
      have hsub : size - (size - (filler.length : Int)) = filler.length := by omega
      rw [subInt_ok (by unfold inInt; omega), hsub]
      simp only [hlt, if_true, M.bind_apply, M.ofOut_val, fseekCur, hse, RS.emit, M.pure_apply,
        Int.toNat_natCast, List.drop_left', if_neg hfe]
      rw [readPaddingByte_ok hp]
      simp [Chunk.id]

end Iff
