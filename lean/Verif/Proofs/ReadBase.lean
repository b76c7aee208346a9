import Verif.Model.Read
import Verif.Proofs.Tree
import Verif.Proofs.Io
import Verif.Proofs.Arith
/-
  Unfolding of the reader.
-/
namespace Iff
open Spec

/-- The part of `IFF_readChunk` after the header: chunk.c:46-66 `readChunkBody`. -/
def readBody (e : Env) (r : Registry) (n : Nat) (h : Handler) (id : ID) (size : Int) :
    M RS (Option Chunk) :=
  match createChunk e h id size with
  | none => pure none
  | some (.raw id size _) => do
    let (ok, data, bp) ← readRawChunk e id size 0
    finishChunk e size ok (.raw id size data) bp
  | some (.ext id size vals) =>
    match h with
    | .ext fields _ => do
      let (ok, vals, bp) ← readExtFields e id size fields vals [] 0
      finishChunk e size ok (.ext id size vals) bp
    | _ => M.ub .wrongStruct
  | some (.grp id size ty subs) => do
    let (st, v, bp) ← readField e .id id size
      (match h with | .cat => "contentsType" | _ => "formType") (.id ty) 0
    match st with
    | .more =>
      let (ok, subs, bp) ← readGroupSubChunks e r n v.toId size subs bp
      finishChunk e size ok (.grp id size v.toId subs) bp
    | st => finishChunk e size (deriveSuccess st) (.grp id size v.toId subs) bp
  | some (.lst id size ty subs props) => do
    let (st, v, bp) ← readField e .id id size "contentsType" (.id ty) 0
    match st with
    | .more =>
      let (ok, subs, props, bp) ← readListSubChunks e r n v.toId size subs props bp
      if ok then finishChunk e size true (.lst id size v.toId subs props) bp
      else do RS.emit .listRead; pure none
    | st => finishChunk e size (deriveSuccess st) (.lst id size v.toId subs props) bp

theorem readBody_raw (e : Env) (r : Registry) (n : Nat) (id : ID) (size : Int) :
    readBody e r n .raw id size =
      if e.mallocOk (toSize e size) then (do
        let (ok, data, bp) ← readRawChunk e id size 0
        finishChunk e size ok (.raw id size data) bp)
      else pure none := by
  unfold readBody createChunk
  by_cases h : e.mallocOk (toSize e size) = true
  · simp only [if_pos h]
  · simp only [if_neg h]

theorem readBody_ext (e : Env) (r : Registry) (n : Nat) (fields : List Field)
    (chk : List Val → Bool) (id : ID) (size : Int) :
    readBody e r n (.ext fields chk) id size = (do
      let (ok, vals, bp) ← readExtFields e id size fields (fields.map fun f => f.kind.zero) [] 0
      finishChunk e size ok (.ext id size vals) bp) := rfl

theorem readBody_grp (e : Env) (r : Registry) (n : Nat) {h : Handler} (id : ID) (size : Int)
    (hk : h = .form ∨ h = .cat ∨ h = .prop) :
    readBody e r n h id size = (do
      let (st, v, bp) ← readField e .id id size
        (match h with | .cat => "contentsType" | _ => "formType") (.id 0) 0
      match st with
      | .more =>
        let (ok, subs, bp) ← readGroupSubChunks e r n v.toId size [] bp
        finishChunk e size ok (.grp id size v.toId subs) bp
      | st => finishChunk e size (deriveSuccess st) (.grp id size v.toId []) bp) := by
  rcases hk with rfl | rfl | rfl <;> rfl

theorem readBody_lst (e : Env) (r : Registry) (n : Nat) (id : ID) (size : Int) :
    readBody e r n .list id size = (do
      let (st, v, bp) ← readField e .id idLIST size "contentsType" (.id 0) 0
      match st with
      | .more =>
        let (ok, subs, props, bp) ← readListSubChunks e r n v.toId size [] [] bp
        if ok then finishChunk e size true (.lst idLIST size v.toId subs props) bp
        else do RS.emit .listRead; pure none
      | st => finishChunk e size (deriveSuccess st) (.lst idLIST size v.toId [] []) bp) := rfl

/-- Case distinction on the function table, groups taken together. -/
theorem Handler.cases' (h : Handler) : h = .raw ∨ (h = .form ∨ h = .cat ∨ h = .prop) ∨ h = .list ∨
    ∃ fields chk, h = .ext fields chk := by
  cases h <;> simp

theorem readChunk_succ (e : Env) (r : Registry) (n : Nat) (ft : ID) :
    readChunk e r (n + 1) ft = (do
      match ← readId e idEMPTY "" with
      | none => pure none
      | some id =>
        match ← readLong e id "chunkSize" with
        | none => pure none
        | some sz => readBody e r n (findChunkType r ft id) id sz.toInt) := by
  rw [readChunk]; rfl

theorem readChunk_header (e : Env) (r : Registry) (n : Nat) (ft : ID) (id sz : BitVec 32)
    (rest : List Byte) (log : List Msg) :
    readChunk e r (n + 1) ft ⟨bytes32 id ++ bytes32 sz ++ rest, log⟩ =
      readBody e r n (findChunkType r ft id) id sz.toInt ⟨rest, log⟩ := by
  rw [readChunk_succ, M.bind_apply, readId_eq]
  simp only [bytes32, List.cons_append, List.nil_append]
  rw [readULong_ok, extract_append32]
  simp only [M.bind_apply, readLong_eq]
  rw [readULong_ok, extract_append32]

/-- A stream of less than 8 bytes: no chunk. -/
theorem readChunk_short (e : Env) (r : Registry) (n : Nat) (ft : ID) (s : RS)
    (h : s.inp.length < 8) : ∃ log', readChunk e r (n + 1) ft s = .val (none, ⟨[], log'⟩) := by
  obtain ⟨inp, log⟩ := s
  rw [readChunk_succ, M.bind_apply, readId_eq]
  by_cases h4 : inp.length < 4
  · rw [readULong_short _ _ _ _ h4]; exact ⟨_, rfl⟩
  · obtain ⟨a, b, c, d, rest, rfl⟩ := cons4_of_length (by omega : 4 ≤ inp.length)
    rw [readULong_ok]
    simp only [M.bind_apply, readLong_eq]
    rw [readULong_short _ _ _ _ (by simp at h; simp only; omega)]
    exact ⟨_, rfl⟩

theorem split32 {inp : List Byte} (h : 4 ≤ inp.length) :
    ∃ (v : BitVec 32) (rest : List Byte), inp = bytes32 v ++ rest := by
  obtain ⟨a, b, c, d, rest, rfl⟩ := cons4_of_length h
  exact ⟨a ++ b ++ c ++ d, rest, by rw [append_extract32]; rfl⟩

/-- A stream of at least 8 bytes starts with a header. -/
theorem split_header {inp : List Byte} (h : 8 ≤ inp.length) :
    ∃ (id sz : BitVec 32) (rest : List Byte), inp = bytes32 id ++ bytes32 sz ++ rest := by
  obtain ⟨id, rest, rfl⟩ := split32 (by omega : 4 ≤ inp.length)
  obtain ⟨sz, rest, rfl⟩ := split32 (inp := rest) (by simp at h; omega)
  exact ⟨id, sz, rest, by simp⟩

/-- The group type is always read, whatever the declared size: `0 > x` is false for any `size_t`. -/
theorem groupType_fits (e : Env) (size : Int) (n : Nat) :
    fieldDoesNotFitInChunk e n size 0 = false := by
  unfold fieldDoesNotFitInChunk
  have : toSize e 0 = 0 := by simp [toSize]
  rw [this]
  simp

theorem readField_id_ok (e : Env) (he : 32 ≤ e.sizeBits) (id : ID) (size : Int) (attr : String)
    (cur : Val) (ty : ID) (rest : List Byte) (log : List Msg) :
    readField e .id id size attr cur 0 ⟨bytes32 ty ++ rest, log⟩ =
      .val ((.more, .id ty, 4), ⟨rest, log⟩) := by
  unfold readField
  rw [groupType_fits]
  simp only [Bool.false_eq_true, if_false, M.bind_apply, readVal, readId_eq]
  simp only [bytes32, List.cons_append, List.nil_append]
  rw [readULong_ok, extract_append32]
  rw [increaseBytesProcessed_ok e he (by simp [FieldKind.size, inInt])]
  rfl

theorem readField_id_short (e : Env) (id : ID) (size : Int) (attr : String)
    (cur : Val) (s : RS) (h : s.inp.length < 4) :
    readField e .id id size attr cur 0 s =
      .val ((.failure, cur, 0), ⟨[], s.log ++ [.readError id attr]⟩) := by
  unfold readField
  rw [groupType_fits]
  simp only [Bool.false_eq_true, if_false, M.bind_apply, readVal, readId_eq]
  rw [readULong_short _ _ _ _ h]
  rfl

/-- The diagnostics about the padding byte, and the padding itself. -/
def PadWire (size : Int) (p : List Byte) (notes : List Msg) : Prop :=
  (size % 2 = 0 ∧ p = [] ∧ notes = []) ∨
  (size % 2 = 1 ∧ ∃ b, p = [b] ∧ notes = if b = 0 then [] else [.padNonZero])

theorem PadWire.length {size : Int} {p : List Byte} {notes : List Msg} (h : PadWire size p notes) :
    (p.length : Int) = size % 2 := by
  rcases h with ⟨h, rfl, _⟩ | ⟨h, b, rfl, _⟩ <;> simp [h]

theorem PadWire.zero (size : Int) : PadWire size (pad size) [] := by
  unfold PadWire pad
  by_cases h : size % 2 = 1
  · right; exact ⟨h, 0, by simp [h], by simp⟩
  · left; refine ⟨by omega, by simp [h], rfl⟩

theorem readPaddingByte_ok {size : Int} {p : List Byte} {notes : List Msg}
    (h : PadWire size p notes) (id : ID) (rest : List Byte) (log : List Msg) :
    readPaddingByte size id ⟨p ++ rest, log⟩ = .val (true, ⟨rest, log ++ notes⟩) := by
  unfold readPaddingByte
  rcases h with ⟨h, rfl, rfl⟩ | ⟨h, b, rfl, rfl⟩
  · have : isOdd size = false := by
      cases ho : isOdd size with
      | false => rfl
      | true => rw [isOdd_iff] at ho; omega
    simp [this]
  · have : isOdd size = true := by rw [isOdd_iff]; exact h
    rw [if_pos this]
    simp only [M.bind_apply, fgetc, List.cons_append, List.nil_append]
    by_cases hb : b = 0#8
    · simp [hb]
    · simp [hb, M.bind_apply, RS.emit]

/-- Inversion of the padding byte reader. -/
theorem readPaddingByte_inv {size : Int} {id : ID} {s s' : RS}
    (h : readPaddingByte size id s = .val (true, s')) :
    ∃ p notes, PadWire size p notes ∧ s.inp = p ++ s'.inp ∧ s'.log = s.log ++ notes := by
  obtain ⟨inp, log⟩ := s
  unfold readPaddingByte at h
  by_cases ho : isOdd size = true
  · rw [if_pos ho] at h
    rw [isOdd_iff] at ho
    cases inp with
    | nil => simp [M.bind_apply, fgetc, RS.emit] at h
    | cons b bs =>
      refine ⟨[b], if b = 0 then [] else [.padNonZero], Or.inr ⟨ho, b, rfl, rfl⟩, ?_⟩
      by_cases hb : b = 0#8
      · simp [M.bind_apply, fgetc, hb] at h; subst h; simp [hb]
      · simp [M.bind_apply, fgetc, hb, RS.emit] at h; subst h; simp [hb]
  · rw [if_neg ho] at h
    simp at h
    subst h
    rw [isOdd_iff] at ho
    exact ⟨[], [], Or.inl ⟨by omega, rfl, rfl⟩, by simp, by simp⟩

theorem readPaddingByte_cases (size : Int) (id : ID) (s : RS) :
    ∃ b s', readPaddingByte size id s = .val (b, s') := by
  obtain ⟨inp, log⟩ := s
  unfold readPaddingByte
  by_cases ho : isOdd size = true
  · rw [if_pos ho]
    cases inp with
    | nil => exact ⟨_, _, rfl⟩
    | cons b bs =>
      by_cases hb : b = 0#8
      · simp [M.bind_apply, fgetc, hb]
      · simp [M.bind_apply, fgetc, hb, RS.emit]
  · rw [if_neg ho]; exact ⟨_, _, rfl⟩

/-- Nothing to skip. -/
theorem finishChunk_done (e : Env) {size bp : Int} (c : Chunk) (h : size ≤ bp) (s : RS) :
    finishChunk e size true c bp s =
      match readPaddingByte size c.id s with
      | .val (true, s') => .val (some c, s')
      | .val (false, s') => .val (none, s')
      | .ub u => .ub u
      | .loop => .loop := by
  unfold finishChunk skipUnknownBytes
  rw [if_neg (by omega : ¬ bp < size)]
  simp only [if_true, M.bind_apply, M.pure_apply]
  obtain ⟨b, s', hp⟩ := readPaddingByte_cases size c.id s
  rw [hp]
  cases b <;> rfl

theorem finishChunk_false (e : Env) (size bp : Int) (c : Chunk) (s : RS) :
    finishChunk e size false c bp s = .val (none, s) := by
  simp [finishChunk]

end Iff
