import Verif.Spec.Ints
import Verif.Proofs.Io
/-
  C01 Integers are big-endian on disk on every host.
  C02 Integer reads succeed exactly when enough bytes remain.

  `readVal`/`writeVal` select IFF_readUByte ... IFF_readId / IFF_writeUByte ... IFF_writeId by the
  type of the value, so each theorem is about all six pairs of functions.
-/
namespace Iff
open Spec

/-- C01, writing: on every host, a write to a stream with room appends exactly the big-endian bytes
of the value and returns TRUE, without a diagnostic. -/
theorem C01_write_big_endian (e : Env) (v : Val) (id : ID) (attr : String) (s : WS)
    (room : width v.kind ≤ s.room) :
    ∃ bs, IsEncodingOf bs v ∧
      writeVal e v id attr s = .val (true, ⟨s.out ++ bs, s.room - bs.length, s.log⟩) := by
  cases v with
  | ubyte v =>
    exact ⟨[v], ⟨rfl, by simp [beValue, valNat]⟩, writeUByte_full v id attr s room⟩
  | uword v =>
    refine ⟨bytes16 v, ⟨rfl, ?_⟩, writeUWord_full e v id attr s room⟩
    conv => rhs; rw [valNat, ← extract_append16 v, toNat_append16]
    simp [beValue, bytes16]
  | word v =>
    refine ⟨bytes16 v, ⟨rfl, ?_⟩, writeUWord_full e v id attr s room⟩
    conv => rhs; rw [valNat, ← extract_append16 v, toNat_append16]
    simp [beValue, bytes16]
  | ulong v =>
    refine ⟨bytes32 v, ⟨rfl, ?_⟩, writeULong_full e v id attr s room⟩
    conv => rhs; rw [valNat, ← extract_append32 v, toNat_append32]
    simp [beValue, bytes32]
  | long v =>
    refine ⟨bytes32 v, ⟨rfl, ?_⟩, writeULong_full e v id attr s room⟩
    conv => rhs; rw [valNat, ← extract_append32 v, toNat_append32]
    simp [beValue, bytes32]
  | id v =>
    refine ⟨bytes32 v, ⟨rfl, ?_⟩, writeULong_full e v id attr s room⟩
    conv => rhs; rw [valNat, ← extract_append32 v, toNat_append32]
    simp [beValue, bytes32]

/-- C01, reading: on every host, reading from a stream that starts with the big-endian bytes of a
value yields that value, leaves the stream right after them, and emits no diagnostic. -/
theorem C01_read_big_endian (e : Env) (v : Val) (id : ID) (attr : String) (bs rest : List Byte)
    (log : List Msg) (h : IsEncodingOf bs v) :
    readVal e v.kind id attr ⟨bs ++ rest, log⟩ = .val (some v, ⟨rest, log⟩) := by
  obtain ⟨hl, hv⟩ := h
  cases v with
  | ubyte v =>
    match bs, hl with
    | [b], _ =>
      have : b = v := BitVec.eq_of_toNat_eq (by simpa [beValue, valNat] using hv)
      subst this; rfl
  | uword v =>
    match bs, hl with
    | [a, b], _ =>
      have : a ++ b = v := BitVec.eq_of_toNat_eq
        (by rw [toNat_append16]; simpa [beValue, valNat] using hv)
      subst this
      simp [readVal, Val.kind, M.bind_apply, readUWord_ok]
  | word v =>
    match bs, hl with
    | [a, b], _ =>
      have : a ++ b = v := BitVec.eq_of_toNat_eq
        (by rw [toNat_append16]; simpa [beValue, valNat] using hv)
      subst this
      simp [readVal, Val.kind, M.bind_apply, readWord_eq, readUWord_ok]
  | ulong v =>
    match bs, hl with
    | [a, b, c, d], _ =>
      have : a ++ b ++ c ++ d = v := BitVec.eq_of_toNat_eq
        (by rw [toNat_append32]; simpa [beValue, valNat] using hv)
      subst this
      simp [readVal, Val.kind, M.bind_apply, readULong_ok]
  | long v =>
    match bs, hl with
    | [a, b, c, d], _ =>
      have : a ++ b ++ c ++ d = v := BitVec.eq_of_toNat_eq
        (by rw [toNat_append32]; simpa [beValue, valNat] using hv)
      subst this
      simp [readVal, Val.kind, M.bind_apply, readLong_eq, readULong_ok]
  | id v =>
    match bs, hl with
    | [a, b, c, d], _ =>
      have : a ++ b ++ c ++ d = v := BitVec.eq_of_toNat_eq
        (by rw [toNat_append32]; simpa [beValue, valNat] using hv)
      subst this
      simp [readVal, Val.kind, M.bind_apply, readId_eq, readULong_ok]

/-- C01: what was written on one host (`e`) is read back as the same value on any other (`e'`). -/
theorem C01_round_trip (e e' : Env) (v : Val) (id id' : ID) (attr attr' : String) (s : WS)
    (rest : List Byte) (log : List Msg) (room : width v.kind ≤ s.room) :
    ∃ bs s', writeVal e v id attr s = .val (true, s') ∧ s'.out = s.out ++ bs ∧
      readVal e' v.kind id' attr' ⟨bs ++ rest, log⟩ = .val (some v, ⟨rest, log⟩) := by
  obtain ⟨bs, hb, hw⟩ := C01_write_big_endian e v id attr s room
  exact ⟨bs, _, hw, rfl, C01_read_big_endian e' v id' attr' bs rest log hb⟩

/-- Non-vacuity: 0x12345678 is encoded as 12 34 56 78. -/
example : IsEncodingOf [0x12, 0x34, 0x56, 0x78] (.long 0x12345678) := by
  constructor <;> decide

/-- C02: a read of an N-byte integer succeeds iff at least N bytes remain and then consumes exactly
N; otherwise it fails, reports one diagnostic, and has consumed (only) what remained. -/
theorem C02_read_iff_enough (e : Env) (k : FieldKind) (id : ID) (attr : String) (s : RS) :
    (width k ≤ s.inp.length →
      ∃ v, v.kind = k ∧
        readVal e k id attr s = .val (some v, ⟨s.inp.drop (width k), s.log⟩)) ∧
    (s.inp.length < width k →
      readVal e k id attr s = .val (none, ⟨[], s.log ++ [.readError id attr]⟩)) := by
  obtain ⟨inp, log⟩ := s
  constructor
  · intro h
    cases k with
    | ubyte =>
      match inp, h with
      | b :: r, _ => exact ⟨.ubyte b, rfl, rfl⟩
    | uword =>
      obtain ⟨a, b, r, rfl⟩ := cons2_of_length h
      exact ⟨.uword (a ++ b), rfl, by simp [readVal, M.bind_apply, readUWord_ok, width]⟩
    | word =>
      obtain ⟨a, b, r, rfl⟩ := cons2_of_length h
      exact ⟨.word (a ++ b), rfl,
        by simp [readVal, M.bind_apply, readWord_eq, readUWord_ok, width]⟩
    | ulong =>
      obtain ⟨a, b, c, d, r, rfl⟩ := cons4_of_length h
      exact ⟨.ulong (a ++ b ++ c ++ d), rfl,
        by simp [readVal, M.bind_apply, readULong_ok, width]⟩
    | long =>
      obtain ⟨a, b, c, d, r, rfl⟩ := cons4_of_length h
      exact ⟨.long (a ++ b ++ c ++ d), rfl,
        by simp [readVal, M.bind_apply, readLong_eq, readULong_ok, width]⟩
    | id =>
      obtain ⟨a, b, c, d, r, rfl⟩ := cons4_of_length h
      exact ⟨.id (a ++ b ++ c ++ d), rfl,
        by simp [readVal, M.bind_apply, readId_eq, readULong_ok, width]⟩
  · intro h
    cases k with
    | ubyte => simp [readVal, M.bind_apply, readUByte_short id attr ⟨inp, log⟩ h]
    | uword => simp [readVal, M.bind_apply, readUWord_short e id attr ⟨inp, log⟩ h]
    | word => simp [readVal, M.bind_apply, readWord_eq, readUWord_short e id attr ⟨inp, log⟩ h]
    | ulong => simp [readVal, M.bind_apply, readULong_short e id attr ⟨inp, log⟩ h]
    | long => simp [readVal, M.bind_apply, readLong_eq, readULong_short e id attr ⟨inp, log⟩ h]
    | id => simp [readVal, M.bind_apply, readId_eq, readULong_short e id attr ⟨inp, log⟩ h]

/-- Non-vacuity of both branches of C02. -/
example : (FieldKind.long.size ≤ [(1 : Byte), 2, 3, 4, 5].length) ∧
    ([(1 : Byte), 2, 3].length < FieldKind.long.size) := by decide

end Iff
