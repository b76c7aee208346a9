import Verif.Proofs.Bits
/-
  Closed forms of the io.c functions.
-/
namespace Iff

@[simp] theorem RS.emit_apply (m : Msg) (s : RS) :
    RS.emit m s = .val ((), { s with log := s.log ++ [m] }) := rfl
@[simp] theorem WS.emit_apply (m : Msg) (s : WS) :
    WS.emit m s = .val ((), { s with log := s.log ++ [m] }) := rfl

theorem readULong_ok (e : Env) (id : ID) (a : String) (b0 b1 b2 b3 : Byte) (rest : List Byte)
    (log : List Msg) :
    readULong e id a ⟨b0 :: b1 :: b2 :: b3 :: rest, log⟩ =
      .val (some (b0 ++ b1 ++ b2 ++ b3), ⟨rest, log⟩) := by
  simp [readULong, fread, M.bind_apply, fromHost32_load]

theorem readULong_short (e : Env) (id : ID) (a : String) (s : RS) (h : s.inp.length < 4) :
    readULong e id a s = .val (none, ⟨[], s.log ++ [.readError id a]⟩) := by
  obtain ⟨inp, log⟩ := s
  match inp, h with
  | [], _ => rfl
  | [_], _ => rfl
  | [_, _], _ => rfl
  | [_, _, _], _ => rfl
  | _ :: _ :: _ :: _ :: _, h => simp at h; omega

theorem readLong_eq (e : Env) (id : ID) (a : String) : readLong e id a = readULong e id a := rfl
theorem readId_eq (e : Env) (id : ID) (a : String) : readId e id a = readULong e id a := rfl
theorem readWord_eq (e : Env) (id : ID) (a : String) : readWord e id a = readUWord e id a := rfl

theorem readUWord_ok (e : Env) (id : ID) (a : String) (b0 b1 : Byte) (rest : List Byte)
    (log : List Msg) :
    readUWord e id a ⟨b0 :: b1 :: rest, log⟩ = .val (some (b0 ++ b1), ⟨rest, log⟩) := by
  simp [readUWord, fread, M.bind_apply, fromHost16_load]

theorem readUWord_short (e : Env) (id : ID) (a : String) (s : RS) (h : s.inp.length < 2) :
    readUWord e id a s = .val (none, ⟨[], s.log ++ [.readError id a]⟩) := by
  obtain ⟨inp, log⟩ := s
  match inp, h with
  | [], _ => rfl
  | [_], _ => rfl
  | _ :: _ :: _, h => simp at h; omega

theorem readUByte_ok (id : ID) (a : String) (b : Byte) (rest : List Byte) (log : List Msg) :
    readUByte id a ⟨b :: rest, log⟩ = .val (some b, ⟨rest, log⟩) := rfl

theorem readUByte_short (id : ID) (a : String) (s : RS) (h : s.inp.length < 1) :
    readUByte id a s = .val (none, ⟨[], s.log ++ [.readError id a]⟩) := by
  obtain ⟨inp, log⟩ := s
  match inp, h with
  | [], _ => rfl

theorem cons4_of_length {α : Type} {l : List α} (h : 4 ≤ l.length) :
    ∃ a b c d r, l = a :: b :: c :: d :: r := by
  match l, h with
  | a :: b :: c :: d :: r, _ => exact ⟨a, b, c, d, r, rfl⟩

theorem cons2_of_length {α : Type} {l : List α} (h : 2 ≤ l.length) :
    ∃ a b r, l = a :: b :: r := by
  match l, h with
  | a :: b :: r, _ => exact ⟨a, b, r, rfl⟩

/-! ### Writers -/

theorem fwrite_full (bs : List Byte) (s : WS) (h : bs.length ≤ s.room) :
    fwrite bs s = .val (bs.length, ⟨s.out ++ bs, s.room - bs.length, s.log⟩) := by
  simp [fwrite, Nat.min_eq_left h, List.take_of_length_le h]

theorem fwrite_short (bs : List Byte) (s : WS) (h : s.room < bs.length) :
    fwrite bs s = .val (s.room, ⟨s.out ++ bs.take s.room, 0, s.log⟩) := by
  simp [fwrite, Nat.min_eq_right (Nat.le_of_lt h), Nat.sub_eq_zero_of_le (Nat.le_of_lt h)]

theorem writeULong_full (e : Env) (v : BitVec 32) (id : ID) (a : String) (s : WS)
    (h : 4 ≤ s.room) :
    writeULong e v id a s = .val (true, ⟨s.out ++ bytes32 v, s.room - 4, s.log⟩) := by
  unfold writeULong
  rw [store32_fromHost]
  simp [M.bind_apply, fwrite_full (bytes32 v) s h]

theorem writeULong_short (e : Env) (v : BitVec 32) (id : ID) (a : String) (s : WS)
    (h : s.room < 4) :
    writeULong e v id a s =
      .val (false, ⟨s.out ++ (bytes32 v).take s.room, 0, s.log ++ [.writeError id a]⟩) := by
  unfold writeULong
  rw [store32_fromHost]
  simp [M.bind_apply, fwrite_short (bytes32 v) s h, Nat.ne_of_lt h]

theorem writeLong_eq (e : Env) (v : BitVec 32) (id : ID) (a : String) :
    writeLong e v id a = writeULong e v id a := rfl
theorem writeId_eq (e : Env) (v : BitVec 32) (id : ID) (a : String) :
    writeId e v id a = writeULong e v id a := rfl
theorem writeWord_eq (e : Env) (v : BitVec 16) (id : ID) (a : String) :
    writeWord e v id a = writeUWord e v id a := rfl

theorem writeUWord_full (e : Env) (v : BitVec 16) (id : ID) (a : String) (s : WS)
    (h : 2 ≤ s.room) :
    writeUWord e v id a s = .val (true, ⟨s.out ++ bytes16 v, s.room - 2, s.log⟩) := by
  unfold writeUWord
  rw [store16_fromHost]
  simp [M.bind_apply, fwrite_full (bytes16 v) s h]

theorem writeUWord_short (e : Env) (v : BitVec 16) (id : ID) (a : String) (s : WS)
    (h : s.room < 2) :
    writeUWord e v id a s =
      .val (false, ⟨s.out ++ (bytes16 v).take s.room, 0, s.log ++ [.writeError id a]⟩) := by
  unfold writeUWord
  rw [store16_fromHost]
  simp [M.bind_apply, fwrite_short (bytes16 v) s h, Nat.ne_of_lt h]

theorem writeUByte_full (v : Byte) (id : ID) (a : String) (s : WS) (h : 1 ≤ s.room) :
    writeUByte v id a s = .val (true, ⟨s.out ++ [v], s.room - 1, s.log⟩) := by
  unfold writeUByte
  simp [M.bind_apply, fwrite_full [v] s h]

theorem writeUByte_short (v : Byte) (id : ID) (a : String) (s : WS) (h : s.room < 1) :
    writeUByte v id a s = .val (false, ⟨s.out, 0, s.log ++ [.writeError id a]⟩) := by
  unfold writeUByte
  have h0 : s.room = 0 := by omega
  simp [M.bind_apply, fwrite_short [v] s h, h0]

end Iff
