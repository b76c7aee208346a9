import Verif.Spec.Dump
import Verif.Model.Print
/-
  C32 The hex dump of a data chunk is faithful.
-/
namespace Iff
open Spec

theorem asc_hex (b : Byte) :
    (if b.toNat ≤ 0xf then asc "0" else []) ++ hex b ++ asc " " = hexByte b := by
  revert b; decide +kernel

theorem indent_spaces (level : Nat) (t : List Byte) : indent level t = spaces level ++ t := by
  unfold indent spaces
  congr 1
  induction level with
  | zero => rfl
  | succ n ih =>
    rw [List.replicate_succ, List.flatten_cons, ih]
    have : 2 * (n + 1) = 2 * n + 2 := by omega
    rw [this, Nat.add_comm (2 * n) 2, ← List.replicate_append_replicate]
    rfl

/-- Bytes within one line. -/
theorem printRawLoop_line (level : Nat) : ∀ (l : List Byte) (i : Nat) (r : List Byte),
    0 < i % 10 → i % 10 + l.length ≤ 10 →
    printRawLoop level i (l ++ r) = l.flatMap hexByte ++ printRawLoop level (i + l.length) r := by
  intro l
  induction l with
  | nil => intro i r _ _; rfl
  | cons b l ih =>
    intro i r h1 h2
    simp only [List.length_cons] at h2
    rw [List.cons_append, printRawLoop, if_neg (by omega), List.nil_append, List.flatMap_cons,
      List.append_assoc]
    have hrest : printRawLoop level (i + 1) (l ++ r) =
        l.flatMap hexByte ++ printRawLoop level (i + (b :: l).length) r := by
      cases l with
      | nil => rfl
      | cons c l =>
        simp only [List.length_cons] at h2
        rw [ih (i + 1) r (by omega) (by simp only [List.length_cons]; omega)]
        simp only [List.length_cons]
        congr 2
        omega
    rw [hrest, ← asc_hex b]
    simp only [List.append_assoc]

/-- The loop from the first byte of a line, without the line break before it. -/
def lineFrom (level : Nat) (i : Nat) : List Byte → List Byte
  | [] => []
  | b :: bs => hexByte b ++ printRawLoop level (i + 1) bs

theorem lineFrom_short (level : Nat) {i : Nat} (hi : i % 10 = 0) {l : List Byte} (hl : l ≠ [])
    (hn : l.length ≤ 10) (r : List Byte) :
    lineFrom level i (l ++ r) = l.flatMap hexByte ++ printRawLoop level (i + l.length) r := by
  cases l with
  | nil => exact absurd rfl hl
  | cons b l =>
    simp only [List.length_cons] at hn
    rw [List.cons_append, lineFrom, printRawLoop_line level l (i + 1) r (by omega) (by omega),
      List.flatMap_cons, List.append_assoc]
    simp only [List.length_cons]
    congr 3
    omega

theorem printRawLoop_break (level : Nat) {i : Nat} (hi : i % 10 = 0) (h0 : 0 < i) {r : List Byte}
    (hr : r ≠ []) :
    printRawLoop level i r = [10] ++ spaces (level + 1) ++ lineFrom level i r := by
  cases r with
  | nil => exact absurd rfl hr
  | cons b bs =>
    rw [printRawLoop, if_pos ⟨h0, hi⟩, indent_spaces, lineFrom, ← asc_hex b]
    have : asc "\n" = [10] := by decide
    rw [this]
    simp only [List.append_assoc, List.append_nil]

theorem lines_eq (level : Nat) : ∀ (n : Nat) (bs : List Byte) (i : Nat), bs.length ≤ n → i % 10 = 0 →
    spaces (level + 1) ++ lineFrom level i bs ++ [10] =
      ((tens bs).map fun line => spaces (level + 1) ++ line.flatMap hexByte ++ [10]).flatten := by
  intro n
  induction n with
  | zero =>
    intro bs i hl hi
    have : bs = [] := List.eq_nil_of_length_eq_zero (by omega)
    subst this
    rw [tens]
    simp [lineFrom]
  | succ n ih =>
    intro bs i hl hi
    by_cases hs : bs.length ≤ 10
    · rw [tens, dif_pos hs]
      simp only [List.map_cons, List.map_nil, List.flatten_cons, List.flatten_nil, List.append_nil]
      by_cases hb : bs = []
      · subst hb; simp [lineFrom]
      · have := lineFrom_short level hi hb hs []
        rw [List.append_nil] at this
        rw [this]
        simp [printRawLoop]
    · rw [tens, dif_neg hs]
      have hsplit : bs = bs.take 10 ++ bs.drop 10 := (List.take_append_drop 10 bs).symm
      have hlen : (bs.take 10).length = 10 := by rw [List.length_take]; omega
      have hd : bs.drop 10 ≠ [] := by
        intro h
        have := congrArg List.length h
        simp only [List.length_drop, List.length_nil] at this
        omega
      have hline : lineFrom level i bs = (bs.take 10).flatMap hexByte ++
          ([10] ++ spaces (level + 1) ++ lineFrom level (i + 10) (bs.drop 10)) := by
        conv => lhs; rw [hsplit]
        rw [lineFrom_short level hi (by intro h; rw [h] at hlen; cases hlen) (by omega), hlen,
          printRawLoop_break level (by omega) (by omega) hd]
      rw [hline, List.map_cons, List.flatten_cons,
        ← ih (bs.drop 10) (i + 10) (by rw [List.length_drop]; omega) (by omega)]
      simp only [List.append_assoc]

/-- C32, the text: the dump of a data chunk (other than TEXT) shows its data as specified, on every
level of indentation. -/
theorem C32_dump (id : ID) (hid : id ≠ idTEXT) (data : List Byte) (level : Nat) :
    printRawChunk id (data.length : Int) data level = .val (dump level data) := by
  unfold printRawChunk
  rw [if_neg hid]
  unfold printRaw dataBytes
  rw [if_pos (by omega)]
  simp only [Out.val_bind, Int.toNat_natCast, List.take_length, Out.val.injEq]
  have h0 : printRawLoop level 0 data = lineFrom level 0 data := by
    cases data with
    | nil => rfl
    | cons b bs =>
      rw [printRawLoop, if_neg (by omega), lineFrom, ← asc_hex b]
      simp only [List.append_assoc, List.nil_append]
  have hb : asc "bytes = \n" = [98, 121, 116, 101, 115, 32, 61, 32, 10] := by decide
  have hn : asc "\n" = [10] := by decide
  have hs : asc ";\n" = [59, 10] := by decide
  rw [indent_spaces, indent_spaces, indent_spaces, h0, hb, hn, hs]
  unfold dump
  rw [← lines_eq level data.length data 0 (Nat.le_refl _) rfl]
  simp only [List.append_assoc, List.append_nil]

/-! ### Recovering the data -/

theorem hexVal_hexByte (b : Byte) : hexVal (hexDigit (b.toNat / 16)) = some (b.toNat / 16) ∧
    hexVal (hexDigit (b.toNat % 16)) = some (b.toNat % 16) := by
  revert b; decide +kernel

theorem decodePairs_skip {a : Byte} (ha : hexVal a = none) (r : List Byte) :
    decodePairs (a :: r) = decodePairs r := by
  cases r with
  | nil => rfl
  | cons b r => rw [decodePairs, ha]

theorem decodePairs_skips {l : List Byte} (hl : ∀ a ∈ l, hexVal a = none) (r : List Byte) :
    decodePairs (l ++ r) = decodePairs r := by
  induction l with
  | nil => rfl
  | cons a l ih =>
    rw [List.cons_append, decodePairs_skip (hl a (by simp)), ih fun b hb => hl b (by simp [hb])]

theorem decodePairs_bytes (l : List Byte) (r : List Byte) :
    decodePairs (l.flatMap hexByte ++ r) = l ++ decodePairs r := by
  induction l with
  | nil => rfl
  | cons b l ih =>
    obtain ⟨h1, h2⟩ := hexVal_hexByte b
    rw [List.flatMap_cons, List.append_assoc, hexByte]
    simp only [List.cons_append, List.nil_append]
    rw [decodePairs, h1, h2]
    simp only
    rw [decodePairs_skip (by decide), ih]
    congr 1
    have : 16 * (b.toNat / 16) + b.toNat % 16 = b.toNat := Nat.div_add_mod _ _
    rw [this, BitVec.ofNat_toNat, BitVec.setWidth_eq]

theorem hexVal_spaces (level : Nat) : ∀ a ∈ spaces level, hexVal a = none := by
  intro a ha
  rw [List.eq_of_mem_replicate ha]
  decide

theorem decodePairs_lines (level : Nat) (ls : List (List Byte)) (r : List Byte) :
    decodePairs ((ls.map fun line => spaces level ++ line.flatMap hexByte ++ [10]).flatten ++ r) =
      ls.flatten ++ decodePairs r := by
  induction ls with
  | nil => rfl
  | cons l ls ih =>
    simp only [List.map_cons, List.flatten_cons, List.append_assoc]
    rw [decodePairs_skips (hexVal_spaces level), decodePairs_bytes, decodePairs_skips (by decide)]
    rw [← ih]
    simp only [List.append_assoc]

theorem tens_flatten : ∀ (n : Nat) (bs : List Byte), bs.length ≤ n → (tens bs).flatten = bs := by
  intro n
  induction n with
  | zero =>
    intro bs h
    have : bs = [] := List.eq_nil_of_length_eq_zero (by omega)
    subst this; rw [tens]; simp
  | succ n ih =>
    intro bs h
    rw [tens]
    split
    · simp
    · rw [List.flatten_cons, ih _ (by rw [List.length_drop]; omega), List.take_append_drop]

/-- Ten bytes to a line. -/
theorem tens_lines : ∀ (n : Nat) (bs : List Byte), bs.length ≤ n →
    (∀ l ∈ tens bs, l.length ≤ 10) ∧ ∀ l ∈ (tens bs).dropLast, l.length = 10 := by
  intro n
  induction n with
  | zero =>
    intro bs h
    have : bs = [] := List.eq_nil_of_length_eq_zero (by omega)
    subst this; rw [tens]; simp
  | succ n ih =>
    intro bs h
    rw [tens]
    split
    · rename_i h; simpa using h
    · have h10 : (bs.take 10).length = 10 := by rw [List.length_take]; omega
      obtain ⟨h1, h2⟩ := ih (bs.drop 10) (by rw [List.length_drop]; omega)
      refine ⟨?_, ?_⟩
      · intro l hl
        rcases List.mem_cons.mp hl with rfl | hl
        · omega
        · exact h1 l hl
      · intro l hl
        have hne : tens (bs.drop 10) ≠ [] := by rw [tens]; split <;> simp
        rw [List.dropLast_cons_of_ne_nil hne] at hl
        rcases List.mem_cons.mp hl with rfl | hl
        · exact h10
        · exact h2 l hl

theorem undump_dump (level : Nat) (data : List Byte) : undump (dump level data) = data := by
  unfold undump dump
  simp only [List.append_assoc]
  have hdrop : ∀ (k : Nat) (r : List Byte), (List.replicate k (32 : Byte) ++
      ([98, 121, 116, 101, 115, 32, 61, 32, 10] ++ r)).dropWhile (· ≠ 10) = 10 :: r := by
    intro k r
    induction k with
    | zero => rfl
    | succ k ih => rw [List.replicate_succ, List.cons_append, List.dropWhile_cons_of_pos (by decide), ih]
  rw [show spaces level = List.replicate (2 * level) 32 from rfl, hdrop, List.drop_one, List.tail_cons,
    show List.replicate (2 * level) 32 = spaces level from rfl]
  simp only [← List.append_assoc]
  rw [List.append_assoc _ (spaces level), decodePairs_lines, tens_flatten _ _ (Nat.le_refl _),
    decodePairs_skips (hexVal_spaces level)]
  have : decodePairs [59, 10] = [] := by decide
  rw [this, List.append_nil]

/-- C32: the data can be recovered from the text, which shows ten bytes on each line but the last. -/
theorem C32_recover (id : ID) (hid : id ≠ idTEXT) (data : List Byte) (level : Nat) (text : List Byte)
    (h : printRawChunk id (data.length : Int) data level = .val text) : undump text = data := by
  rw [C32_dump id hid data level, Out.val.injEq] at h
  rw [← h]
  exact undump_dump level data

/-- C32: the text consists of lines of bytes between the first and the last line; they hold ten
bytes, except that the last may be shorter, and their concatenation is the data. -/
theorem C32_lines (id : ID) (hid : id ≠ idTEXT) (data : List Byte) (level : Nat) :
    ∃ lines : List (List Byte),
      printRawChunk id (data.length : Int) data level = .val (
        spaces level ++ [98, 121, 116, 101, 115, 32, 61, 32, 10] ++
        (lines.map fun line => spaces (level + 1) ++ line.flatMap hexByte ++ [10]).flatten ++
        spaces level ++ [59, 10]) ∧
      lines.flatten = data ∧ (∀ l ∈ lines, l.length ≤ 10) ∧ ∀ l ∈ lines.dropLast, l.length = 10 :=
  ⟨tens data, C32_dump id hid data level, tens_flatten _ data (Nat.le_refl _),
    tens_lines _ data (Nat.le_refl _)⟩

/-- Non-vacuity: eleven bytes take two lines. -/
example : printRawChunk (makeId 'A' 'B' 'C' 'D') 11 [0, 1, 2, 3, 4, 5, 6, 7, 8, 9, 0xaf] 0 =
    .val (asc "bytes = \n  00 01 02 03 04 05 06 07 08 09 \n  af \n;\n") := by decide +kernel

end Iff
