import Verif.Model.C
/-
  Specification of the hex dump of data chunks, on ASCII codes.
-/
namespace Iff.Spec

/-- ASCII code of the lowercase hexadecimal digit of `n < 16`. -/
def hexDigit (n : Nat) : Byte := if n < 10 then BitVec.ofNat 8 (48 + n) else BitVec.ofNat 8 (87 + n)

/-- A byte: two digits and a space. -/
def hexByte (b : Byte) : List Byte := [hexDigit (b.toNat / 16), hexDigit (b.toNat % 16), 32]

/-- Lines of (at most) ten bytes, at least one line. -/
def tens (data : List Byte) : List (List Byte) :=
  if _ : data.length ≤ 10 then [data] else data.take 10 :: tens (data.drop 10)
termination_by data.length
decreasing_by simp only [List.length_drop]; omega

/-- Two spaces per level of indentation. -/
def spaces (level : Nat) : List Byte := List.replicate (2 * level) 32

/-- The dump: "bytes = ", the lines of bytes one level deeper, ";". -/
def dump (level : Nat) (data : List Byte) : List Byte :=
  spaces level ++ [98, 121, 116, 101, 115, 32, 61, 32, 10] ++
  ((tens data).map fun line => spaces (level + 1) ++ line.flatMap hexByte ++ [10]).flatten ++
  spaces level ++ [59, 10]

/-- The value of a lowercase hexadecimal digit. -/
def hexVal (c : Byte) : Option Nat :=
  if 48 ≤ c.toNat ∧ c.toNat ≤ 57 then some (c.toNat - 48)
  else if 97 ≤ c.toNat ∧ c.toNat ≤ 102 then some (c.toNat - 87)
  else none

/-- Collect pairs of hexadecimal digits, ignoring everything else. -/
def decodePairs : List Byte → List Byte
  | a :: b :: rest =>
    match hexVal a, hexVal b with
    | some x, some y => BitVec.ofNat 8 (16 * x + y) :: decodePairs rest
    | _, _ => decodePairs (b :: rest)
  | _ => []

/-- Recover the data from a dump: the pairs of digits after the first line. -/
def undump (text : List Byte) : List Byte := decodePairs ((text.dropWhile (· ≠ 10)).drop 1)

end Iff.Spec
