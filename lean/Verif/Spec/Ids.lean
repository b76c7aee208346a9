import Verif.Model.C
/-
  Specification of IFF-85 identifiers (doc/IFF.asc, section 3), in terms of character codes.
-/
namespace Iff.Spec

/-- The four character codes of an ID, first character first. -/
def chars (id : ID) : List Nat :=
  [id.toNat / 2 ^ 24 % 256, id.toNat / 2 ^ 16 % 256, id.toNat / 2 ^ 8 % 256, id.toNat % 256]

/-- The character codes of a string, given as a list of characters. -/
def codes (s : List Char) : List Nat := s.map Char.toNat

/-- doc/IFF.asc: an ID is four printable ASCII characters (blank, 0x20, through 0x7e); spaces may
not precede. -/
def ValidId (id : ID) : Prop :=
  (∀ c ∈ chars id, 0x20 ≤ c ∧ c ≤ 0x7e) ∧ (chars id).head? ≠ some 0x20

/-- Lower case letters. -/
def IsLower (c : Nat) : Prop := 'a'.toNat ≤ c ∧ c ≤ 'z'.toNat

/-- Punctuation marks: printable ASCII characters other than letters, digits and blank. -/
def IsPunct (c : Nat) : Prop :=
  0x20 < c ∧ c ≤ 0x7e ∧ ¬ ('0'.toNat ≤ c ∧ c ≤ '9'.toNat) ∧ ¬ ('A'.toNat ≤ c ∧ c ≤ 'Z'.toNat) ∧
    ¬ IsLower c

/-- The names no form type may have: the group chunk IDs, the wild card, and the IDs reserved for
future versions of the groups. -/
def ReservedName (cs : List Nat) : Prop :=
  cs = codes ['L', 'I', 'S', 'T'] ∨ cs = codes ['F', 'O', 'R', 'M'] ∨
  cs = codes ['P', 'R', 'O', 'P'] ∨ cs = codes ['C', 'A', 'T', ' '] ∨
  cs = codes ['J', 'J', 'J', 'J'] ∨
  ∃ d, '1'.toNat ≤ d ∧ d ≤ '9'.toNat ∧
    (cs = codes ['L', 'I', 'S'] ++ [d] ∨ cs = codes ['F', 'O', 'R'] ++ [d] ∨
      cs = codes ['C', 'A', 'T'] ++ [d])

/-- The rule of doc/IFF.asc for form types. -/
def LegalFormType (id : ID) : Prop :=
  ValidId id ∧ (∀ c ∈ chars id, ¬ IsLower c ∧ ¬ IsPunct c) ∧ ¬ ReservedName (chars id)

/-- The rule the code implements: the full stop is the only punctuation mark it rejects. -/
def AcceptedFormType (id : ID) : Prop :=
  ValidId id ∧ (∀ c ∈ chars id, ¬ IsLower c ∧ c ≠ '.'.toNat) ∧ ¬ ReservedName (chars id)

end Iff.Spec
