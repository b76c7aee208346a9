import Verif.Model.Id
import Verif.Spec.Tree
/-
  Diagnostics and what they mention.
-/
namespace Iff.Spec

/-- The diagnostics of the library whose calls are proper (C43): all but the warnings about truncated
groups and lists, and the messages about filler bytes.  (The library does not emit `app`.) -/
def Regular : Msg → Prop
  | .skipped _ _ => False
  | .fillerFailed _ _ => False
  | .truncGroup _ => False
  | .truncList _ => False
  | .app => False
  | _ => True

/-- The name of a file or attribute that a diagnostic mentions. -/
def mentioned : Msg → Option String
  | .readError _ a => some a
  | .writeError _ a => some a
  | .cannotOpen n => some n
  | _ => none

/-- The ID that a diagnostic mentions. -/
def mentionedId : Msg → Option ID
  | .readError i _ => some i
  | .writeError i _ => some i
  | .padEof i => some i
  | .padWriteFailed i => some i
  | .rawRead i => some i
  | .rawWrite i => some i
  | .sizeMismatch i _ _ => some i
  | .formTypeReserved i => some i
  | .notInForm i => some i
  | .notInCat i => some i
  | .notInProp i => some i
  | _ => none

/-- The names that a diagnostic mentions have no line breaks, and a character that it mentions is one
of the platform's. -/
def Clean (e : Env) (m : Msg) : Prop :=
  (∀ s, mentioned m = some s → (10 : UInt8) ∉ s.toByteArray.data.toList) ∧ ∀ c, m = .illegalChar c → ∃ b, c = charVal e b

/-- A diagnostic does not mention line breaks at all. -/
def OneLine (m : Msg) : Prop :=
  (∀ s, mentioned m = some s → (10 : UInt8) ∉ s.toByteArray.data.toList) ∧
  (∀ i, mentionedId m = some i → (10 : Byte) ∉ be 4 i.toNat) ∧
  ∀ c, m = .illegalChar c → BitVec.ofInt 8 c ≠ (10 : Byte)

end Iff.Spec
