import Verif.Spec.Conform
/-
  The files that IFF-85 allows.
-/
namespace Iff.Spec

/-- The file starts with an encoding, according to the grammar, of a hierarchy that conforms to the rules.
(Padding bytes, the position of PROPs in a LIST, and what follows the hierarchy are arbitrary; form types may
contain punctuation marks, C05.) -/
def ValidFile (bs : List Byte) : Prop :=
  ∃ (w rest : List Byte) (c : Chunk), bs = w ++ rest ∧ Encodes False w c ∧ Conforms c

end Iff.Spec
