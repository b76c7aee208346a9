import Verif.Model.Field
/-
  Specification of "the field lies completely inside the declared chunk size".
-/
namespace Iff.Spec

/-- The number of bytes of a field in a file (doc/IFF.asc, "Data types"): UBYTE 1, WORD and UWORD 2,
LONG, ULONG and ID 4. -/
def width : FieldKind → Nat
  | .ubyte => 1
  | .uword | .word => 2
  | .ulong | .long | .id => 4

/-- A field of `n` bytes that starts at offset `bp` lies inside a chunk of `size` bytes. -/
def Fits (n : Nat) (size bp : Int) : Prop := 0 ≤ bp ∧ bp + n ≤ size

instance (n : Nat) (size bp : Int) : Decidable (Fits n size bp) := inferInstanceAs (Decidable (_ ∧ _))

end Iff.Spec
