import Verif.Spec.Field
/-
  Specification of big-endian integers, independent of the bit manipulation in the model.
-/
namespace Iff.Spec

/-- The number denoted by a byte string, most significant byte first. -/
def beValue (bs : List Byte) : Nat := bs.foldl (fun acc b => acc * 256 + b.toNat) 0

/-- The number held by a field (unsigned reading of its bits). -/
def valNat : Val → Nat
  | .ubyte v => v.toNat
  | .uword v => v.toNat
  | .word v => v.toNat
  | .ulong v => v.toNat
  | .long v => v.toNat
  | .id v => v.toNat

/-- The bytes a field occupies in a file: as many as its width, denoting its value. -/
def IsEncodingOf (bs : List Byte) (v : Val) : Prop :=
  bs.length = width v.kind ∧ beValue bs = valNat v

end Iff.Spec
