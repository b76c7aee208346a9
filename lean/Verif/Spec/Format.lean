import Verif.Model.ErrCalls
/-
  Specification of the arguments a `printf` format string requires (C99 7.19.6.1), for the
  conversions without length modifiers, flags and widths.
-/
namespace Iff.Spec

/-- The type of the argument a conversion character takes. -/
def conversion : Char → Option CType
  | 'd' => some .int
  | 'c' => some .int
  | 'u' => some .unsigned
  | 'x' => some .unsigned
  | 's' => some .charPtr
  | _ => none

/-- The types of all arguments a format string takes, in order. -/
def conversions : List Char → List CType
  | '%' :: c :: cs => (conversion c).toList ++ conversions cs
  | _ :: cs => conversions cs
  | [] => []

/-- The arguments of a call have the types that the format string requires. -/
def WellTyped (c : ErrCall) : Prop := c.args = conversions c.fmt.toList

instance (c : ErrCall) : Decidable (WellTyped c) := inferInstanceAs (Decidable (_ = _))

end Iff.Spec
