import Verif.Spec.Layout
/-
  Specification of the text that represents a hierarchy with chunks of an application.
-/
namespace Iff.Spec

/-- The text of a field's value: a byte as it is, a number in decimal notation. -/
def fieldText : Val → List Byte
  | .ubyte v => [v]
  | .uword v => digits v.toNat
  | .word v => number v.toInt
  | .ulong v => digits v.toNat
  | .long v => number v.toInt
  | .id v => digits v.toNat

/-- A line for each field: its name and its value. -/
def fieldLines (level : Nat) : List String → List Val → List Byte
  | name :: names, v :: vs =>
    line level (ascii name ++ ascii " = " ++ fieldText v ++ ascii ";") ++ fieldLines level names vs
  | _, _ => []

mutual

/-- `layout` (Spec/Layout.lean) with an application's chunks: `names` gives the names of the fields of its
chunks, by the form type (or contents type) of the enclosing group, here `ft`, and by ID. -/
def layoutApp (names : ID → ID → List String) (ft : ID) (level : Nat) : Chunk → List Byte
  | .raw id size data => frame level id size (contents level id data)
  | .ext id size vals => frame level id size (fieldLines level (names ft id) vals)
  | .grp id size ty subs => frame level id size <|
      typeLine level (if be 4 id.toNat = ascii "CAT " then "contentsType" else "formType") ty ++
      line level (ascii "[") ++ layoutAppAll names ty (level + 1) subs ++ line level (ascii "];")
  | .lst id size ty subs props => frame level id size <|
      typeLine level "contentsType" ty ++
      line level (ascii "prop = [") ++ layoutAppAll names ty (level + 1) props ++ line level (ascii "];") ++
      line level (ascii "[") ++ layoutAppAll names ty (level + 1) subs ++ line level (ascii "];")

/-- One after the other. -/
def layoutAppAll (names : ID → ID → List String) (ft : ID) (level : Nat) : List Chunk → List Byte
  | [] => []
  | c :: cs => layoutApp names ft level c ++ layoutAppAll names ft level cs

end

/-- `names` are the names of the fields in the registry. -/
def FieldNames (r : Registry) (names : ID → ID → List String) : Prop :=
  ∀ ft id fields chk, HandlerFor r ft id (.ext fields chk) → names ft id = fields.map Field.name

/-- The fields of the chunks of the tests' application: HELO and BYE in FORMs of type TEST. -/
def testNames (ft id : ID) : List String :=
  if be 4 ft.toNat = ascii "TEST" then
    if be 4 id.toNat = ascii "HELO" then ["a", "b", "c"]
    else if be 4 id.toNat = ascii "BYE " then ["one", "two"] else []
  else []

end Iff.Spec
