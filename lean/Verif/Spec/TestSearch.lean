import Verif.Spec.TestData
import Verif.Spec.Search
/-
  What the programs tests/searchforms-*.c and tests/lookupproperty-simple.c are to find.
-/
namespace Iff.Spec

open Iff.Src

mutual

/-- The number of FORMs of a type in a hierarchy that are not inside another such FORM.  The PROPs of a LIST are not
searched. -/
def topForms (ty : ID) : Chunk → Nat
  | .grp id _ t subs =>
    if id = idFORM ∧ t = ty then 1 else if id = idFORM ∨ id = idCAT ∨ id = idLIST then topFormsAll ty subs else 0
  | .lst id _ _ subs _ => if id = idFORM ∨ id = idCAT ∨ id = idLIST then topFormsAll ty subs else 0
  | _ => 0

/-- The same for a sequence. -/
def topFormsAll (ty : ID) : List Chunk → Nat
  | [] => 0
  | c :: cs => topForms ty c + topFormsAll ty cs

end

/-- A FORM with a member with an ID. -/
def FormWith (id : ID) (c : Chunk) : Prop :=
  ∃ size ty subs, c = .grp idFORM size ty subs ∧ ∃ m ∈ subs, m.id = id

/-- The three test programs that search. -/
inductive Hunt
  | form
  | cat
  | nested

namespace Hunt

/-- The program. -/
def main : Hunt → Fn
  | form => .searchforms_form_main
  | cat => .searchforms_cat_main
  | nested => .searchforms_nestedform_main

/-- The file it searches. -/
def file : Hunt → String
  | form => "hello.TEST"
  | cat => "cat.TEST"
  | nested => "nestedform.TEST"

/-- How many forms of type TEST it is to find. -/
def number : Hunt → Nat
  | form => 1
  | cat => 2
  | nested => 2

end Hunt

/-- The form type TEST. -/
def typeTEST : ID := 0x54455354#32

/-- The chunk ID HELO. -/
def nameHELO : ID := 0x48454c4f#32

end Iff.Spec
