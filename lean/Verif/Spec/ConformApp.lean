import Verif.Spec.Conform
/-
  Validity of hierarchies with chunks of an application.
-/
namespace Iff.Spec

/-- The chunks are of the struct types of the registry's function tables, with the functions of FORM, CAT,
LIST and PROP under these IDs and no other; the sizes of data chunks are those of their data, and those of
an application's chunks are not negative; the array of PROPs of a LIST holds PROP chunks.  `ft` is the form
type (or contents type) of the enclosing group. -/
inductive Checkable (r : Registry) : ID → Chunk → Prop
  | raw {ft id size data} : HandlerFor r ft id .raw → ¬ Composite id → size = ((data.length : Nat) : Int) →
      Checkable r ft (.raw id size data)
  | ext {ft id size vals fields chk} : HandlerFor r ft id (.ext fields chk) → ¬ Composite id →
      vals.map Val.kind = fields.map Field.kind → 0 ≤ size → Checkable r ft (.ext id size vals)
  | form {ft size ty subs} : HandlerFor r ft idFORM .form → (∀ c ∈ subs, Checkable r ty c) →
      Checkable r ft (.grp idFORM size ty subs)
  | cat {ft size ty subs} : HandlerFor r ft idCAT .cat → (∀ c ∈ subs, Checkable r ty c) →
      Checkable r ft (.grp idCAT size ty subs)
  | prop {ft size ty subs} : HandlerFor r ft idPROP .prop → (∀ c ∈ subs, Checkable r ty c) →
      Checkable r ft (.grp idPROP size ty subs)
  | list {ft size ty subs props} : HandlerFor r ft idLIST .list → (∀ p ∈ props, p.id = idPROP) →
      (∀ c ∈ subs, Checkable r ty c) → (∀ p ∈ props, Checkable r ty p) →
      Checkable r ft (.lst idLIST size ty subs props)

/-- `ConformsBy` (Spec/Conform.lean) with an application's chunks: these have to satisfy the check of the
application. -/
inductive ConformsApp (r : Registry) (formType : ID → Prop) : ID → Chunk → Prop
  | data {ft id size bytes} : ValidId id → ConformsApp r formType ft (.raw id size bytes)
  | app {ft id size vals fields chk} : ValidId id → HandlerFor r ft id (.ext fields chk) → chk vals = true →
      ConformsApp r formType ft (.ext id size vals)
  | form {ft size ty subs} : formType ty → (∀ c ∈ subs, c.id ≠ idPROP) → size = 4 + spans subs →
      (∀ c ∈ subs, ConformsApp r formType ty c) → ConformsApp r formType ft (.grp idFORM size ty subs)
  | prop {ft size ty subs} : formType ty → (∀ c ∈ subs, ¬ Composite c.id ∧ c.id ≠ idPROP) →
      size = 4 + spans subs → (∀ c ∈ subs, ConformsApp r formType ty c) →
      ConformsApp r formType ft (.grp idPROP size ty subs)
  | cat {ft size ty subs} : ValidId ty → (∀ c ∈ subs, Composite c.id) →
      (ty = idJJJJ ∨ ∀ c ∈ subs, HasType ty c) → size = 4 + spans subs →
      (∀ c ∈ subs, ConformsApp r formType ty c) → ConformsApp r formType ft (.grp idCAT size ty subs)
  | list {ft size ty subs props} : ValidId ty → (∀ c ∈ subs, Composite c.id) →
      (ty = idJJJJ ∨ ∀ c ∈ subs, HasType ty c) → (∀ c ∈ props, c.id = idPROP) →
      size = 4 + spans props + spans subs →
      (∀ c ∈ subs, ConformsApp r formType ty c) → (∀ c ∈ props, ConformsApp r formType ty c) →
      ConformsApp r formType ft (.lst idLIST size ty subs props)

/-- A valid file of an application, with the form types that the code accepts. -/
def ConformsWith (r : Registry) (c : Chunk) : Prop := Composite c.id ∧ ConformsApp r AcceptedFormType 0 c

end Iff.Spec
