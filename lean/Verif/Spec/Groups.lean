import Verif.Spec.Registry
/-
  Registries that know the group chunks in every context.
-/
namespace Iff.Spec

/-- FORM, CAT, LIST and PROP have the function tables of the library inside every form type.  (The
registries of README.md and of the tests do not have this property: C40.) -/
structure GroupsEverywhere (r : Registry) : Prop where
  form : ∀ ft, HandlerFor r ft idFORM .form
  cat : ∀ ft, HandlerFor r ft idCAT .cat
  list : ∀ ft, HandlerFor r ft idLIST .list
  prop : ∀ ft, HandlerFor r ft idPROP .prop

end Iff.Spec
