import Verif.Model.Registry
/-
  Specification of registry lookup: a registry is a chain of tables.
-/
namespace Iff.Spec

/-- Sorted by ID, without duplicates: what `bsearch` requires of an array. -/
def Ascending (ids : List ID) : Prop := ids.Pairwise fun a b => a.toNat < b.toNat

/-- Every array in the chain is sorted without duplicates. -/
def ChainSorted (ch : Chain) : Prop := ∀ node ∈ ch, Ascending (node.map ChunkType.id)

/-- Every array in the registry is sorted without duplicates. -/
structure RegistrySorted (r : Registry) : Prop where
  forms : Ascending (r.formTypes.map FormChunkTypes.formType)
  formChains : ∀ f ∈ r.formTypes, ChainSorted f.chain
  global : ChainSorted r.global

/-- The chain has an entry for `id`, and the one in the nearest node has the function table `h`. -/
def ChainProvides (ch : Chain) (id : ID) (h : Handler) : Prop :=
  ∃ near node far t, ch = near ++ node :: far ∧ t ∈ node ∧ t.id = id ∧ t.handler = h ∧
    ∀ n ∈ near, ∀ t' ∈ n, t'.id ≠ id

/-- The chain has no entry for `id`. -/
def ChainLacks (ch : Chain) (id : ID) : Prop := ∀ n ∈ ch, ∀ t ∈ n, t.id ≠ id

/-- The function table a chain of tables has for a chunk ID: that of the nearest entry, or the
default. -/
def ChainHandler (ch : Chain) (dflt : Handler) (id : ID) (h : Handler) : Prop :=
  ChainProvides ch id h ∨ (ChainLacks ch id ∧ h = dflt)

/-- The function table a registry has for a chunk ID inside a form type: that of the form type's
chain if the form type is registered, otherwise that of the global chain. -/
def HandlerFor (r : Registry) (ft id : ID) (h : Handler) : Prop :=
  (∃ f ∈ r.formTypes, f.formType = ft ∧ ChainHandler f.chain r.default id h) ∨
  ((∀ f ∈ r.formTypes, f.formType ≠ ft) ∧ ChainHandler r.global r.default id h)

end Iff.Spec
