import Verif.Proofs.Registry
/-
  C07 Registry lookup finds the registered handler.
  C08 The default registry treats FORM, CAT, LIST and PROP as groups and everything else as raw
      data, in any context.
-/
namespace Iff
open Spec

/-- C07: in a sorted registry the lookup returns exactly the function table that the registry has
for the chunk ID inside the form type. -/
theorem C07_lookup (r : Registry) (hs : RegistrySorted r) (ft id : ID) (h : Handler) :
    findChunkType r ft id = h ↔ HandlerFor r ft id h :=
  findChunkType_iff hs

/-- Non-vacuity: a registry with two form types, one of which has a two-node chain that overrides an
entry of its parent, is sorted. -/
example : RegistrySorted ⟨[⟨makeId 'A' 'B' 'C' 'D', [[⟨idFORM, .raw⟩], globalChunkTypes]⟩,
    ⟨makeId 'T' 'E' 'S' 'T', []⟩], globalNode, .raw⟩ where
  forms := by unfold Ascending; decide
  formChains := by
    intro f hf
    simp only [List.mem_cons, List.not_mem_nil, or_false] at hf
    rcases hf with rfl | rfl
    · intro n hn
      simp only [List.mem_cons, List.not_mem_nil, or_false] at hn
      rcases hn with rfl | rfl <;> unfold Ascending <;> decide
    · intro n hn; simp at hn
  global := by
    intro node hn
    simp only [globalNode, List.mem_singleton] at hn
    subst hn
    unfold Ascending
    decide

/-- Non-vacuity of `HandlerFor`: in that registry a FORM inside 'ABCD' is raw data, a LIST inside
'ABCD' is a list (found in the parent node), and a LIST inside 'TEST' has the default handler. -/
example : let r : Registry := ⟨[⟨makeId 'A' 'B' 'C' 'D', [[⟨idFORM, .raw⟩], globalChunkTypes]⟩,
    ⟨makeId 'T' 'E' 'S' 'T', []⟩], globalNode, .raw⟩
    findChunkType r (makeId 'A' 'B' 'C' 'D') idFORM = .raw ∧
    findChunkType r (makeId 'A' 'B' 'C' 'D') idLIST = .list ∧
    findChunkType r (makeId 'T' 'E' 'S' 'T') idLIST = .raw ∧
    findChunkType r 0 idLIST = .list := ⟨rfl, rfl, rfl, rfl⟩

/-- C08: with the default registry (a NULL registry pointer) the handler depends on the chunk ID
alone: the four group IDs have their group handlers, everything else is raw data. -/
theorem C08_default_registry (ft id : ID) :
    findChunkType (selectChunkRegistry none) ft id =
      if id = idFORM then .form else if id = idCAT then .cat
      else if id = idLIST then .list else if id = idPROP then .prop else .raw := by
  exact findChunkType_default ft id

end Iff
