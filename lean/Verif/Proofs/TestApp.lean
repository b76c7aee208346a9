import Verif.Model.TestApp
import Verif.Proofs.Registry
/-
  The registry of the tests.
-/
namespace Iff
open Spec

theorem testRegistry_sorted : RegistrySorted testRegistry where
  forms := by unfold Ascending; decide
  formChains := by
    intro f hf
    simp only [testRegistry, extendDefaultWithFormTypes, List.mem_singleton] at hf
    subst hf
    intro node hn
    simp only [List.mem_singleton] at hn
    subst hn
    unfold Ascending
    decide
  global := defaultRegistry_sorted.global

/-- The handlers of the registry, by lookup. -/
theorem test_handler {ft id : ID} {h : Handler} (hf : findChunkType testRegistry ft id = h) :
    HandlerFor testRegistry ft id h := (findChunkType_iff testRegistry_sorted).mp hf

theorem test_hello : HandlerFor testRegistry idTEST idHELO helloType := test_handler rfl
theorem test_bye : HandlerFor testRegistry idTEST idBYE byeType := test_handler rfl
theorem test_form : HandlerFor testRegistry 0 idFORM .form := test_handler rfl
theorem test_cat : HandlerFor testRegistry 0 idCAT .cat := test_handler rfl

end Iff
