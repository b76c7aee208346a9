import Verif.Proofs.LayoutApp
import Verif.Props.CheckApp
/-
  C75 The text of an application's hierarchies is laid out as specified and determines them.
-/
namespace Iff
open Spec

/-- C75, the text: with a registry of an application, a hierarchy whose structs are those of the registry and
whose data chunks hold as many bytes as they declare is printed as specified, at every level of indentation. -/
theorem C75_layout (r : Registry) (hr : RegistrySorted r) (names : ID → ID → List String)
    (hN : FieldNames r names) (c : Chunk) (hc : Checkable r 0 c) (level : Nat) :
    print (some r) level c = .val (layoutApp names 0 level c) :=
  printChunk_layoutApp hr hN c 0 level hc

/-- C75, nothing is lost: such hierarchies with the same text are the same, in every ID, size, type, data byte
and field. -/
theorem C75_faithful (r : Registry) (hr : RegistrySorted r) (names : ID → ID → List String)
    (hN : FieldNames r names) (c d : Chunk) (hc : Checkable r 0 c) (hd : Checkable r 0 d) (level : Nat)
    (text : List Byte) (h1 : print (some r) level c = .val text) (h2 : print (some r) level d = .val text) :
    c = d := by
  rw [C75_layout r hr names hN c hc level, Out.val.injEq] at h1
  rw [C75_layout r hr names hN d hd level, Out.val.injEq] at h2
  refine (layoutApp_inj hr hN c d 0 level hc hd [] [] ?_).1
  rw [h1, h2]

/-- C75 for the tests' application: the names of its fields are `a`, `b` and `c` in HELO chunks, `one` and `two`
in BYE chunks. -/
theorem C75_tests : FieldNames testRegistry testNames := by
  intro ft id fields chk h
  rcases h with ⟨f, hf, rfl, hc⟩ | ⟨-, hc⟩
  · simp only [testRegistry, extendDefaultWithFormTypes, List.mem_singleton] at hf
    subst hf
    rcases hc with ⟨near, node, far, t, he, ht, rfl, hh, -⟩ | ⟨-, hh⟩
    · have hm : node ∈ [[(⟨idBYE, byeType⟩ : ChunkType), ⟨idHELO, helloType⟩]] := by
        rw [show [[_, _]] = _ from he]; simp
      simp only [List.mem_singleton] at hm
      subst hm
      simp only [List.mem_cons, List.not_mem_nil, or_false] at ht
      rcases ht with rfl | rfl
      · cases hh; decide
      · cases hh; decide
    · cases hh
  · rcases hc with ⟨near, node, far, t, he, ht, -, hh, -⟩ | ⟨-, hh⟩
    · have hm : node ∈ [globalChunkTypes] := by
        rw [show [_] = _ from he]; simp
      simp only [List.mem_singleton] at hm
      subst hm
      simp only [globalChunkTypes, List.mem_cons, List.not_mem_nil, or_false] at ht
      rcases ht with rfl | rfl | rfl | rfl <;> cases hh
    · cases hh

/-- A FORM TEST with both kinds of chunks of the application, and data. -/
def shownApp : Chunk :=
  .grp idFORM 38 idTEST [.ext idHELO 4 [.ubyte 65, .ubyte 66, .uword 1000], .ext idBYE 8 [.long 7, .long (-8)],
    .raw idJJJJ 2 [0, 255]]

theorem shownApp_checkable : Checkable testRegistry 0 shownApp := by
  refine .form ((findChunkType_iff testRegistry_sorted).mp rfl) fun c hc => ?_
  simp only [List.mem_cons, List.not_mem_nil, or_false] at hc
  rcases hc with rfl | rfl | rfl
  · exact .ext (fields := [⟨"a", .ubyte⟩, ⟨"b", .ubyte⟩, ⟨"c", .uword⟩])
      ((findChunkType_iff testRegistry_sorted).mp rfl) (by unfold Composite; decide) rfl (by decide)
  · exact .ext (fields := [⟨"one", .long⟩, ⟨"two", .long⟩])
      ((findChunkType_iff testRegistry_sorted).mp rfl) (by unfold Composite; decide) rfl (by decide)
  · exact .raw ((findChunkType_iff testRegistry_sorted).mp rfl) (by unfold Composite; decide) rfl

/-- Non-vacuity: the hypotheses are met by `shownApp`, and this is its text. -/
example : print (some testRegistry) 0 shownApp = .val (layoutApp testNames 0 0 shownApp) :=
  C75_layout testRegistry testRegistry_sorted testNames C75_tests shownApp shownApp_checkable 0

example : print (some testRegistry) 0 shownApp = .val (ascii
"'FORM' = {
  chunkSize = 38;
formType = 'TEST';
[
  'HELO' = {
    chunkSize = 4;
  a = A;
  b = B;
  c = 1000;
  }

  'BYE ' = {
    chunkSize = 8;
  one = 7;
  two = -8;
  }

  'JJJJ' = {
    chunkSize = 2;
  bytes = 
    00 ff 
  ;
  }

];
}

") := by decide +kernel

end Iff
