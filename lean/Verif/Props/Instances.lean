import Verif.Props.Ints
import Verif.Props.Ids
import Verif.Props.Field
import Verif.Props.Registry
import Verif.Props.Write
import Verif.Props.ReadWrite
import Verif.Props.Stream
import Verif.Props.Read
import Verif.Props.Grammar
import Verif.Props.Check
import Verif.Props.Compare
import Verif.Props.Ext
import Verif.Props.Build
import Verif.Props.Tools
import Verif.Props.Dump
import Verif.Props.Silent
import Verif.Props.HeapCost
import Verif.Props.Layout
import Verif.Props.Program
import Verif.Props.ErrText
import Verif.Props.Platform
import Verif.Props.Format

/-!
Every property theorem of the model on values that has hypotheses, applied to a concrete case: the
hypotheses can be met together, by machines, registries, hierarchies and files that are not trivial.
Nothing is proved here about the program; the theorems are.
-/

namespace Iff
open Spec

set_option maxRecDepth 4000

/-! ### The cases -/

theorem pc_small (n : Nat) (h : n ≤ 1000) : pc.mallocOk n = true :=
  decide_eq_true (show n < 2 ^ 63 by omega)

theorem sample_data (e : Env) (h1 : e.mallocOk 1 = true) (id : ID) (size : Int) (data : List Byte)
    (h : Within (.raw id size data) sample) : e.mallocOk data.length = true := by
  have : data.length = 1 := by
    cases h with
    | grp h1 h2 =>
      simp only [List.mem_cons, List.not_mem_nil, or_false] at h1
      rcases h1 with rfl | rfl
      · cases h2 with
        | grp h1 h2 =>
          simp only [List.mem_cons, List.not_mem_nil, or_false] at h1
          subst h1
          cases h2
          simp
      · cases h2 with
        | sub h1 h2 | prop h1 h2 =>
          simp only [List.mem_cons, List.not_mem_nil, or_false] at h1
          subst h1
          cases h2 with
          | grp h1 => simp at h1
  rw [this, h1]

/-- A host without seeking, as when the file comes from a pipe. -/
def piped : Env := { pc with seekable := false }

theorem piped_sane : piped.Sane := ⟨pc_sane.1, pc_sane.2⟩

theorem extended_consistent : Consistent extended := by
  refine .grp (by decide) (by decide) ?_
  simp only [List.mem_singleton, forall_eq]
  exact .ext (by decide) (by decide) (by simp [TailOk, encodeVal, be_length])

theorem extended_dispatched : Dispatched testRegistry 0 extended := by
  refine .grp test_form (.inl rfl) ?_
  intro c hc
  simp only [List.mem_singleton] at hc
  subst hc
  exact .ext test_hello rfl

theorem extended_loadable : Loadable pc testRegistry 0 extended := by
  refine .grp test_form (.inl rfl) ?_
  intro c hc
  simp only [List.mem_singleton] at hc
  subst hc
  exact .ext test_hello rfl (.inr rfl) (by decide)

theorem sample_read : readFd pc none ⟨encode sample, []⟩ = .val (some sample, ⟨[], []⟩) := by rfl

theorem sample_accepted : Accepts pc (encode sample) sample :=
  ⟨⟨⟨[], []⟩, by rfl⟩, [],
    C20_legal_accepted_partial pc pc_sane sample sample_standard
      (rawSizes_of_consistent sample_consistent) (propArrays_of_split sample_split) (by decide)
      sample_legal []⟩

/-! ### C01 to C08 -/

example := C01_write_big_endian pc (.long 0x12345678) idFORM "chunkSize" ⟨[], 4, []⟩ (by decide)
example := C01_read_big_endian amiga (.long 0x12345678) idFORM "chunkSize" [0x12, 0x34, 0x56, 0x78] [9] []
  (by constructor <;> decide)
example := C01_round_trip pc amiga (.uword 0xfffe) idFORM idCAT "a" "b" ⟨[1], 2, []⟩ [7] [] (by decide)
example := C05_legal_accepted_partial pc idTEST [] legal_TEST
example := C06_read_partial pc pc_sane .uword idHELO 6 "c" (.uword 0) 2 ⟨[1, 2], []⟩ (by decide) (by decide)
  (by decide) (by decide)
example := C06_write_partial pc pc_sane (.uword 3) idHELO 6 "c" 2 ⟨[], 10, []⟩ (by decide) (by decide)
  (by decide) (by decide)
example := C06_small_chunk_partial pc pc_sane 4 (by decide) 3 0 (by decide) (by decide) (by decide) (by decide)
example := C07_lookup testRegistry testRegistry_sorted idTEST idHELO helloType

/-! ### C09 to C11, C19 -/

example := C09_write_encodes pc pc_sane (some testRegistry) testRegistry_sorted extended extended_consistent
  extended_dispatched ⟨[], 26, []⟩ (by decide)
example := C09_write_encodes_default amiga amiga_sane sample sample_consistent sample_standard ⟨[], 70, []⟩
  (by decide)
example := C10_read_after_write amiga pc amiga_sane pc_sane (some testRegistry) testRegistry_sorted extended
  extended_consistent extended_dispatched extended_loadable 26 (by decide) [] []
example := C10_consumes_exactly amiga pc amiga_sane pc_sane testRegistry testRegistry_sorted 0 extended
  extended_consistent extended_dispatched extended_loadable [1, 2] [3, 4] 26 (by decide) [] []
example := C10_read_after_write_default amiga pc amiga_sane pc_sane sample sample_consistent sample_standard
  sample_split (sample_data pc (by rfl)) 70 (by decide) [] []
example := C11_written_length pc pc_sane testRegistry testRegistry_sorted 0 extended extended_consistent
  extended_dispatched ⟨[], 27, []⟩ (by decide)
example := C19_write_partial pc pc_sane (some testRegistry) testRegistry_sorted extended extended_consistent
  extended_dispatched ⟨"out", true, 10, 4096⟩ []

/-! ### C12 to C18, C45 to C47 -/

example := C12_recognises_partial pc pc_sane (encode sample) (by decide)
  (fun n hn => pc_small n (by have : (encode sample).length = 70 := by decide
                              omega)) sample
example := C12_legal_accepted_partial pc pc_sane (encode sample) [1, 2, 3] (by decide)
  (fun n hn => pc_small n (by have : (encode sample).length = 70 := by decide
                              omega)) sample sample_encodes.weaken sample_legal
example := C12_unambiguous (encode sample) (encode sample) [1] [1] sample sample sample_encodes.weaken
  sample_encodes.weaken rfl
example := C13_normalises pc amiga pc_sane amiga_sane (encode sample) (by decide) sample sample_accepted 70
  (by decide)
example := C14_valid_file_truncated pc pc_sane (encode sample).dropLast [0x54] (by decide) sample
  (by have : (encode sample).dropLast ++ [0x54] = encode sample := by decide
      rw [this]; exact sample_encodes.weaken)
  (fun n hn => pc_small n (by have : ((encode sample).dropLast ++ [0x54]).length = 70 := by decide
                              omega)) []
example := C14_truncated_rejected pc pc_sane none defaultRegistry_sorted (.inl noExt_default) sample
  sample_consistent (loadable_standard pc sample_standard sample_split 0 (sample_data pc (by rfl)))
  (encode sample).dropLast [0x54] (by decide) (by decide) []
example := C14_truncated_rejected_default pc pc_sane sample sample_consistent sample_standard sample_split
  (sample_data pc (by rfl)) (encode sample).dropLast [0x54] (by decide) (by decide) []
example := C15_terminates pc pc_sane (some testRegistry) ⟨encode extended, []⟩
example := C15_budget_irrelevant pc pc_sane testRegistry 0 ⟨encode extended, []⟩ 7 100 (by decide) (by decide)
example := C15_progress pc pc_sane testRegistry 30 0 ⟨encode extended, []⟩ _ extended (by rfl)
example := C15_size_and_depth pc pc_sane none _ _ sample sample_read
example := C16_only_overflow pc pc_sane none _ _ C16_false
example := C16_no_undefined_behaviour_partial pc pc_sane ⟨encode sample, []⟩ (noNegativeGroups_of (by decide))
  (by decide)
example := C17_same_hierarchy pc pc_sane (some testRegistry) (encode extended) [1] [] extended _ (by rfl)
example := C17_trailing_bytes pc pc_sane none (.inl noExt_default) (encode sample) [] sample _ sample_read
example := C17_trailing_bytes_default pc pc_sane (encode sample) [] sample _ sample_read
example := C18_data_as_declared pc pc_sane none _ _ sample sample_read (makeId 'A' 'B' 'C' 'D') 1 [0x7f]
  (.grp List.mem_cons_self (.grp List.mem_cons_self .self))
example := C45_exact_partial pc pc_sane (encode sample) (by decide) sample sample_accepted
example := C45_overrun_reported_partial pc pc_sane (encode sample) (by decide) sample _ sample_read (by simp)

/-- A file with two bytes inside its application chunk that only a host that can seek skips; a host that
reads from a pipe rejects it, and every cut of a plain application chunk. -/
def plainHello : Chunk := .grp idFORM 16 idTEST [.ext idHELO 4 [.ubyte 1, .ubyte 2, .uword 3]]

theorem plainHello_consistent : Consistent plainHello := by
  refine .grp (by decide) (by decide) ?_
  simp only [List.mem_singleton, forall_eq]
  exact .ext (by decide) (by decide) (by simp [TailOk, encodeVal, be_length])

theorem plainHello_loadable : Loadable piped testRegistry 0 plainHello := by
  refine .grp test_form (.inl rfl) ?_
  intro c hc
  simp only [List.mem_singleton] at hc
  subst hc
  exact .ext test_hello rfl (.inl rfl) (by decide)

example := C14_truncated_rejected piped piped_sane (some testRegistry) testRegistry_sorted (.inr rfl) plainHello
  plainHello_consistent plainHello_loadable (encode plainHello).dropLast [3] (by decide) (by decide) []
example := C17_trailing_bytes piped piped_sane (some testRegistry) (.inr rfl) (encode plainHello) [] plainHello
  ⟨[], []⟩ (by rfl)

/-! ### C20 to C23, C49 -/

example := C20_check_decides_partial pc pc_sane sample sample_standard
  (rawSizes_of_consistent sample_consistent) (propArrays_of_split sample_split) (by decide) []

theorem checks_marker : checkGroupSubChunks pc defaultRegistry idTEST formSubChunkCheck
    [.grp idPROP 4 idTEST []] 0 [] = .val (-1, [.notInForm idPROP]) := by rfl

theorem checks_members : checkGroupSubChunks pc defaultRegistry idTEST formSubChunkCheck
    [.raw idHELO 3 [1, 2, 3], .grp idFORM 4 idTEST []] 4 [] = .val (28, []) := by decide +kernel

theorem checks_props : checkListPropChunks pc defaultRegistry idTEST [.grp idPROP 4 idTEST []] 4 [] =
    .val (16, []) := by decide +kernel

theorem checks_props_marker : checkListPropChunks pc defaultRegistry idTEST [.grp idPROP 5 idTEST []] 0 [] =
    .val (-1, [.sizeMismatch idPROP 5 4]) := by rfl

example := C21_marker_means_invalid pc pc_sane _ _ _ _ _ _ checks_marker
example := C21_marker_means_invalid_props pc pc_sane _ _ _ _ _ checks_props_marker
example := C21_other_sizes_mean_valid pc _ _ _ _ _ _ _ _ checks_members (by decide) _ List.mem_cons_self
example := C21_other_sizes_mean_valid_props pc _ _ _ _ _ _ _ checks_props (by decide) _ List.mem_cons_self
example := C22_explained pc pc_sane none (.grp idPROP 4 idTEST []) [] _ false (by rfl)
theorem sample_checked (log : List Msg) : check pc none sample log = .val (true, log) :=
  C20_legal_accepted_partial pc pc_sane sample sample_standard
    (rawSizes_of_consistent sample_consistent) (propArrays_of_split sample_split) (by decide) sample_legal log

example := C22_explained pc pc_sane none sample [] _ true (sample_checked [])

theorem sample_comparable : Comparable none sample :=
  comparable_standard sample_standard sample_consistent sample_split

theorem small_consistent : Consistent (.grp idFORM 4 idTEST []) := .grp (by decide) (by decide) (by simp)
theorem small_standard : Standard (.grp idFORM 4 idTEST []) := .grp (Or.inl rfl) (by simp)
theorem small_split : ListsSplit (.grp idFORM 4 idTEST []) := .grp (by simp)

example := C23_equivalence pc pc_sane (some testRegistry) testRegistry_sorted
example := C23_equal pc pc_sane none defaultRegistry_sorted sample (.grp idFORM 4 idTEST []) sample_comparable
  (comparable_standard small_standard small_consistent small_split) sample_consistent small_consistent
  (propArrays_of_split sample_split) (propArrays_of_split small_split)
example := C23_equal_files pc amiga pc_sane amiga_sane sample (.grp idFORM 4 idTEST []) sample_standard
  sample_consistent sample_split small_standard small_consistent small_split 70 (by decide) (by decide)
example := C46_filler_rejected pc pc_sane (.grp idFORM 12 idTEST [.raw idFiller 0 []])
  (.grp (.inl rfl) (by
    intro c hc; simp only [List.mem_singleton] at hc; subst hc
    exact .raw (by decide) (by decide) (by decide) (by decide)))
  (by intro id size data hw
      cases hw with
      | grp h1 h2 =>
        simp only [List.mem_singleton] at h1
        subst h1
        cases h2
        rfl)
  (by intro id size ty subs props hw
      cases hw with
      | grp h1 h2 =>
        simp only [List.mem_singleton] at h1
        subst h1
        cases h2)
  (by decide) 0 [] (.grp List.mem_cons_self .self) []
example := C49_read pc none ⟨[1, 2], []⟩ _ (by rfl)
example := C49_read_file pc none "a" none [] _ (by rfl)
example := C49_read_file pc none "a" (some [1, 2]) [] _ (by rfl)
example := C49_write pc none sample ⟨[], 10, []⟩ _ false (by rfl)
example := C49_write_file pc none sample ⟨"o", true, 10, 0⟩ [] _ false _ (by rfl)
example := C49_write_file pc none sample ⟨"o", false, 10, 0⟩ [] _ false _ (by rfl)
example := C49_check pc pc_sane none (.grp idPROP 4 idTEST []) [] _ false (by rfl)
example := C54_data pc pc_sane none _ _ sample sample_read

/-! ### C27, C28, C30 to C32 -/

example := C27_add pc pc_sane (.grp idFORM 4 idTEST []) (.raw idHELO 3 [1, 2, 3]) small_consistent
  (.raw rfl (by decide)) ⟨idTEST, rfl⟩ (by decide)
example := C27_add_prop pc pc_sane idLIST 4 idTEST [] [] (.lst (by decide) (by decide) (by simp) (by simp))
  idPROP 4 idTEST [] (.grp (by decide) (by decide) (by simp)) (by decide)
example := C27_built_consistent pc pc_sane (.grp idFORM 14 idTEST [.raw idHELO 2 [1, 2]])
  (.add (.group (id := idFORM) (ty := idTEST)) (.raw (id := idHELO) (data := [1, 2]))
    (by have h : incrementChunkSize pc 4 2 = .val 14 := by decide
        simp [addToGroup, createEmptyGroup, idSize, Chunk.size, h])) (by decide)

theorem two_additions : Additions pc createEmptyCAT [createEmptyGroup idFORM 1, createEmptyGroup idFORM 1]
    (.grp idCAT 28 1 [createEmptyGroup idFORM 1, createEmptyGroup idFORM 1]) := by
  have h1 : incrementChunkSize pc 4 4 = .val 16 := by decide
  have h2 : incrementChunkSize pc 16 4 = .val 28 := by decide
  have hv : checkValidCATSubChunkId idFORM = true := by decide
  refine .add (cs := [_]) (.add (cs := []) .start ?_) ?_ (g' := .grp idCAT 16 1 [createEmptyGroup idFORM 1]) <;>
    simp [createEmptyCAT, createEmptyGroup, addAndUpdate, updateContentsType, addToGroup, Chunk.id,
      Chunk.size, Chunk.groupType, hv, newContentsType, idSize, h1, h2]

example := C28_contents_type pc createEmptyCAT ⟨_, rfl⟩ rfl _ _ two_additions
  (by simp [Composite, Chunk.id, createEmptyGroup]) (by simp)

theorem small_accepted : Accepts pc (encode (.grp idFORM 4 idTEST [])) (.grp idFORM 4 idTEST []) :=
  ⟨⟨_, rfl⟩, _, rfl⟩

/-- Two files: `sample` and a FORM. -/
def twoInputs : List (List Byte × Chunk) :=
  [(encode sample, sample), (encode (.grp idFORM 4 idTEST []), .grp idFORM 4 idTEST [])]

theorem twoInputs_accepted (i : List Byte × Chunk) (hi : i ∈ twoInputs) :
    i.1.length < 2147483648 ∧ Accepts pc i.1 i.2 := by
  simp only [twoInputs, List.mem_cons, List.not_mem_nil, or_false] at hi
  rcases hi with rfl | rfl
  · exact ⟨by decide, sample_accepted⟩
  · exact ⟨by decide, small_accepted⟩

theorem empty_rejected (f : Source) (h : f.contents = some []) :
    ¬ ∃ bs c, f.contents = some bs ∧ Accepts pc bs c := by
  rintro ⟨bs, c, h1, ⟨s, h2⟩, _⟩
  rw [h] at h1
  cases h1
  have : readFd pc none ⟨[], []⟩ = .val (none, ⟨[], [.readError idEMPTY "", .mainChunk]⟩) := by rfl
  rw [this] at h2
  simp at h2

example := C30_joins_partial pc pc_sane
  [⟨"a", some (encode sample)⟩, ⟨"b", some (encode (.grp idFORM 4 idTEST []))⟩] twoInputs rfl twoInputs_accepted
  (by decide) ⟨"o", true, 1000, 0⟩ rfl (by decide) []
example := C30_rejects pc [⟨"a", some (encode (.grp idFORM 4 idTEST []))⟩, ⟨"b", some []⟩] ⟨"o", true, 1000, 0⟩ []
  _ 1 none ⟨"b", some []⟩ (by simp) (empty_rejected _ rfl) (by rfl)
example := C30_not_opened pc [⟨"a", some (encode sample)⟩] ⟨"o", false, 1000, 0⟩ rfl [] [.cannotOpen "o"] (1, none)
  (by decide +kernel)
example := C30_only_overflow pc pc_sane [⟨"a", some (encode sample)⟩] ⟨"o", true, 1000, 0⟩ []
example := C30_outcome pc pc_sane [⟨"a", some (encode sample)⟩, ⟨"b", none⟩] ⟨"o", true, 1000, 0⟩ []
  (by intro f hf bs hb
      simp only [List.mem_cons, List.not_mem_nil, or_false] at hf
      rcases hf with rfl | rfl
      · cases hb; exact noNegativeGroups_of (by decide)
      · cases hb) (by decide)
example := C31_total pc pc_sane ⟨"a", some (encode sample)⟩ false []
  (by intro bs hb; cases hb; exact ⟨noNegativeGroups_of (by decide), by decide⟩)
example := C32_dump idHELO (by decide) [1, 2, 3] 2
example := C32_recover idHELO (by decide) [1, 2, 3, 4, 5, 6, 7, 8, 9, 10, 11] 1 _ (by rfl)
example := C32_lines idHELO (by decide) [1, 2, 3, 4, 5, 6, 7, 8, 9, 10, 11] 1
example := C42_false ["iffjoin", "a.iff", "b.iff"] none ["a.iff", "b.iff"]
  (C42_options_partial _ _ (by decide) (by decide))

/-! ### C40, C41, C43 -/

theorem linked_sorted : RegistrySorted linkedRegistry := by
  refine ⟨by unfold Ascending; decide, ?_, defaultRegistry_sorted.global⟩
  intro f hf
  simp only [linkedRegistry, extendDefaultWithFormTypes, List.mem_singleton] at hf
  subst hf
  intro node hn
  simp only [List.mem_cons, List.not_mem_nil, or_false] at hn
  rcases hn with rfl | rfl <;> (unfold Ascending; decide)

theorem linked_groups : GroupsEverywhere linkedRegistry := by
  refine (C40_linked_registries _ rfl ?_).1
  intro f hf
  simp only [linkedRegistry, extendDefaultWithFormTypes, List.mem_singleton] at hf
  subst hf
  exact ⟨[_], rfl, by decide⟩

example := C40_groups_partial pc pc_sane linkedRegistry linked_sorted linked_groups ⟨catTest, []⟩ _
  (.grp idCAT 16 idTEST [.grp idFORM 4 idTEST []]) (by rfl)
example := C41_sizes_partial pc pc pc_sane pc_sane testRegistry testRegistry_sorted idTEST idHELO _ _ test_hello
  [.ubyte 1, .ubyte 2, .uword 3] rfl 6 (by decide) (by decide) (by simp [TailOk, encodeVal, be_length])
example := C43_proper_partial (.sizeMismatch idCAT 7 4) (by simp) (by simp) (by simp) (by simp)
example := C43_valid_files pc pc_sane (encode sample) (by decide)
  (fun n hn => pc_small n (by have : (encode sample).length = 70 := by decide
                              omega)) sample sample_accepted

/-! ### C55 to C59 -/

example := C55_false [['-', 'o', 'x'], ['a']] (some ['x']) [['a']]
  (.joined (m := .run (none, [['a']])) (by decide) (.operand rfl (.inr (by decide)) .nil)) (by simp)
example := C56_layout sample sample_standard (rawSizes_of_consistent sample_consistent) 3
example := C56_faithful sample sample sample_standard (rawSizes_of_consistent sample_consistent) sample_standard
  (rawSizes_of_consistent sample_consistent) 0 _
  (C56_layout sample sample_standard (rawSizes_of_consistent sample_consistent) 0)
  (C56_layout sample sample_standard (rawSizes_of_consistent sample_consistent) 0)
example := C56_files pc amiga pc_sane amiga_sane ⟨"a", some (encode (.grp idFORM 4 idTEST []))⟩
  ⟨"b", some (encode (.grp idFORM 4 idTEST []) ++ [1])⟩ false true [] [] _ _ _ (by rfl) (by rfl)
example := C56_compare pc pc_sane sample (.grp idFORM 4 idTEST []) sample_standard sample_consistent sample_split
  small_standard small_consistent small_split 0
example := C57_joins pc pc_sane writable true [['a'], ['b'], ['-', 'o'], ['a']] (some ['a']) [['a'], ['b']]
  (.operand (m := .run (some ['a'], [['b']])) rfl (.inr (by decide))
    (.operand (m := .run (some ['a'], [])) rfl (.inr (by decide)) (.apart (m := .run (none, [])) .nil)))
  (by decide) twoFiles
  [(encode (.grp idFORM 4 idTEST []), .grp idFORM 4 idTEST []),
    (encode (.grp idCAT 4 idTEST []), .grp idCAT 4 idTEST [])]
  (by decide +kernel)
  (by intro i hi
      simp only [List.mem_cons, List.not_mem_nil, or_false] at hi
      rcases hi with rfl | rfl
      · exact ⟨by decide, small_accepted⟩
      · exact ⟨by decide, ⟨_, rfl⟩, _, rfl⟩)
  (by decide) (.inr rfl) (by decide)
example := C57_rejects pc writable true [['a'], ['x'], ['-', 'o'], ['a']] (some ['a']) [['a'], ['x']]
  (.operand (m := .run (some ['a'], [['x']])) rfl (.inr (by decide))
    (.operand (m := .run (some ['a'], [])) rfl (.inr (by decide)) (.apart (m := .run (none, [])) .nil)))
  twoFiles _ ['x'] (by simp) (by rintro ⟨bs, c, h, _⟩; cases h) 1 (by rfl)
example := C57_frame pc writable true true [['a'], ['x'], ['-', 'o'], ['a']] twoFiles _ 1 (by rfl)
example := C57_prints pc pc_sane writable true [['a']] twoFiles _ 0 (by rfl)
example := C58_lines_partial [Msg.sizeMismatch idCAT 7 4, .mainChunk] (by
  intro m hm
  simp only [List.mem_cons, List.not_mem_nil, or_false] at hm
  rcases hm with rfl | rfl <;> trivial)
example := C58_unambiguous pc [.mainChunk] [.mainChunk] _
  (by intro m hm; simp only [List.mem_singleton] at hm; subst hm
      exact ⟨⟨fun s h => by simp [mentioned] at h, by simp⟩, by simp⟩)
  (by intro m hm; simp only [List.mem_singleton] at hm; subst hm
      exact ⟨⟨fun s h => by simp [mentioned] at h, by simp⟩, by simp⟩) (by rfl) (by rfl)
example := C58_check pc pc_sane sample (.grp idPROP 4 idTEST []) true false _ _ (sample_checked []) (by rfl)
example := C58_read pc [] [1, 2] none none _ _ _ (by rfl) (by rfl) (by rfl) (by rfl)
example := C58_write pc sample (.grp idCAT 4 idTEST []) 0 0 false false _ _ _ (by rfl) (by rfl) (by rfl) (by rfl)
example := C59_read_default pc amiga pc_sane amiga_sane amiga_agree
example := C59_write pc amiga pc_sane amiga_sane none shortFields_default sample sample_consistent.representable
example := C59_read pc amiga pc_sane amiga_sane amiga_agree none shortFields_default
example := C59_compare pc amiga pc_sane amiga_sane (some testRegistry) sample extended
  sample_consistent.representable
example := C59_check pc amiga pc_sane amiga_sane (some testRegistry) extended []
example := C59_check_exact pc piped pc_sane piped_sane rfl (some testRegistry) extended
example := C59_join pc amiga pc_sane amiga_sane amiga_agree writable true true [['a'], ['b']] twoFiles
example := C59_print pc amiga pc_sane amiga_sane amiga_agree writable true [['a']] twoFiles

end Iff
