import Verif.Proofs.Layout
import Verif.Props.Compare
import Verif.Props.Tools
/-
  C56 The printed text is laid out as specified and determines the hierarchy.
-/
namespace Iff
open Spec

/-- C56, the text: a hierarchy of the default registry whose data chunks hold as many bytes as they
declare is printed as specified, at every level of indentation.  (Group sizes may be wrong.) -/
theorem C56_layout (c : Chunk) (hc : Standard c) (hz : RawSizes c) (level : Nat) :
    print none level c = .val (layout level c) :=
  printChunk_layout c 0 level hc hz

/-- C56, nothing is lost: such hierarchies with the same text are the same, in every ID, size, type
and data byte. -/
theorem C56_faithful (c d : Chunk) (hc : Standard c) (hz : RawSizes c) (hd : Standard d)
    (hy : RawSizes d) (level : Nat) (text : List Byte) (h1 : print none level c = .val text)
    (h2 : print none level d = .val text) : c = d := by
  rw [C56_layout c hc hz level, Out.val.injEq] at h1
  rw [C56_layout d hd hy level, Out.val.injEq] at h2
  refine (layout_inj c d level hc hd hz hy [] [] ?_).1
  rw [h1, h2]

/-- C56 for files: what iffpp prints for a file it accepts is the specified text of the hierarchy in
the file, and two files (read by any two programs) for which iffpp prints the same hold the same
hierarchy. -/
theorem C56_files (e e' : Env) (he : e.Sane) (he' : e'.Sane) (f f' : Source) (k k' : Bool)
    (log log' l l' : List Msg) (out : List Byte)
    (h : prettyPrint e f k log = .val ((0, out), l))
    (h' : prettyPrint e' f' k' log' = .val ((0, out), l')) :
    ∃ c, Printable e f k c ∧ Printable e' f' k' c ∧ out = layout 0 c := by
  have facts : ∀ {e : Env}, e.Sane → ∀ {f : Source} {k : Bool} {log l : List Msg},
      prettyPrint e f k log = .val ((0, out), l) →
      ∃ c, Printable e f k c ∧ print none 0 c = .val out ∧ Standard c ∧ RawSizes c := by
    intro e he f k log l h
    rcases (C31_prints_partial e he f k log).2.2 _ _ _ h with ⟨c, hp, _, ht⟩ | ⟨_, h0, _⟩
    · obtain ⟨bs, s, _, hr, _⟩ := id hp
      have hf := readFd_facts he hr
      exact ⟨c, hp, ht, standard_iff.mp hf.sound.dispatched, hf.sound.raws⟩
    · exact absurd h0 (by decide)
  obtain ⟨c, hp, ht, hs, hz⟩ := facts he h
  obtain ⟨d, hp', ht', hs', hz'⟩ := facts he' h'
  obtain rfl := C56_faithful c d hs hz hs' hz' 0 out ht ht'
  refine ⟨c, hp, hp', ?_⟩
  rw [C56_layout c hs hz 0, Out.val.injEq] at ht
  exact ht.symm

/-- C56, printing and comparing agree: two consistent hierarchies compare equal iff their texts are
the same. -/
theorem C56_compare (e : Env) (he : e.Sane) (c d : Chunk) (sc : Standard c) (cc : Consistent c)
    (lc : ListsSplit c) (sd : Standard d) (cd : Consistent d) (ld : ListsSplit d) (level : Nat) :
    ∃ b, compare e none c d = .val b ∧
      (b = true ↔ ∃ text, print none level c = .val text ∧ print none level d = .val text) := by
  obtain ⟨b, h1, h2⟩ := C23_equal e he none defaultRegistry_sorted c d (comparable_standard sc cc lc)
    (comparable_standard sd cd ld) cc cd (propArrays_of_split lc) (propArrays_of_split ld)
  refine ⟨b, h1, h2.trans ⟨?_, ?_⟩⟩
  · rintro rfl
    exact ⟨_, C56_layout c sc (rawSizes_of_consistent cc) level,
      C56_layout c sc (rawSizes_of_consistent cc) level⟩
  · rintro ⟨text, h3, h4⟩
    exact C56_faithful c d sc (rawSizes_of_consistent cc) sd (rawSizes_of_consistent cd) level text h3 h4

/-- A LIST with a PROP, a text and some data. -/
def shown : Chunk :=
  .lst idLIST 40 idTEST
    [.grp idFORM 12 idTEST [.raw idTEXT 3 [104, 105, 33]], .raw idJJJJ 2 [0, 255]]
    [.grp idPROP 4 idTEST []]

/-- Non-vacuity: the text of a LIST. -/
example : print none 0 shown = .val (ascii
"'LIST' = {
  chunkSize = 40;
contentsType = 'TEST';
prop = [
  'PROP' = {
    chunkSize = 4;
  formType = 'TEST';
  [
  ];
  }

];
[
  'FORM' = {
    chunkSize = 12;
  formType = 'TEST';
  [
    'TEXT' = {
      chunkSize = 3;
    text = '
      hi!
    ';
    }

  ];
  }

  'JJJJ' = {
    chunkSize = 2;
  bytes = 
    00 ff 
  ;
  }

];
}

") := by decide +kernel

/-- Non-vacuity: it is a hierarchy of the default registry, and data chunks declare their length. -/
example : Standard shown ∧ RawSizes shown := by
  refine ⟨.lst rfl ?_ ?_, ?_⟩
  · intro c hc
    simp only [List.mem_cons, List.not_mem_nil, or_false] at hc
    rcases hc with rfl | rfl
    · refine .grp (Or.inl rfl) fun c hc => ?_
      simp only [List.mem_cons, List.not_mem_nil, or_false] at hc
      subst hc
      exact .raw (by decide) (by decide) (by decide) (by decide)
    · exact .raw (by decide) (by decide) (by decide) (by decide)
  · intro c hc
    simp only [List.mem_cons, List.not_mem_nil, or_false] at hc
    subst hc
    exact .grp (Or.inr (Or.inr rfl)) (by simp)
  · intro id size data hw
    cases hw with
    | sub hm hw =>
      simp only [List.mem_cons, List.not_mem_nil, or_false] at hm
      rcases hm with rfl | rfl
      · cases hw with
        | grp hm hw =>
          simp only [List.mem_cons, List.not_mem_nil, or_false] at hm
          subst hm
          cases hw; rfl
      · cases hw; rfl
    | prop hm hw =>
      simp only [List.mem_cons, List.not_mem_nil, or_false] at hm
      subst hm
      cases hw with | grp hm hw => simp at hm

/-- Non-vacuity: two files, one with a wrong form of padding, for which iffpp prints the same. -/
example : ∃ out l l',
    prettyPrint pc ⟨"a", some ([70, 79, 82, 77, 0, 0, 0, 14, 84, 69, 83, 84] ++
      [74, 74, 74, 74, 0, 0, 0, 1, 65, 0])⟩ true [] = .val ((0, out), l) ∧
    prettyPrint pc ⟨"b", some ([70, 79, 82, 77, 0, 0, 0, 14, 84, 69, 83, 84] ++
      [74, 74, 74, 74, 0, 0, 0, 1, 65, 9])⟩ true [] = .val ((0, out), l') :=
  ⟨_, _, _, by rfl, by rfl⟩

end Iff
