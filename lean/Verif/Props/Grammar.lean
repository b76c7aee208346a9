import Verif.Proofs.Grammar
import Verif.Proofs.ReadQuiet
import Verif.Props.Check
import Verif.Props.Stream
/-
  C12 Reading and checking together recognise exactly the IFF-85 grammar.
  C13 Reading then writing a valid file only normalises it.
  C14 Truncated files are rejected (valid files in general).
  C45 A chunk's declared size is a virtual end of file for its contents.
  C47 PROPs after other LIST members are rejected.
-/
namespace Iff
open Spec

/-- `IFF_read` returns the hierarchy `c` for these bytes, and `IFF_check` accepts it. -/
def Accepts (e : Env) (bs : List Byte) (c : Chunk) : Prop :=
  (∃ s', readFd e none ⟨bs, []⟩ = .val (some c, s')) ∧ ∃ log, check e none c [] = .val (true, log)

/-- The bytes of an accepted file, and how the reader took them. -/
theorem accepted {e : Env} (he : e.Sane) {bs : List Byte} {c : Chunk}
    (hl : bs.length < 2147483648) (h : Accepts e bs c) :
    ∃ w s1, bs = w ++ s1.inp ∧
      readChunk e defaultRegistry (bs.length + 4) 0 ⟨bs, []⟩ = .val (some c, s1) ∧
      Encodes False w c ∧ Conforms c := by
  obtain ⟨⟨s', h⟩, log, hc⟩ := h
  obtain ⟨s1, h1, _⟩ := readFd_some h
  obtain ⟨w, hw, hL⟩ := (read_loose he _).1 _ _ _ _ h1
  have hS := hL.shaped
  have hwl : w.length ≤ bs.length := by
    have : bs = w ++ s1.inp := hw
    rw [this]; simp
  have hconf : Conforms c := by
    refine Classical.byContradiction fun hn => ?_
    obtain ⟨l, h2⟩ := (C20_check_decides_partial e he c hS.standard hS.raws hS.props
      (by have := hS.length; omega) []).2 hn
    rw [h2] at hc; simp at hc
  exact ⟨w, s1, hw, h1, (hL.encodes hconf.2).1, hconf⟩

/-! ### C12 -/

/-- C12 for the rules that the code enforces: for inputs shorter than 2 GiB, with memory for the data,
the file is read as `c` and accepted iff it starts with an encoding of `c` according to the grammar
and `c` conforms to the rules.  Missing: form types with punctuation marks other than the full stop
are not excluded (C05). -/
theorem C12_recognises_partial (e : Env) (he : e.Sane) (bs : List Byte)
    (hl : bs.length < 2147483648) (hm : ∀ n ≤ bs.length, e.mallocOk n = true) (c : Chunk) :
    Accepts e bs c ↔ ∃ w rest, bs = w ++ rest ∧ Encodes False w c ∧ Conforms c := by
  constructor
  · intro h
    obtain ⟨w, s1, h1, _, h3, h4⟩ := accepted he hl h
    exact ⟨w, s1.inp, h1, h3, h4⟩
  · rintro ⟨w, rest, rfl, hE, hC⟩
    have hF := hE.facts
    rw [List.length_append] at hl hm
    obtain ⟨notes, hW⟩ := hE.wire (e := e) (fun n hn => hm n (by omega)) 0
    have hr := hW.reads he.wide ((w ++ rest).length + 4) rest [] (by simp; omega)
    refine ⟨⟨_, readFd_of_chunk (reg := none) (s := ⟨w ++ rest, []⟩) hr⟩, [], ?_⟩
    exact (C20_check_decides_partial e he c hF.standard (rawSizes_of_consistent hF.consistent)
      (propArrays_of_split hF.split) (by have := hF.length; omega) []).1 hC

/-- C12: a file that follows doc/IFF.asc in every respect is read and accepted. -/
theorem C12_legal_accepted_partial (e : Env) (he : e.Sane) (w rest : List Byte)
    (hl : (w ++ rest).length < 2147483648) (hm : ∀ n ≤ w.length, e.mallocOk n = true) (c : Chunk)
    (hE : Encodes False w c) (hc : Legal c) : Accepts e (w ++ rest) c := by
  have hF := hE.facts
  rw [List.length_append] at hl
  obtain ⟨notes, hW⟩ := hE.wire (e := e) hm 0
  have hr := hW.reads he.wide ((w ++ rest).length + 4) rest [] (by simp; omega)
  refine ⟨⟨_, readFd_of_chunk (reg := none) (s := ⟨w ++ rest, []⟩) hr⟩, [], ?_⟩
  exact C20_legal_accepted_partial e he c hF.standard (rawSizes_of_consistent hF.consistent)
    (propArrays_of_split hF.split) (by have := hF.length; omega) hc []

/-- C12 is false without the exception: the file of an empty FORM of type 'A!BC' is accepted. -/
theorem C12_false : ∃ bs c, ¬ Legal c ∧ Accepts pc bs c := by
  refine ⟨encode punctuated, punctuated, ?_, ⟨⟨⟨[], []⟩, by rfl⟩, [], by rfl⟩⟩
  intro h
  have h2 := (legal_form_type h).2.1
  have : chars (makeId 'A' '!' 'B' 'C') = [65, 33, 66, 67] := by decide
  rw [this] at h2
  exact (h2 33 (by simp)).2 (by unfold IsPunct IsLower; decide)

/-- No byte string has two readings. -/
theorem C12_unambiguous (w w' rest rest' : List Byte) (c c' : Chunk) (h : Encodes False w c)
    (h' : Encodes False w' c') (hw : w ++ rest = w' ++ rest') : w = w' ∧ c = c' := by
  have e1 : ∀ n ≤ w.length, (Env.mallocOk ⟨w.length + w'.length + 32, true, true, fun _ => true, true⟩) n
      = true := fun _ _ => rfl
  have e2 : ∀ n ≤ w'.length, (Env.mallocOk ⟨w.length + w'.length + 32, true, true, fun _ => true, true⟩) n
      = true := fun _ _ => rfl
  obtain ⟨n1, h1⟩ := h.wire e1 0
  obtain ⟨n2, h2⟩ := h'.wire e2 0
  have r1 := h1.reads (by simp) (w.length + w'.length) rest [] (by omega)
  have r2 := h2.reads (by simp) (w.length + w'.length) rest' [] (by omega)
  rw [hw, r2] at r1
  simp only [Out.val.injEq, Prod.mk.injEq, Option.some.injEq, RS.mk.injEq] at r1
  obtain ⟨rfl, rfl, _⟩ := r1
  exact ⟨List.append_cancel_right hw, rfl⟩

/-- Non-vacuity: `sample` is legal, and its encoding is one according to the grammar. -/
theorem sample_encodes : Encodes True (encode sample) sample :=
  encodes_encode sample sample_consistent sample_standard sample_split

/-- `LegalFormType 'TEST'`. -/
theorem legal_TEST : LegalFormType (makeId 'T' 'E' 'S' 'T') := by
  refine ⟨?_, ?_, ?_⟩
  · unfold ValidId; decide
  · unfold IsPunct IsLower; decide
  · rw [← reserved_iff]; decide

theorem sample_legal : Legal sample := by
  have h2 : ConformsBy LegalFormType (.grp idFORM 4 (makeId 'T' 'E' 'S' 'T') []) :=
    .form legal_TEST (by simp) (by decide) (by simp)
  have h3 : ConformsBy LegalFormType (.grp idPROP 4 (makeId 'T' 'E' 'S' 'T') []) :=
    .prop legal_TEST (by simp) (by decide) (by simp)
  have h1 : ConformsBy LegalFormType (.raw (makeId 'A' 'B' 'C' 'D') 1 [0x7f]) :=
    .data (by unfold ValidId; decide)
  refine ⟨Or.inr (Or.inl rfl), .cat legal_TEST.1 ?_ (Or.inr ?_) (by decide) ?_⟩
  · simp [Chunk.id, Composite]
  · simp [HasType]
  · simp only [List.mem_cons, List.not_mem_nil, or_false, forall_eq_or_imp, forall_eq]
    refine ⟨.form legal_TEST ?_ (by decide) (by simpa using h1),
      .list legal_TEST.1 ?_ (Or.inr ?_) ?_ (by decide) (by simpa using h2) (by simpa using h3)⟩
    · simp only [List.mem_cons, List.not_mem_nil, or_false, forall_eq, Chunk.id]; decide
    · simp [Chunk.id, Composite]
    · simp [HasType]
    · simp [Chunk.id]

example : Accepts pc (encode sample) sample :=
  ⟨⟨⟨[], []⟩, by rfl⟩, [],
    C20_legal_accepted_partial pc pc_sane sample sample_standard
      (rawSizes_of_consistent sample_consistent) (propArrays_of_split sample_split) (by decide)
      sample_legal []⟩

/-! ### C13 -/

/-- C13: writing an accepted file back (on whatever host, with enough room) succeeds and gives a
file of the same length, which is read as the same hierarchy; the file is byte-identical if the
original's padding bytes are zero and its PROPs come first. -/
theorem C13_normalises (e e' : Env) (he : e.Sane) (he' : e'.Sane) (bs : List Byte)
    (hl : bs.length < 2147483648) (c : Chunk) (h : Accepts e bs c) (room : Nat)
    (hroom : bs.length ≤ room) :
    ∃ w rest file, bs = w ++ rest ∧ Encodes False w c ∧
      writeFd e' none c ⟨[], room, []⟩ = .val (true, ⟨file, room - file.length, []⟩) ∧
      file.length = w.length ∧
      (∃ s', readFd e none ⟨file, []⟩ = .val (some c, s')) ∧
      (Encodes True w c → file = w) := by
  obtain ⟨w, s1, h1, h2, h3, h4⟩ := accepted he hl h
  have hF := h3.facts
  have hlen := hF.length
  have hwl : w.length ≤ bs.length := by rw [h1]; simp
  refine ⟨w, s1.inp, encode c, h1, h3, ?_, hlen.symm, ?_, ?_⟩
  · simpa using C09_write_encodes_default e' he' c hF.consistent hF.standard ⟨[], room, []⟩
      (by simp only; omega)
  · have hload := loadable_standard e hF.standard hF.split 0 (fun id size data hw => by
      obtain ⟨w', hw', hL⟩ := (read_loose he _).1 _ _ _ _ h2
      exact hL.malloc hw)
    have hr := (wire_encode e defaultRegistry_sorted c 0 hF.consistent hload).reads he.wide
      ((encode c).length + 4) [] [] (by omega)
    rw [List.append_nil] at hr
    exact ⟨_, readFd_of_chunk (reg := none) (s := ⟨encode c, []⟩) hr⟩
  · intro hs
    exact (hs.facts.same trivial).symm

/-! ### C14 -/

/-- C14 for every file of the grammar, not only for those that `IFF_write` produces: no proper prefix
is read. -/
theorem C14_valid_file_truncated (e : Env) (he : e.Sane) (p q : List Byte) (hq : q ≠ [])
    (c : Chunk) (hE : Encodes False (p ++ q) c)
    (hm : ∀ n ≤ (p ++ q).length, e.mallocOk n = true) (log : List Msg) :
    ∃ inp notes, readFd e none ⟨p, log⟩ = .val (none, ⟨inp, log ++ notes ++ [.mainChunk]⟩) := by
  obtain ⟨notes, hW⟩ := hE.wire hm 0
  have hn := hW.reads he.wide ((p ++ q).length + 4) [] log (by omega)
  rw [List.append_nil] at hn
  obtain ⟨s1, h1⟩ := truncated he (Or.inl noExt_default) (m := p.length + 4) hq (by omega) (by omega) hn
  obtain ⟨notes, hn, _⟩ := (read_logs _).1 0 _ _ _ h1
  refine ⟨s1.inp, notes, ?_⟩
  rw [readFd_of_none (reg := none) (s := ⟨p, log⟩) h1, hn]

/-! ### C45 -/

/-- C45, what holds: in accepted files, every chunk takes exactly the bytes it declares (this is what
`Encodes` says at each level).  Missing: files that are read but not accepted by `IFF_check`. -/
theorem C45_exact_partial (e : Env) (he : e.Sane) (bs : List Byte) (hl : bs.length < 2147483648)
    (c : Chunk) (h : Accepts e bs c) :
    ∃ w s1, bs = w ++ s1.inp ∧ Encodes False w c ∧ (w.length : Int) = span c.size ∧
      readChunk e defaultRegistry (bs.length + 4) 0 ⟨bs, []⟩ = .val (some c, s1) := by
  obtain ⟨w, s1, h1, h2, h3, h4⟩ := accepted he hl h
  refine ⟨w, s1, h1, h3, ?_, h2⟩
  have := h3.facts.length
  have := h3.facts.consistent.length
  unfold span; omega

/-- C45 for files that are read but not checked: whenever `IFF_read` returns a hierarchy without a
"truncated" warning, the bytes it consumed are an encoding of that hierarchy, in which every chunk at
every level takes exactly the bytes it declares.  So a group whose members overrun it is never
accepted silently.  Missing: it is accepted with a warning (`C45_false`). -/
theorem C45_overrun_reported_partial (e : Env) (he : e.Sane) (bs : List Byte)
    (hl : bs.length < 2147483648) (c : Chunk) (s' : RS)
    (h : readFd e none ⟨bs, []⟩ = .val (some c, s'))
    (hq : ∀ size, Msg.truncGroup size ∉ s'.log ∧ Msg.truncList size ∉ s'.log) :
    ∃ w s1, bs = w ++ s1.inp ∧ Encodes False w c ∧
      readChunk e defaultRegistry (bs.length + 4) 0 ⟨bs, []⟩ = .val (some c, s1) := by
  obtain ⟨s1, h1, hs⟩ := readFd_some h
  have hq1 : Quiet s1 := by
    intro m hm
    have : m ∈ s'.log := by rw [hs]; exact List.mem_append_left _ hm
    cases m <;> simp only [Msg.Overrun, not_false_iff, not_true_eq_false]
    · exact (hq _).1 this
    · exact (hq _).2 this
  obtain ⟨w, hw, hE⟩ := (read_quiet he _).1 _ _ _ _ hl hq1 h1
  exact ⟨w, s1, hw, hE, h1⟩

/-- The warnings are no false alarms: none is given for a file that starts with an encoding. -/
theorem C45_no_false_alarm (e : Env) (he : e.Sane) (w rest : List Byte) (c : Chunk)
    (hE : Encodes False w c) (hm : ∀ n ≤ w.length, e.mallocOk n = true) :
    ∃ s', readFd e none ⟨w ++ rest, []⟩ = .val (some c, s') ∧
      ∀ size, Msg.truncGroup size ∉ s'.log ∧ Msg.truncList size ∉ s'.log := by
  obtain ⟨notes, hW⟩ := hE.wire hm 0
  have hr := hW.reads he.wide ((w ++ rest).length + 4) rest [] (by simp; omega)
  refine ⟨_, readFd_of_chunk (reg := none) (s := ⟨w ++ rest, []⟩) hr, fun size => ?_⟩
  have hw := hW.quiet
  constructor
  all_goals
    intro hx
    rw [List.nil_append] at hx
    rcases List.mem_append.mp hx with hx | hx
    · exact hw _ hx trivial
    · cases rest <;> simp [warning] at hx

/-- Non-vacuity: the encoding of `sample` is read, and its encoding is one according to the grammar. -/
example : ∃ s', readFd pc none ⟨encode sample, []⟩ = .val (some sample, s') ∧
    ∀ size, Msg.truncGroup size ∉ s'.log ∧ Msg.truncList size ∉ s'.log := by
  have h := C45_no_false_alarm pc pc_sane (encode sample) [] sample sample_encodes.weaken (fun n hn => by
    have : (encode sample).length ≤ 100 := by decide
    simp [pc]; omega)
  rwa [List.append_nil] at h

/-- A FORM that declares 6 bytes, the form type and two more; a chunk header follows. -/
def overrunning : List Byte :=
  [0x46, 0x4f, 0x52, 0x4d, 0, 0, 0, 6, 0x54, 0x45, 0x53, 0x54,
   0x41, 0x42, 0x43, 0x44, 0, 0, 0, 0]

/-- C45 is false: the FORM ends after 14 bytes according to its size, but its member is read from the
bytes 12 to 20, and the hierarchy is returned (with a
warning). -/
theorem C45_false :
    readChunk pc defaultRegistry 24 0 ⟨overrunning, []⟩ =
      .val (some (.grp idFORM 6 idTEST [.raw (makeId 'A' 'B' 'C' 'D') 0 []]), ⟨[], [.truncGroup 6]⟩) ∧
    overrunning.length = 20 ∧ span 6 = 14 := by
  refine ⟨by rfl, by decide, by decide⟩

/-! ### C47 -/

/-- A LIST with a FORM followed by a PROP. -/
def lateProp : List Byte :=
  [0x4c, 0x49, 0x53, 0x54, 0, 0, 0, 28, 0x54, 0x45, 0x53, 0x54,
   0x46, 0x4f, 0x52, 0x4d, 0, 0, 0, 4, 0x54, 0x45, 0x53, 0x54,
   0x50, 0x52, 0x4f, 0x50, 0, 0, 0, 4, 0x54, 0x45, 0x53, 0x54]

/-- The hierarchy read from it. -/
def latePropChunk : Chunk :=
  .lst idLIST 28 idTEST [.grp idFORM 4 idTEST []] [.grp idPROP 4 idTEST []]

/-- C47 is false: the PROP after the FORM is accepted. -/
theorem C47_false : Accepts pc lateProp latePropChunk := by
  have h1 : Encodes False (encode (.grp idFORM 4 idTEST [])) (.grp idFORM 4 idTEST []) :=
    .group [] (Or.inl rfl) (by decide) (by decide) (by simp)
  have h2 : Encodes False (encode (.grp idPROP 4 idTEST [])) (.grp idPROP 4 idTEST []) :=
    .group [] (Or.inr (Or.inr rfl)) (by decide) (by decide) (by simp)
  have h3 := Encodes.list (strict := False) (size := 28) (ty := idTEST)
    [(encode (.grp idFORM 4 idTEST []), .grp idFORM 4 idTEST []),
     (encode (.grp idPROP 4 idTEST []), .grp idPROP 4 idTEST [])]
    (by decide) (by decide) (by simpa using ⟨h1, h2⟩) False.elim
  have hlegal : Legal latePropChunk := by
    refine ⟨Or.inr (Or.inr rfl), .list legal_TEST.1 ?_ (Or.inr ?_) ?_ (by decide) ?_ ?_⟩
    · simp [Chunk.id, Composite]
    · simp [HasType, idTEST]
    · simp [Chunk.id]
    · intro c hc
      simp only [List.mem_cons, List.not_mem_nil, or_false] at hc; subst hc
      exact .form legal_TEST (by simp) (by decide) (by simp)
    · intro c hc
      simp only [List.mem_cons, List.not_mem_nil, or_false] at hc; subst hc
      exact .prop legal_TEST (by simp) (by decide) (by simp)
  have h4 := C12_legal_accepted_partial pc pc_sane lateProp [] (by decide)
    (fun n hn => by
      have : lateProp.length = 36 := by decide
      simp [pc]; omega) latePropChunk h3 hlegal
  rwa [List.append_nil] at h4

end Iff
