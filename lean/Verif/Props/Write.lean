import Verif.Proofs.Write
import Verif.Model.File
/-
  C09 IFF_write emits the IFF-85 encoding of the hierarchy.
  C11 Written length is what the parent accounts for.
  C19 A TRUE result from IFF_write means the file is complete; after FALSE it holds a prefix.
-/
namespace Iff
open Spec

/-- C09, for any registry that dispatches the hierarchy consistently. -/
theorem C09_write_encodes (e : Env) (he : e.Sane) (reg : Option Registry)
    (hr : RegistrySorted (selectChunkRegistry reg)) (c : Chunk) (hc : Consistent c)
    (hd : Dispatched (selectChunkRegistry reg) 0 c) (s : WS) (room : (encode c).length ≤ s.room) :
    writeFd e reg c s =
      .val (true, ⟨s.out ++ encode c, s.room - (encode c).length, s.log⟩) :=
  (writes_chunk e he.wide hr c 0 hc hd).full s room

/-- C09 for the default registry: the hypotheses are about the hierarchy alone. -/
theorem C09_write_encodes_default (e : Env) (he : e.Sane) (c : Chunk) (hc : Consistent c)
    (hd : Standard c) (s : WS) (room : (encode c).length ≤ s.room) :
    writeFd e none c s =
      .val (true, ⟨s.out ++ encode c, s.room - (encode c).length, s.log⟩) :=
  C09_write_encodes e he none defaultRegistry_sorted c hc (standard_iff.mpr hd) s room

/-- The length of the encoding, and what `IFF_incrementChunkSize` adds for the chunk. -/
theorem encoded_length (e : Env) (he : e.Sane) (c : Chunk) (hc : Consistent c) :
    ((encode c).length : Int) = 8 + c.size + (if c.size % 2 = 1 then 1 else 0) ∧
    (encode c).length % 2 = 0 ∧
    ∀ acc : Int, 0 ≤ acc → acc + (encode c).length < 2147483648 →
      incrementChunkSize e acc c.size = .val (acc + (encode c).length) := by
  have hl := hc.length
  have hr := hc.range
  refine ⟨?_, by omega, ?_⟩
  · split <;> omega
  · intro acc h0 h1
    rw [incrementChunkSize_ok e he.wide h0 hr.1 (by omega), hl]

/-- C11: what `IFF_writeChunk` appends for a consistent chunk, inside whatever group, has 8 + size
bytes plus one if the size is odd, which is an even number, and `IFF_incrementChunkSize` adds exactly
this number to the parent's size. -/
theorem C11_written_length (e : Env) (he : e.Sane) (r : Registry) (hr : RegistrySorted r) (ft : ID)
    (c : Chunk) (hc : Consistent c) (hd : Dispatched r ft c) (s : WS)
    (room : 9 + c.size ≤ s.room) :
    ∃ written room', writeChunk e r ft c s = .val (true, ⟨s.out ++ written, room', s.log⟩) ∧
      (written.length : Int) = 8 + c.size + (if c.size % 2 = 1 then 1 else 0) ∧
      written.length % 2 = 0 ∧
      ∀ acc : Int, 0 ≤ acc → acc + written.length < 2147483648 →
        incrementChunkSize e acc c.size = .val (acc + written.length) := by
  have hl := encoded_length e he c hc
  refine ⟨encode c, _, (writes_chunk e he.wide hr c ft hc hd).full s ?_, hl⟩
  have := hl.1
  split at this <;> omega

/-- C19 as stated: the medium is complete after TRUE, and holds a proper prefix after FALSE. -/
def C19_statement (c : Chunk) (d : Dest) (result : Out ((Bool × Option (List Byte)) × List Msg)) :
    Prop :=
  ∃ ok contents log', result = .val ((ok, contents), log') ∧
    (ok = true → contents = some (encode c)) ∧
    (ok = false → contents = none ∧ d.opens = false ∨
      ∃ bs, contents = some bs ∧ bs <+: encode c ∧ bs.length < (encode c).length)

/-- What C19 can rely on: whatever the buffering, the medium never holds anything but a prefix of the
encoding; FALSE means it is a proper prefix; TRUE means that the stream accepted all bytes; and with
an unbuffered stream, or when the medium is large enough, the property holds as stated.  Missing:
buffered streams on a full medium, where it is false (`C19_false`). -/
theorem C19_write_partial (e : Env) (he : e.Sane) (reg : Option Registry)
    (hr : RegistrySorted (selectChunkRegistry reg)) (c : Chunk) (hc : Consistent c)
    (hd : Dispatched (selectChunkRegistry reg) 0 c) (d : Dest) (log : List Msg) :
    (d.slack = 0 ∨ (encode c).length ≤ d.cap ∨ d.opens = false →
      C19_statement c d (writeFile e reg c d log)) ∧
    (d.opens = true → ∃ ok log',
      writeFile e reg c d log = .val ((ok, some ((encode c).take d.cap)), log') ∧
      (ok = true ↔ (encode c).length ≤ d.cap + d.slack) ∧
      (ok = true → log' = log) ∧ (ok = false → Reports log log')) := by
  have hw := writes_chunk e he.wide hr c 0 hc hd
  have key : d.opens = true → ∃ ok log',
      writeFile e reg c d log = .val ((ok, some ((encode c).take d.cap)), log') ∧
      (ok = true ↔ (encode c).length ≤ d.cap + d.slack) ∧
      (ok = true → log' = log) ∧ (ok = false → Reports log log') := by
    intro ho
    unfold writeFile writeFd
    rw [if_pos ho]
    by_cases hl : (encode c).length ≤ d.cap + d.slack
    · refine ⟨true, log, ?_, by simp [hl], by simp, by simp⟩
      rw [hw.full _ hl]
      simp
    · obtain ⟨log', h1, h2⟩ := hw.short ⟨[], d.cap + d.slack, log⟩ (by simp only; omega)
      refine ⟨false, log', ?_, by simp [hl], by simp, fun _ => h2⟩
      rw [h1]
      simp [List.take_take]
  refine ⟨?_, key⟩
  intro h
  by_cases ho : d.opens = true
  · obtain ⟨ok, log', h1, h2, _, _⟩ := key ho
    refine ⟨ok, _, log', h1, ?_, ?_⟩
    · intro hok
      rw [h2] at hok
      have : (encode c).length ≤ d.cap := by
        rcases h with h | h | h
        · omega
        · exact h
        · simp [ho] at h
      rw [List.take_of_length_le this]
    · intro hok
      right
      have hlt : ¬ (encode c).length ≤ d.cap + d.slack := by
        rw [← h2, hok]; simp
      exact ⟨_, rfl, List.take_prefix _ _, by rw [List.length_take]; omega⟩
  · have ho' : d.opens = false := by simpa using ho
    refine ⟨false, none, _, by unfold writeFile; rw [if_neg ho], by simp, fun _ => Or.inl ⟨rfl, ho'⟩⟩

/-- An example hierarchy: a CAT with a FORM that has an odd-sized data chunk, and a LIST with a
PROP. -/
def sample : Chunk :=
  .grp idCAT 62 (makeId 'T' 'E' 'S' 'T')
    [.grp idFORM 14 (makeId 'T' 'E' 'S' 'T') [.raw (makeId 'A' 'B' 'C' 'D') 1 [0x7f]],
     .lst idLIST 28 (makeId 'T' 'E' 'S' 'T')
       [.grp idFORM 4 (makeId 'T' 'E' 'S' 'T') []]
       [.grp idPROP 4 (makeId 'T' 'E' 'S' 'T') []]]

theorem sample_consistent : Consistent sample := by
  refine .grp (by decide) (by decide) ?_
  intro c hc
  simp only [List.mem_cons, List.not_mem_nil, or_false] at hc
  rcases hc with rfl | rfl
  · refine .grp (by decide) (by decide) ?_
    intro c hc
    simp only [List.mem_cons, List.not_mem_nil, or_false] at hc
    subst hc
    exact .raw (by decide) (by decide)
  · refine .lst (by decide) (by decide) ?_ ?_ <;>
    · intro c hc
      simp only [List.mem_cons, List.not_mem_nil, or_false] at hc
      subst hc
      exact .grp (by decide) (by decide) (by simp)

theorem sample_standard : Standard sample := by
  refine .grp (by decide) ?_
  intro c hc
  simp only [List.mem_cons, List.not_mem_nil, or_false] at hc
  rcases hc with rfl | rfl
  · refine .grp (by decide) ?_
    intro c hc
    simp only [List.mem_cons, List.not_mem_nil, or_false] at hc
    subst hc
    exact .raw (by decide) (by decide) (by decide) (by decide)
  · refine .lst (by decide) ?_ ?_ <;>
    · intro c hc
      simp only [List.mem_cons, List.not_mem_nil, or_false] at hc
      subst hc
      exact .grp (by decide) (by simp)

/-- A 64-bit little-endian platform with enough memory. -/
def pc : Env := ⟨64, false, true, fun n => n < 2 ^ 63, true⟩

theorem pc_sane : pc.Sane := ⟨by decide, by
  intro n hn
  have h63 : pc.sizeBits - 1 = 63 := rfl
  rw [h63] at hn
  show decide (n < 2 ^ 63) = false
  rw [decide_eq_false_iff_not]
  omega⟩

/-- Non-vacuity of C09 and C11: `sample` meets the hypotheses, and these are its bytes. -/
example : Consistent sample ∧ Standard sample ∧ (encode sample).length = 70 ∧
    encode sample =
      [0x43, 0x41, 0x54, 0x20, 0, 0, 0, 62, 0x54, 0x45, 0x53, 0x54,
       0x46, 0x4f, 0x52, 0x4d, 0, 0, 0, 14, 0x54, 0x45, 0x53, 0x54,
       0x41, 0x42, 0x43, 0x44, 0, 0, 0, 1, 0x7f, 0,
       0x4c, 0x49, 0x53, 0x54, 0, 0, 0, 28, 0x54, 0x45, 0x53, 0x54,
       0x50, 0x52, 0x4f, 0x50, 0, 0, 0, 4, 0x54, 0x45, 0x53, 0x54,
       0x46, 0x4f, 0x52, 0x4d, 0, 0, 0, 4, 0x54, 0x45, 0x53, 0x54] :=
  ⟨sample_consistent, sample_standard, by decide, by decide⟩

/-- C19 is false: with a buffered stream, a medium that is full is noticed only by `fclose`, whose
result is ignored.  Witness: `sample` (70 bytes) written to a medium with room for 10 bytes. -/
theorem C19_false :
    ¬ ∀ (e : Env) (reg : Option Registry) (c : Chunk) (d : Dest) (log : List Msg), e.Sane →
      RegistrySorted (selectChunkRegistry reg) → Consistent c →
      Dispatched (selectChunkRegistry reg) 0 c → C19_statement c d (writeFile e reg c d log) := by
  intro h
  have h1 := h pc none sample ⟨"out", true, 10, 4096⟩ [] pc_sane defaultRegistry_sorted
    sample_consistent (standard_iff.mpr sample_standard)
  have h2 := (C19_write_partial pc pc_sane none defaultRegistry_sorted sample sample_consistent
    (standard_iff.mpr sample_standard) ⟨"out", true, 10, 4096⟩ []).2 rfl
  obtain ⟨ok, cs, log', e1, e2, _⟩ := h1
  obtain ⟨ok', log'', f1, f2, _⟩ := h2
  rw [e1] at f1
  injection f1 with f1
  simp only [Prod.mk.injEq] at f1
  obtain ⟨⟨rfl, rfl⟩, _⟩ := f1
  have hok := f2.mpr (by decide)
  have := e2 hok
  revert this
  decide

end Iff
