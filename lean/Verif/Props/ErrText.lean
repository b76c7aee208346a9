import Verif.Proofs.ErrText
import Verif.Proofs.Notes
import Verif.Props.Format
import Verif.Props.Silent
/-
  C58 The diagnostics are lines of text that determine what was reported.
-/
namespace Iff
open Spec

/-- C58 is false for four diagnostics, whose arguments do not match their formats (C43): when a FORM
is smaller than its member, reading it has no defined effect on standard error. -/
theorem C58_false :
    (∃ c rest, readChunk pc defaultRegistry 24 0 ⟨overrunning, []⟩ =
      .val (some c, ⟨rest, [.truncGroup 6]⟩)) ∧
    (∀ e n, stderrText e [.truncGroup n] = .ub .badArgument) ∧
    (∀ e n, stderrText e [.truncList n] = .ub .badArgument) ∧
    (∀ e n i, stderrText e [.skipped n i] = .ub .badArgument) ∧
    (∀ e n i, stderrText e [.fillerFailed n i] = .ub .badArgument) := by
  refine ⟨⟨_, _, C45_false.1⟩, fun e n => ?_, fun e n => ?_, fun e n i => ?_, fun e n i => ?_⟩
  · rw [stderrText, bad_truncGroup]; rfl
  · rw [stderrText, bad_truncList]; rfl
  · rw [stderrText, bad_skipped]; rfl
  · rw [stderrText, bad_fillerFailed]; rfl

/-- C58 for all other diagnostics: standard error receives one line for each of them (nonempty, and
without further line breaks unless the diagnostic mentions some), the same on every platform.
Missing: the four diagnostics of `C58_false`. -/
theorem C58_lines_partial (log : List Msg) (hr : ∀ m ∈ log, Regular m) :
    ∃ lines : List (List Byte), lines.length = log.length ∧
      (∀ e, stderrText e log = .val (lines.flatMap fun l => l ++ [10])) ∧
      ((∀ m ∈ log, OneLine m) → ∀ l ∈ lines, l ≠ [] ∧ (10 : Byte) ∉ l) := by
  refine ⟨log.map fun m => headAt (kind m) ++ tailOf m, by simp, fun e => ?_, fun ho l hl => ?_⟩
  · rw [stderrText_eq e hr, List.flatMap_map]
    simp only [List.append_assoc]
    rfl
  · obtain ⟨m, hm, rfl⟩ := List.mem_map.mp hl
    have hh := heads_line _ (kind_lt (hr m hm))
    refine ⟨fun h => hh.1 (List.append_eq_nil_iff.mp h).1, fun h => ?_⟩
    rcases List.mem_append.mp h with h | h
    · exact hh.2 h
    · exact tail_line (ho m hm) h

/-- C58: an ill-formed character is shown as it is in the file, whether `char` is signed or not. -/
theorem C58_char (e : Env) (b : Byte) : stderrText e [.illegalChar (charVal e b)] =
    .val (ascii "Illegal character: '" ++ b :: ascii "' in ID!\n") := by
  rw [stderrText, Msg.prints, printCalls_one _ (vprintf_illegal _), charVal_byte]
  rfl

/-- C58: the text determines the diagnostics, in number, order, kind and everything they mention. -/
theorem C58_unambiguous (e : Env) (log log' : List Msg) (t : List Byte)
    (h : ∀ m ∈ log, Clean e m ∧ m ≠ .app) (h' : ∀ m ∈ log', Clean e m ∧ m ≠ .app)
    (ht : stderrText e log = .val t) (ht' : stderrText e log' = .val t) : log = log' := by
  have hr := regular_of_texts (fun m hm => (h m hm).2) ht
  have hr' := regular_of_texts (fun m hm => (h' m hm).2) ht'
  rw [stderrText_eq e hr] at ht
  rw [stderrText_eq e hr'] at ht'
  simp only [Out.val.injEq] at ht ht'
  exact texts_inj (fun m hm => ⟨hr m hm, (h m hm).1⟩) (fun m hm => ⟨hr' m hm, (h' m hm).1⟩)
    (ht.trans ht'.symm)

/-- C58: every run of `IFF_check` sends a defined text to standard error, and this text determines
what was found, including the verdict. -/
theorem C58_check (e : Env) (he : e.Sane) (c c' : Chunk) (ok ok' : Bool) (log log' : List Msg)
    (h : check e none c [] = .val (ok, log)) (h' : check e none c' [] = .val (ok', log')) :
    ∃ t t', stderrText e log = .val t ∧ stderrText e log' = .val t' ∧
      (t = t' → log = log' ∧ ok = ok') ∧ (ok = true ↔ t = []) := by
  obtain ⟨l, h1, h2⟩ := notesC_check e c _ _ _ h
  obtain ⟨l', h1', h2'⟩ := notesC_check e c' _ _ _ h'
  obtain rfl : log = l := by simpa [logOf] using h1
  obtain rfl : log' = l' := by simpa [logOf] using h1'
  obtain ⟨n, g1, g2⟩ := C49_check e he none c [] log ok h
  obtain rfl : log = n := by simpa using g1
  obtain ⟨n', g1', g2'⟩ := C49_check e he none c' [] log' ok' h'
  obtain rfl : log' = n' := by simpa using g1'
  refine ⟨_, _, stderrText_eq e fun m hm => (h2 m hm).2, stderrText_eq e fun m hm => (h2' m hm).2,
    fun ht => ?_, ?_⟩
  · have hl := texts_inj (e := e) (fun m hm => ⟨(h2 m hm).2, (h2 m hm).1.1⟩)
      (fun m hm => ⟨(h2' m hm).2, (h2' m hm).1.1⟩) ht
    refine ⟨hl, ?_⟩
    rw [← hl, ← g2] at g2'
    exact Bool.eq_iff_iff.mpr g2'.symm
  · rw [g2]
    cases log with
    | nil => simp
    | cons m ms => simp [textOf]

/-- C58: the same for `IFF_readFd`, when its text is defined. -/
theorem C58_read (e : Env) (bs bs' : List Byte) (c c' : Option Chunk) (s s' : RS) (t : List Byte)
    (h : readFd e none ⟨bs, []⟩ = .val (c, s)) (h' : readFd e none ⟨bs', []⟩ = .val (c', s'))
    (ht : stderrText e s.log = .val t) (ht' : stderrText e s'.log = .val t) : s.log = s'.log := by
  obtain ⟨l, h1, h2⟩ := notesR_fd e _ _ _ h
  obtain ⟨l', h1', h2'⟩ := notesR_fd e _ _ _ h'
  rw [List.nil_append] at h1 h1'
  rw [h1] at ht ⊢
  rw [h1'] at ht' ⊢
  exact C58_unambiguous e l l' t h2 h2' ht ht'

/-- C58: the same for `IFF_writeFd`, when its text is defined. -/
theorem C58_write (e : Env) (c c' : Chunk) (room room' : Nat) (ok ok' : Bool) (s s' : WS)
    (t : List Byte)
    (h : writeFd e none c ⟨[], room, []⟩ = .val (ok, s))
    (h' : writeFd e none c' ⟨[], room', []⟩ = .val (ok', s'))
    (ht : stderrText e s.log = .val t) (ht' : stderrText e s'.log = .val t) :
    s.log = s'.log ∧ ok = ok' := by
  obtain ⟨l, h1, h2⟩ := notesW_fd e c _ _ _ h
  obtain ⟨l', h1', h2'⟩ := notesW_fd e c' _ _ _ h'
  obtain ⟨n, g1, g2⟩ := C49_write e none c _ _ ok h
  obtain ⟨n', g1', g2'⟩ := C49_write e none c' _ _ ok' h'
  simp only [List.nil_append] at h1 h1' g1 g1'
  rw [h1] at ht
  rw [h1'] at ht'
  have hl := C58_unambiguous e l l' t h2 h2' ht ht'
  have hs : s.log = s'.log := by rw [h1, h1', hl]
  refine ⟨hs, ?_⟩
  rw [← g1', ← hs, g1, ← g2] at g2'
  exact Bool.eq_iff_iff.mpr g2'.symm

/-- Non-vacuity: a CAT with a wrong size that contains a data chunk, and what is said about it. -/
example : check pc none (.grp idCAT 7 idJJJJ []) [] = .val (false, [.sizeMismatch idCAT 7 4]) ∧
    stderrText pc [.sizeMismatch idCAT 7 4] =
      .val (ascii "Chunk size mismatch! CAT  size: 7, while body has: 4\n") := by
  refine ⟨?_, ?_⟩ <;> decide +kernel

example : ∀ m ∈ [Msg.sizeMismatch idCAT 7 4, .readError idEMPTY "", .mainChunk, .cannotOpen "a.iff"],
    Regular m ∧ OneLine m ∧ Clean pc m ∧ m ≠ .app := by
  intro m hm
  simp only [List.mem_cons, List.not_mem_nil, or_false] at hm
  rcases hm with rfl | rfl | rfl | rfl <;>
    refine ⟨trivial, ⟨fun s h => ?_, fun i h => ?_, by simp⟩, ⟨fun s h => ?_, by simp⟩, by simp⟩ <;>
    simp only [mentioned, mentionedId, Option.some.injEq, reduceCtorEq] at h <;> subst h <;>
    decide +kernel

/-- Non-vacuity: reading an empty file. -/
example : readFd pc none ⟨[], []⟩ = .val (none, ⟨[], [.readError idEMPTY "", .mainChunk]⟩) ∧
    stderrText pc [.readError idEMPTY "", .mainChunk] =
      .val (ascii "Error reading '    '.\nERROR: cannot open main chunk!\n") := by
  refine ⟨by rfl, ?_⟩
  decide +kernel

/-- Non-vacuity: writing to a full disk. -/
example : writeFd pc none sample ⟨[], 0, []⟩ =
      .val (false, ⟨[], 0, [.writeError idCAT "chunkId"]⟩) ∧
    stderrText pc [.writeError idCAT "chunkId"] = .val (ascii "Error writing 'CAT '.chunkId\n") := by
  refine ⟨?_, ?_⟩ <;> decide +kernel

end Iff
