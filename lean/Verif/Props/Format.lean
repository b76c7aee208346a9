import Verif.Spec.Format
import Verif.Props.Grammar
/-
  C43 Every diagnostic passes arguments that match its format.
-/
namespace Iff
open Spec

/-- All calls behind a diagnostic pass the arguments their format strings require. -/
def Proper (m : Msg) : Prop := (m.calls.all fun c => decide (WellTyped c)) = true

/-- C43 for all diagnostics but four: missing are the warnings about truncated groups and lists
(group.c:92, list.c:105), which pass a pointer for `%d`, and the messages about filler bytes
(io.c:217, io.c:239), which pass a `long` for `%d` and a `size_t` for `%u`; for these the property is
false (`C43_false`). -/
theorem C43_proper_partial (m : Msg) (h1 : ∀ n id, m ≠ .skipped n id)
    (h2 : ∀ n id, m ≠ .fillerFailed n id) (h3 : ∀ n, m ≠ .truncGroup n)
    (h4 : ∀ n, m ≠ .truncList n) : Proper m := by
  unfold Proper
  cases m
  case skipped n id => exact absurd rfl (h1 n id)
  case fillerFailed n id => exact absurd rfl (h2 n id)
  case truncGroup n => exact absurd rfl (h3 n)
  case truncList n => exact absurd rfl (h4 n)
  all_goals (simp only [Msg.calls]; decide +kernel)

/-- C43 is false: reading this file (whose FORM is smaller than its member) passes a pointer to
`printf` where the format string requires an `int`.  The other three call sites are wrong as well. -/
theorem C43_false :
    (∃ s', readChunk pc defaultRegistry 24 0 ⟨overrunning, []⟩ = s' ∧
      ∃ c rest, s' = .val (some c, ⟨rest, [.truncGroup 6]⟩)) ∧
    (∀ n, ¬ Proper (.truncGroup n)) ∧ (∀ n, ¬ Proper (.truncList n)) ∧
    (∀ n id, ¬ Proper (.skipped n id)) ∧ (∀ n id, ¬ Proper (.fillerFailed n id)) := by
  refine ⟨⟨_, C45_false.1, _, _, rfl⟩, ?_, ?_, ?_, ?_⟩ <;> intros <;> unfold Proper <;>
    simp only [Msg.calls] <;> decide +kernel

/-- The diagnostics about an encoding concern padding bytes only. -/
theorem wire_notes {e : Env} {ft : ID} {w : List Byte} {c : Chunk} {notes : List Msg}
    (h : Wire e defaultRegistry ft w c notes) : ∀ m ∈ notes, m = .padNonZero := by
  have pad : ∀ {size : Int} {p : List Byte} {pn : List Msg}, PadWire size p pn →
      ∀ m ∈ pn, m = .padNonZero := by
    intro size p pn h m hm
    rcases h with ⟨_, _, rfl⟩ | ⟨_, b, _, rfl⟩
    · simp at hm
    · split at hm <;> simp at hm
      exact hm
  induction h with
  | raw _ _ _ _ hp => exact pad hp
  | grp ps _ _ _ _ _ hp ih =>
    intro m hm
    rcases List.mem_append.mp hm with hm | hm
    · obtain ⟨q, hq, hm⟩ := List.mem_flatMap.mp hm; exact ih q hq m hm
    · exact pad hp m hm
  | lst ps _ _ _ _ hp ih =>
    intro m hm
    rcases List.mem_append.mp hm with hm | hm
    · obtain ⟨q, hq, hm⟩ := List.mem_flatMap.mp hm; exact ih q hq m hm
    · exact pad hp m hm
  | ext hh => exact absurd hh (noExt_default _ _ _ _)

/-- C43: the diagnostics that reading and checking a valid file emit are all proper, whatever its
padding bytes and whatever follows the file. -/
theorem C43_valid_files (e : Env) (he : e.Sane) (bs : List Byte) (hl : bs.length < 2147483648)
    (hm : ∀ n ≤ bs.length, e.mallocOk n = true) (c : Chunk) (h : Accepts e bs c) :
    ∃ inp log, readFd e none ⟨bs, []⟩ = .val (some c, ⟨inp, log⟩) ∧ (∀ m ∈ log, Proper m) ∧
      check e none c [] = .val (true, []) := by
  obtain ⟨w, rest, rfl, hE, hC⟩ := (C12_recognises_partial e he bs hl hm c).mp h
  have hF := hE.facts
  rw [List.length_append] at hl hm
  obtain ⟨notes, hW⟩ := hE.wire (e := e) (fun n hn => hm n (by omega)) 0
  have hr := hW.reads he.wide ((w ++ rest).length + 4) rest [] (by simp; omega)
  refine ⟨_, _, readFd_of_chunk (reg := none) (s := ⟨w ++ rest, []⟩) hr, ?_, ?_⟩
  · intro m hm
    rcases List.mem_append.mp hm with hm | hm
    · rw [List.nil_append] at hm
      rw [wire_notes hW m hm]
      exact C43_proper_partial _ (by simp) (by simp) (by simp) (by simp)
    · unfold warning at hm
      cases rest with
      | nil => simp at hm
      | cons b bs =>
        simp at hm
        rw [hm]
        exact C43_proper_partial _ (by simp) (by simp) (by simp) (by simp)
  · exact (C20_check_decides_partial e he c hF.standard (rawSizes_of_consistent hF.consistent)
      (propArrays_of_split hF.split) (by have := hF.length; omega) []).1 hC

end Iff
