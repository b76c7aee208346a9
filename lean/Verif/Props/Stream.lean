import Verif.Proofs.ReadFd
import Verif.Props.ReadWrite
import Verif.Model.TestApp
/-
  C14 Truncated files are rejected.
  C17 Trailing bytes do not change the result.
-/
namespace Iff
open Spec

/-! ### C17 -/

/-- C17 for any registry: the same hierarchy is read when arbitrary bytes follow. -/
theorem C17_same_hierarchy (e : Env) (he : e.Sane) (reg : Option Registry) (bs q : List Byte)
    (log : List Msg) (c : Chunk) (s' : RS) (h : readFd e reg ⟨bs, log⟩ = .val (some c, s')) :
    ∃ s'', readFd e reg ⟨bs ++ q, log⟩ = .val (some c, s'') := by
  obtain ⟨s1, h1, _⟩ := readFd_some h
  have hx := (read_extends (tail := True) he (Or.inl trivial) (bs.length + 4)
    (r := selectChunkRegistry reg)).1 0 bs q log
  have hf : readChunk e (selectChunkRegistry reg) ((bs ++ q).length + 4) 0 ⟨bs, log⟩ =
      .val (some c, s1) := by
    rw [← h1]
    exact readChunk_fuel he (by simp only [List.length_append]; omega) (by simp only; omega)
  have hx := (read_extends (tail := True) he (Or.inl trivial) ((bs ++ q).length + 4)
    (r := selectChunkRegistry reg)).1 0 bs q log
  rw [hf] at hx
  obtain ⟨_, k, _, h2⟩ := hx rfl
  exact ⟨_, readFd_of_chunk (s := ⟨bs ++ q, log⟩) h2⟩

/-- C17 without application chunks (or on a stream that cannot seek): what is read depends on the
bytes `w` of the hierarchy only, and the warning about trailing data is reported exactly if at least
one byte follows them. -/
theorem C17_trailing_bytes (e : Env) (he : e.Sane) (reg : Option Registry)
    (hx : NoExt (selectChunkRegistry reg) ∨ e.seekable = false) (bs : List Byte)
    (log : List Msg) (c : Chunk) (s' : RS) (h : readFd e reg ⟨bs, log⟩ = .val (some c, s')) :
    ∃ w notes, w <+: bs ∧ (∀ b, .trailing b ∉ notes) ∧
      readFd e reg ⟨w, log⟩ = .val (some c, ⟨[], log ++ notes⟩) ∧
      ∀ b rest, readFd e reg ⟨w ++ b :: rest, log⟩ =
        .val (some c, ⟨rest, log ++ notes ++ [.trailing b.toNat]⟩) := by
  obtain ⟨s1, h1, _⟩ := readFd_some h
  obtain ⟨w, hw, hl⟩ := (read_local he hx _).1 0 _ _ _ _ h1 rfl
  obtain ⟨notes, hn, hm⟩ := (read_logs _).1 0 _ _ _ h1
  have key : ∀ q, readFd e reg ⟨w ++ q, log⟩ =
      .val (some c, ⟨q.drop 1, log ++ notes ++ warning q⟩) := by
    intro q
    have hc : readChunk e (selectChunkRegistry reg) ((w ++ q).length + 4) 0 ⟨w ++ q, log⟩ =
        .val (some c, ⟨q, s1.log⟩) := by
      have h2 := hl q
      have h3 := readChunk_fuel he (r := selectChunkRegistry reg) (ft := 0) (s := ⟨w ++ q, log⟩)
        (n := (w ++ q).length + 4) (m := bs.length + (w ++ q).length + 4) (by simp only; omega)
        (by simp only; omega)
      rw [h3]
      obtain ⟨k, hk⟩ : ∃ k, bs.length + (w ++ q).length + 4 = bs.length + 4 + k :=
        ⟨(w ++ q).length, by omega⟩
      rw [hk]
      clear hk h3
      induction k with
      | zero => exact h2
      | succ k ih =>
        rw [← ih]
        exact (read_mono (bs.length + 4 + k)).1 0 ⟨w ++ q, log⟩ (by rw [ih]; simp)
    have := readFd_of_chunk (reg := reg) (s := ⟨w ++ q, log⟩) hc
    rw [this, hn]
  refine ⟨w, notes, ⟨s1.inp, by rw [hw]⟩, fun b hb => hm _ hb, ?_, ?_⟩
  · simpa [warning] using key []
  · intro b rest
    simpa [warning] using key (b :: rest)

/-- C17 for the default registry. -/
theorem C17_trailing_bytes_default (e : Env) (he : e.Sane) (bs : List Byte)
    (log : List Msg) (c : Chunk) (s' : RS) (h : readFd e none ⟨bs, log⟩ = .val (some c, s')) :
    ∃ w notes, w <+: bs ∧ (∀ b, .trailing b ∉ notes) ∧
      readFd e none ⟨w, log⟩ = .val (some c, ⟨[], log ++ notes⟩) ∧
      ∀ b rest, readFd e none ⟨w ++ b :: rest, log⟩ =
        .val (some c, ⟨rest, log ++ notes ++ [.trailing b.toNat]⟩) :=
  C17_trailing_bytes e he none (Or.inl noExt_default) bs log c s' h

/-- Non-vacuity: `sample` with three more bytes. -/
example : ∃ s', readFd pc none ⟨encode sample ++ [0x41#8, 0x42#8, 0x43#8], []⟩ = .val (some sample, s') :=
  C17_same_hierarchy pc pc_sane none (encode sample) [0x41#8, 0x42#8, 0x43#8] [] sample ⟨[], []⟩
    (by rfl)

/-! ### C14 -/

/-- C14: whatever proper prefix of a written file is left (by a writer that crashed, say), reading it
returns NULL, with a diagnostic.  Without application chunks, or on a stream that cannot seek. -/
theorem C14_truncated_rejected (e : Env) (he : e.Sane) (reg : Option Registry)
    (hr : RegistrySorted (selectChunkRegistry reg))
    (hx : NoExt (selectChunkRegistry reg) ∨ e.seekable = false) (c : Chunk) (hc : Consistent c)
    (hl : Loadable e (selectChunkRegistry reg) 0 c) (p q : List Byte) (hq : q ≠ [])
    (hpq : p ++ q = encode c) (log : List Msg) :
    ∃ inp notes, readFd e reg ⟨p, log⟩ = .val (none, ⟨inp, log ++ notes ++ [.mainChunk]⟩) := by
  have hn := (wire_encode e hr c 0 hc hl).reads he.wide ((encode c).length + 4) [] log (by omega)
  rw [List.append_nil, ← hpq] at hn
  obtain ⟨s1, h1⟩ := truncated he hx (m := p.length + 4) hq (by omega) (by omega) hn
  obtain ⟨notes, hn, _⟩ := (read_logs _).1 0 _ _ _ h1
  refine ⟨s1.inp, notes, ?_⟩
  rw [readFd_of_none (s := ⟨p, log⟩) h1, hn]

/-- C14 for the default registry. -/
theorem C14_truncated_rejected_default (e : Env) (he : e.Sane) (c : Chunk) (hc : Consistent c)
    (hs : Standard c) (hl : ListsSplit c)
    (hm : ∀ id size data, Within (.raw id size data) c → e.mallocOk data.length = true)
    (p q : List Byte) (hq : q ≠ []) (hpq : p ++ q = encode c) (log : List Msg) :
    ∃ inp notes, readFd e none ⟨p, log⟩ = .val (none, ⟨inp, log ++ notes ++ [.mainChunk]⟩) :=
  C14_truncated_rejected e he none defaultRegistry_sorted (Or.inl noExt_default) c hc
    (loadable_standard e hs hl 0 hm) p q hq hpq log

/-- Non-vacuity: `sample` without its last byte. -/
example : ∃ p q, q ≠ [] ∧ p ++ q = encode sample ∧ p.length = 69 :=
  ⟨(encode sample).dropLast, [0x54], by decide, by decide, by decide⟩

/-- A FORM with a HELO chunk that has two bytes more than its fields. -/
def extended : Chunk :=
  .grp idFORM 18 idTEST [.ext idHELO 6 [.ubyte 1, .ubyte 2, .uword 3]]

/-- C14 is false for application chunks with filler bytes: `IFF_skipUnknownBytes` seeks past the end
of the file without noticing.  The 26-byte file of `extended` cut off after 24 bytes reads as
`extended`. -/
theorem C14_false_with_application_chunks :
    (encode extended).length = 26 ∧
    readFd pc (some testRegistry) ⟨(encode extended).take 24, []⟩ =
      .val (some extended, ⟨[], [.skipped 2 idHELO]⟩) ∧
    readFd pc (some testRegistry) ⟨encode extended, []⟩ =
      .val (some extended, ⟨[], [.skipped 2 idHELO]⟩) := by
  refine ⟨by decide, by rfl, by rfl⟩

/-- The warning of C17 is missing in the same situation: the 24-byte file reads as `extended`, and when
one byte follows, the same hierarchy is read but nothing is reported about trailing data. -/
theorem C17_false_with_application_chunks :
    readFd pc (some testRegistry) ⟨(encode extended).take 24, []⟩ =
      .val (some extended, ⟨[], [.skipped 2 idHELO]⟩) ∧
    readFd pc (some testRegistry) ⟨(encode extended).take 24 ++ [0x41#8], []⟩ =
      .val (some extended, ⟨[], [.skipped 2 idHELO]⟩) := by
  refine ⟨by rfl, by rfl⟩

end Iff
