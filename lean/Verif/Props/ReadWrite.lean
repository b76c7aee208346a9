import Verif.Proofs.ReadWrite
import Verif.Props.Write
/-
  C10 Read after write returns the same hierarchy.
-/
namespace Iff
open Spec

/-- C10: what `IFF_writeFd` appends on one host (`e`), `IFF_readFd` on another (`e'`, possibly with
another byte order and word size) reads back as the same hierarchy, at the end of its input, the only
diagnostics being those about skipped filler bytes of application chunks. -/
theorem C10_read_after_write (e e' : Env) (he : e.Sane) (he' : e'.Sane) (reg : Option Registry)
    (hr : RegistrySorted (selectChunkRegistry reg)) (c : Chunk) (hc : Consistent c)
    (hd : Dispatched (selectChunkRegistry reg) 0 c)
    (hl : Loadable e' (selectChunkRegistry reg) 0 c)
    (room : Nat) (hroom : (encode c).length ≤ room) (log log' : List Msg) :
    ∃ file room',
      writeFd e reg c ⟨[], room, log⟩ = .val (true, ⟨file, room', log⟩) ∧
      readFd e' reg ⟨file, log'⟩ = .val (some c, ⟨[], log' ++ skipNotes c⟩) := by
  refine ⟨encode c, _, by simpa using C09_write_encodes e he reg hr c hc hd ⟨[], room, log⟩ hroom, ?_⟩
  have h := (wire_encode e' hr c 0 hc hl).reads he'.wide ((encode c).length + 4) [] log' (by omega)
  rw [List.append_nil] at h
  unfold readFd
  simp only [M.bind_apply]
  rw [h]
  rfl

/-- C10 inside a longer stream: reading consumes exactly the written bytes. -/
theorem C10_consumes_exactly (e e' : Env) (he : e.Sane) (he' : e'.Sane) (r : Registry)
    (hr : RegistrySorted r) (ft : ID) (c : Chunk) (hc : Consistent c) (hd : Dispatched r ft c)
    (hl : Loadable e' r ft c) (before after : List Byte) (room : Nat)
    (hroom : (encode c).length ≤ room) (log log' : List Msg) :
    ∃ file room',
      writeChunk e r ft c ⟨before, room, log⟩ = .val (true, ⟨before ++ file, room', log⟩) ∧
      ∀ n, file.length ≤ n →
        readChunk e' r n ft ⟨file ++ after, log'⟩ = .val (some c, ⟨after, log' ++ skipNotes c⟩) :=
  ⟨encode c, _, (writes_chunk e he.wide hr c ft hc hd).full ⟨before, room, log⟩ hroom,
    fun n hn => (wire_encode e' hr c ft hc hl).reads he'.wide n after log' hn⟩

/-- C10 for the default registry: the hypotheses are about the hierarchy and the memory alone, and
reading is silent. -/
theorem C10_read_after_write_default (e e' : Env) (he : e.Sane) (he' : e'.Sane) (c : Chunk)
    (hc : Consistent c) (hs : Standard c) (hl : ListsSplit c)
    (hm : ∀ id size data, Within (.raw id size data) c → e'.mallocOk data.length = true)
    (room : Nat) (hroom : (encode c).length ≤ room) (log log' : List Msg) :
    ∃ file room',
      writeFd e none c ⟨[], room, log⟩ = .val (true, ⟨file, room', log⟩) ∧
      readFd e' none ⟨file, log'⟩ = .val (some c, ⟨[], log'⟩) := by
  have h := C10_read_after_write e e' he he' none defaultRegistry_sorted c hc
    (standard_iff.mpr hs) (loadable_standard e' hs hl 0 hm) room hroom log log'
  simpa [skipNotes_standard hs] using h

theorem sample_split : ListsSplit sample := by
  refine .grp ?_
  intro c hc
  simp only [List.mem_cons, List.not_mem_nil, or_false] at hc
  rcases hc with rfl | rfl
  · refine .grp ?_
    intro c hc
    simp only [List.mem_cons, List.not_mem_nil, or_false] at hc
    subst hc
    exact .raw
  · refine .lst (by simp [Chunk.id, ids_ne.2.2.2.1.symm]) (by simp [Chunk.id]) ?_ ?_ <;>
    · intro c hc
      simp only [List.mem_cons, List.not_mem_nil, or_false] at hc
      subst hc
      exact .grp (by simp)

/-- Non-vacuity: `sample` meets the hypotheses of C10 on a 32-bit big-endian host with memory for
every block up to a megabyte. -/
example : Consistent sample ∧ Standard sample ∧ ListsSplit sample ∧
    ∀ id size data, Within (.raw id size data) sample →
      (Env.mallocOk ⟨32, true, false, fun n => n < 1000000, false⟩) data.length = true := by
  refine ⟨sample_consistent, sample_standard, sample_split, ?_⟩
  intro id size data h
  have : data.length ≤ 1 := by
    cases h with
    | grp h1 h2 =>
      simp only [List.mem_cons, List.not_mem_nil, or_false] at h1
      rcases h1 with rfl | rfl
      · cases h2 with
        | grp h1 h2 =>
          simp only [List.mem_cons, List.not_mem_nil, or_false] at h1
          subst h1
          cases h2
          simp
      · cases h2 with
        | sub h1 h2 | prop h1 h2 =>
          simp only [List.mem_cons, List.not_mem_nil, or_false] at h1
          subst h1
          cases h2 with
          | grp h1 => simp at h1
  simp only [decide_eq_true_eq]
  omega

end Iff
