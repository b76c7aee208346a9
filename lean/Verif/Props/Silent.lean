import Verif.Proofs.Tells
import Verif.Proofs.ReadFd
import Verif.Model.File
import Verif.Props.Stream
/-
  C49 No operation fails silently.
-/
namespace Iff
open Spec

/-- C49, reading: whenever `IFF_readFd` returns NULL, its last diagnostic says so (whatever the
registry, the input and the available memory). -/
theorem C49_read (e : Env) (reg : Option Registry) (s s' : RS)
    (h : readFd e reg s = .val (none, s')) :
    ∃ notes, s'.log = s.log ++ notes ++ [.mainChunk] := by
  unfold readFd at h
  rw [M.bind_apply] at h
  split at h
  · rename_i a s1 h1
    obtain ⟨l, hl, _⟩ := (read_logs _).1 _ _ _ _ h1
    cases a with
    | none =>
      simp [M.bind_apply, RS.emit] at h
      subst h
      exact ⟨l, by simp [hl]⟩
    | some c =>
      obtain ⟨inp, log⟩ := s1
      cases inp <;> simp [M.bind_apply, fgetc, RS.emit] at h
  · simp at h
  · simp at h

/-- C49, reading a file: NULL is explained by a diagnostic, "cannot open" if it cannot be opened. -/
theorem C49_read_file (e : Env) (reg : Option Registry) (name : String)
    (contents : Option (List Byte)) (log log' : List Msg)
    (h : readFile e reg name contents log = .val (none, log')) :
    ∃ notes, log' = log ++ notes ++ [if contents = none then .cannotOpen name else .mainChunk] := by
  unfold readFile at h
  cases contents with
  | none => simp at h; exact ⟨[], by simp [h]⟩
  | some bs =>
    simp only at h
    split at h
    · rename_i c s hr
      simp only [Out.val.injEq, Prod.mk.injEq] at h
      obtain ⟨rfl, rfl⟩ := h
      simpa using C49_read e reg _ _ hr
    · simp at h
    · simp at h

/-- C49, writing: `IFF_writeFd` returns FALSE exactly if the call emitted a diagnostic. -/
theorem C49_write (e : Env) (reg : Option Registry) (c : Chunk) (s s' : WS) (ok : Bool)
    (h : writeFd e reg c s = .val (ok, s')) :
    ∃ notes, s'.log = s.log ++ notes ∧ (ok = true ↔ notes = []) :=
  tells_writeChunkWith e c (tells_writeFields e _ _ c) _ _ _ h

/-- C49, writing a file: the same for `IFF_write`, including the failure to open the file. -/
theorem C49_write_file (e : Env) (reg : Option Registry) (c : Chunk) (d : Dest) (log log' : List Msg)
    (ok : Bool) (held : Option (List Byte)) (h : writeFile e reg c d log = .val ((ok, held), log')) :
    ∃ notes, log' = log ++ notes ∧ (ok = true ↔ notes = []) := by
  unfold writeFile at h
  split at h
  · split at h
    · rename_i a s hw
      simp only [Out.val.injEq, Prod.mk.injEq] at h
      obtain ⟨⟨rfl, _⟩, rfl⟩ := h
      exact C49_write e reg c _ _ _ hw
    · simp at h
    · simp at h
  · simp only [Out.val.injEq, Prod.mk.injEq] at h
    obtain ⟨⟨rfl, _⟩, rfl⟩ := h
    exact ⟨_, rfl, by simp⟩

/-- C49, checking: `IFF_check` returns FALSE exactly if the call emitted a diagnostic.  (The value -1
that stands for "a member is invalid" is never the sum of the sizes of valid members, not even when
the sum wraps around, because these sums are even.) -/
theorem C49_check (e : Env) (he : e.Sane) (reg : Option Registry) (c : Chunk) (log log' : List Msg)
    (ok : Bool) (h : check e reg c log = .val (ok, log')) :
    ∃ notes, log' = log ++ notes ∧ (ok = true ↔ notes = []) := by
  have : Tells id (· = true) (check e reg c) := by
    unfold check
    exact tells_ite (fun _ => tells_emit _ (by simp))
      fun _ => tells_checkChunkWith e c (tells_checkFields e he.wide _ _ c)
  exact this _ _ _ h

/-- Non-vacuity: the empty file is not read, a file is not written on a full disk, and an empty PROP
is no valid file. -/
example : readFd pc none ⟨[], []⟩ = .val (none, ⟨[], [.readError idEMPTY "", .mainChunk]⟩) := by rfl

example : writeFd pc none sample ⟨[], 0, []⟩ =
    .val (false, ⟨[], 0, [.writeError idCAT "chunkId"]⟩) := by rfl

example : check pc none (.grp idPROP 4 idTEST []) [] = .val (false, [.notIff85]) := by rfl

end Iff
