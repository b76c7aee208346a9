import Verif.Proofs.ReadLocal
import Verif.Proofs.ReadLog
/-
  From the chunk reader to `IFF_readFd`.
-/
namespace Iff
open Spec

/-- The warning of `IFF_readFd` about what follows the main chunk. -/
def warning (rest : List Byte) : List Msg :=
  (rest.head?.map fun b => Msg.trailing b.toNat).toList

/-- The chunk reader inside a successful `IFF_readFd`. -/
theorem readFd_some {e : Env} {reg : Option Registry} {s s' : RS} {c : Chunk}
    (h : readFd e reg s = .val (some c, s')) :
    ∃ s1, readChunk e (selectChunkRegistry reg) (s.inp.length + 4) 0 s = .val (some c, s1) ∧
      s' = ⟨s1.inp.drop 1, s1.log ++ warning s1.inp⟩ := by
  unfold readFd at h
  simp only [M.bind_apply] at h
  cases hx : readChunk e (selectChunkRegistry reg) (s.inp.length + 4) 0 s with
  | ub u => rw [hx] at h; cases h
  | loop => rw [hx] at h; cases h
  | val x =>
    obtain ⟨a, s1⟩ := x
    rw [hx] at h
    cases a with
    | none => simp [M.bind_apply, RS.emit] at h
    | some d =>
      obtain ⟨inp, log⟩ := s1
      cases inp with
      | nil =>
        simp [M.bind_apply, fgetc] at h
        obtain ⟨rfl, rfl⟩ := h
        exact ⟨_, rfl, by simp [warning]⟩
      | cons b bs =>
        simp [M.bind_apply, fgetc, RS.emit] at h
        obtain ⟨rfl, rfl⟩ := h
        exact ⟨_, rfl, by simp [warning]⟩

/-- `IFF_readFd` from the chunk reader. -/
theorem readFd_of_chunk {e : Env} {reg : Option Registry} {s s1 : RS} {c : Chunk}
    (h : readChunk e (selectChunkRegistry reg) (s.inp.length + 4) 0 s = .val (some c, s1)) :
    readFd e reg s = .val (some c, ⟨s1.inp.drop 1, s1.log ++ warning s1.inp⟩) := by
  unfold readFd
  simp only [M.bind_apply]
  rw [h]
  obtain ⟨inp, log⟩ := s1
  cases inp with
  | nil => simp [M.bind_apply, fgetc, warning]
  | cons b bs => simp [M.bind_apply, fgetc, RS.emit, warning]

/-- `IFF_readFd` when the chunk reader fails. -/
theorem readFd_of_none {e : Env} {reg : Option Registry} {s s1 : RS}
    (h : readChunk e (selectChunkRegistry reg) (s.inp.length + 4) 0 s = .val (none, s1)) :
    readFd e reg s = .val (none, ⟨s1.inp, s1.log ++ [.mainChunk]⟩) := by
  unfold readFd
  simp only [M.bind_apply]
  rw [h]
  rfl

/-- A proper prefix of what a successful read consumes to the last byte does not read. -/
theorem truncated {e : Env} (he : e.Sane) {r : Registry} (ht : NoExt r ∨ e.seekable = false)
    {ft : ID} {p q : List Byte} {log log1 : List Msg} {c : Chunk} {n m : Nat} (hq : q ≠ [])
    (hn : (p ++ q).length / 4 + 1 ≤ n) (hm : p.length / 4 + 1 ≤ m)
    (h : readChunk e r n ft ⟨p ++ q, log⟩ = .val (some c, ⟨[], log1⟩)) :
    ∃ s', readChunk e r m ft ⟨p, log⟩ = .val (none, s') := by
  have hl : p.length ≤ (p ++ q).length := by simp
  rw [readChunk_fuel he (s := ⟨p, log⟩) (m := n) hm (by simp only; omega)]
  have hx := (read_extends (tail := False) he (Or.inr ht) n).1 ft p q log
  cases hy : readChunk e r n ft ⟨p, log⟩ with
  | ub u => rw [hy] at hx; simp only at hx; rw [hx] at h; cases h
  | loop => rw [hy] at hx; simp only at hx; rw [hx] at h; cases h
  | val x =>
    obtain ⟨a, s'⟩ := x
    rw [hy] at hx
    cases a with
    | none => exact ⟨s', rfl⟩
    | some d =>
      exfalso
      obtain ⟨_, k, hk, h2⟩ := hx rfl
      rw [h2] at h
      simp only [Out.val.injEq, Prod.mk.injEq, RS.mk.injEq] at h
      rcases hk with rfl | ⟨hf, _⟩
      · simp at h
        exact hq h.2.1.2
      · exact hf

theorem noExt_default : NoExt defaultRegistry := by
  intro ft id fields chk hh
  rw [findChunkType_default] at hh
  repeat' split at hh
  all_goals simp at hh

end Iff
