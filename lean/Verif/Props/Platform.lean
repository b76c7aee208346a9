import Verif.Proofs.PlatformTools
import Verif.Props.Write
/-
  C59 The library and the tools behave the same on every platform.
-/
namespace Iff
open Spec

/-- C59, reading: two machines that differ only in word size, byte order and signedness of `char`
read the same hierarchy from the same bytes, leave the stream at the same place and report the same,
or fail in the same way, whatever the bytes are. -/
theorem C59_read (e e' : Env) (he : e.Sane) (he' : e'.Sane) (ha : Agree e e') (reg : Option Registry)
    (hr : ShortFields (selectChunkRegistry reg)) : readFd e reg = readFd e' reg :=
  readFd_env he he' ha reg hr

/-- C59, reading with the default registry. -/
theorem C59_read_default (e e' : Env) (he : e.Sane) (he' : e'.Sane) (ha : Agree e e') :
    readFd e none = readFd e' none := readFd_env he he' ha none shortFields_default

/-- C59, writing: the same bytes, result and diagnostics; hierarchies that cannot be written without
undefined behaviour cannot be written on any machine. -/
theorem C59_write (e e' : Env) (he : e.Sane) (he' : e'.Sane) (reg : Option Registry)
    (hr : ShortFields (selectChunkRegistry reg)) (c : Chunk) (hc : Representable c) :
    writeFd e reg c = writeFd e' reg c := writeChunk_env he he' hr 0 c hc

/-- C59, comparing. -/
theorem C59_compare (e e' : Env) (he : e.Sane) (he' : e'.Sane) (reg : Option Registry) (c d : Chunk)
    (hc : Representable c) : compare e reg c d = compare e' reg c d := by
  unfold compare compareChunk
  rw [compareFields_env he he' _ c _ hc]

/-- C59, checking: the same verdict and the same text on standard error (the value of a `char` in a
diagnostic may differ, the character that is printed does not). -/
theorem C59_check (e e' : Env) (he : e.Sane) (he' : e'.Sane) (reg : Option Registry) (c : Chunk)
    (log : List Msg) :
    (∀ ok log1, check e reg c log = .val (ok, log1) →
      ∃ log2, check e' reg c log = .val (ok, log2) ∧ log1.length = log2.length ∧
        stderrText e log1 = stderrText e' log2) ∧
    (∀ u, check e reg c log = .ub u → check e' reg c log = .ub u) := by
  have h := sim_check he he' reg c log log (logSim_refl e e' log)
  generalize check e reg c log = x at h
  generalize check e' reg c log = x' at h
  cases h with
  | val h =>
    exact ⟨fun ok l hx => by (cases hx; exact ⟨_, rfl, h.length, h.text⟩), fun u hx => by (cases hx)⟩
  | ub => exact ⟨fun ok l hx => by (cases hx), fun u hx => hx⟩
  | loop => exact ⟨fun ok l hx => by (cases hx), fun u hx => by (cases hx)⟩

/-- C59, checking on machines with the same signedness of `char`: exactly the same. -/
theorem C59_check_exact (e e' : Env) (he : e.Sane) (he' : e'.Sane)
    (hs : e.charSigned = e'.charSigned) (reg : Option Registry) (c : Chunk) :
    check e reg c = check e' reg c := by
  funext log
  have h := sim_check he he' reg c log log (logSim_refl e e' log)
  generalize check e reg c log = x at h ⊢
  generalize check e' reg c log = x' at h ⊢
  cases h with
  | val h => rw [h.eq hs]
  | ub => rfl
  | loop => rfl

/-- The same behaviour of a tool: exit status, files, standard output and standard error. -/
def SameRun (e e' : Env) (o o' : Out (Nat × World)) : Prop :=
  (∀ status w, o = .val (status, w) →
    ∃ log, o' = .val (status, ⟨w.disk, w.out, log⟩) ∧ stderrText e w.log = stderrText e' log) ∧
  (∀ u, o = .ub u → o' = .ub u) ∧ (o = .loop → o' = .loop)

theorem sameRun_of {e e' : Env} {o o' : Out (Nat × World)} (h : OutSim (WorldSim e e') o o') :
    SameRun e e' o o' := by
  cases h with
  | @val a s s' h =>
    obtain ⟨dk, out, l⟩ := s
    obtain ⟨dk', out', l'⟩ := s'
    obtain ⟨h1, h2, h3⟩ := h
    dsimp only at h1 h2 h3
    subst h1
    subst h2
    exact ⟨fun status w hx => by (cases hx; exact ⟨l', rfl, h3.text⟩), fun u hx => by (cases hx),
      fun hx => by (cases hx)⟩
  | ub => exact ⟨fun status w hx => by (cases hx), fun u hx => hx, fun hx => by (cases hx)⟩
  | loop => exact ⟨fun status w hx => by (cases hx), fun u hx => by (cases hx), fun _ => rfl⟩

/-- C59, iffjoin: for every command line and every state of the files, the program leaves the same
files, standard output, standard error and exit status on both machines. -/
theorem C59_join (e e' : Env) (he : e.Sane) (he' : e'.Sane) (ha : Agree e e') (y : System)
    (gnu granted : Bool) (args : List Arg) (w : World) :
    SameRun e e' (iffjoin e y gnu granted args w) (iffjoin e' y gnu granted args w) :=
  sameRun_of (sim_iffjoin he he' ha y gnu granted args w w ⟨rfl, rfl, logSim_refl e e' _⟩)

/-- C59, iffpp. -/
theorem C59_print (e e' : Env) (he : e.Sane) (he' : e'.Sane) (ha : Agree e e') (y : System)
    (gnu : Bool) (args : List Arg) (w : World) :
    SameRun e e' (iffpp e y gnu args w) (iffpp e' y gnu args w) :=
  sameRun_of (sim_iffpp he he' ha y gnu args w w ⟨rfl, rfl, logSim_refl e e' _⟩)

/-- A machine with 32-bit words, big-endian, with unsigned characters. -/
def amiga : Env := ⟨32, true, false, fun n => decide (n < 2147483648), pc.seekable⟩

theorem amiga_sane : amiga.Sane := by
  refine ⟨by decide, fun n hn => ?_⟩
  have h31 : (2 : Nat) ^ (amiga.sizeBits - 1) = 2147483648 := by decide
  rw [h31] at hn
  show decide (n < 2147483648) = false
  rw [decide_eq_false_iff_not]
  omega

theorem amiga_agree : Agree pc amiga := by
  refine ⟨rfl, fun n hn => ?_⟩
  show decide (n < 2 ^ 63) = decide (n < 2147483648)
  rw [decide_eq_decide]
  have h63 : (2 : Nat) ^ 63 = 9223372036854775808 := by decide
  omega

theorem Spec.Consistent.representable {c : Chunk} (h : Consistent c) : Representable c := by
  intro d hd
  induction h with
  | raw h1 =>
    cases hd
    refine ⟨by simp only [inInt, Chunk.size]; omega, fun id size data hx => ?_⟩
    cases hx
    omega
  | ext h0 h1 _ =>
    cases hd
    exact ⟨by simp only [inInt, Chunk.size]; omega, fun _ _ _ hx => by cases hx⟩
  | grp h0 h1 hs ih =>
    cases hd with
    | self => exact ⟨by simp only [inInt, Chunk.size]; omega, fun _ _ _ hx => by cases hx⟩
    | grp hm hd => exact ih _ hm hd
  | lst h0 h1 hs hp ih1 ih2 =>
    cases hd with
    | self => exact ⟨by simp only [inInt, Chunk.size]; omega, fun _ _ _ hx => by cases hx⟩
    | sub hm hd => exact ih1 _ hm hd
    | prop hm hd => exact ih2 _ hm hd

/-- Non-vacuity: a 64-bit little-endian and a 32-bit big-endian machine, and a hierarchy with every
kind of chunk. -/
example : pc.Sane ∧ amiga.Sane ∧ Agree pc amiga ∧ pc.bigEndian ≠ amiga.bigEndian ∧
    pc.sizeBits ≠ amiga.sizeBits ∧ pc.charSigned ≠ amiga.charSigned ∧ Representable sample :=
  ⟨pc_sane, amiga_sane, amiga_agree, by decide, by decide, by decide, sample_consistent.representable⟩

/-- The machines do differ inside: the same rejected ID, with a different `char` in the diagnostic and
the same text. -/
example :
    check pc none (.grp idFORM 4 0xffffffff []) [] = .val (false, [.illegalChar (-1)]) ∧
    check amiga none (.grp idFORM 4 0xffffffff []) [] = .val (false, [.illegalChar 255]) ∧
    stderrText pc [.illegalChar (-1)] = stderrText amiga [.illegalChar 255] := by
  refine ⟨by rfl, by rfl, ?_⟩
  exact (C59_check pc amiga pc_sane amiga_sane none (.grp idFORM 4 0xffffffff []) []).1 _ _ rfl
    |>.elim fun l h => by
      have : l = [.illegalChar 255] := by
        have h1 := h.1
        have h2 : check amiga none (.grp idFORM 4 0xffffffff []) [] = .val (false, [.illegalChar 255]) := by rfl
        rw [h2] at h1
        simpa using h1.symm
      exact this ▸ h.2.2

end Iff
