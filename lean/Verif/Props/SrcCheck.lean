import Verif.Proofs.SrcCheck
import Verif.Props.SrcWrite
/-
  C62 The program text of the checker does what the model says.
-/
namespace Iff.Src
set_option maxRecDepth 4000
open Spec
open Heap (Addr Block Mem HS HX Alloc)

/-! ### C62 -/

/-- C62: for every platform, registry and memory, if the model of `IFF_check` returns then executing
the text of `IFF_check` and of the functions it calls returns the same value, without undefined
behaviour, and reports the same diagnostics; it allocates nothing and changes nothing else. -/
theorem C62_check (X : Cfg) (hX : X.Linked) (reg : Option Registry) (q : Ptr) (hq : RegArg X reg q)
    (g : CS) (s s' : HX (List Msg)) (p : Addr) (ok : Bool) (k : Nat) (hm : Rep s.mem)
    (h : Heap.check X.e reg k p s = .val (ok, s')) :
    Runs X .IFF_check [.ptr (.struct .IFF_Chunk) ⟨.heap p, 0⟩, .ptr (.struct .IFF_ChunkRegistry) q]
      (embC X g s) (truth ok) (embC X g s') ∧ s'.mem = s.mem :=
  (check_run (stk := g.stk) (inp := g.inp) (out := g.out) (room := g.room) (text := g.text) hX hq
    hm h).symm

/-- C62 with C20, C22 and C50: the text of `IFF_check`, run on a hierarchy of standard chunks in memory
whose raw chunks have their data and whose encoding is shorter than 2 GiB, returns 1 if and only if the
hierarchy conforms to the standard; it prints nothing if it does, and an error message if it does
not. -/
theorem C62_check_decides (X : Cfg) (hX : X.Linked) (he : X.e.Sane) (g : CS) (m : Mem) (par : Addr)
    (t : Node) (hin : In m par t) (hs : Standard t.chunk) (hr : RawSizes t.chunk)
    (hp : PropArrays t.chunk) (hl : (encode t.chunk).length < 2147483648) (hm : Rep m) (tick : Nat)
    (log : List Msg) :
    ∃ ok log', Runs X .IFF_check [.ptr (.struct .IFF_Chunk) ⟨.heap t.addr, 0⟩,
        .ptr (.struct .IFF_ChunkRegistry) Ptr.null] (embC X g ⟨m, tick, log⟩) (truth ok)
        (embC X g ⟨m, tick, log'⟩) ∧ (ok = true ↔ Conforms t.chunk) ∧
      (Conforms t.chunk → log' = log) ∧ (¬ Conforms t.chunk → Reports log log') := by
  have hc := C20_check_decides_partial X.e he t.chunk hs hr hp hl log
  have hh := C50_check X.e none m par t hin _ (Nat.le_refl _) tick log
  by_cases h : Conforms t.chunk
  · rw [hc.1 h] at hh
    exact ⟨true, log, (C62_check X hX none Ptr.null rfl g ⟨m, tick, log⟩ _ _ _ _ hm hh).1, by simp [h],
      fun _ => rfl, fun h' => absurd h h'⟩
  · obtain ⟨log', h'⟩ := hc.2 h
    rw [h'] at hh
    exact ⟨false, log', (C62_check X hX none Ptr.null rfl g ⟨m, tick, log⟩ _ _ _ _ hm hh).1, by simp [h],
      fun h' => absurd h' h, fun _ => (C22_explained X.e he none t.chunk log log' false h').2 rfl⟩

/-- C62 with C60: a program that reads the encoding of a consistent hierarchy of standard chunks (below
2 GiB) and checks what it got, both as text, gets 1 if and only if the hierarchy conforms to the
standard, and then nothing is reported. -/
theorem C62_reads_and_checks (X : Cfg) (hX : X.Linked) (he : X.e.Sane) (hg : X.Grants) (c : Chunk)
    (hc : Consistent c) (hs : Standard c) (hl : ListsSplit c)
    (hd : ∀ t s n, Finite s → X.e.mallocOk n = true → (X.pick t s n).isSome)
    (hA : ∀ n, n ≤ (encode c).length + 256 → X.e.mallocOk n = true)
    (hlen : (encode c).length < 2147483648) (g : CS) :
    ∃ (p : Addr) (ok : Bool) (g' g'' : CS),
      Runs X .IFF_readFd [.file .inp, .ptr (.struct .IFF_ChunkRegistry) Ptr.null]
        (emb X g (fresh (encode c))) (.ptr (.struct .IFF_Chunk) (.ofAddr p)) g' ∧
      Runs X .IFF_check [.ptr (.struct .IFF_Chunk) (.ofAddr p),
        .ptr (.struct .IFF_ChunkRegistry) Ptr.null] g' (truth ok) g'' ∧
      (ok = true ↔ Conforms c) ∧ (ok = true → g''.log = []) ∧ g''.heap = g'.heap := by
  have hsv : X.Serves ((encode c).length + 256) := fun t s n hf hn => hd t s n hf (hA n hn)
  have hN : X.ArraysOk (((encode c).length + 7) / 8) := by
    intro t s n hf hn
    refine hsv t s _ hf ?_
    have : (n + 1) * (X.e.sizeBits / 8) ≤ (n + 1) * 8 := Nat.mul_le_mul_left _ (by
      rcases X.word with h | h <;> rw [h] <;> decide)
    omega
  obtain ⟨t, s', h, hi, hlog, ht, hh⟩ := C36_builds_encoded _ X.e he
    (complete_total hg hN (fun t s n hf hn => hsv t s n hf (by omega)) hd) c hc hs hl
    (fun id size data hw => hA _ (by have := data_length_le hw; omega))
    (fresh (encode c)) rfl rfl ⟨0, fun _ _ => rfl⟩
  obtain ⟨hp, hrun⟩ := readFd_run (stk := g.stk) (out := g.out) (room := g.room)
    (text := g.text) hX (reg := none) (q := Ptr.null) rfl default_propOk (K := (encode c).length)
    (like_complete (by omega)) ⟨by omega, by omega⟩ ⟨Nat.le_refl _, fresh_bd⟩ h
  obtain ⟨m, tick, ⟨i, l⟩⟩ := s'
  simp only at hi hlog
  subst hi hlog ht
  obtain ⟨ok, log', hw, hok, hyes, hno⟩ := C62_check_decides X hX he { g with inp := [] } m 0 t hh.isIn hs
    (rawSizes_of_consistent hc) (propArrays_of_split hl) hlen (Rep.of_bd hp.2 (by omega)) tick []
  refine ⟨t.addr, ok, _, _, hrun, hw, hok, ?_, rfl⟩
  intro h'
  rw [hyes (hok.mp h')]
  rfl

/-! ### Examples -/

/-- The hypotheses of `C62_check_decides` are met by `sample` in memory. -/
example (g : CS) : ∃ ok log', Runs generous .IFF_check [.ptr (.struct .IFF_Chunk) ⟨.heap 1, 0⟩,
    .ptr (.struct .IFF_ChunkRegistry) Ptr.null] (embC generous g ⟨sampleMem, 0, []⟩) (truth ok)
    (embC generous g ⟨sampleMem, 0, log'⟩) ∧ (ok = true ↔ Conforms sample) := by
  obtain ⟨ok, log', h1, h2, -⟩ := C62_check_decides generous generous_linked pc_sane g sampleMem 0
    sampleNode sampleMem_in sample_standard (rawSizes_of_consistent sample_consistent)
    (propArrays_of_split sample_split) (by decide) sampleMem_rep 0 []
  exact ⟨ok, log', h1, h2⟩

/-- Those of `C62_reads_and_checks` are met for every consistent, standard hierarchy below 2 GiB. -/
example (g : CS) (c : Chunk) (hc : Consistent c) (hs : Standard c) (hl : ListsSplit c)
    (hlen : (encode c).length < 2147483648) : ∃ (p : Addr) (ok : Bool) (g' g'' : CS),
      Runs generous .IFF_readFd [.file .inp, .ptr (.struct .IFF_ChunkRegistry) Ptr.null]
        (emb generous g (fresh (encode c))) (.ptr (.struct .IFF_Chunk) (.ofAddr p)) g' ∧
      Runs generous .IFF_check [.ptr (.struct .IFF_Chunk) (.ofAddr p),
        .ptr (.struct .IFF_ChunkRegistry) Ptr.null] g' (truth ok) g'' ∧
      (ok = true ↔ Conforms c) ∧ (ok = true → g''.log = []) ∧ g''.heap = g'.heap :=
  C62_reads_and_checks generous generous_linked pc_sane generous_grants c hc hs hl
    (fun t s n hf hn => generous_serves t s n hf (of_decide_eq_true hn))
    (fun n hn => decide_eq_true (by omega)) hlen g

/-- The text can be run: the FORM in the sample is valid … -/
example : resultOf (callFn (linked fun _ _ => false) 40 .IFF_check [
    .ptr (.struct .IFF_Chunk) ⟨.heap 3, 0⟩, .ptr (.struct .IFF_ChunkRegistry) Ptr.null]
    (writing sampleMem 0)) = some (.int .int 1, 0) := by decide +kernel

/-- … but a chunk that is not a group is not a file. -/
example : resultOf (callFn (linked fun _ _ => false) 40 .IFF_check [
    .ptr (.struct .IFF_Chunk) ⟨.heap 5, 0⟩, .ptr (.struct .IFF_ChunkRegistry) Ptr.null]
    (writing sampleMem 0)) = some (.int .int 0, 1) := by decide +kernel

end Iff.Src
