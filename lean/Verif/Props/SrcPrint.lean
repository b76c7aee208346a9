import Verif.Proofs.SrcPrint
import Verif.Props.SrcCheck
import Verif.Props.Layout
/-
  C63 The program text of the pretty printer does what the model says.
-/
namespace Iff.Src
set_option maxRecDepth 4000
open Spec
open Heap (Addr Block Mem HS HX Alloc)

/-! ### C63 -/

/-- C63: for every platform, registry and memory, if the model of `IFF_print` returns then executing
the text of `IFF_print` and of the functions it calls returns too, without undefined behaviour, and
prints the same text; it allocates nothing and changes nothing else. The nesting must not exceed what
an `unsigned int` level of indentation counts. -/
theorem C63_print (X : Cfg) (hX : X.Linked) (reg : Option Registry) (q : Ptr) (hq : RegArg X reg q)
    (g : CS) (s s' : HX (List Byte)) (p : Addr) (k level : Nat) (hl : level + k < 4294967296)
    (hm : Rep s.mem) (h : Heap.print reg k level p s = .val ((), s')) :
    Runs X .IFF_print [.ptr (.struct .IFF_Chunk) ⟨.heap p, 0⟩, .int .uint level,
      .ptr (.struct .IFF_ChunkRegistry) q] (embP X g s) .void (embP X g s') ∧ s'.mem = s.mem :=
  (print_run (stk := g.stk) (inp := g.inp) (out := g.out) (room := g.room) (log := g.log) hX hq hl
    hm h).symm

/-- C63 with C50 and C56: the text of `IFF_print`, run on a hierarchy of standard chunks in memory
whose raw chunks have their data, prints the specified text. -/
theorem C63_layout (X : Cfg) (hX : X.Linked) (g : CS) (m : Mem) (par : Addr) (t : Node)
    (hin : In m par t) (hs : Standard t.chunk) (hz : RawSizes t.chunk) (level : Nat)
    (hl : level + depth t.chunk < 4294967296) (hm : Rep m) (tick : Nat) (text : List Byte) :
    Runs X .IFF_print [.ptr (.struct .IFF_Chunk) ⟨.heap t.addr, 0⟩, .int .uint level,
      .ptr (.struct .IFF_ChunkRegistry) Ptr.null] (embP X g ⟨m, tick, text⟩) .void
      (embP X g ⟨m, tick, text ++ Spec.layout level t.chunk⟩) := by
  have hh := C50_print none m par t hin _ (Nat.le_refl _) level tick text
  rw [C56_layout t.chunk hs hz level] at hh
  exact (C63_print X hX none Ptr.null rfl g ⟨m, tick, text⟩ _ _ _ level hl hm hh).1

/-- C63 with C60: a program that reads the encoding of a consistent hierarchy of standard chunks and
prints what it got, both as text, prints the specified text of the hierarchy. -/
theorem C63_reads_and_prints (X : Cfg) (hX : X.Linked) (he : X.e.Sane) (hg : X.Grants) (c : Chunk)
    (hc : Consistent c) (hs : Standard c) (hl : ListsSplit c)
    (hd : ∀ t s n, Finite s → X.e.mallocOk n = true → (X.pick t s n).isSome)
    (hA : ∀ n, n ≤ (encode c).length + 256 → X.e.mallocOk n = true)
    (hlen : (encode c).length < 4294967296) (g : CS) :
    ∃ (p : Addr) (g' g'' : CS),
      Runs X .IFF_readFd [.file .inp, .ptr (.struct .IFF_ChunkRegistry) Ptr.null]
        (emb X g (fresh (encode c))) (.ptr (.struct .IFF_Chunk) (.ofAddr p)) g' ∧
      Runs X .IFF_print [.ptr (.struct .IFF_Chunk) (.ofAddr p), .int .uint 0,
        .ptr (.struct .IFF_ChunkRegistry) Ptr.null] g' .void g'' ∧
      g''.text = g.text ++ Spec.layout 0 c ∧ g''.out = g.out ∧ g''.log = [] ∧ g''.heap = g'.heap := by
  have hsv : X.Serves ((encode c).length + 256) := fun t s n hf hn => hd t s n hf (hA n hn)
  have hN : X.ArraysOk (((encode c).length + 7) / 8) := by
    intro t s n hf hn
    refine hsv t s _ hf ?_
    have : (n + 1) * (X.e.sizeBits / 8) ≤ (n + 1) * 8 := Nat.mul_le_mul_left _ (by
      rcases X.word with h | h <;> rw [h] <;> decide)
    omega
  obtain ⟨t, s', h, hi, hlog, ht, hh⟩ := C36_builds_encoded _ X.e he
    (complete_total hg hN (fun t s n hf hn => hsv t s n hf (by omega)) hd) c hc hs hl
    (fun id size data hw => hA _ (by have := data_length_le hw; omega))
    (fresh (encode c)) rfl rfl ⟨0, fun _ _ => rfl⟩
  obtain ⟨hp, hrun⟩ := readFd_run (stk := g.stk) (out := g.out) (room := g.room)
    (text := g.text) hX (reg := none) (q := Ptr.null) rfl default_propOk (K := (encode c).length)
    (like_complete (by omega)) ⟨by omega, by omega⟩ ⟨Nat.le_refl _, fresh_bd⟩ h
  obtain ⟨m, tick, ⟨i, l⟩⟩ := s'
  simp only at hi hlog
  subst hi hlog ht
  have hdep := depth_le_length t.chunk
  have hw := C63_layout X hX { g with inp := [], log := [] } m 0 t hh.isIn hs
    (rawSizes_of_consistent hc) 0 (by omega) (Rep.of_bd hp.2 (by omega)) tick g.text
  exact ⟨t.addr, _, _, hrun, hw, rfl, rfl, rfl, rfl⟩

/-! ### Examples -/

/-- The hypotheses of `C63_layout` are met by `sample` in memory. -/
example (g : CS) : Runs generous .IFF_print [.ptr (.struct .IFF_Chunk) ⟨.heap 1, 0⟩, .int .uint 0,
    .ptr (.struct .IFF_ChunkRegistry) Ptr.null] (embP generous g ⟨sampleMem, 0, []⟩) .void
    (embP generous g ⟨sampleMem, 0, Spec.layout 0 sample⟩) :=
  C63_layout generous generous_linked g sampleMem 0 sampleNode sampleMem_in sample_standard
    (rawSizes_of_consistent sample_consistent) 0 (by decide) sampleMem_rep 0 []

/-- Those of `C63_reads_and_prints` are met for every consistent, standard hierarchy. -/
example (g : CS) (c : Chunk) (hc : Consistent c) (hs : Standard c) (hl : ListsSplit c)
    (hlen : (encode c).length < 4294967296) : ∃ (p : Addr) (g' g'' : CS),
      Runs generous .IFF_readFd [.file .inp, .ptr (.struct .IFF_ChunkRegistry) Ptr.null]
        (emb generous g (fresh (encode c))) (.ptr (.struct .IFF_Chunk) (.ofAddr p)) g' ∧
      Runs generous .IFF_print [.ptr (.struct .IFF_Chunk) (.ofAddr p), .int .uint 0,
        .ptr (.struct .IFF_ChunkRegistry) Ptr.null] g' .void g'' ∧
      g''.text = g.text ++ Spec.layout 0 c ∧ g''.out = g.out ∧ g''.log = [] ∧ g''.heap = g'.heap :=
  C63_reads_and_prints generous generous_linked pc_sane generous_grants c hc hs hl
    (fun t s n hf hn => generous_serves t s n hf (of_decide_eq_true hn))
    (fun n hn => decide_eq_true (by omega)) hlen g

/-- What was printed. -/
def printedBy : Out (V × CS) → Option (List Byte)
  | .val (_, g) => some g.text
  | _ => none

/-- The text can be run: the raw chunk in the sample. -/
example : printedBy (callFn (linked fun _ _ => false) 40 .IFF_print [
    .ptr (.struct .IFF_Chunk) ⟨.heap 5, 0⟩, .int .uint 1, .ptr (.struct .IFF_ChunkRegistry) Ptr.null]
    (writing sampleMem 0)) = some (Spec.layout 1 (.raw (makeId 'A' 'B' 'C' 'D') 1 [0x7f])) := by decide +kernel

end Iff.Src
