import Verif.Proofs.SrcLookup
import Verif.Props.SrcWrite
import Verif.Props.HeapLookup
import Verif.Props.HeapBuild
/-
  C64 The program text of property lookup does what the model says.
-/
namespace Iff.Src
set_option maxRecDepth 4000
open Spec
open Heap (Addr Block Mem HS HX Alloc)

/-! ### C64 -/

/-- C64: for every platform and memory in which parent pointers point to groups, if the model of
`IFF_getChunkFromForm` returns then executing its text and that of the functions it calls returns the
same pointer, without undefined behaviour, and changes nothing. -/
theorem C64_get_chunk (X : Cfg) (g : CS) (s s' : HS) (p r : Addr) (id : ID) (k : Nat) (hm : Rep s.mem)
    (hP : Parented s.mem) (h : Heap.getChunk k p id s = .val (r, s')) :
    Runs X .IFF_getChunkFromForm [.ptr (.struct .IFF_Form) ⟨.heap p, 0⟩, .int .uint id.toNat]
      (emb X g s) (.ptr (.struct .IFF_Chunk) ⟨.heap r, 0⟩) (emb X g s) ∧ s' = s :=
  (getChunk_run (stk := g.stk) (out := g.out) (room := g.room) (text := g.text) hm hP h).symm

/-- C64, members: likewise for `IFF_getDataChunkFromForm` and `IFF_getChunkFromProp`. -/
theorem C64_get_data (X : Cfg) (g : CS) (s s' : HS) (p r : Addr) (id : ID) (hm : Rep s.mem)
    (h : Heap.getDataChunk p id s = .val (r, s')) :
    Runs X .IFF_getDataChunkFromForm [.ptr (.struct .IFF_Form) ⟨.heap p, 0⟩, .int .uint id.toNat]
      (emb X g s) (.ptr (.struct .IFF_Chunk) ⟨.heap r, 0⟩) (emb X g s) ∧
    Runs X .IFF_getChunkFromProp [.ptr (.struct .IFF_Form) ⟨.heap p, 0⟩, .int .uint id.toNat]
      (emb X g s) (.ptr (.struct .IFF_Chunk) ⟨.heap r, 0⟩) (emb X g s) ∧ s' = s := by
  obtain ⟨h1, h2⟩ := getDataChunk_run (X := X) (stk := g.stk) (out := g.out) (room := g.room)
    (text := g.text) hm h
  exact ⟨h2, (getChunkFromProp_run (stk := g.stk) (out := g.out) (room := g.room)
    (text := g.text) hm h).2, h1⟩

/-- C64, shared properties: likewise for `IFF_getPropFromList`. -/
theorem C64_get_prop (X : Cfg) (g : CS) (s s' : HS) (p r : Addr) (ty : ID) (hm : Rep s.mem)
    (h : Heap.getProp p ty s = .val (r, s')) :
    Runs X .IFF_getPropFromList [.ptr (.struct .IFF_List) ⟨.heap p, 0⟩, .int .uint ty.toNat]
      (emb X g s) (.ptr (.struct .IFF_Form) ⟨.heap r, 0⟩) (emb X g s) ∧ s' = s :=
  (getProp_run (stk := g.stk) (out := g.out) (room := g.room) (text := g.text) hm h).symm

/-- Where parent links are correct, what `parent` points to is a group. -/
theorem parented_of_linked {m : Mem} (h : Linked (fun _ => none) m) : Parented m := by
  intro a b hd hb hh h0
  rcases h.parent a hd.parent rfl ⟨b, hd, hb, hh, rfl⟩ with h1 | ⟨b', g, _, _, h1, h2, _⟩ | ⟨b', l, _, _, h1, h2, _⟩
  · exact absurd h1 h0
  · exact ⟨b', g, h1, h2⟩
  · cases b' <;> cases h2
    exact ⟨_, _, h1, rfl⟩

/-- C64 with C25: `t` is a group of type `ty` somewhere in a hierarchy in memory, `fs` being the groups
around it, and all memory has been made by the library (`Linked`).  The text of `IFF_getChunkFromForm`
returns the address of the chunk with the ID that applies to `t` by the inheritance rules of IFF-85, NULL
if there is none. -/
theorem C64_lookup (X : Cfg) (g : CS) (s : HS) (id ty : ID) (fs : List Frame) (t : Node)
    (hin : In s.mem 0 (plug fs t)) (h0 : s.mem 0 = none) (ht : Typed (plug fs t).chunk)
    (hty : t.ty? = some ty) (hm : Rep s.mem) (hl : Linked (fun _ => none) s.mem) :
    Runs X .IFF_getChunkFromForm [.ptr (.struct .IFF_Form) ⟨.heap t.addr, 0⟩, .int .uint id.toNat]
      (emb X g s) (.ptr (.struct .IFF_Chunk) ⟨.heap (Node.ptr (applies fs t ty id)), 0⟩) (emb X g s) :=
  (C64_get_chunk X g s s _ _ id _ hm (parented_of_linked hl)
    (C25_lookup hin h0 (Nat.lt_succ_self _) ht hty)).1

theorem typed_of_standard {c : Chunk} (hs : Standard c) (hl : ListsSplit c) : Typed c := by
  induction hs with
  | raw h1 h2 h3 h4 => exact .raw h1 h2 h3 h4
  | grp h1 _ ih => cases hl with | grp h => exact .grp h1 fun c hc => ih c hc (h c hc)
  | lst h1 _ _ ih ih' =>
    cases hl with
    | lst _ h2 h3 h4 => exact .lst h1 (fun c hc => ih c hc (h3 c hc)) (fun c hc => ih' c hc (h4 c hc)) h2

/-- C64 with C60: a program that reads the encoding of a consistent hierarchy of standard chunks (below
2 GiB) and looks for a chunk in a FORM of it, both as text, gets the chunk that applies to the FORM by
the inheritance rules. -/
theorem C64_reads_and_looks_up (X : Cfg) (hX : X.Linked) (he : X.e.Sane) (hg : X.Grants) (c : Chunk)
    (hc : Consistent c) (hs : Standard c) (hl : ListsSplit c)
    (hd : ∀ t s n, Finite s → X.e.mallocOk n = true → (X.pick t s n).isSome)
    (hA : ∀ n, n ≤ (encode c).length + 256 → X.e.mallocOk n = true)
    (hlen : (encode c).length < 2147483648) (g : CS) :
    ∃ (u : Node) (g' : CS), u.chunk = c ∧
      Runs X .IFF_readFd [.file .inp, .ptr (.struct .IFF_ChunkRegistry) Ptr.null]
        (emb X g (fresh (encode c))) (.ptr (.struct .IFF_Chunk) (.ofAddr u.addr)) g' ∧
      ∀ (fs : List Frame) (t : Node) (ty id : ID), u = plug fs t → t.ty? = some ty →
        Runs X .IFF_getChunkFromForm [.ptr (.struct .IFF_Form) ⟨.heap t.addr, 0⟩, .int .uint id.toNat]
          g' (.ptr (.struct .IFF_Chunk) ⟨.heap (Node.ptr (applies fs t ty id)), 0⟩) g' := by
  have hsv : X.Serves ((encode c).length + 256) := fun t s n hf hn => hd t s n hf (hA n hn)
  have hN : X.ArraysOk (((encode c).length + 7) / 8) := by
    intro t s n hf hn
    refine hsv t s _ hf ?_
    have : (n + 1) * (X.e.sizeBits / 8) ≤ (n + 1) * 8 := Nat.mul_le_mul_left _ (by
      rcases X.word with h | h <;> rw [h] <;> decide)
    omega
  obtain ⟨t, s', h, hi, hlog, ht, hh⟩ := C36_builds_encoded _ X.e he
    (complete_total hg hN (fun t s n hf hn => hsv t s n hf (by omega)) hd) c hc hs hl
    (fun id size data hw => hA _ (by have := data_length_le hw; omega))
    (fresh (encode c)) rfl rfl ⟨0, fun _ _ => rfl⟩
  obtain ⟨hp, hrun⟩ := readFd_run (stk := g.stk) (out := g.out) (room := g.room)
    (text := g.text) hX (reg := none) (q := Ptr.null) rfl default_propOk (K := (encode c).length)
    (like_complete (by omega)) ⟨by omega, by omega⟩ ⟨Nat.le_refl _, fresh_bd⟩ h
  refine ⟨t, _, ht, hrun, ?_⟩
  rintro fs f ty id rfl hty
  refine C64_lookup X g s' id ty fs f hh.isIn ?_ ?_ hty (Rep.of_bd hp.2 (by omega)) ?_
  · exact hh.null rfl
  · rw [ht]; exact typed_of_standard hs hl
  · exact ((Forest.start rfl).new hh).linked

/-! ### Examples -/

/-- The hypotheses of `C64_reads_and_looks_up` are met for every consistent, standard hierarchy below
2 GiB. -/
example (g : CS) (c : Chunk) (hc : Consistent c) (hs : Standard c) (hl : ListsSplit c)
    (hlen : (encode c).length < 2147483648) : ∃ (u : Node) (g' : CS), u.chunk = c ∧
      Runs generous .IFF_readFd [.file .inp, .ptr (.struct .IFF_ChunkRegistry) Ptr.null]
        (emb generous g (fresh (encode c))) (.ptr (.struct .IFF_Chunk) (.ofAddr u.addr)) g' ∧
      ∀ (fs : List Frame) (t : Node) (ty id : ID), u = plug fs t → t.ty? = some ty →
        Runs generous .IFF_getChunkFromForm [.ptr (.struct .IFF_Form) ⟨.heap t.addr, 0⟩,
          .int .uint id.toNat] g'
          (.ptr (.struct .IFF_Chunk) ⟨.heap (Node.ptr (applies fs t ty id)), 0⟩) g' :=
  C64_reads_and_looks_up generous generous_linked pc_sane generous_grants c hc hs hl
    (fun t s n hf hn => generous_serves t s n hf (of_decide_eq_true hn))
    (fun n hn => decide_eq_true (by omega)) hlen g

/-- Those of `C64_get_chunk` are met by the list with a shared property. -/
example (g : CS) : Runs generous .IFF_getChunkFromForm [.ptr (.struct .IFF_Form) ⟨.heap 4, 0⟩,
    .int .uint 0x41424344] (emb generous g ⟨listFormMem, 0, ⟨[], []⟩⟩)
    (.ptr (.struct .IFF_Chunk) ⟨.heap 7, 0⟩) (emb generous g ⟨listFormMem, 0, ⟨[], []⟩⟩) := by
  refine (C64_get_chunk generous g ⟨listFormMem, 0, ⟨[], []⟩⟩ ⟨listFormMem, 0, ⟨[], []⟩⟩ 4 7 0x41424344#32 9 ?_ ?_ rfl).1
  · intro a b h
    simp only [listFormMem] at h
    split at h <;> cases h <;> simp only [Fits] <;> decide
  · intro a b hd h hh h0
    simp only [listFormMem] at h
    split at h <;> cases h <;> cases hh <;> first | exact absurd rfl h0 | exact ⟨_, _, rfl, rfl⟩

/-- The text can be run: the FORM inherits the chunk from the PROP … -/
example : resultOf (callFn (linked fun _ _ => false) 40 .IFF_getChunkFromForm [
    .ptr (.struct .IFF_Form) ⟨.heap 4, 0⟩, .int .uint 0x41424344]
    (writing listFormMem 0)) = some (.ptr (.struct .IFF_Chunk) ⟨.heap 7, 0⟩, 0) := by decide +kernel

/-- … but no other chunk. -/
example : resultOf (callFn (linked fun _ _ => false) 40 .IFF_getChunkFromForm [
    .ptr (.struct .IFF_Form) ⟨.heap 4, 0⟩, .int .uint 0x41424345]
    (writing listFormMem 0)) = some (.ptr (.struct .IFF_Chunk) Ptr.null, 0) := by decide +kernel

end Iff.Src
