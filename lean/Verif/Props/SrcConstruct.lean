import Verif.Props.Construct
import Verif.Props.SrcBuild
import Verif.Props.SrcWrite
import Verif.Props.SrcTools
/-
  C76 for the text of the library: building, writing and releasing any consistent hierarchy.
-/
namespace Iff.Src
open Heap (Addr Block Mem HS Op)
open Spec

theorem growth_group (id ty : ID) : growth (.group id ty) = 0 := rfl
theorem growth_list (ty : ID) : growth (.list ty) = 0 := rfl
theorem growth_add (p c : Addr) : growth (.add p c) = 8 := rfl

/-- What `growth` counts is at most the length of the encoding. -/
theorem builds_growth : ∀ {c : Chunk} {p : Addr} {calls : List (Op × Addr)}, Builds c p calls → Consistent c →
    ((calls.map fun x => growth x.1).sum + 8 ≤ (encode c).length) := by
  intro c
  induction c using Chunk.ind with
  | raw id size data =>
    intro p calls h hc
    cases h
    have := Heap.eight_le hc
    simpa [growth] using this
  | ext => intro p calls h; cases h
  | grp id size ty subs ih =>
    intro p calls h hc
    have hlen := hc.length
    cases hc with | grp hsz hlt hcs =>
    cases h with | grp hA =>
    have key : ∀ (cs : List Chunk) (calls : List (Op × Addr)), (∀ c ∈ cs, c ∈ subs) → Adding (.add p) cs calls →
        (calls.map fun x => growth x.1).sum ≤ (encodeAll cs).length := by
      intro cs
      induction cs with
      | nil => intro calls _ h; cases h; simp
      | cons c cs ihc =>
        intro calls hsub h
        cases h with | cons h1 h2 =>
        have k1 := ih c (hsub c (by simp)) h1 (hcs c (hsub c (by simp)))
        have k2 := ihc _ (fun x hx => hsub x (List.mem_cons_of_mem _ hx)) h2
        simp only [List.map_append, List.map_cons, List.sum_append, List.sum_cons, growth_add, encodeAll, List.length_append]
        omega
    have := key subs _ (fun _ h => h) hA
    simp only [Chunk.size] at hlen
    simp only [List.map_cons, List.sum_cons, growth_group]
    omega
  | lst id size ty subs props ih1 ih2 =>
    intro p calls h hc
    have hlen := hc.length
    cases hc with | lst hsz hlt hcs hcp =>
    cases h with | lst hA hB =>
    have key : ∀ (add : Addr → Op) (_ : ∀ a, growth (add a) = 8) (cs : List Chunk) (calls : List (Op × Addr)),
        (∀ c ∈ cs, ∀ {p : Addr} {calls : List (Op × Addr)}, Builds c p calls →
          (calls.map fun x => growth x.1).sum + 8 ≤ (encode c).length) → Adding add cs calls →
        (calls.map fun x => growth x.1).sum ≤ (encodeAll cs).length := by
      intro add hadd cs
      induction cs with
      | nil => intro calls _ h; cases h; simp
      | cons c cs ihc =>
        intro calls hsub h
        cases h with | cons h1 h2 =>
        have k1 := hsub c (by simp) h1
        have k2 := ihc _ (fun x hx => hsub x (List.mem_cons_of_mem _ hx)) h2
        simp only [List.map_append, List.map_cons, List.sum_append, List.sum_cons, hadd, encodeAll, List.length_append]
        omega
    have k1 := key _ (fun _ => rfl) props _ (fun c hc _ _ h => ih2 c hc h (hcp c hc)) hA
    have k2 := key _ (fun _ => rfl) subs _ (fun c hc _ _ h => ih1 c hc h (hcs c hc)) hB
    simp only [Chunk.size] at hlen
    simp only [List.map_cons, List.map_append, List.sum_cons, List.sum_append, growth_list]
    omega

/-- Steps of the model are steps of the text. -/
theorem sequence_does {X : Cfg} (hX : X.Linked) {g : CS} {src : List Byte → Obj} {D : List Byte → Prop}
    (hD : ∀ d, D d → Given X g (src d) d) {s s' : HS} {calls : List (Op × Addr)}
    (h : Sequence (Heap.Step X.alloc X.e D) s calls s') : ∀ {L : Nat}, MBd L s.mem →
    L + (calls.map fun x => growth x.1).sum ≤ 4294967296 →
    Sequence (Does X src) (emb X g s) calls (emb X g s') ∧ MBd (L + (calls.map fun x => growth x.1).sum) s'.mem := by
  induction h with
  | nil => intro L hm _; exact ⟨.nil, hm⟩
  | @cons s s' s'' op r calls h _ ih =>
    intro L hm hL
    simp only [List.map_cons, List.sum_cons] at hL ⊢
    obtain ⟨h1, h2⟩ := h
    have hc : Callable X g src s.mem op := by
      cases op <;> first | exact h2.elim | trivial | skip
      exact ⟨h2.1, h2.2.1, hD _ h2.2.2⟩
    obtain ⟨k1, k2⟩ := C66_call X hX g src s s' op r L hm (by omega) hc h1
    obtain ⟨k3, k4⟩ := ih k2 (by omega)
    rw [Nat.add_assoc] at k4
    exact ⟨.cons k1 k3, k4⟩

theorem released_of_standard {c : Chunk} (h : Standard c) : ∀ {ft : ID}, Released defaultRegistry ft c := by
  induction h with
  | raw h1 h2 h3 h4 => exact .raw (by rw [findChunkType_default, if_neg h1, if_neg h2, if_neg h3, if_neg h4])
  | grp h _ ih =>
    refine .grp ?_ fun c hc => ih c hc
    rcases h with rfl | rfl | rfl
    · exact .inl rfl
    · exact .inr (.inl rfl)
    · exact .inr (.inr rfl)
  | lst h _ _ ih1 ih2 => subst h; exact .lst rfl (fun c hc => ih1 c hc) fun c hc => ih2 c hc

theorem serves_upTo {X : Cfg} {K : Nat} (h : X.Serves (K + 256)) : ServesUpTo X.alloc K where
  raw t m hm := h t _ _ (finite_sizes hm) (by
    have := size_small X (s := .IFF_RawChunk) (by simp)
    show Struct.size X.e .IFF_RawChunk ≤ _; omega)
  grp t m hm := h t _ _ (finite_sizes hm) (by
    have := size_small X (s := .IFF_Group) (by simp)
    show Struct.size X.e .IFF_Group ≤ _; omega)
  lst t m hm := h t _ _ (finite_sizes hm) (by
    have := size_small X (s := .IFF_List) (by simp)
    show Struct.size X.e .IFF_List ≤ _; omega)
  array t m n hm hn := by
    refine h t _ _ (finite_sizes hm) ?_
    have : (n + 1) * (X.e.sizeBits / 8) ≤ (n + 1) * 8 := Nat.mul_le_mul_left _ (by
      rcases X.word with h | h <;> omega)
    show (n + 1) * (X.e.sizeBits / 8) ≤ _
    omega
  data t m n hm hn := h t _ _ (finite_sizes hm) (by show n ≤ _; omega)

/-- C76, the text: the same calls, made by executing the text of the functions of the library, whatever the
memory holds before. -/
theorem C76_text (X : Cfg) (hX : X.Linked) (he : X.e.Sane) (g : CS) (src : List Byte → Obj) (c : Chunk)
    (hc : Consistent c) (hs : Standard c) (hl : ListsSplit c) (hsv : X.Serves ((encode c).length + 256))
    (hd : ∀ d ∈ dataOf c, Given X g (src d) d) (s : HS) (h0 : s.mem 0 = none) (hr : Roomy s.mem) (L : Nat)
    (hm : MBd L s.mem) (hL : L + (encode c).length ≤ 4294967296) :
    ∃ calls s' t, Builds c t.addr calls ∧ Sequence (Does X src) (emb X g s) calls (emb X g s') ∧
      Holds s.mem s'.mem t ∧ t.chunk = c ∧ s'.rs = s.rs ∧ MBd (L + (encode c).length) s'.mem := by
  obtain ⟨calls, s', t, h1, h2, h3, h4, h5⟩ := Heap.built he.wide (D := fun d => Given X g (src d) d)
    (serves_upTo hsv) c hc hs hl (Nat.le_refl _) hd s h0 hr
  have hgr := builds_growth h1 hc
  obtain ⟨h6, h7⟩ := sequence_does hX (fun _ h => h) h2 hm (by omega)
  exact ⟨calls, s', t, h1, h6, h3, h4, h5, h7.mono (by omega)⟩

/-- C76, a program: starting with an empty heap, the text builds the hierarchy; with room in the output file,
`IFF_writeFd` then returns 1 and has written the encoding; and after `IFF_free` no memory is in use. -/
theorem C76_program (X : Cfg) (hX : X.Linked) (he : X.e.Sane) (g : CS) (src : List Byte → Obj) (c : Chunk)
    (hc : Consistent c) (hs : Standard c) (hl : ListsSplit c) (hsv : X.Serves ((encode c).length + 256))
    (hd : ∀ d ∈ dataOf c, Given X g (src d) d) (hg : ∀ a, g.heap a = none) (hlog : g.log = [])
    (hroom : (encode c).length ≤ g.room) :
    ∃ p calls g₁ g₂ g₃, Builds c p calls ∧ Sequence (Does X src) g calls g₁ ∧
      Runs X .IFF_writeFd [.file .out, .ptr (.struct .IFF_Chunk) ⟨.heap p, 0⟩,
        .ptr (.struct .IFF_ChunkRegistry) Ptr.null] g₁ (truth true) g₂ ∧
      Runs X .IFF_free [.ptr (.struct .IFF_Chunk) ⟨.heap p, 0⟩, .ptr (.struct .IFF_ChunkRegistry) Ptr.null] g₂ .void g₃ ∧
      g₁.out = g.out ∧ g₂.out = g.out ++ encode c ∧ g₃.out = g₂.out ∧ (∀ a, g₃.heap a = none) ∧
      g₃.log = [] ∧ g₃.text = g.text ∧ g₃.inp = g.inp ∧ g₃.stk = g.stk := by
  have hlen := hc.length
  have hrng := hc.range
  have hemb : emb X g ⟨fun _ => none, g.tick, ⟨g.inp, []⟩⟩ = g := by
    have : g.heap = fun _ => none := funext hg
    cases g
    simp only [emb] at *
    subst this; subst hlog
    rfl
  obtain ⟨calls, ⟨m, tick, rs⟩, t, h1, h2, h3, h4, rfl, h6⟩ := C76_text X hX he g src c hc hs hl hsv hd
    ⟨fun _ => none, g.tick, ⟨g.inp, []⟩⟩ rfl ⟨0, fun _ _ => rfl⟩ 0 (fun _ _ h => nomatch h) (by omega)
  rw [hemb] at h2
  subst h4
  obtain ⟨log', hw, hw1, -⟩ := C61_writer_encodes X hX he g m 0 t h3.isIn hc hs (Rep.of_bd h6 (by omega)) tick
    ⟨g.out, g.room, []⟩
  have hlog' := hw1 hroom
  dsimp only at hlog' hroom hw
  subst hlog'
  rw [decide_eq_true hroom, List.take_of_length_le hroom] at hw
  have h00 : m 0 = none := by
    exact h3.adds.2 0 h3.nonNull
  obtain ⟨s', k1, k2, k3, k4⟩ := C34_free_exactly none ⟨m, tick, ⟨g.inp, []⟩⟩ 0 t h3.isIn h3.distinct h00
    (released_of_standard hs) _ (Nat.le_refl _)
  have hfr := C60_free X hX none Ptr.null rfl { g with out := g.out ++ encode t.chunk, room := g.room - (encode t.chunk).length }
    ⟨m, tick, ⟨g.inp, []⟩⟩ s' t.addr () _ (h6.mono (by omega)) k1
  refine ⟨t.addr, calls, _, _, _, h1, h2, hw, hfr, rfl, rfl, rfl, ?_, ?_, rfl, ?_, rfl⟩
  · intro a
    show heapOf X.e s'.mem a = none
    have : s'.mem a = none := by
      by_cases ha : a ∈ t.blocks
      · exact k2 a ha
      · rw [k3 a ha]; exact h3.adds.2 a ha
    simp [heapOf, this]
  · show errCalls X.e s'.rs.log = []
    rw [k4]; rfl
  · show s'.rs.inp = g.inp
    rw [k4]

/-! ### Examples -/

theorem generous_serves_upTo (n : Nat) (hn : n < 2 ^ 63) : generous.Serves n := fun t s k hf hk =>
  generous_serves t s k hf (by omega)

/-- The hypotheses of `C76_program` (and so of `C76_text`) are met by a LIST with a PROP and a FORM. -/
example : ∃ p calls g', Builds builtList p calls ∧
    Sequence (Does generous fun _ => .stk 0) { threeBytes with room := 100 } calls g' := by
  obtain ⟨p, calls, g', _, _, h1, h2, -⟩ := C76_program generous generous_linked pc_sane
    { threeBytes with room := 100 } (fun _ => .stk 0) builtList builtList_consistent builtList_standard builtList_split
    (generous_serves_upTo _ (by decide)) (by
      intro d hd
      have : d = [1, 2, 3] := by simpa [dataOf, dataOfAll, builtList] using hd
      subst this
      exact ⟨fun a h => (nomatch h), rfl⟩) (fun _ => rfl) rfl (by decide)
  exact ⟨p, calls, g', h1, h2⟩

end Iff.Src
