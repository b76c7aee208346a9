import Verif.Heap.Tools
import Verif.Props.HeapUse
import Verif.Props.HeapBuild
import Verif.Props.Tools
/-
  The tools with their memory against the tools on values.
-/
namespace Iff.Heap

open Spec

variable {A : Alloc} {e : Env} {m : Mem} {tick : Nat} {log : List Msg}

/-- Reading a file. -/
theorem lib_readFile (hg : Grants A e) (h0 : m 0 = none) (f : Source) {k : Nat}
    (hk : ∀ bs, f.contents = some bs → bs.length + 4 ≤ k) :
    (∃ t' log', lib (readFile A e none f.name f.contents) ⟨m, tick, log⟩ = .val (0, ⟨m, t', log'⟩) ∧
      (Iff.readFile e none f.name f.contents log = .val (none, log') ∨ (Roomy m → ¬ Total A e))) ∨
    (∃ (t : Node) (s' : TS), lib (readFile A e none f.name f.contents) ⟨m, tick, log⟩ =
        .val (t.addr, s') ∧ t.addr ≠ 0 ∧ Holds m s'.mem t ∧ Released defaultRegistry 0 t.chunk ∧
      depth t.chunk ≤ k ∧
      Iff.readFile e none f.name f.contents log = .val (some t.chunk, s'.st)) ∨
    (∃ u, lib (readFile A e none f.name f.contents) ⟨m, tick, log⟩ = .ub u ∧
      (Iff.readFile e none f.name f.contents log = .ub u ∨ (Roomy m → ¬ Total A e))) ∨
    (lib (readFile A e none f.name f.contents) ⟨m, tick, log⟩ = .loop ∧
      Iff.readFile e none f.name f.contents log = .loop) := by
  cases hf : f.contents with
  | none => exact .inl ⟨tick, _, rfl, .inl rfl⟩
  | some bs =>
    have hrel := readFd_rel (A := A) (e := e) (reg := none) (s := ⟨m, tick, ⟨bs, log⟩⟩) default_lists
      hg h0
    simp only [lib, readFile, Iff.readFile]
    cases hX : readFd A e none ⟨m, tick, ⟨bs, log⟩⟩ with
    | loop =>
      rw [hX] at hrel
      rw [hrel.loop_inv]
      exact .inr (.inr (.inr ⟨rfl, rfl⟩))
    | ub u =>
      rw [hX] at hrel
      refine .inr (.inr (.inl ⟨u, rfl, ?_⟩))
      rcases hrel.ub_inv with h | ⟨_, h⟩
      · rw [h]; exact .inl rfl
      · exact .inr fun hr hT => h hr fun t m n hm => hT.array t m n hm
    | val x =>
      obtain ⟨p, s'⟩ := x
      rw [hX] at hrel
      rcases hrel.val_inv with ⟨rfl, hm, h⟩ | ⟨t, rfl, hz, hh, hr, hd, h⟩
      · refine .inl ⟨s'.tick, s'.rs.log, ?_, ?_⟩
        · rw [show m = s'.mem from hm.symm]
        · rcases h with h | h
          · rw [h]; exact .inl rfl
          · exact .inr h
      · refine .inr (.inl ⟨t, _, rfl, hz, hh, hr, Nat.le_trans hd (hk bs hf), ?_⟩)
        rw [h]

/-- Freeing a hierarchy that was added to memory `m`. -/
theorem lib_free {m' : Mem} {t : Node} (hh : Holds m m' t) (h0 : m 0 = none)
    (hr : Released defaultRegistry 0 t.chunk) {n : Nat} (hn : depth t.chunk ≤ n) :
    lib (iffFree none n t.addr) ⟨m', tick, log⟩ = .val ((), ⟨m, tick, log⟩) := by
  have h := hh.frees (r := defaultRegistry) (ft := 0) h0 hr hn ⟨m', tick, ⟨[], log⟩⟩ rfl
  unfold lib iffFree selectChunkRegistry
  rw [h]

theorem printed_eq {par : Addr} {t : Node} (hin : In m par t) {n : Nat} (hn : depth t.chunk ≤ n) :
    printed (print none n 0 t.addr) ⟨m, tick, log⟩ =
      (match Iff.print none 0 t.chunk with
      | .val out => .val (out, ⟨m, tick, log⟩)
      | .ub u => .ub u
      | .loop => .loop) := by
  unfold printed
  rw [C50_print none m par t hin n hn]
  cases Iff.print none 0 t.chunk with
  | val x => simp [printing]
  | ub u => rfl
  | loop => rfl

/-! ### Adding to the concatenation -/

theorem attach_released {a : Addr} {c g : Node} {z : Int} {ty : ID} 
    (hg : Released defaultRegistry 0 g.chunk) (hc : Released defaultRegistry 0 c.chunk)
    (hgr : Node.IsGroup g) :
    Released defaultRegistry 0 (Node.setSize z (Node.attach a c (Node.setTy ty g))).chunk := by
  cases g with
  | raw => exact hgr.elim
  | ext => exact hgr.elim
  | grp a' arr id size ty' subs =>
    simp only [Node.chunk, Node.setTy, Node.attach, Node.setSize] at hg ⊢
    cases hg with
    | grp hk hs =>
      refine .grp hk fun d hd => ?_
      rw [Node.chunks_append] at hd
      rcases List.mem_append.mp hd with hd | hd
      · exact released_any (hs d hd)
      · simp only [Node.chunks, List.mem_singleton] at hd
        subst hd; exact released_any hc
  | lst a' arr parr id size ty' subs props =>
    simp only [Node.chunk, Node.setTy, Node.attach, Node.setSize] at hg ⊢
    cases hg with
    | lst hk hs hp =>
      refine .lst hk (fun d hd => ?_) fun d hd => released_any (hp d hd)
      rw [Node.chunks_append] at hd
      rcases List.mem_append.mp hd with hd | hd
      · exact released_any (hs d hd)
      · simp only [Node.chunks, List.mem_singleton] at hd
        subst hd; exact released_any hc

theorem attach_depth {a : Addr} {c g : Node} {z : Int} {ty : ID} {n : Nat}
    (hg : depth g.chunk ≤ n) (hc : depth c.chunk + 1 ≤ n) :
    depth (Node.setSize z (Node.attach a c (Node.setTy ty g))).chunk ≤ n := by
  cases g with
  | raw => exact hg
  | ext => exact hg
  | grp a' arr id size ty' subs =>
    simp only [Node.chunk, Node.setTy, Node.attach, Node.setSize, depth, Node.chunks_append,
      depthAll_append, Node.chunks, depthAll] at hg ⊢
    omega
  | lst a' arr parr id size ty' subs props =>
    simp only [Node.chunk, Node.setTy, Node.attach, Node.setSize, depth, Node.chunks_append,
      depthAll_append, Node.chunks, depthAll] at hg ⊢
    omega

/-- The state of the loop of `IFF_join`: the concatenation, allocated after the memory was `m₀`. -/
structure Joining (m₀ m : Mem) (n : Nat) (g : Node) : Prop where
  holds : Holds m₀ m g
  released : Released defaultRegistry 0 g.chunk
  group : Node.IsGroup g
  depth : depth g.chunk ≤ n

theorem lib_add {m₀ m' : Mem} {g c : Node} {n : Nat} (h0 : m₀ 0 = none) (hj : Joining m₀ m n g)
    (hh : Holds m m' c) (hr : Released defaultRegistry 0 c.chunk) (hd : depth c.chunk + 1 ≤ n) :
    (∃ g' m'' t'', lib (addAndUpdate A e g.addr c.addr) ⟨m', tick, log⟩ = .val ((), ⟨m'', t'', log⟩) ∧
      Joining m₀ m'' n g' ∧ g'.addr = g.addr ∧ Iff.addAndUpdate e g.chunk c.chunk = .val g'.chunk) ∨
    (∃ u, lib (addAndUpdate A e g.addr c.addr) ⟨m', tick, log⟩ = .ub u ∧
      (Iff.addAndUpdate e g.chunk c.chunk = .ub u ∨ (Roomy m₀ → ¬ Total A e))) := by
  obtain ⟨hin, hnd, hadds, hnz⟩ := hj.holds.join hh
  have h0m' : m' 0 = none := by rw [hadds.2 0 hnz, h0]
  have hnd' := hnd
  rw [List.nodup_append] at hnd'
  simp only [lib, addAndUpdate, Iff.addAndUpdate, M.bind_apply]
  rcases updateContents_spec (s := ⟨m', tick, ⟨[], log⟩⟩) hj.group hin hh.isIn hnd'.1 h0m' with
    ⟨u, h1, h2⟩ | ⟨ty, m1, k1, k2, k3, k4, k5⟩
  · rw [h1, h2]; exact .inr ⟨u, rfl, .inl rfl⟩
  · rw [k1, k2]
    simp only [Out.val_bind]
    have hd1 : In m1 0 c := hh.isIn.frame fun x hx => k5 x fun e =>
      hnd'.2.2 x (e ▸ g.addr_mem) x hx rfl
    have hadds1 : Adds m₀ m1 (g.blocks ++ c.blocks) := by
      refine ⟨hadds.1, fun x hx => ?_⟩
      rw [← hadds.2 x hx]
      exact k5 x fun e => hx (List.mem_append_left _ (e ▸ g.addr_mem))
    rcases add_spec (A := A) (e := e) (s := ⟨m1, tick, ⟨[], log⟩⟩) (setTy_isGroup (ty := ty) hj.group)
      k4 hd1 (by rw [setTy_blocks]; exact hnd) k3 with ⟨h1, h2⟩ | ⟨u, h1, h2⟩ |
      ⟨a, z, m2, h1, h2, h3, h4, h5, h6⟩
    · rw [setTy_addr] at h2
      rw [h2]
      refine .inr ⟨_, rfl, .inr fun hR hT => h1 (Roomy.of_adds hR hadds1) fun t m n hm =>
        hT.array t m n hm⟩
    · rw [setTy_addr] at h2
      rw [h2]
      refine .inr ⟨u, rfl, .inl ?_⟩
      cases g with
      | raw => exact hj.group.elim
      | ext => exact hj.group.elim
      | grp a' arr id size ty' subs =>
        have h1 : incrementChunkSize e size c.chunk.size = .ub u := h1
        simp [Node.setTy, Node.chunk, Iff.addToGroup, h1]
      | lst a' arr parr id size ty' subs props =>
        have h1 : incrementChunkSize e size c.chunk.size = .ub u := h1
        simp [Node.setTy, Node.chunk, Iff.addToGroup, h1]
    · rw [setTy_addr] at h2
      rw [h2]
      have hb := h6 m₀ (by rw [setTy_blocks]; exact hadds1)
      refine .inl ⟨_, m2, tick + 1, rfl, ⟨⟨h4, h5, fun h => ?_, hb⟩, attach_released hj.released hr
        hj.group, ?_, attach_depth hj.depth hd⟩, ?_, add_value (setTy_isGroup hj.group) h1⟩
      · exact h4.mapped 0 h h3
      · cases g <;> exact hj.group
      · rw [setSize_addr, attach_addr, setTy_addr]

/-- Freeing the concatenation while a chunk remains. -/
theorem lib_free_leaving {m₀ m' : Mem} {g c : Node} {n : Nat} (h0 : m₀ 0 = none)
    (hj : Joining m₀ m n g) (hh : Holds m m' c) :
    ∃ m'', lib (iffFree none n g.addr) ⟨m', tick, log⟩ = .val ((), ⟨m'', tick, log⟩) ∧
      Holds m₀ m'' c := by
  obtain ⟨hin, hnd, hadds, hnz⟩ := hj.holds.join hh
  have h0m' : m' 0 = none := by rw [hadds.2 0 hnz, h0]
  have hnd' := hnd
  rw [List.nodup_append] at hnd'
  have h := freeChunk_spec (r := defaultRegistry) hin hnd'.1 h0m' hj.released hj.depth
    ⟨m', tick, ⟨[], log⟩⟩ rfl
  refine ⟨m'.without g.blocks, ?_, ?_⟩
  · unfold lib iffFree selectChunkRegistry
    rw [h]
  · have hout : ∀ x, x ∉ g.blocks → m'.without g.blocks x = m' x := fun x hx =>
      Mem.without_of_notMem hx
    refine ⟨hh.isIn.frame fun x hx => hout x fun hg => hnd'.2.2 x hg x hx rfl, hh.distinct,
      hh.nonNull, fun x hx => hadds.1 x (List.mem_append_right _ hx), fun x hx => ?_⟩
    by_cases hg : x ∈ g.blocks
    · rw [Mem.without_of_mem hg, hadds.1 x (List.mem_append_left _ hg)]
    · rw [hout x hg, hadds.2 x (by simp [hg, hx])]

/-- A NULL pointer is not dereferenced. -/
theorem add_null {c : Addr} {s : HS} (h : s.mem 0 = none) (x : Unit × HS) :
    addAndUpdate A e 0 c s ≠ .val x := by
  intro hx
  have hgr : addToGroup A e 0 c s = .ub .nullDeref := by
    simp [addToGroup, attachToGroup, M.bind_apply, getGrp, load, h]
  have hupd : ∀ f, updGrp 0 f s = .ub .nullDeref := by
    intro f
    simp [updGrp, M.bind_apply, load, h]
  simp only [addAndUpdate, updateContentsType, M.bind_apply] at hx
  cases h1 : getHdr c s with
  | ub u => rw [h1] at hx; cases hx
  | loop => rw [h1] at hx; cases hx
  | val y =>
    obtain ⟨hd, s1⟩ := y
    obtain rfl := looking_getHdr c s hd s1 h1
    rw [h1] at hx
    simp only at hx
    split at hx
    · rename_i hs heq
      split at heq
      · rw [M.bind_apply] at heq
        cases h2 : getGrp c s1 with
        | ub u => rw [h2] at heq; cases heq
        | loop => rw [h2] at heq; cases heq
        | val z =>
          obtain ⟨gc, s2⟩ := z
          obtain rfl := looking_getGrp c s1 gc s2 h2
          rw [h2] at heq
          simp only [hupd] at heq
          cases heq
      · rw [M.pure_apply] at heq
        cases heq
        rw [hgr] at hx; cases hx
    · cases hx
    · cases hx

theorem lib_free_null {n : Nat} (h0 : m 0 = none) (x : Unit × TS) :
    lib (iffFree none n 0) ⟨m, tick, log⟩ ≠ .val x := by
  intro hx
  unfold lib iffFree at hx
  cases n with
  | zero => cases hx
  | succ n => simp [freeChunk, getHdr, M.bind_apply, load, h0] at hx

theorem createGroup_refused {id ty : ID} {s : HS} (h : A.pick s.tick s.mem (.struct .grp) = none) :
    createEmptyGroup A id ty s = .val (0, ⟨s.mem, s.tick + 1, s.rs⟩) := by
  simp only [createEmptyGroup, newStruct, malloc, Block.skind, h]

end Iff.Heap
