import Verif.Proofs.SrcUpdate
import Verif.Props.SrcWrite
import Verif.Props.HeapUpdate
/-
  C65 The program text of IFF_updateChunkSizes does what the model says.
-/
namespace Iff.Src
set_option maxRecDepth 4000
open Spec
open Heap (Addr Block Mem HS HX Alloc)

/-! ### C65 -/

/-- C65: for every platform and memory, if the model of `IFF_updateChunkSizes` returns then executing
its text and that of the functions it calls returns, without undefined behaviour, and leaves the same
blocks in the heap; it changes nothing else. -/
theorem C65_update (X : Cfg) (g : CS) (s s' : HS) (p : Addr) (u : Unit) (k : Nat) (hm : Rep s.mem)
    (h : Heap.updateSizes X.e k p s = .val (u, s')) :
    Runs X .IFF_updateChunkSizes [.ptr (.struct .IFF_Chunk) ⟨.heap p, 0⟩] (emb X g s) .void
      (emb X g s') ∧ Rep s'.mem ∧ s'.rs = s.rs := by
  obtain ⟨h1, -, h2, h3⟩ := updateSizes_run (stk := g.stk) (out := g.out) (room := g.room) (text := g.text)
    (Nat.le_refl _) (Small.of_rep hm) h
  exact ⟨h3, h1.rep (Nat.le_refl _), h2⟩

/-- C65 with C29: a chunk `t` is somewhere in a hierarchy in memory, `fs` being the groups around it;
what is beside these groups and inside `t` has consistent sizes.  If the corrected size of the whole
fits in 31 bits, the text of `IFF_updateChunkSizes` corrects the sizes of the groups around `t` (and of
`t` if it is a group), after which the whole is consistent, and changes nothing else in memory. -/
theorem C65_update_repairs (X : Cfg) (he : X.e.Sane) (g : CS) (s : HS) (fs : List Frame) (t : Node)
    (hm : Rep s.mem) (hin : In s.mem 0 (plug fs t)) (hnd : (plug fs t).blocks.Nodup)
    (h0 : s.mem 0 = none) (ht : Typed (plug fs t).chunk) (hs : SoundInside t)
    (ho : ∀ f ∈ fs, ∀ c ∈ f.others, Consistent c.chunk)
    (hb : (repairAll fs t).chunk.size < 2147483648) :
    ∃ m', Runs X .IFF_updateChunkSizes [.ptr (.struct .IFF_Chunk) ⟨.heap t.addr, 0⟩] (emb X g s) .void
        (emb X g { s with mem := m' }) ∧
      In m' 0 (repairAll fs t) ∧ Consistent (repairAll fs t).chunk ∧
      (∀ a, a ∉ t.addr :: fs.map Frame.addr → m' a = s.mem a) ∧
      (∀ a ∈ t.addr :: fs.map Frame.addr, OnlySize s.mem m' a) := by
  obtain ⟨m', h1, h2⟩ := C29_update_repairs (e := X.e) he.wide (Nat.lt_succ_self fs.length) hin hnd h0 ht hs ho hb
  exact ⟨m', (C65_update X g s _ t.addr () _ hm h1).1, h2⟩

/-! ### Examples -/

theorem catFormMem_rep : Rep catFormMem := by
  intro a b h
  simp only [catFormMem] at h
  split at h <;> cases h <;> simp only [Fits] <;> decide

/-- The hypotheses of `C65_update_repairs` are met by `CAT { FORM { data } }` with wrong sizes. -/
example (g : CS) : ∃ m', Runs generous .IFF_updateChunkSizes [.ptr (.struct .IFF_Chunk) ⟨.heap 5, 0⟩]
    (emb generous g ⟨catFormMem, 0, ⟨[], []⟩⟩) .void (emb generous g ⟨m', 0, ⟨[], []⟩⟩) ∧
    In m' 0 (repairAll catFormPath catFormData) := by
  obtain ⟨m', h1, h2, -⟩ := C65_update_repairs generous pc_sane g ⟨catFormMem, 0, ⟨[], []⟩⟩ catFormPath
    catFormData catFormMem_rep
    (by simp [plug, catFormPath, catFormData, Frame.fill, In, ArrayIn, Node.addr, catFormMem])
    (by simp [plug, catFormPath, catFormData, Frame.fill, Node.blocks]) rfl
    (by
      simp only [plug, catFormPath, catFormData, Frame.fill, Node.chunk, Node.chunks, List.nil_append]
      refine .grp (by decide) ?_
      simp only [List.mem_singleton, forall_eq]
      refine .grp (by decide) ?_
      simp only [List.mem_singleton, forall_eq]
      exact .raw (by decide) (by decide) (by decide) (by decide))
    (.raw rfl (by decide)) (by simp [catFormPath, Frame.others]) (by decide)
  exact ⟨m', h1, h2⟩

/-- The declared size of the chunk at `a` after an execution. -/
def sizeAt (a : Nat) : Out (V × CS) → Option Cell
  | .val (_, g) => (g.heap a).map fun b => b.cell 2
  | _ => none

/-- The text can be run: the sizes of the FORM and of the CAT are corrected. -/
example :
    let r := callFn (linked fun _ _ => false) 40 .IFF_updateChunkSizes [
      .ptr (.struct .IFF_Chunk) ⟨.heap 5, 0⟩] (writing catFormMem 0)
    (sizeAt 5 r, sizeAt 3 r, sizeAt 1 r) =
      (some (.int .int 3), some (.int .int 16), some (.int .int 28)) := by decide +kernel

end Iff.Src
