import Verif.Spec.Path
import Verif.Proofs.HeapAttach
/-
  Positions in hierarchies in memory.
-/
namespace Iff.Spec

open Iff.Heap

namespace Frame

@[simp] theorem fill_addr (f : Frame) (t : Node) : (f.fill t).addr = f.addr := by
  cases f <;> rfl

/-- The blocks of the group and of its other members. -/
def blocks : Frame → List Addr
  | .grp a arr _ _ _ pre post => a :: arrBlocks arr ++ (Node.blocksAll pre ++ Node.blocksAll post)
  | .sub a arr parr _ _ _ pre post props =>
    a :: arrBlocks arr ++ arrBlocks parr ++ (Node.blocksAll pre ++ Node.blocksAll post)
      ++ Node.blocksAll props
  | .prop a arr parr _ _ _ subs pre post =>
    a :: arrBlocks arr ++ arrBlocks parr ++ Node.blocksAll subs
      ++ (Node.blocksAll pre ++ Node.blocksAll post)

theorem addr_mem (f : Frame) : f.addr ∈ f.blocks := by
  cases f <;> simp [blocks, addr]

theorem fill_blocks (f : Frame) (t : Node) : (f.fill t).blocks.Perm (f.blocks ++ t.blocks) := by
  cases f with
  | grp a arr id size ty pre post =>
    simp only [fill, Node.blocks, blocks, arrBlocks, Node.blocksAll_append, Node.blocksAll_cons,
      List.cons_append, List.append_assoc]
    refine .cons _ (.append_left _ (.append_left _ List.perm_append_comm))
  | sub a arr parr id size ty pre post props =>
    simp only [fill, Node.blocks, blocks, arrBlocks, Node.blocksAll_append, Node.blocksAll_cons,
      List.cons_append, List.append_assoc]
    refine .cons _ (.append_left _ (.append_left _ (.append_left _ ?_)))
    rw [← List.append_assoc, ← List.append_assoc]
    refine (List.Perm.trans ?_ List.perm_append_comm)
    rw [List.append_assoc]
  | prop a arr parr id size ty subs pre post =>
    simp only [fill, Node.blocks, blocks, arrBlocks, Node.blocksAll_append, Node.blocksAll_cons,
      List.cons_append, List.append_assoc]
    refine .cons _ (.append_left _ (.append_left _ (.append_left _ (.append_left _
      List.perm_append_comm))))

/-- The group is in memory, with a member at `x`; its parent pointer is `par`. -/
def At (m : Mem) (par x : Addr) : Frame → Prop
  | .grp a arr id size ty pre post =>
    m a = some (.grp ⟨par, id, size⟩ ty (pre.length + (post.length + 1)) arr) ∧
      ArrayIn m arr (pre.map Node.addr ++ x :: post.map Node.addr) ∧ InAll m a pre ∧ InAll m a post
  | .sub a arr parr id size ty pre post props =>
    m a = some (.lst ⟨par, id, size⟩ ty (pre.length + (post.length + 1)) arr props.length parr) ∧
      ArrayIn m arr (pre.map Node.addr ++ x :: post.map Node.addr) ∧
      ArrayIn m parr (props.map Node.addr) ∧ InAll m a pre ∧ InAll m a post ∧ InAll m a props
  | .prop a arr parr id size ty subs pre post =>
    m a = some (.lst ⟨par, id, size⟩ ty subs.length arr (pre.length + (post.length + 1)) parr) ∧
      ArrayIn m arr (subs.map Node.addr) ∧
      ArrayIn m parr (pre.map Node.addr ++ x :: post.map Node.addr) ∧
      InAll m a subs ∧ InAll m a pre ∧ InAll m a post

theorem in_fill {m : Mem} {par : Addr} {f : Frame} {t : Node} :
    In m par (f.fill t) ↔ f.At m par t.addr ∧ In m f.addr t := by
  cases f with
  | grp a arr id size ty pre post =>
    simp only [fill, In, At, addr, inAll_append, inAll_cons, List.length_append, List.length_cons,
      List.map_append, List.map_cons]
    constructor
    · rintro ⟨h1, h2, h3, h4, h5⟩; exact ⟨⟨h1, h2, h3, h5⟩, h4⟩
    · rintro ⟨⟨h1, h2, h3, h5⟩, h4⟩; exact ⟨h1, h2, h3, h4, h5⟩
  | sub a arr parr id size ty pre post props =>
    simp only [fill, In, At, addr, inAll_append, inAll_cons, List.length_append, List.length_cons,
      List.map_append, List.map_cons]
    constructor
    · rintro ⟨h1, h2, h3, ⟨h4, h5, h6⟩, h7⟩; exact ⟨⟨h1, h2, h3, h4, h6, h7⟩, h5⟩
    · rintro ⟨⟨h1, h2, h3, h4, h6, h7⟩, h5⟩; exact ⟨h1, h2, h3, ⟨h4, h5, h6⟩, h7⟩
  | prop a arr parr id size ty subs pre post =>
    simp only [fill, In, At, addr, inAll_append, inAll_cons, List.length_append, List.length_cons,
      List.map_append, List.map_cons]
    constructor
    · rintro ⟨h1, h2, h3, h4, h5, h6, h7⟩; exact ⟨⟨h1, h2, h3, h4, h5, h7⟩, h6⟩
    · rintro ⟨⟨h1, h2, h3, h4, h5, h7⟩, h6⟩; exact ⟨h1, h2, h3, h4, h5, h6, h7⟩

theorem At.frame {m m' : Mem} {par x : Addr} {f : Frame} (h : f.At m par x)
    (hf : ∀ a ∈ f.blocks, m' a = m a) : f.At m' par x := by
  cases f with
  | grp a arr id size ty pre post =>
    simp only [At] at h ⊢
    refine ⟨by rw [hf a (by simp [blocks]), h.1], h.2.1.frame fun h0 => ?_,
      h.2.2.1.frame fun y hy => ?_, h.2.2.2.frame fun y hy => ?_⟩
    · exact hf arr (by simp [blocks, arrBlocks, h0])
    · exact hf y (by simp [blocks, hy])
    · exact hf y (by simp [blocks, hy])
  | sub a arr parr id size ty pre post props =>
    simp only [At] at h ⊢
    obtain ⟨h1, h2, h3, h4, h5, h6⟩ := h
    refine ⟨by rw [hf a (by simp [blocks]), h1], h2.frame fun h0 => ?_, h3.frame fun h0 => ?_,
      h4.frame fun y hy => ?_, h5.frame fun y hy => ?_, h6.frame fun y hy => ?_⟩
    · exact hf arr (by simp [blocks, arrBlocks, h0])
    · exact hf parr (by simp [blocks, arrBlocks, h0])
    · exact hf y (by simp [blocks, hy])
    · exact hf y (by simp [blocks, hy])
    · exact hf y (by simp [blocks, hy])
  | prop a arr parr id size ty subs pre post =>
    simp only [At] at h ⊢
    obtain ⟨h1, h2, h3, h4, h5, h6⟩ := h
    refine ⟨by rw [hf a (by simp [blocks]), h1], h2.frame fun h0 => ?_, h3.frame fun h0 => ?_,
      h4.frame fun y hy => ?_, h5.frame fun y hy => ?_, h6.frame fun y hy => ?_⟩
    · exact hf arr (by simp [blocks, arrBlocks, h0])
    · exact hf parr (by simp [blocks, arrBlocks, h0])
    · exact hf y (by simp [blocks, hy])
    · exact hf y (by simp [blocks, hy])
    · exact hf y (by simp [blocks, hy])

end Frame

/-- The blocks around a position. -/
def pathBlocks : List Frame → List Addr
  | [] => []
  | f :: fs => f.blocks ++ pathBlocks fs

/-- The parent of a chunk at a position; `par` is the parent of the main chunk. -/
def pathParent (par : Addr) : List Frame → Addr
  | [] => par
  | f :: _ => f.addr

/-- The groups around a chunk at `x` are in memory. -/
def PathIn (m : Mem) (par : Addr) : List Frame → Addr → Prop
  | [], _ => True
  | f :: fs, x => f.At m (pathParent par fs) x ∧ PathIn m par fs f.addr

theorem in_plug {m : Mem} {par : Addr} : ∀ {fs : List Frame} {t : Node},
    In m par (plug fs t) ↔ PathIn m par fs t.addr ∧ In m (pathParent par fs) t
  | [], t => by simp [plug, PathIn, pathParent]
  | f :: fs, t => by
    simp only [plug, in_plug (fs := fs), Frame.in_fill, PathIn, pathParent, Frame.fill_addr]
    constructor
    · rintro ⟨h1, h2, h3⟩; exact ⟨⟨h2, h1⟩, h3⟩
    · rintro ⟨⟨h2, h1⟩, h3⟩; exact ⟨h1, h2, h3⟩

theorem plug_blocks : ∀ (fs : List Frame) (t : Node),
    (plug fs t).blocks.Perm (pathBlocks fs ++ t.blocks)
  | [], t => by simp [plug, pathBlocks]
  | f :: fs, t => by
    simp only [plug, pathBlocks]
    refine (plug_blocks fs (f.fill t)).trans ?_
    refine (List.Perm.append_left _ (f.fill_blocks t)).trans ?_
    rw [← List.append_assoc]
    exact List.Perm.append_right _ List.perm_append_comm

theorem PathIn.frame {m m' : Mem} {par : Addr} : ∀ {fs : List Frame} {x : Addr},
    PathIn m par fs x → (∀ a ∈ pathBlocks fs, m' a = m a) → PathIn m' par fs x
  | [], _, _, _ => trivial
  | f :: fs, x, h, hf => ⟨h.1.frame fun a ha => hf a (by simp [pathBlocks, ha]),
      PathIn.frame h.2 fun a ha => hf a (by simp [pathBlocks, ha])⟩

theorem plug_addr : ∀ (fs : List Frame) (t t' : Node), t.addr = t'.addr →
    (plug fs t).addr = (plug fs t').addr
  | [], _, _, h => h
  | f :: fs, t, t', _ => plug_addr fs _ _ (by simp)

end Iff.Spec
