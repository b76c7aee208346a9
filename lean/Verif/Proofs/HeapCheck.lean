import Verif.Heap.Check
import Verif.Proofs.HeapRef
import Verif.Proofs.HeapFree
/-
  Checking a hierarchy in memory is checking the hierarchy.
-/
namespace Iff.Heap

open Spec

variable {m : Mem} {e : Env} {r : Registry}

/-- A check of a member that does on the heap what it does on values. -/
def SubRef (m : Mem) (sc : Addr → Addr → M (HX (List Msg)) Bool) (vc : Chunk → M (List Msg) Bool)
    (p : Addr) : Prop :=
  ∀ {n : Node} {w : List Msg}, In m p n → Ref false m w (sc p n.addr) (vc n.chunk w)

theorem ref_formSub {p : Addr} : SubRef m formSubChunkCheck Iff.formSubChunkCheck p := by
  intro n w hn
  refine .find (finds_node hn) ?_
  unfold Iff.formSubChunkCheck
  split
  · exact .bind (.dev _) fun _ _ _ => .pure _
  · exact .pure _

theorem ref_propSub {p : Addr} : SubRef m propSubChunkCheck Iff.propSubChunkCheck p := by
  intro n w hn
  refine .find (finds_node hn) ?_
  unfold Iff.propSubChunkCheck
  split
  · exact .bind (.dev _) fun _ _ _ => .pure _
  · exact .pure _

theorem ref_catSub {p : Addr} {b : Block} {g : Grp} (hp : m p = some b) (hg : b.grp? = some g) :
    SubRef m catSubChunkCheck (Iff.catSubChunkCheck g.ty) p := by
  intro n w hn
  refine .find (finds_node hn) ?_
  unfold Iff.catSubChunkCheck
  dsimp only
  split
  · refine .find (finds_grp hp hg) ?_
    split
    · have hw : ∀ t : ID, Ref false m w
          ((if t ≠ g.ty then do dev (emit .contentsMismatch); pure false else pure true :
            M (HX (List Msg)) Bool))
          ((if t ≠ g.ty then do emit .contentsMismatch; pure false else pure true :
            M (List Msg) Bool) w) := by
        intro t
        split
        · exact .bind (.dev _) fun _ _ _ => .pure _
        · exact .pure _
      cases n with
      | raw a d id size data =>
        simp only [In] at hn
        exact .stumble (stumbles_grp hn.1 rfl)
      | ext a id size vals =>
        simp only [In] at hn
        exact .stumble (stumbles_grp hn rfl)
      | grp a arr id size ty subs =>
        simp only [In] at hn
        exact .find (finds_grp hn.1 rfl) (hw ty)
      | lst a arr parr id size ty subs props =>
        simp only [In] at hn
        exact .find (finds_grp hn.1 rfl) (hw ty)
    · exact .pure _
  · exact .bind (.dev _) fun _ _ _ => .pure _

theorem ref_checkSize {p : Addr} {b : Block} {hd : Hdr} (hp : m p = some b) (hh : b.hdr? = some hd)
    (body : Int) (w : List Msg) :
    Ref false m w (checkGroupChunkSize p body) (Iff.checkGroupChunkSize hd.id hd.size body w) := by
  refine .find (finds_hdr hp hh) ?_
  unfold Iff.checkGroupChunkSize
  split
  · exact .pure _
  · exact .bind (.dev _) fun _ _ _ => .pure _

theorem ref_checkMembers {cc : ID → Addr → M (HX (List Msg)) Bool}
    {sc : Addr → Addr → M (HX (List Msg)) Bool} {vc : Chunk → M (List Msg) Bool} {p : Addr}
    {b : Block} {g : Grp} {ns : List Node} (hp : m p = some b) (hg : b.grp? = some g)
    (harr : ArrayIn m g.arr (ns.map Node.addr)) (hin : InAll m p ns) (hsc : SubRef m sc vc p)
    (hcc : ∀ n ∈ ns, ∀ w, Ref false m w (cc g.ty n.addr) (Iff.checkChunk e r g.ty n.chunk w)) :
    ∀ (rest pre : List Node) (acc : Int) (w : List Msg), ns = pre ++ rest →
      Ref false m w (checkMembers e cc sc p rest.length pre.length acc)
        (Iff.checkGroupSubChunks e r g.ty vc (Node.chunks rest) acc w)
  | [], pre, acc, w, _ => by
    simp only [List.length_nil, checkMembers, Node.chunks_nil, Iff.checkGroupSubChunks]
    exact .pure _
  | n :: rest, pre, acc, w, heq => by
    have hmem : n ∈ ns := by rw [heq]; simp
    have hptr : Finds m (getPtr g.arr pre.length) n.addr := by
      refine finds_ptr harr ?_
      rw [heq]; simp
    have hgrp := finds_grp hp hg
    have hn := inAll_iff.mp hin n hmem
    simp only [List.length_cons, checkMembers, Node.chunks_cons, Iff.checkGroupSubChunks]
    refine .find hgrp (.find hptr (.bind (hsc hn) fun ok w1 _ => ?_))
    cases ok
    · exact .pure _
    simp only [if_true]
    refine .find hgrp (.bind (hcc n hmem w1) fun ok w2 _ => ?_)
    cases ok
    · exact .pure _
    simp only [if_true]
    refine .find (finds_node hn) (.ofOut_bind _ fun acc' _ => ?_)
    have := ref_checkMembers hp hg harr hin hsc hcc rest (pre ++ [n]) acc' w2 (by rw [heq]; simp)
    simpa using this

theorem ref_checkProps {cc : ID → Addr → M (HX (List Msg)) Bool} {p : Addr}
    {b : Block} {g : Grp} {l : Lst} {ns : List Node} (hp : m p = some b) (hg : b.grp? = some g)
    (hl : b.lst? = some l)
    (harr : ArrayIn m l.parr (ns.map Node.addr)) (hin : InAll m p ns)
    (hcc : ∀ n ∈ ns, ∀ w, Ref false m w (cc g.ty n.addr) (Iff.checkChunk e r g.ty n.chunk w)) :
    ∀ (rest pre : List Node) (acc : Int) (w : List Msg), ns = pre ++ rest →
      Ref false m w (checkProps e cc p rest.length pre.length acc)
        (Iff.checkListPropChunks e r g.ty (Node.chunks rest) acc w)
  | [], pre, acc, w, _ => by
    simp only [List.length_nil, checkProps, Node.chunks_nil, Iff.checkListPropChunks]
    exact .pure _
  | n :: rest, pre, acc, w, heq => by
    have hmem : n ∈ ns := by rw [heq]; simp
    have hptr : Finds m (getPtr l.parr pre.length) n.addr := by
      refine finds_ptr harr ?_
      rw [heq]; simp
    have hn := inAll_iff.mp hin n hmem
    simp only [List.length_cons, checkProps, Node.chunks_cons, Iff.checkListPropChunks]
    refine .find (finds_lst hp hl) (.find hptr (.find (finds_grp hp hg)
      (.bind (hcc n hmem w) fun ok w1 _ => ?_)))
    cases ok
    · exact .pure _
    simp only [if_true]
    refine .find (finds_node hn) (.ofOut_bind _ fun acc' _ => ?_)
    have := ref_checkProps hp hg hl harr hin hcc rest (pre ++ [n]) acc' w1 (by rw [heq]; simp)
    simpa using this

theorem ref_checkSubChunks {cc : ID → Addr → M (HX (List Msg)) Bool}
    {sc : Addr → Addr → M (HX (List Msg)) Bool} {vc : Chunk → M (List Msg) Bool} {p : Addr}
    {b : Block} {g : Grp} {ns : List Node} (hp : m p = some b) (hg : b.grp? = some g)
    (hlen : g.len = ns.length)
    (harr : ArrayIn m g.arr (ns.map Node.addr)) (hin : InAll m p ns) (hsc : SubRef m sc vc p)
    (hcc : ∀ n ∈ ns, ∀ w, Ref false m w (cc g.ty n.addr) (Iff.checkChunk e r g.ty n.chunk w))
    (w : List Msg) :
    Ref false m w (checkGroupSubChunks e cc sc p)
      (Iff.checkGroupSubChunks e r g.ty vc (Node.chunks ns) 0 w) := by
  refine .find (finds_grp hp hg) ?_
  rw [hlen]
  exact ref_checkMembers hp hg harr hin hsc hcc ns [] 0 w rfl

theorem ref_checkGroup {cc : ID → Addr → M (HX (List Msg)) Bool}
    {sc : Addr → Addr → M (HX (List Msg)) Bool} {vc : Chunk → M (List Msg) Bool} {p : Addr}
    {b : Block} {g : Grp} {hd : Hdr} {ns : List Node} (hp : m p = some b) (hg : b.grp? = some g)
    (hh : b.hdr? = some hd) (hlen : g.len = ns.length)
    (harr : ArrayIn m g.arr (ns.map Node.addr)) (hin : InAll m p ns) (hsc : SubRef m sc vc p)
    (hcc : ∀ n ∈ ns, ∀ w, Ref false m w (cc g.ty n.addr) (Iff.checkChunk e r g.ty n.chunk w))
    (tc : ID → M (List Msg) Bool) (w : List Msg) :
    Ref false m w (checkGroup e cc tc sc p)
      (checkGroupWith hd.id hd.size (tc g.ty)
        (Iff.checkGroupSubChunks e r g.ty vc (Node.chunks ns) 0) w) := by
  refine .find (finds_grp hp hg) (.bind (.dev _) fun ok w1 _ => ?_)
  cases ok
  · exact .pure _
  refine .bind (ref_checkSubChunks hp hg hlen harr hin hsc hcc w1) fun s w2 _ => ?_
  split
  · exact .pure _
  · exact .ofOut_bind _ fun s' _ => ref_checkSize hp hh s' w2

theorem ref_checkExt {p : Addr} {hd : Hdr} {vals : List Val} {fields : List Field}
    {chk : List Val → Bool} (hp : m p = some (.ext hd vals)) (w : List Msg) :
    Ref false m w (checkExt fields chk p)
      ((if vals.map Val.kind = fields.map Field.kind then
        (if chk vals then pure true else do emit .app; pure false)
        else M.ub .wrongStruct : M (List Msg) Bool) w) := by
  split
  · rename_i h
    refine .find (finds_ext hp h) ?_
    split
    · exact .pure _
    · exact .bind (.dev _) fun _ _ _ => .pure _
  · rename_i h
    exact .stumble (stumbles_ext hp h)

theorem checkChunk_ref : ∀ {t : Node} {ft : ID} {k : Nat} {par : Addr} (w : List Msg),
    In m par t → depth t.chunk ≤ k →
    Ref false m w (checkChunk e r k ft t.addr) (Iff.checkChunk e r ft t.chunk w) := by
  intro t
  induction t using Node.ind with
  | raw a d id size data =>
    intro ft k par w hin hk
    cases k with
    | zero => simp [Node.chunk, depth] at hk
    | succ k =>
    have hin' := hin
    simp only [In] at hin'
    refine .find (finds_node hin) (.bind (.dev _) fun ok w1 _ => ?_)
    cases ok
    · exact .pure _
    simp only [Node.chunk, Chunk.id, checkFields, Node.addr, if_true]
    cases findChunkType r ft id with
    | raw => exact .pure _
    | ext fields chk => exact .stumble (stumbles_ext' hin'.1 (by simp))
    | list => exact .stumble (stumbles_lst hin'.1 rfl)
    | _ => exact .stumble (stumbles_grp hin'.1 rfl)
  | ext a id size vals =>
    intro ft k par w hin hk
    cases k with
    | zero => simp [Node.chunk, depth] at hk
    | succ k =>
    have hin' := hin
    simp only [In] at hin'
    refine .find (finds_node hin) (.bind (.dev _) fun ok w1 _ => ?_)
    cases ok
    · exact .pure _
    simp only [Node.chunk, Chunk.id, checkFields, Node.addr, if_true]
    cases findChunkType r ft id with
    | raw => exact .pure _
    | ext fields chk => exact ref_checkExt hin' w1
    | list => exact .stumble (stumbles_lst hin' rfl)
    | _ => exact .stumble (stumbles_grp hin' rfl)
  | grp a arr id size ty subs ih =>
    intro ft k par w hin hk
    cases k with
    | zero => simp [Node.chunk, depth] at hk
    | succ k =>
    have hin' := hin
    simp only [In] at hin'
    simp only [Node.chunk, depth] at hk
    have hcc : ∀ n ∈ subs, ∀ w, Ref false m w (checkChunk e r k ty n.addr)
        (Iff.checkChunk e r ty n.chunk w) := fun n hn w =>
      ih n hn w (inAll_iff.mp hin'.2.2 n hn) (depthAll_le (cs := Node.chunks subs) (by omega) _
        (by rw [Node.chunks_eq]; exact List.mem_map_of_mem hn))
    refine .find (finds_node hin) (.bind (.dev _) fun ok w1 _ => ?_)
    cases ok
    · exact .pure _
    simp only [Node.chunk, Chunk.id, checkFields, Node.addr, if_true]
    cases findChunkType r ft id with
    | raw => exact .pure _
    | ext fields chk => exact .stumble (stumbles_ext' hin'.1 (by simp))
    | list => exact .stumble (stumbles_lst hin'.1 rfl)
    | form => exact ref_checkGroup hin'.1 rfl rfl rfl hin'.2.1 hin'.2.2 ref_formSub hcc _ w1
    | cat =>
      exact ref_checkGroup hin'.1 rfl rfl rfl hin'.2.1 hin'.2.2 (ref_catSub hin'.1 rfl) hcc _ w1
    | prop => exact ref_checkGroup hin'.1 rfl rfl rfl hin'.2.1 hin'.2.2 ref_propSub hcc _ w1
  | lst a arr parr id size ty subs props ih ih2 =>
    intro ft k par w hin hk
    cases k with
    | zero => simp [Node.chunk, depth] at hk
    | succ k =>
    have hin' := hin
    simp only [In] at hin'
    simp only [Node.chunk, depth] at hk
    obtain ⟨hp, harr, hparr, hsub, hprop⟩ := hin'
    have hcc : ∀ n ∈ subs, ∀ w, Ref false m w (checkChunk e r k ty n.addr)
        (Iff.checkChunk e r ty n.chunk w) := fun n hn w =>
      ih n hn w (inAll_iff.mp hsub n hn) (depthAll_le (cs := Node.chunks subs) (by omega) _
        (by rw [Node.chunks_eq]; exact List.mem_map_of_mem hn))
    have hcp : ∀ n ∈ props, ∀ w, Ref false m w (checkChunk e r k ty n.addr)
        (Iff.checkChunk e r ty n.chunk w) := fun n hn w =>
      ih2 n hn w (inAll_iff.mp hprop n hn) (depthAll_le (cs := Node.chunks props) (by omega) _
        (by rw [Node.chunks_eq]; exact List.mem_map_of_mem hn))
    refine .find (finds_node hin) (.bind (.dev _) fun ok w1 _ => ?_)
    cases ok
    · exact .pure _
    simp only [Node.chunk, Chunk.id, checkFields, Node.addr, if_true]
    cases findChunkType r ft id with
    | raw => exact .pure _
    | ext fields chk => exact .stumble (stumbles_ext' hp (by simp))
    | form => exact ref_checkGroup hp rfl rfl rfl harr hsub ref_formSub hcc _ w1
    | cat => exact ref_checkGroup hp rfl rfl rfl harr hsub (ref_catSub hp rfl) hcc _ w1
    | prop => exact ref_checkGroup hp rfl rfl rfl harr hsub ref_propSub hcc _ w1
    | list =>
      refine .find (finds_lst hp rfl) (.find (finds_grp hp rfl) (.bind (.dev _) fun ok w2 _ => ?_))
      cases ok
      · exact .pure _
      simp only [if_true]
      refine .bind (.find (finds_lst hp rfl)
        (ref_checkProps hp rfl rfl hparr hprop hcp props [] 0 w2 rfl)) fun s w3 _ => ?_
      split
      · exact .pure _
      refine .ofOut_bind _ fun s1 _ => .bind
        (ref_checkSubChunks hp rfl rfl harr hsub (ref_catSub hp rfl) hcc w3) fun t w4 _ => ?_
      split
      · exact .pure _
      exact .ofOut_bind _ fun s2 _ => ref_checkSize hp rfl s2 w4

theorem check_ref {reg : Option Registry} {t : Node} {k : Nat} {par : Addr} (w : List Msg)
    (hin : In m par t) (hk : depth t.chunk ≤ k) :
    Ref false m w (check e reg k t.addr) (Iff.check e reg t.chunk w) := by
  refine .find (finds_node hin) ?_
  unfold Iff.check
  dsimp only
  split
  · exact .bind (.dev _) fun _ _ _ => .pure _
  · exact checkChunk_ref w hin hk

end Iff.Heap
