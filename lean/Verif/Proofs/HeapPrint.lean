import Verif.Heap.Print
import Verif.Proofs.HeapRef
import Verif.Proofs.HeapFree
/-
  Printing a hierarchy in memory is printing the hierarchy.
-/
namespace Iff.Heap

open Spec

variable {m : Mem} {r : Registry} {α : Type}

/-- Print what was computed. -/
def outp : Out (List Byte) → M (List Byte) Unit
  | .val bs => fun out => .val ((), out ++ bs)
  | .ub u => M.ub u
  | .loop => M.loop

/-- The computation prints `o` and leaves the memory as it was. -/
def Prints (m : Mem) (h : M (HX (List Byte)) Unit) (o : Out (List Byte)) : Prop :=
  ∀ w, Ref false m w h (outp o w)

theorem Prints.put (bs : List Byte) : Prints m (put bs) (.val bs) := fun _ => .dev _

theorem Prints.nil : Prints m (pure ()) (.val []) := fun w => by
  have : outp (.val []) w = (pure () : M (List Byte) Unit) w := by simp [outp]
  rw [this]
  exact .pure _

theorem Prints.seq {h h' : M (HX (List Byte)) Unit} {o o' : Out (List Byte)} (h1 : Prints m h o)
    (h2 : Prints m h' o') : Prints m (h >>= fun _ => h') (do
      let a ← o
      let b ← o'
      .val (a ++ b)) := fun w => by
  have : outp (do let a ← o; let b ← o'; .val (a ++ b)) w = (outp o >>= fun _ => outp o') w := by
    rw [M.bind_apply]
    cases o <;> cases o' <;> simp [outp, Bind.bind, Out.bind, M.ub, M.loop]
  rw [this]
  exact .bind (h1 w) fun _ w' _ => h2 w'

theorem Prints.putSeq {h : M (HX (List Byte)) Unit} {bs : List Byte} {o : Out (List Byte)}
    (h2 : Prints m h o) : Prints m (Heap.put bs >>= fun _ => h) (do
      let b ← o
      .val (bs ++ b)) := Prints.seq (.put bs) h2

theorem Prints.find {g : M HS α} {a : α} {hf : α → M (HX (List Byte)) Unit} {o : Out (List Byte)}
    (hg : Finds m g a) (h : Prints m (hf a) o) : Prints m (heap g >>= hf) o :=
  fun w => .find hg (h w)

theorem Prints.stumble {g : M HS α} {u : UB} {hf : α → M (HX (List Byte)) Unit}
    (hg : Stumbles m g u) : Prints m (heap g >>= hf) (.ub u) := fun _ => .stumble hg

theorem Prints.eq {h : M (HX (List Byte)) Unit} {o o' : Out (List Byte)} (hp : Prints m h o')
    (ho : o' = o) : Prints m h o := ho ▸ hp

theorem prints_raw {p d : Addr} {hd : Hdr} {data : List Byte} (hp : m p = some (.raw hd d))
    (hdt : m d = some (.bytes (data.map some))) (level : Nat) :
    Prints m (printRawChunk p level) (Iff.printRawChunk hd.id hd.size data level) := by
  refine .find (finds_raw hp) (.find (finds_hdr hp rfl) ?_)
  unfold Iff.printRawChunk
  split
  · unfold Iff.printText printText dataBytes
    split
    · rename_i h
      refine .eq (.putSeq (.find (finds_raw hp) (.find (finds_hdr hp rfl)
        (.find (finds_bytes hdt h) (.putSeq (.put _)))))) ?_
      simp [Bind.bind, Out.bind, List.append_assoc]
    · rename_i h
      exact .eq (.putSeq (.find (finds_raw hp) (.find (finds_hdr hp rfl)
        (.stumble (stumbles_bytes hdt h))))) rfl
  · unfold Iff.printRaw printRaw dataBytes
    split
    · rename_i h
      refine .eq (.putSeq (.find (finds_raw hp) (.find (finds_hdr hp rfl)
        (.find (finds_bytes hdt h) (.putSeq (.put _)))))) ?_
      simp [Bind.bind, Out.bind, List.append_assoc]
    · rename_i h
      exact .eq (.putSeq (.find (finds_raw hp) (.find (finds_hdr hp rfl)
        (.stumble (stumbles_bytes hdt h))))) rfl

theorem prints_ext {p : Addr} {hd : Hdr} {vals : List Val} {fields : List Field}
    (hp : m p = some (.ext hd vals)) (level : Nat) :
    Prints m (printExt fields p level)
      (if vals.map Val.kind = fields.map Field.kind then .val (Iff.printExt level fields vals)
        else .ub .wrongStruct) := by
  split
  · rename_i h
    exact .find (finds_ext hp h) (.put _)
  · rename_i h
    exact .stumble (stumbles_ext hp h)

theorem prints_members {pc : ID → Nat → Addr → M (HX (List Byte)) Unit} {p : Addr} {b : Block}
    {g : Grp} {ns : List Node} {level : Nat} (hp : m p = some b) (hg : b.grp? = some g)
    (harr : ArrayIn m g.arr (ns.map Node.addr))
    (hpc : ∀ n ∈ ns, Prints m (pc g.ty level n.addr) (Iff.printChunk r level g.ty n.chunk)) :
    ∀ (rest pre : List Node), ns = pre ++ rest →
      Prints m (printMembers pc p level rest.length pre.length)
        (printSubs r g.ty level (Node.chunks rest))
  | [], pre, _ => by
    simp only [List.length_nil, printMembers, Node.chunks_nil, printSubs]
    exact .nil
  | n :: rest, pre, heq => by
    have hptr : Finds m (getPtr g.arr pre.length) n.addr := by
      refine finds_ptr harr ?_
      rw [heq]; simp
    simp only [List.length_cons, printMembers, Node.chunks_cons, printSubs]
    refine .find (finds_grp hp hg) (.find hptr (.seq (hpc n (by rw [heq]; simp)) ?_))
    have := prints_members hp hg harr hpc rest (pre ++ [n]) (by rw [heq]; simp)
    simpa using this

theorem prints_props {pc : ID → Nat → Addr → M (HX (List Byte)) Unit} {p : Addr} {b : Block}
    {g : Grp} {l : Lst} {ns : List Node} {level : Nat} (hp : m p = some b) (hg : b.grp? = some g)
    (hl : b.lst? = some l) (harr : ArrayIn m l.parr (ns.map Node.addr))
    (hpc : ∀ n ∈ ns, Prints m (pc g.ty level n.addr) (Iff.printChunk r level g.ty n.chunk)) :
    ∀ (rest pre : List Node), ns = pre ++ rest →
      Prints m (printProps pc p level rest.length pre.length)
        (printSubs r g.ty level (Node.chunks rest))
  | [], pre, _ => by
    simp only [List.length_nil, printProps, Node.chunks_nil, printSubs]
    exact .nil
  | n :: rest, pre, heq => by
    have hptr : Finds m (getPtr l.parr pre.length) n.addr := by
      refine finds_ptr harr ?_
      rw [heq]; simp
    simp only [List.length_cons, printProps, Node.chunks_cons, printSubs]
    refine .find (finds_lst hp hl) (.find hptr (.find (finds_grp hp hg)
      (.seq (hpc n (by rw [heq]; simp)) ?_)))
    have := prints_props hp hg hl harr hpc rest (pre ++ [n]) (by rw [heq]; simp)
    simpa using this

theorem prints_groupSubChunks {pc : ID → Nat → Addr → M (HX (List Byte)) Unit} {p : Addr}
    {b : Block} {g : Grp} {ns : List Node} {level : Nat} (hp : m p = some b) (hg : b.grp? = some g)
    (hlen : g.len = ns.length) (harr : ArrayIn m g.arr (ns.map Node.addr))
    (hpc : ∀ n ∈ ns, Prints m (pc g.ty (level + 1) n.addr)
      (Iff.printChunk r (level + 1) g.ty n.chunk)) :
    Prints m (printGroupSubChunks pc p level) (do
      let s ← printSubs r g.ty (level + 1) (Node.chunks ns)
      .val (indent level (asc "[\n") ++ s ++ indent level (asc "];\n"))) := by
  have h1 := prints_members hp hg harr hpc ns [] rfl
  rw [← hlen] at h1
  refine .eq (.putSeq (.find (finds_grp hp hg) (.seq h1 (.put _)))) ?_
  cases printSubs r g.ty (level + 1) (Node.chunks ns) <;>
    simp [Bind.bind, Out.bind, List.append_assoc]

theorem prints_listPropChunks {pc : ID → Nat → Addr → M (HX (List Byte)) Unit} {p : Addr}
    {b : Block} {g : Grp} {l : Lst} {ns : List Node} {level : Nat} (hp : m p = some b)
    (hg : b.grp? = some g) (hl : b.lst? = some l)
    (hlen : l.plen = ns.length) (harr : ArrayIn m l.parr (ns.map Node.addr))
    (hpc : ∀ n ∈ ns, Prints m (pc g.ty (level + 1) n.addr)
      (Iff.printChunk r (level + 1) g.ty n.chunk)) :
    Prints m (printListPropChunks pc p level) (do
      let s ← printSubs r g.ty (level + 1) (Node.chunks ns)
      .val (indent level (asc "prop = [\n") ++ s ++ indent level (asc "];\n"))) := by
  have h1 := prints_props hp hg hl harr hpc ns [] rfl
  rw [← hlen] at h1
  refine .eq (.putSeq (.find (finds_lst hp hl) (.seq h1 (.put _)))) ?_
  cases printSubs r g.ty (level + 1) (Node.chunks ns) <;>
    simp [Bind.bind, Out.bind, List.append_assoc]

theorem prints_group {pc : ID → Nat → Addr → M (HX (List Byte)) Unit} {p : Addr}
    {b : Block} {g : Grp} {ns : List Node} {level : Nat} (hp : m p = some b) (hg : b.grp? = some g)
    (hlen : g.len = ns.length) (harr : ArrayIn m g.arr (ns.map Node.addr))
    (hpc : ∀ n ∈ ns, Prints m (pc g.ty (level + 1) n.addr)
      (Iff.printChunk r (level + 1) g.ty n.chunk)) (name : String) :
    Prints m (printGroup pc name p level)
      (printGroupWith name g.ty level (printSubs r g.ty (level + 1) (Node.chunks ns))) := by
  refine .eq (.find (finds_grp hp hg) (.putSeq (prints_groupSubChunks hp hg hlen harr hpc))) ?_
  unfold printGroupWith
  cases printSubs r g.ty (level + 1) (Node.chunks ns) <;>
    simp [Bind.bind, Out.bind, List.append_assoc]

theorem prints_list {pc : ID → Nat → Addr → M (HX (List Byte)) Unit} {p : Addr}
    {b : Block} {g : Grp} {l : Lst} {ns ps : List Node} {level : Nat} (hp : m p = some b)
    (hg : b.grp? = some g) (hl : b.lst? = some l) (hlen : g.len = ns.length)
    (hplen : l.plen = ps.length) (harr : ArrayIn m g.arr (ns.map Node.addr))
    (hparr : ArrayIn m l.parr (ps.map Node.addr))
    (hpc : ∀ n ∈ ns, Prints m (pc g.ty (level + 1) n.addr)
      (Iff.printChunk r (level + 1) g.ty n.chunk))
    (hpp : ∀ n ∈ ps, Prints m (pc g.ty (level + 1) n.addr)
      (Iff.printChunk r (level + 1) g.ty n.chunk)) :
    Prints m (printList pc p level) (do
      let p ← printSubs r g.ty (level + 1) (Node.chunks ps)
      let s ← printSubs r g.ty (level + 1) (Node.chunks ns)
      .val (printGroupType "contentsType" g.ty level ++
        indent level (asc "prop = [\n") ++ p ++ indent level (asc "];\n") ++
        indent level (asc "[\n") ++ s ++ indent level (asc "];\n"))) := by
  refine .eq (.find (finds_lst hp hl) (.find (finds_grp hp hg) (.putSeq
    (.seq (prints_listPropChunks hp hg hl hplen hparr hpp)
      (prints_groupSubChunks hp hg hlen harr hpc))))) ?_
  cases printSubs r g.ty (level + 1) (Node.chunks ps) <;>
    cases printSubs r g.ty (level + 1) (Node.chunks ns) <;>
    simp [Bind.bind, Out.bind, List.append_assoc]

theorem prints_body {pre post : List Byte} {X : M (HX (List Byte)) Unit} {o : Out (List Byte)}
    (hX : Prints m X (do let b ← o; .val (b ++ post))) :
    Prints m (put pre >>= fun _ => X) (do let b ← o; .val (pre ++ b ++ post)) := by
  refine .eq (.putSeq hX) ?_
  cases o <;> simp [Bind.bind, Out.bind, List.append_assoc]

theorem prints_tail {post : List Byte} {X : M (HX (List Byte)) Unit} {o : Out (List Byte)}
    (hX : Prints m X o) :
    Prints m (X >>= fun _ => put post) (do let b ← o; .val (b ++ post)) := .seq hX (.put _)

theorem printChunk_prints : ∀ {t : Node} {ft : ID} {k level : Nat} {par : Addr},
    In m par t → depth t.chunk ≤ k →
    Prints m (printChunk r k ft level t.addr) (Iff.printChunk r level ft t.chunk) := by
  intro t
  induction t using Node.ind with
  | raw a d id size data =>
    intro ft k level par hin hk
    cases k with
    | zero => simp [Node.chunk, depth] at hk
    | succ k =>
    have hin' := hin
    simp only [In] at hin'
    refine .find (finds_node hin) (prints_body ?_)
    simp only [Node.chunk, Chunk.id, printFields, Node.addr]
    cases findChunkType r ft id with
    | raw => exact prints_tail (prints_raw hin'.1 hin'.2 level)
    | ext fields chk => exact prints_tail (.stumble (stumbles_ext' hin'.1 (by simp)))
    | list => exact prints_tail (.stumble (stumbles_lst hin'.1 rfl))
    | _ => exact prints_tail (.stumble (stumbles_grp hin'.1 rfl))
  | ext a id size vals =>
    intro ft k level par hin hk
    cases k with
    | zero => simp [Node.chunk, depth] at hk
    | succ k =>
    have hin' := hin
    simp only [In] at hin'
    refine .find (finds_node hin) (prints_body ?_)
    simp only [Node.chunk, Chunk.id, printFields, Node.addr]
    cases findChunkType r ft id with
    | raw => exact prints_tail (.stumble (stumbles_raw hin' (by simp)))
    | ext fields chk => exact prints_tail (prints_ext hin' level)
    | list => exact prints_tail (.stumble (stumbles_lst hin' rfl))
    | _ => exact prints_tail (.stumble (stumbles_grp hin' rfl))
  | grp a arr id size ty subs ih =>
    intro ft k level par hin hk
    cases k with
    | zero => simp [Node.chunk, depth] at hk
    | succ k =>
    have hin' := hin
    simp only [In] at hin'
    simp only [Node.chunk, depth] at hk
    have hpc : ∀ n ∈ subs, Prints m (printChunk r k ty (level + 1) n.addr)
        (Iff.printChunk r (level + 1) ty n.chunk) := fun n hn =>
      ih n hn (inAll_iff.mp hin'.2.2 n hn) (depthAll_le (cs := Node.chunks subs) (by omega) _
        (by rw [Node.chunks_eq]; exact List.mem_map_of_mem hn))
    refine .find (finds_node hin) (prints_body ?_)
    simp only [Node.chunk, Chunk.id, printFields, Node.addr]
    cases findChunkType r ft id with
    | raw => exact prints_tail (.stumble (stumbles_raw hin'.1 (by simp)))
    | ext fields chk => exact prints_tail (.stumble (stumbles_ext' hin'.1 (by simp)))
    | list => exact prints_tail (.stumble (stumbles_lst hin'.1 rfl))
    | _ => exact prints_tail (prints_group hin'.1 rfl rfl hin'.2.1 hpc _)
  | lst a arr parr id size ty subs props ih ih2 =>
    intro ft k level par hin hk
    cases k with
    | zero => simp [Node.chunk, depth] at hk
    | succ k =>
    have hin' := hin
    simp only [In] at hin'
    simp only [Node.chunk, depth] at hk
    obtain ⟨hp, harr, hparr, hsub, hprop⟩ := hin'
    have hpc : ∀ n ∈ subs, Prints m (printChunk r k ty (level + 1) n.addr)
        (Iff.printChunk r (level + 1) ty n.chunk) := fun n hn =>
      ih n hn (inAll_iff.mp hsub n hn) (depthAll_le (cs := Node.chunks subs) (by omega) _
        (by rw [Node.chunks_eq]; exact List.mem_map_of_mem hn))
    have hpp : ∀ n ∈ props, Prints m (printChunk r k ty (level + 1) n.addr)
        (Iff.printChunk r (level + 1) ty n.chunk) := fun n hn =>
      ih2 n hn (inAll_iff.mp hprop n hn) (depthAll_le (cs := Node.chunks props) (by omega) _
        (by rw [Node.chunks_eq]; exact List.mem_map_of_mem hn))
    refine .find (finds_node hin) (prints_body ?_)
    simp only [Node.chunk, Chunk.id, printFields, Node.addr]
    cases findChunkType r ft id with
    | raw => exact prints_tail (.stumble (stumbles_raw hp (by simp)))
    | ext fields chk => exact prints_tail (.stumble (stumbles_ext' hp (by simp)))
    | list => exact prints_tail (prints_list hp rfl rfl rfl rfl harr hparr hpc hpp)
    | _ => exact prints_tail (prints_group hp rfl rfl harr hpc _)

end Iff.Heap
