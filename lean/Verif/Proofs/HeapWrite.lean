import Verif.Heap.Write
import Verif.Proofs.HeapRef
import Verif.Spec.HeapUse
import Verif.Proofs.HeapFree
import Verif.Proofs.Write
/-
  Writing a hierarchy in memory is writing the hierarchy.
-/
namespace Iff.Heap

open Spec

variable {al : Bool} {m : Mem} {A : Alloc} {e : Env} {r : Registry}

theorem ref_filler (hA : Fills A m) (id : ID) (size bp : Int) (w : WS) :
    Ref true m w (writeZeroFillerBytes A id size bp) (Iff.writeZeroFillerBytes id size bp w) := by
  unfold writeZeroFillerBytes Iff.writeZeroFillerBytes
  split
  case isFalse h => exact .pure _
  case isTrue h =>
  refine .ofOut_bind _ fun n hn => ?_
  have hn0 : 0 < n.toNat ∧ n.toNat < 2147483648 := by
    unfold subInt at hn
    split at hn
    · rename_i hi
      have := hi.2
      cases hn; omega
    · cases hn
  intro t
  obtain ⟨a, ha⟩ := Option.isSome_iff_exists.mp (hA t n.toNat hn0.1 hn0.2)
  have hs := A.sound ha
  have h1 : ∀ w' : WS, heap (malloc A (.data n.toNat) (.bytes (List.replicate n.toNat (some 0))))
      ⟨m, t, w'⟩ = .val (a, ⟨m.set a (some (.bytes (List.replicate n.toNat (some 0)))), t + 1, w'⟩) := by
    intro w'
    simp [heap, malloc, ha]
  have hb : (m.set a (some (.bytes (List.replicate n.toNat (some 0))))) a =
      some (.bytes ((List.replicate n.toNat (0 : Byte)).map some)) := by simp
  have hfr : ∀ w' : WS, heap (free a)
      ⟨m.set a (some (.bytes (List.replicate n.toNat (some 0)))), t + 1, w'⟩ =
      .val ((), ⟨m, t + 1, w'⟩) := by
    intro w'
    simp [heap, free, hs.1, Mem.set_set, Mem.set_none hs.2]
  have hrd : ∀ w' : WS, heap (readBytes a n.toNat)
      ⟨m.set a (some (.bytes (List.replicate n.toNat (some 0)))), t + 1, w'⟩ =
      .val (List.replicate n.toNat 0,
        ⟨m.set a (some (.bytes (List.replicate n.toNat (some 0)))), t + 1, w'⟩) := by
    intro w'
    have := finds_bytes (m := m.set a (some (.bytes (List.replicate n.toNat (some 0))))) hb
      (n := n.toNat) (by simp)
      ⟨m.set a (some (.bytes (List.replicate n.toNat (some 0)))), t + 1, ⟨[], []⟩⟩ rfl
    rw [List.take_replicate, Nat.min_self] at this
    unfold heap
    dsimp only
    rw [this]
  rw [M.bind_apply, h1]
  simp only
  rw [M.bind_apply, hrd]
  simp only [M.bind_apply]
  have hfw : ∃ k w', fwrite (List.replicate n.toNat 0) w = .val (k, w') := by
    unfold fwrite; exact ⟨_, _, rfl⟩
  obtain ⟨k, w', hk⟩ := hfw
  simp only [dev, hk]
  split
  · rw [M.bind_apply, hfr]
    exact ⟨t + 1, rfl, .inr ⟨rfl, by omega⟩⟩
  · simp only [M.bind_apply, WS.emit, dev, hfr]
    exact ⟨t + 1, rfl, .inr ⟨rfl, by omega⟩⟩

theorem ref_nofiller {id : ID} {size bp : Int} (h : size ≤ bp) (w : WS) :
    Ref al m w (writeZeroFillerBytes A id size bp) (Iff.writeZeroFillerBytes id size bp w) := by
  unfold writeZeroFillerBytes Iff.writeZeroFillerBytes
  rw [if_neg (by omega), if_neg (by omega)]
  exact .pure _

theorem ref_chunkWith {t : Node} {par : Addr} {F : M (HX WS) (Bool × Int)} {V : M WS (Bool × Int)}
    (hin : In m par t) (hF : ∀ w, Ref al m w F (V w))
    (hfill : ∀ w w' bp, V w = .val ((true, bp), w') → ∀ w'', Ref al m w''
      (writeZeroFillerBytes A t.chunk.id t.chunk.size bp)
      (Iff.writeZeroFillerBytes t.chunk.id t.chunk.size bp w'')) (w : WS) :
    Ref al m w (writeChunkWith A e t.addr F) (Iff.writeChunkWith e t.chunk V w) := by
  have hh := finds_node hin
  refine .find hh (.bind (.dev _) fun ok w1 _ => ?_)
  cases ok
  · exact .pure _
  refine .find hh (.bind (.dev _) fun ok w2 _ => ?_)
  cases ok
  · exact .pure _
  refine .bind (hF w2) fun x w3 hv => ?_
  obtain ⟨ok, bp⟩ := x
  cases ok
  · exact .pure _
  refine .find hh (.bind (hfill _ _ _ hv _) fun ok w4 _ => ?_)
  cases ok
  · exact .pure _
  exact .find hh (.dev _)

theorem getElem?_split {α : Type} {l pre rest : List α} {a : α} (h : l = pre ++ a :: rest) :
    l[pre.length]? = some a := by
  subst h; simp

theorem ref_members {wc : ID → Addr → M (HX WS) Bool} {p : Addr} {b : Block} {g : Grp}
    {ns : List Node} (hp : m p = some b) (hg : b.grp? = some g)
    (harr : ArrayIn m g.arr (ns.map Node.addr)) (hin : InAll m p ns)
    (hwc : ∀ n ∈ ns, ∀ w, Ref al m w (wc g.ty n.addr) (Iff.writeChunk e r g.ty n.chunk w)) :
    ∀ (rest pre : List Node) (bp : Int) (w : WS), ns = pre ++ rest →
      Ref al m w (writeMembers e wc p rest.length pre.length bp)
        (Iff.writeGroupSubChunks e r g.ty (Node.chunks rest) bp w)
  | [], pre, bp, w, _ => by
    simp only [List.length_nil, writeMembers, Node.chunks_nil, Iff.writeGroupSubChunks]
    exact .pure _
  | n :: rest, pre, bp, w, heq => by
    have hmem : n ∈ ns := by rw [heq]; simp
    have hptr : Finds m (getPtr g.arr pre.length) n.addr := by
      refine finds_ptr harr ?_
      rw [heq]; simp
    have hgrp := finds_grp hp hg
    have hn := inAll_iff.mp hin n hmem
    simp only [List.length_cons, writeMembers, Node.chunks_cons, Iff.writeGroupSubChunks]
    refine .find hgrp (.find hptr (.bind (hwc n hmem w) fun ok w1 _ => ?_))
    cases ok
    · simp only [Bool.false_eq_true, if_false]
      exact .bind (.dev _) fun _ _ _ => .pure _
    simp only [if_true]
    refine .find hgrp (.find hptr (.find (finds_node hn) (.ofOut_bind _ fun bp' _ => ?_)))
    have := ref_members hp hg harr hin hwc rest (pre ++ [n]) bp' w1 (by rw [heq]; simp)
    simpa using this

theorem ref_props {wc : ID → Addr → M (HX WS) Bool} {p : Addr} {b : Block} {l : Lst}
    {ns : List Node} (hp : m p = some b) (hl : b.lst? = some l)
    (harr : ArrayIn m l.parr (ns.map Node.addr)) (hin : InAll m p ns)
    (hwc : ∀ n ∈ ns, ∀ w, Ref al m w (wc 0 n.addr) (Iff.writeChunk e r 0 n.chunk w)) :
    ∀ (rest pre : List Node) (bp : Int) (w : WS), ns = pre ++ rest →
      Ref al m w (writeProps e wc p rest.length pre.length bp)
        (Iff.writeListPropChunks e r (Node.chunks rest) bp w)
  | [], pre, bp, w, _ => by
    simp only [List.length_nil, writeProps, Node.chunks_nil, Iff.writeListPropChunks]
    exact .pure _
  | n :: rest, pre, bp, w, heq => by
    have hmem : n ∈ ns := by rw [heq]; simp
    have hptr : Finds m (getPtr l.parr pre.length) n.addr := by
      refine finds_ptr harr ?_
      rw [heq]; simp
    have hlst := finds_lst hp hl
    have hn := inAll_iff.mp hin n hmem
    simp only [List.length_cons, writeProps, Node.chunks_cons, Iff.writeListPropChunks]
    refine .find hlst (.find hptr (.bind (hwc n hmem w) fun ok w1 _ => ?_))
    cases ok
    · simp only [Bool.false_eq_true, if_false]
      exact .bind (.dev _) fun _ _ _ => .pure _
    simp only [if_true]
    refine .find hlst (.find hptr (.find (finds_node hn) (.ofOut_bind _ fun bp' _ => ?_)))
    have := ref_props hp hl harr hin hwc rest (pre ++ [n]) bp' w1 (by rw [heq]; simp)
    simpa using this

theorem ref_groupSubChunks {wc : ID → Addr → M (HX WS) Bool} {p : Addr} {b : Block} {g : Grp}
    {ns : List Node} (hp : m p = some b) (hg : b.grp? = some g) (hlen : g.len = ns.length)
    (harr : ArrayIn m g.arr (ns.map Node.addr)) (hin : InAll m p ns)
    (hwc : ∀ n ∈ ns, ∀ w, Ref al m w (wc g.ty n.addr) (Iff.writeChunk e r g.ty n.chunk w))
    (bp : Int) (w : WS) :
    Ref al m w (writeGroupSubChunks e wc p bp)
      (Iff.writeGroupSubChunks e r g.ty (Node.chunks ns) bp w) := by
  refine .find (finds_grp hp hg) ?_
  rw [hlen]
  exact ref_members hp hg harr hin hwc ns [] bp w rfl

theorem ref_groupType {p : Addr} {b : Block} {g : Grp} {hd : Hdr} (hp : m p = some b)
    (hg : b.grp? = some g) (hh : b.hdr? = some hd) (attr : String) (bp : Int) (w : WS) :
    Ref al m w (writeGroupType e attr p bp) (writeField e (.id g.ty) hd.id hd.size attr bp w) :=
  .find (finds_grp hp hg) (.find (finds_hdr hp hh) (.dev _))

theorem ref_group {wc : ID → Addr → M (HX WS) Bool} {p : Addr} {b : Block} {g : Grp} {hd : Hdr}
    {ns : List Node} (hp : m p = some b) (hg : b.grp? = some g) (hh : b.hdr? = some hd)
    (hlen : g.len = ns.length)
    (harr : ArrayIn m g.arr (ns.map Node.addr)) (hin : InAll m p ns)
    (hwc : ∀ n ∈ ns, ∀ w, Ref al m w (wc g.ty n.addr) (Iff.writeChunk e r g.ty n.chunk w))
    (attr : String) (w : WS) :
    Ref al m w (writeGroup e wc attr p 0)
      (writeGroupWith e hd.id hd.size g.ty attr
        (Iff.writeGroupSubChunks e r g.ty (Node.chunks ns)) 0 w) := by
  refine .bind (ref_groupType hp hg hh attr 0 w) fun x w1 _ => ?_
  obtain ⟨st, bp⟩ := x
  cases st
  case more => exact ref_groupSubChunks hp hg hlen harr hin hwc bp w1
  all_goals exact .pure _

theorem ref_list {wc : ID → Addr → M (HX WS) Bool} {p : Addr} {b : Block} {g : Grp} {l : Lst}
    {hd : Hdr} {ns ps : List Node} (hp : m p = some b) (hg : b.grp? = some g)
    (hl : b.lst? = some l) (hh : b.hdr? = some hd) (hlen : g.len = ns.length)
    (hplen : l.plen = ps.length)
    (harr : ArrayIn m g.arr (ns.map Node.addr)) (hparr : ArrayIn m l.parr (ps.map Node.addr))
    (hin : InAll m p ns) (hpin : InAll m p ps)
    (hwc : ∀ n ∈ ns, ∀ w, Ref al m w (wc g.ty n.addr) (Iff.writeChunk e r g.ty n.chunk w))
    (hwp : ∀ n ∈ ps, ∀ w, Ref al m w (wc 0 n.addr) (Iff.writeChunk e r 0 n.chunk w))
    (w : WS) :
    Ref al m w (writeList e wc p 0)
      (writeGroupWith e hd.id hd.size g.ty "contentsType" (fun bp => do
        let (ok, bp') ← Iff.writeListPropChunks e r (Node.chunks ps) bp
        if ok then Iff.writeGroupSubChunks e r g.ty (Node.chunks ns) bp' else pure (false, bp')) 0
        w) := by
  refine .find (finds_lst hp hl) (.bind (ref_groupType hp hg hh _ 0 w) fun x w1 _ => ?_)
  obtain ⟨st, bp⟩ := x
  cases st
  case more =>
    refine .bind (.find (finds_lst hp hl) ?_) fun x w2 _ => ?_
    · rw [hplen]
      exact ref_props hp hl hparr hpin hwp ps [] bp w1 rfl
    · obtain ⟨ok, bp'⟩ := x
      cases ok
      · exact .pure _
      · exact ref_groupSubChunks hp hg hlen harr hin hwc bp' w2
  all_goals exact .pure _

theorem ref_raw {p d : Addr} {hd : Hdr} {data : List Byte} (hp : m p = some (.raw hd d))
    (hdt : m d = some (.bytes (data.map some))) (w : WS) :
    Ref al m w (writeRawChunk e p 0) (Iff.writeRawChunk e hd.id hd.size data 0 w) := by
  refine .find (finds_raw hp) (.find (finds_hdr hp rfl) ?_)
  unfold Iff.writeRawChunk
  split
  · rename_i h
    refine .find (finds_bytes hdt h) (.bind (.dev _) fun k w1 _ => ?_)
    split
    · exact .bind (.dev _) fun _ _ _ => .pure _
    · exact .ofOut_bind _ fun _ _ => .pure _
  · rename_i h
    exact .stumble (stumbles_bytes hdt h)

theorem ref_writeExt {p : Addr} {hd : Hdr} {vals : List Val} {fields : List Field}
    (hp : m p = some (.ext hd vals)) (w : WS) :
    Ref al m w (writeExt e fields p 0)
      ((if vals.map Val.kind = fields.map Field.kind then
        writeExtFields e hd.id hd.size fields vals 0 else M.ub .wrongStruct : M WS _) w) := by
  refine .find (finds_hdr hp rfl) ?_
  split
  · rename_i h
    exact .find (finds_ext hp h) (.dev _)
  · rename_i h
    exact .stumble (stumbles_ext hp h)

/-- The fields of a consistent chunk that has no filler bytes. -/
theorem fields_exact (he : 32 ≤ e.sizeBits) (hr : RegistrySorted r) {c : Chunk} {ft : ID}
    (hc : Consistent c) (hd : Dispatched r ft c) (hf : Filled c) {w w' : WS} {bp : Int}
    (h : writeFields e r (findChunkType r ft c.id) c w = .val ((true, bp), w')) : c.size ≤ bp := by
  have key : ∃ body b, c.size ≤ b ∧ WritesI (writeFields e r (findChunkType r ft c.id) c) body b := by
    cases c with
    | raw id size data =>
      cases hc with
      | raw hs hs2 =>
      cases hd with
      | raw hh =>
      rw [show (Chunk.raw id size data).id = id from rfl, (findChunkType_iff hr).mpr hh]
      exact ⟨_, _, Int.le_refl _, writes_raw e he id hs hs2⟩
    | ext id size vals =>
      cases hc with
      | ext hs hs2 ht =>
      cases hd with
      | @ext _ _ _ _ fields chk hh hk =>
      cases hf with
      | ext hfl =>
      rw [show (Chunk.ext id size vals).id = id from rfl, (findChunkType_iff hr).mpr hh]
      have hw := writes_ext e he id size hs2 fields vals size.toNat 0 hk (by omega) (by omega) ht
      refine ⟨_, _, ?_, by simpa only [writeFields, hk, if_true] using hw⟩
      show size ≤ 0 + ((encodeFields vals size).length : Int)
      omega
    | grp id size ty subs =>
      cases hc with
      | grp hs hs2 hcs =>
      cases hd with
      | @grp _ _ _ _ _ h hh hk hds =>
      rw [show (Chunk.grp id size ty subs).id = id from rfl, (findChunkType_iff hr).mpr hh]
      have hsub := writes_subs e he r ty subs 4 (by omega) (by omega) hcs
        (fun c hc => writes_chunk e he hr c ty (hcs c hc) (hds c hc))
      refine ⟨be 4 ty.toNat ++ encodeAll subs, size, Int.le_refl _, ?_⟩
      rw [hs]
      rw [hs] at hs2
      rcases hk with rfl | rfl | rfl <;>
        exact writes_groupWith e he id ty _ (by omega) hs2 hsub
    | lst id size ty subs props =>
      cases hc with
      | lst hs hs2 hcs hcp =>
      cases hd with
      | lst hh hds hdp =>
      rw [show (Chunk.lst id size ty subs props).id = id from rfl, (findChunkType_iff hr).mpr hh]
      have hprop := writes_props e he r props 4 (by omega) (by omega) hcp
        (fun c hc => writes_chunk e he hr c 0 (hcp c hc) (hdp c hc))
      have hsub := writes_subs e he r ty subs (4 + (encodeAll props).length) (by omega)
        (by omega) hcs (fun c hc => writes_chunk e he hr c ty (hcs c hc) (hds c hc))
      refine ⟨be 4 ty.toNat ++ (encodeAll props ++ encodeAll subs), size, Int.le_refl _, ?_⟩
      rw [hs]
      rw [hs] at hs2
      exact writes_groupWith e he id ty _ (by omega) hs2
        (subs := fun bp => do
          let (ok, bp') ← Iff.writeListPropChunks e r props bp
          if ok then Iff.writeGroupSubChunks e r ty subs bp' else pure (false, bp'))
        (hprop.seqI (m' := fun bp => Iff.writeGroupSubChunks e r ty subs bp) hsub)
  obtain ⟨body, b, hb, hw⟩ := key
  by_cases hroom : body.length ≤ w.room
  · rw [hw.full w hroom] at h
    cases h
    exact hb
  · obtain ⟨_, _, e', _⟩ := hw.short w (by omega)
    rw [e'] at h
    cases h

/-- What is needed of the zero filler bytes: the allocator grants them, or there are none. -/
def Feeds (A : Alloc) (m : Mem) (e : Env) (r : Registry) (al : Bool) (ft : ID) (c : Chunk) : Prop :=
  (al = true ∧ Fills A m) ∨
    (32 ≤ e.sizeBits ∧ RegistrySorted r ∧ Consistent c ∧ Dispatched r ft c ∧ Filled c)

theorem Feeds.filler {ft : ID} {c : Chunk} (h : Feeds A m e r al ft c) {w w' : WS} {bp : Int}
    (hv : writeFields e r (findChunkType r ft c.id) c w = .val ((true, bp), w')) (w'' : WS) :
    Ref al m w'' (writeZeroFillerBytes A c.id c.size bp)
      (Iff.writeZeroFillerBytes c.id c.size bp w'') := by
  rcases h with ⟨rfl, h⟩ | ⟨he, hr, hc, hd, hf⟩
  · exact ref_filler h _ _ _ _
  · exact ref_nofiller (fields_exact he hr hc hd hf hv) _

theorem Feeds.grp {ft id : ID} {size : Int} {ty : ID} {subs : List Chunk}
    (h : Feeds A m e r al ft (.grp id size ty subs)) : ∀ c ∈ subs, Feeds A m e r al ty c := by
  intro c hcm
  rcases h with h | ⟨he, hr, hc, hd, hf⟩
  · exact .inl h
  · cases hc with
    | grp _ _ hc =>
    cases hd with
    | grp _ _ hd =>
    cases hf with
    | grp hf => exact .inr ⟨he, hr, hc c hcm, hd c hcm, hf c hcm⟩

theorem Feeds.lst {ft id : ID} {size : Int} {ty : ID} {subs props : List Chunk}
    (h : Feeds A m e r al ft (.lst id size ty subs props)) :
    (∀ c ∈ subs, Feeds A m e r al ty c) ∧ ∀ c ∈ props, Feeds A m e r al 0 c := by
  rcases h with h | ⟨he, hr, hc, hd, hf⟩
  · exact ⟨fun _ _ => .inl h, fun _ _ => .inl h⟩
  · cases hc with
    | lst _ _ hc hc' =>
    cases hd with
    | lst _ hd hd' =>
    cases hf with
    | lst hf hf' =>
      exact ⟨fun c h => .inr ⟨he, hr, hc c h, hd c h, hf c h⟩,
        fun c h => .inr ⟨he, hr, hc' c h, hd' c h, hf' c h⟩⟩

theorem writeChunk_ref : ∀ {t : Node} {ft : ID} {k : Nat} {par : Addr} (w : WS),
    Feeds A m e r al ft t.chunk → In m par t → depth t.chunk ≤ k →
    Ref al m w (writeChunk A e r k ft t.addr) (Iff.writeChunk e r ft t.chunk w) := by
  intro t
  induction t using Node.ind with
  | raw a d id size data =>
    intro ft k par w hA hin hk
    cases k with
    | zero => simp [Node.chunk, depth] at hk
    | succ k =>
    have hin' := hin
    simp only [In] at hin'
    refine .find (finds_node hin) (ref_chunkWith hin (fun w => ?_)
      (fun _ _ _ hv w => hA.filler hv w) w)
    simp only [Node.chunk, Chunk.id, writeFields, Node.addr]
    cases findChunkType r ft id with
    | raw => exact ref_raw hin'.1 hin'.2 w
    | ext fields chk =>
      exact .find (finds_hdr hin'.1 rfl) (.stumble (stumbles_ext' hin'.1 (by simp)))
    | list => exact .stumble (stumbles_lst hin'.1 rfl)
    | _ => exact .bind_ub (.stumble (stumbles_grp hin'.1 rfl))
  | ext a id size vals =>
    intro ft k par w hA hin hk
    cases k with
    | zero => simp [Node.chunk, depth] at hk
    | succ k =>
    have hin' := hin
    simp only [In] at hin'
    refine .find (finds_node hin) (ref_chunkWith hin (fun w => ?_)
      (fun _ _ _ hv w => hA.filler hv w) w)
    simp only [Node.chunk, Chunk.id, writeFields, Node.addr]
    cases findChunkType r ft id with
    | raw => exact .stumble (stumbles_raw hin' (by simp))
    | ext fields chk => exact ref_writeExt hin' w
    | list => exact .stumble (stumbles_lst hin' rfl)
    | _ => exact .bind_ub (.stumble (stumbles_grp hin' rfl))
  | grp a arr id size ty subs ih =>
    intro ft k par w hA hin hk
    cases k with
    | zero => simp [Node.chunk, depth] at hk
    | succ k =>
    have hin' := hin
    simp only [In] at hin'
    simp only [Node.chunk, depth] at hk
    have hwc : ∀ n ∈ subs, ∀ w, Ref al m w (writeChunk A e r k ty n.addr)
        (Iff.writeChunk e r ty n.chunk w) := fun n hn w =>
      ih n hn w (hA.grp _ (by rw [Node.chunks_eq]; exact List.mem_map_of_mem hn))
        (inAll_iff.mp hin'.2.2 n hn) (depthAll_le (cs := Node.chunks subs) (by omega) _
        (by rw [Node.chunks_eq]; exact List.mem_map_of_mem hn))
    refine .find (finds_node hin) (ref_chunkWith hin (fun w => ?_)
      (fun _ _ _ hv w => hA.filler hv w) w)
    simp only [Node.chunk, Chunk.id, writeFields, Node.addr]
    cases findChunkType r ft id with
    | raw => exact .stumble (stumbles_raw hin'.1 (by simp))
    | ext fields chk =>
      exact .find (finds_hdr hin'.1 rfl) (.stumble (stumbles_ext' hin'.1 (by simp)))
    | list => exact .stumble (stumbles_lst hin'.1 rfl)
    | _ => exact ref_group hin'.1 rfl rfl rfl hin'.2.1 hin'.2.2 hwc _ w
  | lst a arr parr id size ty subs props ih ih2 =>
    intro ft k par w hA hin hk
    cases k with
    | zero => simp [Node.chunk, depth] at hk
    | succ k =>
    have hin' := hin
    simp only [In] at hin'
    simp only [Node.chunk, depth] at hk
    have hwc : ∀ n ∈ subs, ∀ w, Ref al m w (writeChunk A e r k ty n.addr)
        (Iff.writeChunk e r ty n.chunk w) := fun n hn w =>
      ih n hn w (hA.lst.1 _ (by rw [Node.chunks_eq]; exact List.mem_map_of_mem hn))
        (inAll_iff.mp hin'.2.2.2.1 n hn) (depthAll_le (cs := Node.chunks subs) (by omega)
        _ (by rw [Node.chunks_eq]; exact List.mem_map_of_mem hn))
    have hwp : ∀ n ∈ props, ∀ w, Ref al m w (writeChunk A e r k 0 n.addr)
        (Iff.writeChunk e r 0 n.chunk w) := fun n hn w =>
      ih2 n hn w (hA.lst.2 _ (by rw [Node.chunks_eq]; exact List.mem_map_of_mem hn))
        (inAll_iff.mp hin'.2.2.2.2 n hn) (depthAll_le (cs := Node.chunks props)
        (by omega) _ (by rw [Node.chunks_eq]; exact List.mem_map_of_mem hn))
    refine .find (finds_node hin) (ref_chunkWith hin (fun w => ?_)
      (fun _ _ _ hv w => hA.filler hv w) w)
    simp only [Node.chunk, Chunk.id, writeFields, Node.addr]
    cases findChunkType r ft id with
    | raw => exact .stumble (stumbles_raw hin'.1 (by simp))
    | ext fields chk =>
      exact .find (finds_hdr hin'.1 rfl) (.stumble (stumbles_ext' hin'.1 (by simp)))
    | list =>
      exact ref_list hin'.1 rfl rfl rfl rfl rfl hin'.2.1 hin'.2.2.1 hin'.2.2.2.1 hin'.2.2.2.2
        hwc hwp w
    | _ => exact ref_group hin'.1 rfl rfl rfl hin'.2.1 hin'.2.2.2.1 hwc _ w

end Iff.Heap
