import Verif.Heap.Update
import Verif.Proofs.HeapPath
import Verif.Proofs.Write
/-
  Recomputing sizes.
-/
namespace Iff.Heap

open Spec

theorem setHdr_setHdr {b : Block} {h h' : Hdr} : (b.setHdr h).setHdr h' = b.setHdr h' := by
  cases b <;> rfl

theorem setHdr_grp {b : Block} {h : Hdr} : (b.setHdr h).grp? = b.grp? := by
  cases b <;> rfl

theorem setHdr_lst {b : Block} {h : Hdr} : (b.setHdr h).lst? = b.lst? := by
  cases b <;> rfl

theorem setHdr_self {b : Block} {h : Hdr} (hh : b.hdr? = some h) : b.setHdr h = b := by
  cases b <;> simp_all [Block.hdr?, Block.setHdr]

theorem Mem.set_self {m : Mem} {a : Addr} {x} (h : m a = x) : m.set a x = m := by
  funext y; simp only [Mem.set]; split
  · rw [‹y = a›, h]
  · rfl

theorem array_get {m : Mem} {arr : Addr} {pre post : List Node} {c : Node}
    (h : ArrayIn m arr ((pre ++ c :: post).map Node.addr)) :
    m arr = some (.ptrs (((pre ++ c :: post).map Node.addr).map some)) ∧
    (((pre ++ c :: post).map Node.addr).map some)[pre.length]? = some (some c.addr) := by
  rcases h with h | h
  · simp at h
  · exact ⟨h.2.2, by simp⟩

/-- A chunk struct in memory that declares the size of `c`. -/
def HasSize (m : Mem) (c : Node) : Prop :=
  ∃ b hd, m c.addr = some b ∧ b.hdr? = some hd ∧ hd.size = c.chunk.size

theorem _root_.Iff.Spec.In.hasSize {m : Mem} {par : Addr} {c : Node} (h : In m par c) : HasSize m c := by
  obtain ⟨b, h1, h2⟩ := h.hdr
  exact ⟨b, _, h1, h2, rfl⟩

theorem increment_encode {e : Env} (he : 32 ≤ e.sizeBits) {z : Int} {c : Chunk}
    (hc : Consistent c) (hz : 0 ≤ z) (hb : z + ((encode c).length : Int) < 2147483648) :
    incrementChunkSize e z c.size = .val (z + (encode c).length) := by
  have h1 := hc.length
  have h2 := hc.range
  rw [incrementChunkSize_ok e he hz h2.1 (by omega), h1]

theorem sumMembers_run {e : Env} (he : 32 ≤ e.sizeBits) {p : Addr} {g : Grp} {par : Addr} {id : ID} :
    ∀ (post pre : List Node) (s : HS) (b : Block) (z : Int),
      s.mem p = some b → b.hdr? = some ⟨par, id, z⟩ → b.grp? = some g →
      ArrayIn s.mem g.arr ((pre ++ post).map Node.addr) →
      (∀ c ∈ post, c.addr ≠ p) → (∀ c ∈ post, HasSize s.mem c) →
      (∀ c ∈ post, Consistent c.chunk) → 0 ≤ z →
      z + ((encodeAll (Node.chunks post)).length : Int) < 2147483648 →
      sumMembers e p post.length pre.length s = .val ((), { s with
        mem := s.mem.set p
          (some (b.setHdr ⟨par, id, z + ((encodeAll (Node.chunks post)).length : Int)⟩)) }) := by
  intro post
  induction post with
  | nil =>
    intro pre s b z hp hh hg harr hne hs hc hz hb
    simp only [List.length_nil, sumMembers, M.pure_apply, Node.chunks_nil, encodeAll,
      Int.natCast_zero, Int.add_zero]
    rw [setHdr_self hh, Mem.set_self hp]
  | cons c cs ih =>
    intro pre s b z hp hh hg harr hne hs hc hz hb
    obtain ⟨harr1, harr2⟩ := array_get harr
    obtain ⟨bc, hd, hbc, hhd, hsz⟩ := hs c (by simp)
    simp only [Node.chunks_cons, encodeAll, List.length_append, Int.natCast_add] at hb ⊢
    have hinc := increment_encode he (hc c (by simp)) hz (by omega)
    have harrne : g.arr ≠ p := by
      rintro h; rw [h, hp] at harr1; cases harr1; cases hh
    simp only [List.length_cons, sumMembers, M.bind_apply, getHdr_eq hp hh, getGrp_eq hp hg,
      getPtr_eq harr1 harr2, getHdr_eq hbc hhd, hsz, M.ofOut, hinc, updHdr_eq hp hh]
    have := ih (pre ++ [c])
      { s with mem := s.mem.set p (some (b.setHdr ⟨par, id, z + (encode c.chunk).length⟩)) }
      (b.setHdr ⟨par, id, z + (encode c.chunk).length⟩) (z + (encode c.chunk).length)
      (Mem.set_same _ _ _) (hdr_setHdr hh) (by rw [setHdr_grp]; exact hg)
      (by
        rw [List.append_assoc]
        exact harr.frame fun _ => Mem.set_ne harrne)
      (fun d hd => hne d (by simp [hd]))
      (fun d hd => by
        obtain ⟨b', h', h1, h2, h3⟩ := hs d (by simp [hd])
        exact ⟨b', h', by show Mem.set _ _ _ _ = _; rw [Mem.set_ne (hne d (by simp [hd])), h1], h2, h3⟩)
      (fun d hd => hc d (by simp [hd])) (by omega) (by omega)
    simp only [List.length_append, List.length_singleton] at this
    rw [this]
    simp only [Mem.set_set, setHdr_setHdr, Int.add_assoc]

theorem sumProps_run {e : Env} (he : 32 ≤ e.sizeBits) {p : Addr} {g : Lst} {par : Addr} {id : ID} :
    ∀ (post pre : List Node) (s : HS) (b : Block) (z : Int),
      s.mem p = some b → b.hdr? = some ⟨par, id, z⟩ → b.lst? = some g →
      ArrayIn s.mem g.parr ((pre ++ post).map Node.addr) →
      (∀ c ∈ post, c.addr ≠ p) → (∀ c ∈ post, HasSize s.mem c) →
      (∀ c ∈ post, Consistent c.chunk) → 0 ≤ z →
      z + ((encodeAll (Node.chunks post)).length : Int) < 2147483648 →
      sumProps e p post.length pre.length s = .val ((), { s with
        mem := s.mem.set p
          (some (b.setHdr ⟨par, id, z + ((encodeAll (Node.chunks post)).length : Int)⟩)) }) := by
  intro post
  induction post with
  | nil =>
    intro pre s b z hp hh hg harr hne hs hc hz hb
    simp only [List.length_nil, sumProps, M.pure_apply, Node.chunks_nil, encodeAll,
      Int.natCast_zero, Int.add_zero]
    rw [setHdr_self hh, Mem.set_self hp]
  | cons c cs ih =>
    intro pre s b z hp hh hg harr hne hs hc hz hb
    obtain ⟨harr1, harr2⟩ := array_get harr
    obtain ⟨bc, hd, hbc, hhd, hsz⟩ := hs c (by simp)
    simp only [Node.chunks_cons, encodeAll, List.length_append, Int.natCast_add] at hb ⊢
    have hinc := increment_encode he (hc c (by simp)) hz (by omega)
    have harrne : g.parr ≠ p := by
      rintro h; rw [h, hp] at harr1; cases harr1; cases hh
    simp only [List.length_cons, sumProps, M.bind_apply, getHdr_eq hp hh, getLst_eq hp hg,
      getPtr_eq harr1 harr2, getHdr_eq hbc hhd, hsz, M.ofOut, hinc, updHdr_eq hp hh]
    have := ih (pre ++ [c])
      { s with mem := s.mem.set p (some (b.setHdr ⟨par, id, z + (encode c.chunk).length⟩)) }
      (b.setHdr ⟨par, id, z + (encode c.chunk).length⟩) (z + (encode c.chunk).length)
      (Mem.set_same _ _ _) (hdr_setHdr hh) (by rw [setHdr_lst]; exact hg)
      (by
        rw [List.append_assoc]
        exact harr.frame fun _ => Mem.set_ne harrne)
      (fun d hd => hne d (by simp [hd]))
      (fun d hd => by
        obtain ⟨b', h', h1, h2, h3⟩ := hs d (by simp [hd])
        exact ⟨b', h', by show Mem.set _ _ _ _ = _; rw [Mem.set_ne (hne d (by simp [hd])), h1], h2, h3⟩)
      (fun d hd => hc d (by simp [hd])) (by omega) (by omega)
    simp only [List.length_append, List.length_singleton] at this
    rw [this]
    simp only [Mem.set_set, setHdr_setHdr, Int.add_assoc]

/-- The chunk with another declared size. -/
def Node.setSize (z : Int) : Node → Node
  | .raw a d id _ data => .raw a d id z data
  | .grp a arr id _ ty subs => .grp a arr id z ty subs
  | .lst a arr parr id _ ty subs props => .lst a arr parr id z ty subs props
  | .ext a id _ vals => .ext a id z vals

/-- Changing the declared size in memory. -/
theorem In.setSize {m : Mem} {t : Node} {par : Addr} {b : Block} {hd : Hdr} {z : Int}
    (h : In m par t) (hnd : t.blocks.Nodup) (hb : m t.addr = some b) (hh : b.hdr? = some hd) :
    In (m.set t.addr (some (b.setHdr { hd with size := z }))) par (Node.setSize z t) := by
  cases t with
  | raw a d id size data =>
    simp only [In, Node.addr, Node.setSize] at h hb ⊢
    rw [h.1] at hb; cases hb; cases hh
    refine ⟨Mem.set_same _ _ _, (Mem.set_ne ?_).trans h.2⟩
    exact rest_ne hnd d (by simp)
  | ext a id size vals =>
    simp only [In, Node.addr, Node.setSize] at h hb ⊢
    rw [h] at hb; cases hb; cases hh
    exact Mem.set_same _ _ _
  | grp a arr id size ty subs =>
    simp only [In, Node.addr, Node.setSize] at h hb ⊢
    rw [h.1] at hb; cases hb; cases hh
    have hr := rest_ne hnd
    refine ⟨Mem.set_same _ _ _, h.2.1.frame fun h2 => ?_, h.2.2.frame fun x hx => ?_⟩
    · exact Mem.set_ne (hr arr (by simp [h2]))
    · exact Mem.set_ne (hr x (by simp [hx]))
  | lst a arr parr id size ty subs props =>
    simp only [In, Node.addr, Node.setSize] at h hb ⊢
    rw [h.1] at hb; cases hb; cases hh
    have hr := rest_ne hnd
    refine ⟨Mem.set_same _ _ _, h.2.1.frame fun h2 => ?_, h.2.2.1.frame fun h2 => ?_,
      h.2.2.2.1.frame fun x hx => ?_, h.2.2.2.2.frame fun x hx => ?_⟩
    · exact Mem.set_ne (hr arr (by simp [h2]))
    · exact Mem.set_ne (hr parr (by simp [h2]))
    · exact Mem.set_ne (hr x (by simp [hx]))
    · exact Mem.set_ne (hr x (by simp [hx]))

@[simp] theorem repair_addr (t : Node) : t.repair.addr = t.addr := by cases t <;> rfl

@[simp] theorem repair_blocks (t : Node) : t.repair.blocks = t.blocks := by
  cases t <;> simp [Node.repair, Node.blocks]

/-- A chunk with consistent contents and its own size corrected is consistent. -/
theorem repair_consistent {t : Node} (h : SoundInside t) (hs : t.repair.chunk.size < 2147483648) :
    Consistent t.repair.chunk := by
  cases t with
  | raw => exact h
  | ext => exact h
  | grp a arr id size ty subs =>
    simp only [Node.repair, Node.chunk, Chunk.size] at hs ⊢
    refine .grp rfl hs fun c hc => ?_
    rw [Node.chunks_eq] at hc
    obtain ⟨n, hn, rfl⟩ := List.mem_map.mp hc
    exact h n hn
  | lst a arr parr id size ty subs props =>
    simp only [Node.repair, Node.chunk, Chunk.size] at hs ⊢
    refine .lst rfl hs (fun c hc => ?_) fun c hc => ?_
    · rw [Node.chunks_eq] at hc
      obtain ⟨n, hn, rfl⟩ := List.mem_map.mp hc
      exact h.1 n hn
    · rw [Node.chunks_eq] at hc
      obtain ⟨n, hn, rfl⟩ := List.mem_map.mp hc
      exact h.2 n hn

theorem encodeAll_append (xs ys : List Chunk) :
    encodeAll (xs ++ ys) = encodeAll xs ++ encodeAll ys := by
  induction xs with
  | nil => simp [encodeAll]
  | cons c cs ih => simp [encodeAll, ih]

theorem fill_size {f : Frame} {t : Node} :
    ((encode t.chunk).length : Int) ≤ (f.fill t).repair.chunk.size := by
  cases f <;>
    simp only [Frame.fill, Node.repair, Node.chunk, Chunk.size, Node.chunks_eq, List.map_append,
      List.map_cons, encodeAll_append, encodeAll, List.length_append, Int.natCast_add] <;> omega

theorem size_le_encode {t : Node} (h : SoundInside t) :
    t.repair.chunk.size ≤ (encode t.repair.chunk).length := by
  cases t with
  | raw =>
    have := Consistent.length h
    have h2 := Consistent.range h
    simp only [Node.repair]; omega
  | ext =>
    have := Consistent.length h
    have h2 := Consistent.range h
    simp only [Node.repair]; omega
  | grp a arr id size ty subs =>
    simp only [Node.repair, Node.chunk, Chunk.size, encode, List.length_append, header, be_length,
      Int.natCast_add]
    omega
  | lst a arr parr id size ty subs props =>
    simp only [Node.repair, Node.chunk, Chunk.size, encode, List.length_append, header, be_length,
      Int.natCast_add]
    omega

theorem fill_sound {f : Frame} {t : Node} (ho : ∀ c ∈ f.others, Consistent c.chunk)
    (ht : Consistent t.chunk) : SoundInside (f.fill t) := by
  cases f with
  | grp a arr id size ty pre post =>
    simp only [Frame.fill, SoundInside]
    intro c hc
    rcases List.mem_append.mp hc with h | h
    · exact ho c (by simp [Frame.others, h])
    · rcases List.mem_cons.mp h with rfl | h
      · exact ht
      · exact ho c (by simp [Frame.others, h])
  | sub a arr parr id size ty pre post props =>
    simp only [Frame.fill, SoundInside]
    refine ⟨fun c hc => ?_, fun c hc => ho c (by simp [Frame.others, hc])⟩
    rcases List.mem_append.mp hc with h | h
    · exact ho c (by simp [Frame.others, h])
    · rcases List.mem_cons.mp h with rfl | h
      · exact ht
      · exact ho c (by simp [Frame.others, h])
  | prop a arr parr id size ty subs pre post =>
    simp only [Frame.fill, SoundInside]
    refine ⟨fun c hc => ho c (by simp [Frame.others, hc]), fun c hc => ?_⟩
    rcases List.mem_append.mp hc with h | h
    · exact ho c (by simp [Frame.others, h])
    · rcases List.mem_cons.mp h with rfl | h
      · exact ht
      · exact ho c (by simp [Frame.others, h])

theorem repairAll_size : ∀ (fs : List Frame) (t : Node), SoundInside t →
    (∀ f ∈ fs, ∀ c ∈ f.others, Consistent c.chunk) →
    (repairAll fs t).chunk.size < 2147483648 →
    t.repair.chunk.size < 2147483648 ∧ Consistent (repairAll fs t).chunk
  | [], t, h, _, hs => ⟨hs, repair_consistent h hs⟩
  | f :: fs, t, h, ho, hs => by
    simp only [repairAll] at hs ⊢
    have hx := size_le_encode h
    have hy := fill_size (f := f) (t := t.repair)
    -- the size of the member is below that of the group
    have key : t.repair.chunk.size < 2147483648 := by
      by_cases hlt : t.repair.chunk.size < 2147483648
      · exact hlt
      · exfalso
        have hmono : ∀ (fs : List Frame) (u : Node), Node.IsGroup u →
            u.repair.chunk.size ≤ (repairAll fs u).chunk.size := by
          intro fs
          induction fs with
          | nil => intro u _; exact Int.le_refl _
          | cons f fs ih =>
            intro u hu
            simp only [repairAll]
            have h1 : u.repair.chunk.size ≤ (encode u.repair.chunk).length := by
              cases u with
              | raw => exact hu.elim
              | ext => exact hu.elim
              | grp a arr id size ty subs =>
                simp only [Node.repair, Node.chunk, Chunk.size, encode, List.length_append, header,
                  be_length, Int.natCast_add]
                omega
              | lst a arr parr id size ty subs props =>
                simp only [Node.repair, Node.chunk, Chunk.size, encode, List.length_append, header,
                  be_length, Int.natCast_add]
                omega
            have h2 := fill_size (f := f) (t := u.repair)
            have h3 := ih (f.fill u.repair) (by cases f <;> trivial)
            omega
        have := hmono fs (f.fill t.repair) (by cases f <;> trivial)
        omega
    have hc := repair_consistent h key
    exact ⟨key, (repairAll_size fs (f.fill t.repair)
      (fill_sound (ho f (by simp)) hc) (fun g hg => ho g (by simp [hg])) hs).2⟩

/-- The struct type of a chunk goes with its ID. -/
def IdOk : Chunk → Prop
  | .raw id _ _ => id ≠ idFORM ∧ id ≠ idCAT ∧ id ≠ idLIST ∧ id ≠ idPROP
  | .ext id _ _ => id ≠ idFORM ∧ id ≠ idCAT ∧ id ≠ idLIST ∧ id ≠ idPROP
  | .grp id _ _ _ => id = idFORM ∨ id = idCAT ∨ id = idPROP
  | .lst id _ _ _ _ => id = idLIST

theorem _root_.Iff.Spec.Typed.idOk {c : Chunk} (h : Typed c) : IdOk c := by
  cases h <;> simp_all [IdOk]

theorem typed_fill {f : Frame} {t : Node} (h : Typed (f.fill t).chunk) :
    Typed t.chunk ∧ ∀ u, IdOk (f.fill u).chunk := by
  cases f <;> simp only [Frame.fill, Node.chunk, IdOk] at h ⊢ <;> cases h
  · rename_i h1 h2
    exact ⟨h2 _ (by simp [Node.chunks_eq]), fun _ => h1⟩
  · rename_i h1 h2 h3 h4
    exact ⟨h2 _ (by simp [Node.chunks_eq]), fun _ => h1⟩
  · rename_i h1 h2 h3 h4
    exact ⟨h3 _ (by simp [Node.chunks_eq]), fun _ => h1⟩

theorem typed_plug : ∀ {fs : List Frame} {t : Node}, Typed (plug fs t).chunk →
    Typed t.chunk ∧ ∀ f ∈ fs, ∀ u, IdOk (f.fill u).chunk
  | [], _, h => ⟨h, by simp⟩
  | f :: fs, t, h => by
    have h1 := typed_plug (fs := fs) h
    have h2 := typed_fill h1.1
    refine ⟨h2.1, fun g hg => ?_⟩
    rcases List.mem_cons.mp hg with rfl | hg
    · exact h2.2
    · exact h1.2 g hg

theorem addr_ne {a : Addr} {xs : List Node} {l : List Addr} (hnd : (a :: l).Nodup)
    (hl : ∀ x ∈ Node.blocksAll xs, x ∈ l) : ∀ c ∈ xs, c.addr ≠ a := by
  intro c hc h
  exact (List.nodup_cons.mp hnd).1 (hl a (Node.mem_blocksAll.mpr ⟨c, hc, h ▸ c.addr_mem⟩))

/-- What `IFF_updateChunkSizes` does to the chunk it is called with. -/
theorem updateOne {e : Env} (he : 32 ≤ e.sizeBits) {s : HS} {par : Addr} {t : Node}
    (hin : In s.mem par t) (hnd : t.blocks.Nodup) (ht : IdOk t.chunk) (hs : SoundInside t)
    (hb : t.repair.chunk.size < 2147483648) :
    ∃ m', updateOwnSize e t.addr s = .val ((), { s with mem := m' }) ∧
      In m' par t.repair ∧ (∀ a, a ≠ t.addr → m' a = s.mem a) ∧
      OnlySize s.mem m' t.addr := by
  obtain ⟨b, hbm, hbh⟩ := hin.hdr
  have hself : OnlySize s.mem s.mem t.addr := ⟨b, _, t.chunk.size, hbm, hbh, by
    rw [hbm]; exact congrArg some (setHdr_self hbh).symm⟩
  obtain ⟨i, hi⟩ : ∃ i, t.chunk.id = i := ⟨_, rfl⟩
  rw [hi] at hbh
  simp only [updateOwnSize, M.bind_apply, getHdr_eq hbm hbh]
  cases t with
  | raw a d id size data =>
    simp only [IdOk, Node.chunk, Chunk.id] at ht hi
    subst hi
    rw [if_neg ht.1, if_neg ht.2.2.2, if_neg ht.2.1, if_neg ht.2.2.1]
    exact ⟨s.mem, rfl, hin, fun _ _ => rfl, hself⟩
  | ext a id size vals =>
    simp only [IdOk, Node.chunk, Chunk.id] at ht hi
    subst hi
    rw [if_neg ht.1, if_neg ht.2.2.2, if_neg ht.2.1, if_neg ht.2.2.1]
    exact ⟨s.mem, rfl, hin, fun _ _ => rfl, hself⟩
  | grp a arr id size ty subs =>
    simp only [IdOk, Node.chunk, Chunk.id, SoundInside, Node.addr, Chunk.size] at ht hs hbm hbh hself hi ⊢
    subst hi
    have hcode : ∀ X : M HS Unit, (if id = idFORM then updateGroupSizes e a
        else if id = idPROP then updateGroupSizes e a
        else if id = idCAT then updateGroupSizes e a
        else X) = updateGroupSizes e a := by
      intro X
      rcases ht with h | h | h <;> simp [h]
    rw [hcode]
    have hin' := hin
    simp only [In] at hin'
    simp only [Node.repair, Node.chunk, Chunk.size] at hb
    have hne := addr_ne (xs := subs) hnd (by simp +contextual)
    rw [hin'.1] at hbm; cases hbm
    have hrun := sumMembers_run he (g := ⟨ty, subs.length, arr⟩) (par := par) (id := id) subs []
      { s with mem := s.mem.set a (some (.grp ⟨par, id, 4⟩ ty subs.length arr)) }
      (.grp ⟨par, id, 4⟩ ty subs.length arr) 4 (Mem.set_same _ _ _) rfl rfl
      (hin'.2.1.frame fun h0 => Mem.set_ne (rest_ne hnd arr (by simp [h0])))
      hne
      (fun c hc => by
        obtain ⟨b, hd, h1, h2, h3⟩ := (inAll_iff.mp hin'.2.2 c hc).hasSize
        exact ⟨b, hd, (Mem.set_ne (hne c hc)).trans h1, h2, h3⟩) hs (by omega) hb
    simp only [Mem.set_set] at hrun
    refine ⟨s.mem.set a (some (.grp ⟨par, id, 4 + ((encodeAll (Node.chunks subs)).length : Int)⟩ ty
      subs.length arr)), ?_, ?_, ?_, ?_⟩
    · simp only [updateGroupSizes, M.bind_apply, updHdr_eq hin'.1 hbh]
      rw [getGrp_eq (s := { s with mem := _ }) (Mem.set_same _ _ _)
        (g := ⟨ty, subs.length, arr⟩) rfl]
      exact hrun
    · exact In.setSize hin hnd hin'.1 hbh
    · intro x hx
      simp only [Mem.set_ne hx]
    · exact ⟨_, _, _, hin'.1, hbh, by simp only [Mem.set_same]; rfl⟩
  | lst a arr parr id size ty subs props =>
    simp only [IdOk, Node.chunk, Chunk.id, SoundInside, Node.addr, Chunk.size] at ht hs hbm hbh hself hi ⊢
    subst hi ht
    rw [if_neg (by decide), if_neg (by decide), if_neg (by decide), if_pos rfl]
    have hin' := hin
    simp only [In] at hin'
    obtain ⟨h1, h2, h3, h4, h5⟩ := hin'
    simp only [Node.repair, Node.chunk, Chunk.size] at hb
    have hne := addr_ne (xs := subs) hnd (by simp +contextual)
    have hnep := addr_ne (xs := props) hnd (by simp +contextual)
    rw [h1] at hbm; cases hbm
    have hrun := sumMembers_run he (g := ⟨ty, subs.length, arr⟩) (par := par) (id := idLIST) subs []
      { s with mem := s.mem.set a (some (.lst ⟨par, idLIST, 4⟩ ty subs.length arr props.length parr)) }
      (.lst ⟨par, idLIST, 4⟩ ty subs.length arr props.length parr) 4 (Mem.set_same _ _ _) rfl rfl
      (h2.frame fun h0 => Mem.set_ne (rest_ne hnd arr (by simp [h0])))
      hne
      (fun c hc => by
        obtain ⟨b, hd, h1, h2, h3⟩ := (inAll_iff.mp h4 c hc).hasSize
        exact ⟨b, hd, (Mem.set_ne (hne c hc)).trans h1, h2, h3⟩) hs.1 (by omega) (by omega)
    simp only [Mem.set_set] at hrun
    have hrunp := sumProps_run he (g := ⟨props.length, parr⟩) (par := par) (id := idLIST) props []
      { s with mem := s.mem.set a (some (.lst ⟨par, idLIST,
        4 + ((encodeAll (Node.chunks subs)).length : Int)⟩ ty subs.length arr props.length parr)) }
      (.lst ⟨par, idLIST, 4 + ((encodeAll (Node.chunks subs)).length : Int)⟩ ty subs.length arr
        props.length parr) (4 + ((encodeAll (Node.chunks subs)).length : Int))
      (Mem.set_same _ _ _) rfl rfl
      (h3.frame fun h0 => Mem.set_ne (rest_ne hnd parr (by simp [h0])))
      hnep
      (fun c hc => by
        obtain ⟨b, hd, h1, h2, h3⟩ := (inAll_iff.mp h5 c hc).hasSize
        exact ⟨b, hd, (Mem.set_ne (hnep c hc)).trans h1, h2, h3⟩) hs.2 (by omega) (by omega)
    simp only [Mem.set_set] at hrunp
    refine ⟨s.mem.set a (some (.lst ⟨par, idLIST, 4 + ((encodeAll (Node.chunks subs)).length : Int) +
      ((encodeAll (Node.chunks props)).length : Int)⟩ ty subs.length arr props.length parr)),
      ?_, ?_, ?_, ?_⟩
    · simp only [updateListSizes, updateGroupSizes, M.bind_apply, updHdr_eq h1 hbh]
      rw [getGrp_eq (s := { s with mem := _ }) (Mem.set_same _ _ _)
        (g := ⟨ty, subs.length, arr⟩) rfl]
      simp only [List.length_nil] at hrun
      simp only [Block.setHdr, idSize, Int.cast_ofNat_Int] at hrun ⊢
      rw [hrun]
      simp only
      rw [getLst_eq (s := { s with mem := _ }) (Mem.set_same _ _ _)
        (l := ⟨props.length, parr⟩) rfl]
      exact hrunp
    · have := In.setSize (z := 4 + ((encodeAll (Node.chunks props)).length : Int)
        + ((encodeAll (Node.chunks subs)).length : Int)) hin hnd h1 hbh
      simp only [Node.setSize, Node.addr, Block.setHdr] at this
      rw [Int.add_right_comm]
      exact this
    · intro x hx
      simp only [Mem.set_ne hx]
    · exact ⟨_, _, _, h1, hbh, by simp only [Mem.set_same]; rfl⟩

/-- What `IFF_updateChunkSizes` does. -/
theorem updateSizes_spec {e : Env} (he : 32 ≤ e.sizeBits) : ∀ (fs : List Frame) (n : Nat) (t : Node)
    (s : HS), fs.length < n → In s.mem 0 (plug fs t) → (plug fs t).blocks.Nodup → s.mem 0 = none →
    IdOk t.chunk → (∀ f ∈ fs, ∀ u, IdOk (f.fill u).chunk) → SoundInside t →
    (∀ f ∈ fs, ∀ c ∈ f.others, Consistent c.chunk) →
    (repairAll fs t).chunk.size < 2147483648 →
    ∃ m', updateSizes e n t.addr s = .val ((), { s with mem := m' }) ∧
      In m' 0 (repairAll fs t) ∧
      (∀ a, a ∉ t.addr :: fs.map Frame.addr → m' a = s.mem a) ∧
      (∀ a ∈ t.addr :: fs.map Frame.addr, OnlySize s.mem m' a) := by
  intro fs
  induction fs with
  | nil =>
    intro n t s hn hin hnd h0 ht htf hs ho hb
    obtain ⟨n, rfl⟩ : ∃ k, n = k + 1 := ⟨n - 1, by simp at hn; omega⟩
    simp only [plug] at hin hnd
    obtain ⟨m', h1, h2, h3, h4⟩ := updateOne he hin hnd ht hs hb
    obtain ⟨b', hb1, hb2⟩ := h2.hdr
    rw [repair_addr] at hb1
    refine ⟨m', ?_, h2, fun a ha => h3 a (by simpa using ha), fun a ha => ?_⟩
    · simp only [updateSizes, M.bind_apply, h1]
      rw [getHdr_eq (s := { s with mem := m' }) hb1 hb2]
      rfl
    · simp only [List.map_nil, List.mem_singleton] at ha
      rw [ha]; exact h4
  | cons f fs ih =>
    intro n t s hn hin hnd h0 ht htf hs ho hb
    obtain ⟨n, rfl⟩ : ∃ k, n = k + 1 := ⟨n - 1, by simp at hn; omega⟩
    obtain ⟨hpath, hint⟩ := in_plug.mp hin
    have hperm := plug_blocks (f :: fs) t
    have hnd' := hperm.nodup_iff.mp hnd
    rw [List.nodup_append] at hnd'
    have hsz := repairAll_size (f :: fs) t hs ho hb
    obtain ⟨m', h1, h2, h3, h4⟩ := updateOne he hint hnd'.2.1 ht hs hsz.1
    have hpath' : PathIn m' 0 (f :: fs) t.addr := hpath.frame fun a ha =>
      h3 a fun h => hnd'.2.2 a ha _ t.addr_mem h
    have hin' : In m' 0 (plug fs (f.fill t.repair)) :=
      in_plug (fs := f :: fs) (t := t.repair) |>.mpr ⟨by rw [repair_addr]; exact hpath', h2⟩
    have htne : t.addr ≠ 0 := hint.ne_zero h0 t.addr_mem
    have hfne : f.addr ≠ 0 := hin.ne_zero h0 (hperm.mem_iff.mpr (by
      simp [pathBlocks, f.addr_mem]))
    have hfilled : (plug fs (f.fill t.repair)).blocks.Nodup := by
      have h := (plug_blocks (f :: fs) t.repair).nodup_iff
      rw [repair_blocks] at h
      exact h.mpr (hperm.nodup_iff.mp hnd)
    obtain ⟨m'', g1, g2, g3, g4⟩ := ih n (f.fill t.repair) { s with mem := m' } (by simpa using hn)
      hin' hfilled ((h3 0 htne.symm).trans h0) (htf f (by simp) _) (fun g hg => htf g (by simp [hg]))
      (fill_sound (ho f (by simp)) (repair_consistent hs hsz.1)) (fun g hg => ho g (by simp [hg])) hb
    obtain ⟨b', hb1, hb2⟩ := h2.hdr
    rw [repair_addr] at hb1
    simp only [Frame.fill_addr] at g1 g3 g4
    -- the address of the chunk is not one of the enclosing groups
    have hnot : t.addr ∉ f.addr :: fs.map Frame.addr := by
      intro h
      have : ∀ (gs : List Frame) a, a ∈ gs.map Frame.addr → a ∈ pathBlocks gs := by
        intro gs
        induction gs with
        | nil => simp
        | cons g gs ih =>
          intro a ha
          simp only [List.map_cons, List.mem_cons] at ha
          rcases ha with rfl | ha
          · simp [pathBlocks, g.addr_mem]
          · simp [pathBlocks, ih a ha]
      exact hnd'.2.2 t.addr (this (f :: fs) t.addr h) _ t.addr_mem rfl
    refine ⟨m'', ?_, g2, fun a ha => ?_, fun a ha => ?_⟩
    · simp only [updateSizes, M.bind_apply, h1]
      rw [getHdr_eq (s := { s with mem := m' }) hb1 hb2]
      show (if f.addr ≠ 0 then updateSizes e n f.addr else pure ()) _ = _
      rw [if_pos hfne]
      exact g1
    · simp only [List.map_cons, List.mem_cons, not_or] at ha
      rw [g3 a (by simp [ha.2]), h3 a ha.1]
    · simp only [List.map_cons, List.mem_cons] at ha
      by_cases hat : a = t.addr
      · subst hat
        obtain ⟨b, hd, z, k1, k2, k3⟩ := h4
        exact ⟨b, hd, z, k1, k2, by rw [g3 _ hnot]; exact k3⟩
      · obtain ⟨b, hd, z, k1, k2, k3⟩ := g4 a (by
          rcases ha with h | h
          · exact absurd h hat
          · simpa using h)
        exact ⟨b, hd, z, by rw [← h3 a hat]; exact k1, k2, k3⟩

end Iff.Heap
