import Verif.Spec.Links
import Verif.Proofs.HeapUpdate
/-
  Memories that hold several hierarchies.
-/
namespace Iff.Spec

open Iff.Heap

/-- The memory `m` is the memory `m₀` with exactly the blocks of the hierarchies `ts` added. -/
structure Forest (m₀ m : Mem) (ts : List Node) : Prop where
  null : m 0 = none
  isIn : ∀ t ∈ ts, In m 0 t
  distinct : (Node.blocksAll ts).Nodup
  adds : Adds m₀ m (Node.blocksAll ts)

theorem blocksAll_perm {ts us : List Node} (h : ts.Perm us) :
    (Node.blocksAll ts).Perm (Node.blocksAll us) := by
  induction h with
  | nil => exact .refl _
  | cons x _ ih => simp only [Node.blocksAll_cons]; exact ih.append_left _
  | swap x y l =>
    simp only [Node.blocksAll_cons, ← List.append_assoc]
    exact List.perm_append_comm.append_right _
  | trans _ _ ih1 ih2 => exact ih1.trans ih2

theorem Forest.perm {m₀ m : Mem} {ts us : List Node} (h : Forest m₀ m ts) (hp : ts.Perm us) :
    Forest m₀ m us :=
  ⟨h.null, fun t ht => h.isIn t (hp.mem_iff.mpr ht), (blocksAll_perm hp).nodup_iff.mp h.distinct,
    (Adds.congr fun _ => (blocksAll_perm hp).mem_iff).mp h.adds⟩

theorem Forest.start {m : Mem} (h0 : m 0 = none) : Forest m m [] :=
  ⟨h0, by simp, by simp, ⟨by simp, fun _ _ => rfl⟩⟩

/-! ### Positions -/

theorem plug_append : ∀ (fs gs : List Frame) (t : Node), plug (fs ++ gs) t = plug gs (plug fs t)
  | [], _, _ => rfl
  | f :: fs, gs, t => by simp only [List.cons_append, plug]; exact plug_append fs gs _

/-- Every struct of a hierarchy is at some position. -/
theorem locate {m : Mem} {x : Addr} {b : Block} {h : Hdr} (hb : m x = some b)
    (hh : b.hdr? = some h) : ∀ {t : Node} {par : Addr}, In m par t → x ∈ t.blocks →
    ∃ fs g, t = plug fs g ∧ g.addr = x := by
  have noarr : ∀ {arr : Addr} {ps : List Addr}, ArrayIn m arr ps → arr ≠ 0 → x ≠ arr := by
    rintro arr ps (⟨_, h0⟩ | ⟨_, _, h1⟩) hne rfl
    · exact hne h0
    · rw [hb] at h1; cases h1; cases hh
  intro t
  induction t using Node.ind with
  | raw a d id size data =>
    intro par hin hx
    simp only [In] at hin
    simp only [Node.blocks, List.mem_cons, List.not_mem_nil, or_false] at hx
    rcases hx with rfl | rfl
    · exact ⟨[], _, rfl, rfl⟩
    · rw [hb] at hin; cases hin.2; cases hh
  | ext a id size vals =>
    intro par hin hx
    simp only [Node.blocks, List.mem_cons, List.not_mem_nil, or_false] at hx
    subst hx
    exact ⟨[], _, rfl, rfl⟩
  | grp a arr id size ty subs ih =>
    intro par hin hx
    simp only [In] at hin
    simp only [Node.blocks, List.cons_append, List.mem_cons, List.mem_append] at hx
    rcases hx with rfl | hx | hx
    · exact ⟨[], _, rfl, rfl⟩
    · split at hx
      · cases hx
      · rename_i hne
        rw [List.mem_singleton] at hx
        exact absurd hx (noarr hin.2.1 hne)
    · obtain ⟨c, hc, hxc⟩ := Node.mem_blocksAll.mp hx
      obtain ⟨fs, g, rfl, hg⟩ := ih c hc (inAll_iff.mp hin.2.2 c hc) hxc
      obtain ⟨pre, post, hs⟩ := List.append_of_mem hc
      exact ⟨fs ++ [.grp a arr id size ty pre post], g, by
        rw [plug_append, hs]; rfl, hg⟩
  | lst a arr parr id size ty subs props ih ih2 =>
    intro par hin hx
    simp only [In] at hin
    simp only [Node.blocks, List.cons_append, List.mem_cons, List.mem_append] at hx
    rcases hx with rfl | ((hx | hx) | hx) | hx
    · exact ⟨[], _, rfl, rfl⟩
    · split at hx
      · cases hx
      · rename_i hne
        rw [List.mem_singleton] at hx
        exact absurd hx (noarr hin.2.1 hne)
    · split at hx
      · cases hx
      · rename_i hne
        rw [List.mem_singleton] at hx
        exact absurd hx (noarr hin.2.2.1 hne)
    · obtain ⟨c, hc, hxc⟩ := Node.mem_blocksAll.mp hx
      obtain ⟨fs, g, rfl, hg⟩ := ih c hc (inAll_iff.mp hin.2.2.2.1 c hc) hxc
      obtain ⟨pre, post, hs⟩ := List.append_of_mem hc
      exact ⟨fs ++ [.sub a arr parr id size ty pre post props], g, by
        rw [plug_append, hs]; rfl, hg⟩
    · obtain ⟨c, hc, hxc⟩ := Node.mem_blocksAll.mp hx
      obtain ⟨fs, g, rfl, hg⟩ := ih2 c hc (inAll_iff.mp hin.2.2.2.2 c hc) hxc
      obtain ⟨pre, post, hs⟩ := List.append_of_mem hc
      exact ⟨fs ++ [.prop a arr parr id size ty subs pre post], g, by
        rw [plug_append, hs]; rfl, hg⟩

/-- Every struct of the application is at a position in one of its hierarchies. -/
theorem Forest.locate {m₀ m : Mem} {ts : List Node} (hf : Forest m₀ m ts) {x : Addr} {b : Block}
    {h : Hdr} (hx : m₀ x = none) (hb : m x = some b) (hh : b.hdr? = some h) :
    ∃ fs g, plug fs g ∈ ts ∧ g.addr = x ∧ In m (pathParent 0 fs) g ∧ PathIn m 0 fs g.addr ∧
      h.parent = pathParent 0 fs := by
  have hm : x ∈ Node.blocksAll ts := by
    by_cases hm : x ∈ Node.blocksAll ts
    · exact hm
    · rw [hf.adds.2 x hm, hx] at hb; cases hb
  obtain ⟨t, ht, hxt⟩ := Node.mem_blocksAll.mp hm
  obtain ⟨fs, g, rfl, hg⟩ := Spec.locate hb hh (hf.isIn t ht) hxt
  have hin := in_plug.mp (hf.isIn _ ht)
  refine ⟨fs, g, ht, hg, hin.2, hin.1, ?_⟩
  obtain ⟨b', h1, h2⟩ := hin.2.hdr
  rw [hg, hb] at h1; cases h1
  rw [hh] at h2; cases h2
  rfl

theorem In.parentIs {m : Mem} {par : Addr} {t : Node} (h : In m par t) : ParentIs m t.addr par := by
  obtain ⟨b, h1, h2⟩ := h.hdr
  exact ⟨b, _, h1, h2, rfl⟩

/-- Following the parent pointers leads to the main chunk. -/
theorem up_root {m : Mem} : ∀ {fs : List Frame} {g : Node}, In m 0 (plug fs g) →
    Up m g.addr (plug fs g).addr
  | [], _, _ => .refl
  | f :: fs, g, h => by
    have h1 := (in_plug.mp h).2.parentIs
    have h2 := up_root (fs := fs) (g := f.fill g) h
    rw [Frame.fill_addr] at h2
    exact .step h1 h2

theorem elem_at {m : Mem} {arr : Addr} {ts : List Node} (h : ArrayIn m arr (ts.map Node.addr))
    {i : Nat} (hi : i < ts.length) :
    ∃ cells, m arr = some (.ptrs cells) ∧ cells[i]? = some (some ts[i].addr) := by
  rcases h with ⟨h, _⟩ | ⟨_, _, h⟩
  · simp only [List.map_eq_nil_iff] at h; subst h; simp at hi
  · exact ⟨_, h, by simp [hi]⟩

/-- Parent pointers in memories that hold hierarchies. -/
theorem Forest.linked {m₀ m : Mem} {ts : List Node} (hf : Forest m₀ m ts) : Linked m₀ m := by
  have hgh : ∀ {b : Block} {g : Grp}, b.grp? = some g → ∃ h, b.hdr? = some h := by
    intro b g h; cases b <;> simp_all [Block.grp?, Block.hdr?]
  have hlh : ∀ {b : Block} {g : Lst}, b.lst? = some g → ∃ h, b.hdr? = some h := by
    intro b g h; cases b <;> simp_all [Block.lst?, Block.hdr?]
  refine ⟨?_, ?_, ?_⟩
  · intro p b g hp hb hg i hi
    obtain ⟨h, hh⟩ := hgh hg
    obtain ⟨fs, u, _, rfl, hin, _, _⟩ := hf.locate hp hb hh
    cases u with
    | raw => simp only [In, Node.addr] at hin hb; rw [hb] at hin; cases hin.1; cases hg
    | ext => simp only [In, Node.addr] at hin hb; rw [hb] at hin; cases hin; cases hg
    | grp a arr id size ty subs =>
      simp only [In, Node.addr] at hin hb
      rw [hb] at hin; cases hin.1; cases hg
      obtain ⟨cells, h1, h2⟩ := elem_at hin.2.1 hi
      exact ⟨cells, _, h1, h2, (inAll_iff.mp hin.2.2 _ (List.getElem_mem hi)).parentIs⟩
    | lst a arr parr id size ty subs props =>
      simp only [In, Node.addr] at hin hb
      rw [hb] at hin; cases hin.1; cases hg
      obtain ⟨cells, h1, h2⟩ := elem_at hin.2.1 hi
      exact ⟨cells, _, h1, h2, (inAll_iff.mp hin.2.2.2.1 _ (List.getElem_mem hi)).parentIs⟩
  · intro p b g hp hb hg i hi
    obtain ⟨h, hh⟩ := hlh hg
    obtain ⟨fs, u, _, rfl, hin, _, _⟩ := hf.locate hp hb hh
    cases u with
    | raw => simp only [In, Node.addr] at hin hb; rw [hb] at hin; cases hin.1; cases hg
    | ext => simp only [In, Node.addr] at hin hb; rw [hb] at hin; cases hin; cases hg
    | grp a arr id size ty subs =>
      simp only [In, Node.addr] at hin hb; rw [hb] at hin; cases hin.1; cases hg
    | lst a arr parr id size ty subs props =>
      simp only [In, Node.addr] at hin hb
      rw [hb] at hin; cases hin.1; cases hg
      obtain ⟨cells, h1, h2⟩ := elem_at hin.2.2.1 hi
      exact ⟨cells, _, h1, h2, (inAll_iff.mp hin.2.2.2.2 _ (List.getElem_mem hi)).parentIs⟩
  · rintro c p hc ⟨b, h, hb, hh, rfl⟩
    obtain ⟨fs, u, _, rfl, _, hp, hpar⟩ := hf.locate hc hb hh
    rw [hpar]
    cases fs with
    | nil => exact .inl rfl
    | cons f fs =>
      right
      have hat := hp.1
      have cell : ∀ {arr : Addr} {pre post : List Node},
          ArrayIn m arr (pre.map Node.addr ++ u.addr :: post.map Node.addr) →
          ∃ cells, m arr = some (.ptrs cells) ∧ cells[pre.length]? = some (some u.addr) := by
        intro arr pre post h
        rcases h with h | ⟨_, _, h⟩
        · simp at h
        · exact ⟨_, h, by simp⟩
      cases f with
      | grp a arr id size ty pre post =>
        simp only [Frame.At] at hat
        obtain ⟨cells, h1, h2⟩ := cell hat.2.1
        exact .inl ⟨_, _, cells, pre.length, hat.1, rfl, h1, by
          show pre.length < pre.length + (post.length + 1); omega, h2⟩
      | sub a arr parr id size ty pre post props =>
        simp only [Frame.At] at hat
        obtain ⟨cells, h1, h2⟩ := cell hat.2.1
        exact .inl ⟨_, _, cells, pre.length, hat.1, rfl, h1, by
          show pre.length < pre.length + (post.length + 1); omega, h2⟩
      | prop a arr parr id size ty subs pre post =>
        simp only [Frame.At] at hat
        obtain ⟨cells, h1, h2⟩ := cell hat.2.2.1
        exact .inr ⟨_, _, cells, pre.length, hat.1, rfl, h1, by
          show pre.length < pre.length + (post.length + 1); omega, h2⟩

/-! ### Changes -/

/-- A new hierarchy. -/
theorem Forest.new {m₀ m m' : Mem} {ts : List Node} (hf : Forest m₀ m ts) {t : Node}
    (hh : Holds m m' t) : Forest m₀ m' (t :: ts) := by
  have hold : ∀ x ∈ Node.blocksAll ts, m' x = m x ∧ x ∉ t.blocks := by
    intro x hx
    obtain ⟨u, hu, hxu⟩ := Node.mem_blocksAll.mp hx
    have hm := (hf.isIn u hu).mapped x hxu
    have : x ∉ t.blocks := fun h => hm (hh.adds.1 x h)
    exact ⟨hh.adds.2 x this, this⟩
  refine ⟨?_, ?_, ?_, ?_, ?_⟩
  · rw [hh.adds.2 0 hh.nonNull, hf.null]
  · intro u hu
    rcases List.mem_cons.mp hu with rfl | hu
    · exact hh.isIn
    · exact (hf.isIn u hu).frame fun x hx => (hold x (Node.mem_blocksAll.mpr ⟨u, hu, hx⟩)).1
  · rw [Node.blocksAll_cons, List.nodup_append]
    exact ⟨hh.distinct, hf.distinct, fun x hx y hy e => (hold y hy).2 (e ▸ hx)⟩
  · intro x hx
    rw [Node.blocksAll_cons, List.mem_append] at hx
    rcases hx with hx | hx
    · by_cases hm : x ∈ Node.blocksAll ts
      · exact hf.adds.1 x hm
      · rw [← hf.adds.2 x hm]; exact hh.adds.1 x hx
    · exact hf.adds.1 x hx
  · intro x hx
    rw [Node.blocksAll_cons, List.mem_append, not_or] at hx
    rw [hh.adds.2 x hx.1, hf.adds.2 x hx.2]

/-- A hierarchy is released. -/
theorem Forest.release {m₀ m : Mem} {ts : List Node} {t : Node} (hf : Forest m₀ m (t :: ts)) :
    Forest m₀ (m.without t.blocks) ts := by
  have hd := hf.distinct
  rw [Node.blocksAll_cons, List.nodup_append] at hd
  refine ⟨?_, ?_, hd.2.1, ?_, ?_⟩
  · by_cases h : (0 : Addr) ∈ t.blocks
    · exact Mem.without_of_mem h
    · rw [Mem.without_of_notMem h, hf.null]
  · intro u hu
    refine (hf.isIn u (List.mem_cons_of_mem _ hu)).frame fun x hx => Mem.without_of_notMem fun h => ?_
    exact hd.2.2 x h x (Node.mem_blocksAll.mpr ⟨u, hu, hx⟩) rfl
  · intro x hx
    exact hf.adds.1 x (by rw [Node.blocksAll_cons]; exact List.mem_append_right _ hx)
  · intro x hx
    by_cases h : x ∈ t.blocks
    · rw [Mem.without_of_mem h]
      exact (hf.adds.1 x (by rw [Node.blocksAll_cons]; exact List.mem_append_left _ h)).symm
    · rw [Mem.without_of_notMem h]
      exact hf.adds.2 x (by rw [Node.blocksAll_cons, List.mem_append, not_or]; exact ⟨h, hx⟩)

/-- A group is replaced by one that has taken in the hierarchies `cs`. -/
theorem Forest.replace {m₀ m m' : Mem} {fs : List Frame} {g g' : Node} {cs rest : List Node}
    (hf : Forest m₀ m (plug fs g :: (cs ++ rest))) (h0 : m' 0 = none)
    (hin : In m' (pathParent 0 fs) g') (haddr : g'.addr = g.addr) (hnd : g'.blocks.Nodup)
    (hadds : ∀ m₁, Adds m₁ m (g.blocks ++ Node.blocksAll cs) → Adds m₁ m' g'.blocks) :
    Forest m₀ m' (plug fs g' :: rest) := by
  have hfr : Forest m₀ m (plug fs g :: (cs ++ rest)) := hf
  have hd := hf.distinct
  rw [Node.blocksAll_cons, Node.blocksAll_append] at hd
  have hd2 : (pathBlocks fs ++ g.blocks ++ (Node.blocksAll cs ++ Node.blocksAll rest)).Nodup :=
    ((plug_blocks fs g).append_right _).nodup_iff.mp hd
  have hperm : ∀ x, x ∈ Node.blocksAll (plug fs g :: (cs ++ rest)) ↔
      x ∈ pathBlocks fs ∨ x ∈ g.blocks ∨ x ∈ Node.blocksAll cs ∨ x ∈ Node.blocksAll rest := by
    intro x
    rw [Node.blocksAll_cons, Node.blocksAll_append, List.mem_append, List.mem_append,
      (plug_blocks fs g).mem_iff, List.mem_append]
    constructor
    · rintro ((h | h) | h | h)
      · exact .inl h
      · exact .inr (.inl h)
      · exact .inr (.inr (.inl h))
      · exact .inr (.inr (.inr h))
    · rintro (h | h | h | h)
      · exact .inl (.inl h)
      · exact .inl (.inr h)
      · exact .inr (.inl h)
      · exact .inr (.inr h)
  have hperm' : ∀ x, x ∈ Node.blocksAll (plug fs g' :: rest) ↔
      x ∈ pathBlocks fs ∨ x ∈ g'.blocks ∨ x ∈ Node.blocksAll rest := by
    intro x
    rw [Node.blocksAll_cons, List.mem_append, (plug_blocks fs g').mem_iff, List.mem_append, or_assoc]
  rw [List.nodup_append, List.nodup_append, List.nodup_append] at hd2
  obtain ⟨⟨hd3, hd4, hd5⟩, ⟨hd6, hd7, hd8⟩, hd9⟩ := hd2
  -- the memory without the blocks that are replaced
  let m₁ : Mem := m.without (g.blocks ++ Node.blocksAll cs)
  have hm1 : Adds m₁ m' g'.blocks := hadds m₁
    ⟨fun x hx => Mem.without_of_mem hx, fun x hx => (Mem.without_of_notMem hx).symm⟩
  have hmapped : ∀ x ∈ Node.blocksAll (plug fs g :: (cs ++ rest)), m x ≠ none := by
    intro x hx
    obtain ⟨u, hu, hxu⟩ := Node.mem_blocksAll.mp hx
    exact (hf.isIn u hu).mapped x hxu
  -- the other blocks
  have hother : ∀ x, x ∈ pathBlocks fs ∨ x ∈ Node.blocksAll rest → m' x = m x ∧ x ∉ g'.blocks := by
    intro x hx
    have hne : x ∉ g.blocks ++ Node.blocksAll cs := by
      rw [List.mem_append, not_or]
      rcases hx with hx | hx
      · exact ⟨fun h => hd5 x hx x h rfl, fun h => hd9 x (List.mem_append_left _ hx) x
          (List.mem_append_left _ h) rfl⟩
      · exact ⟨fun h => hd9 x (List.mem_append_right _ h) x (List.mem_append_right _ hx) rfl,
          fun h => hd8 x h x hx rfl⟩
    have h1 : m₁ x = m x := Mem.without_of_notMem hne
    have h2 : m x ≠ none := hmapped x ((hperm x).mpr (by
      rcases hx with h | h
      · exact .inl h
      · exact .inr (.inr (.inr h))))
    have h3 : x ∉ g'.blocks := fun h => h2 (h1 ▸ hm1.1 x h)
    exact ⟨(hm1.2 x h3).trans h1, h3⟩
  have hpath := (in_plug.mp (hf.isIn _ (List.mem_cons_self ..))).1
  refine ⟨h0, ?_, ?_, ?_, ?_⟩
  · intro u hu
    rcases List.mem_cons.mp hu with rfl | hu
    · refine in_plug.mpr ⟨?_, hin⟩
      rw [haddr]
      exact hpath.frame fun a ha => (hother a (.inl ha)).1
    · exact (hf.isIn u (by simp [hu])).frame fun x hx =>
        (hother x (.inr (Node.mem_blocksAll.mpr ⟨u, hu, hx⟩))).1
  · rw [Node.blocksAll_cons]
    refine ((plug_blocks fs g').append_right _).nodup_iff.mpr ?_
    rw [List.nodup_append, List.nodup_append]
    refine ⟨⟨hd3, hnd, fun x hx y hy e => (hother x (.inl hx)).2 (e ▸ hy)⟩, hd7, ?_⟩
    intro x hx y hy e
    subst e
    rcases List.mem_append.mp hx with hx | hx
    · exact hd9 x (List.mem_append_left _ hx) x (List.mem_append_right _ hy) rfl
    · exact (hother x (.inr hy)).2 hx
  · intro x hx
    have hold : ∀ y ∈ Node.blocksAll (plug fs g :: (cs ++ rest)), m₀ y = none := hf.adds.1
    rcases (hperm' x).mp hx with h | h | h
    · exact hold x ((hperm x).mpr (.inl h))
    · by_cases hm : x ∈ Node.blocksAll (plug fs g :: (cs ++ rest))
      · exact hold x hm
      · rw [← hf.adds.2 x hm]
        have h1 : x ∉ g.blocks ++ Node.blocksAll cs := fun hx => hm ((hperm x).mpr (by
          rcases List.mem_append.mp hx with h | h
          · exact .inr (.inl h)
          · exact .inr (.inr (.inl h))))
        have := hm1.1 x h
        rwa [show m₁ x = m x from Mem.without_of_notMem h1] at this
    · exact hold x ((hperm x).mpr (.inr (.inr (.inr h))))
  · intro x hx
    rw [hperm', not_or, not_or] at hx
    rw [hm1.2 x hx.2.1]
    by_cases h : x ∈ g.blocks ++ Node.blocksAll cs
    · rw [show m₁ x = none from Mem.without_of_mem h]
      refine (hf.adds.1 x ((hperm x).mpr ?_)).symm
      rcases List.mem_append.mp h with h | h
      · exact .inr (.inl h)
      · exact .inr (.inr (.inl h))
    · rw [show m₁ x = m x from Mem.without_of_notMem h]
      refine hf.adds.2 x ?_
      rw [hperm, not_or, not_or, not_or]
      rw [List.mem_append, not_or] at h
      exact ⟨hx.1, h.1, h.2, hx.2.2⟩

end Iff.Spec
