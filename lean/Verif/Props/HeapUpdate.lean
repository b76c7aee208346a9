import Verif.Proofs.HeapUpdate
/-
  C29 IFF_updateChunkSizes repairs all enclosing sizes.
-/
namespace Iff
open Spec Heap

/-- C29: a chunk `t` is somewhere in a hierarchy in memory, `fs` being the groups around it.
Everything beside these groups and everything inside `t` has consistent sizes (also `t` itself if
it is not a group); the declared sizes of the groups around `t`, and of `t` if it is a group, are
arbitrary.  If the corrected size of the whole hierarchy fits in 31 bits, then after
`IFF_updateChunkSizes` the memory holds the same hierarchy with the sizes of these groups corrected;
it is consistent; and nothing in memory has changed but the declared sizes of `t` and of the groups
around it. -/
theorem C29_update_repairs {e : Env} (he : 32 ≤ e.sizeBits) {fs : List Frame} {t : Node} {s : HS}
    {n : Nat} (hn : fs.length < n) (hin : In s.mem 0 (plug fs t)) (hnd : (plug fs t).blocks.Nodup)
    (h0 : s.mem 0 = none) (ht : Typed (plug fs t).chunk) (hs : SoundInside t)
    (ho : ∀ f ∈ fs, ∀ c ∈ f.others, Consistent c.chunk)
    (hb : (repairAll fs t).chunk.size < 2147483648) :
    ∃ m', updateSizes e n t.addr s = .val ((), { s with mem := m' }) ∧
      In m' 0 (repairAll fs t) ∧ Consistent (repairAll fs t).chunk ∧
      (∀ a, a ∉ t.addr :: fs.map Frame.addr → m' a = s.mem a) ∧
      (∀ a ∈ t.addr :: fs.map Frame.addr, OnlySize s.mem m' a) := by
  obtain ⟨h1, h2⟩ := typed_plug ht
  obtain ⟨m', h3, h4, h5, h6⟩ := updateSizes_spec he fs n t s hn hin hnd h0 h1.idOk h2 hs ho hb
  exact ⟨m', h3, h4, (repairAll_size fs t hs ho hb).2, h5, h6⟩

/-- A chunk that is not a group is not changed at all, and a hierarchy whose sizes are consistent
already stays as it is. -/
theorem C29_no_change {fs : List Frame} {t : Node} (h : Consistent (plug fs t).chunk) :
    repairAll fs t = plug fs t := by
  have one : ∀ u : Node, Consistent u.chunk → u.repair = u := by
    intro u hu
    cases u with
    | raw => rfl
    | ext => rfl
    | grp a arr id size ty subs =>
      simp only [Node.chunk] at hu
      cases hu with
      | grp h1 h2 h3 => simp only [Node.repair, h1]
    | lst a arr parr id size ty subs props =>
      simp only [Node.chunk] at hu
      cases hu with
      | lst h1 h2 h3 h4 => simp only [Node.repair, h1]
  have inner : ∀ (fs : List Frame) (u : Node), Consistent (plug fs u).chunk → Consistent u.chunk := by
    intro fs
    induction fs with
    | nil => intro u h; exact h
    | cons f fs ih =>
      intro u h
      have h := ih (f.fill u) h
      cases f with
      | grp a arr id size ty pre post =>
        simp only [Frame.fill, Node.chunk] at h
        cases h with
        | grp _ _ h3 => exact h3 _ (by simp [Node.chunks_eq])
      | sub a arr parr id size ty pre post props =>
        simp only [Frame.fill, Node.chunk] at h
        cases h with
        | lst _ _ h3 _ => exact h3 _ (by simp [Node.chunks_eq])
      | prop a arr parr id size ty subs pre post =>
        simp only [Frame.fill, Node.chunk] at h
        cases h with
        | lst _ _ _ h4 => exact h4 _ (by simp [Node.chunks_eq])
  have go : ∀ (fs : List Frame) (u : Node), Consistent (plug fs u).chunk →
      repairAll fs u = plug fs u := by
    intro fs
    induction fs with
    | nil => intro u h; exact one u h
    | cons f fs ih =>
      intro u h
      simp only [repairAll, plug]
      rw [one u (inner _ u h)]
      exact ih _ h
  exact go fs t h

/-! A concrete case: in `CAT { FORM { data } }` with wrong sizes everywhere, the size of the data
chunk has just been changed. -/

/-- The memory: CAT at 1, its array at 2, FORM at 3, its array at 4, data chunk at 5, data at 6. -/
def catFormMem : Mem := fun a => match a with
  | 1 => some (.grp ⟨0, idCAT, 0⟩ idJJJJ 1 2)
  | 2 => some (.ptrs [some 3])
  | 3 => some (.grp ⟨1, idFORM, 7⟩ idJJJJ 1 4)
  | 4 => some (.ptrs [some 5])
  | 5 => some (.raw ⟨3, 0x41424344#32, 3⟩ 6)
  | 6 => some (.bytes [some 1, some 2, some 3])
  | _ => none

/-- The data chunk. -/
def catFormData : Node := .raw 5 6 0x41424344#32 3 [1, 2, 3]

/-- The groups around it. -/
def catFormPath : List Frame :=
  [.grp 3 4 idFORM 7 idJJJJ [] [], .grp 1 2 idCAT 0 idJJJJ [] []]

example : In catFormMem 0 (plug catFormPath catFormData) ∧
    (plug catFormPath catFormData).blocks.Nodup ∧ catFormMem 0 = none ∧
    Typed (plug catFormPath catFormData).chunk ∧ SoundInside catFormData ∧
    (∀ f ∈ catFormPath, ∀ c ∈ f.others, Consistent c.chunk) ∧
    (repairAll catFormPath catFormData).chunk =
      .grp idCAT 28 idJJJJ [.grp idFORM 16 idJJJJ [.raw 0x41424344#32 3 [1, 2, 3]]] := by
  refine ⟨?_, ?_, rfl, ?_, ?_, ?_, ?_⟩
  · simp [plug, catFormPath, catFormData, Frame.fill, In, ArrayIn, Node.addr, catFormMem]
  · simp [plug, catFormPath, catFormData, Frame.fill, Node.blocks]
  · simp only [plug, catFormPath, catFormData, Frame.fill, Node.chunk, Node.chunks, List.nil_append]
    refine .grp (by decide) ?_
    simp only [List.mem_singleton, forall_eq]
    refine .grp (by decide) ?_
    simp only [List.mem_singleton, forall_eq]
    exact .raw (by decide) (by decide) (by decide) (by decide)
  · exact .raw rfl (by decide)
  · simp [catFormPath, Frame.others]
  · rfl

end Iff
