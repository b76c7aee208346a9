import Verif.Proofs.HeapAttach
/-
  Arrays that grow beside a hierarchy that does not change.
-/
namespace Iff.Heap

open Spec

/-- The memory `s` is the memory `m` with the array at `r` (unless NULL) and the blocks `ls` added. -/
structure Beside (m s : Mem) (r : Addr) (ls : List Addr) : Prop where
  adds : Adds m s (arrBlocks r ++ ls)
  apart : r ∉ ls
  leaked : ∀ x ∈ ls, s x ≠ none

theorem Beside.start {m : Mem} : Beside m m 0 [] :=
  ⟨⟨by simp [arrBlocks], fun _ _ => rfl⟩, by simp, by simp⟩

theorem Beside.old {m s : Mem} {r : Addr} {ls : List Addr} (h : Beside m s r ls) {x : Addr}
    (hx : m x ≠ none) : s x = m x :=
  h.adds.2 x fun hm => hx (h.adds.1 x hm)

theorem Beside.null {m s : Mem} {r : Addr} {ls : List Addr} (h : Beside m s r ls)
    (h0 : m 0 = none) (hs : ∀ x ∈ ls, x ≠ 0) : s 0 = none := by
  rw [h.adds.2 0, h0]
  simp only [List.mem_append, not_or, arrBlocks]
  refine ⟨?_, fun h => hs 0 h rfl⟩
  split
  · simp
  · rename_i hr; simpa using Ne.symm hr

theorem Beside.roomy {m s : Mem} {r : Addr} {ls : List Addr} (h : Beside m s r ls)
    (hr : Roomy m) : Roomy s := hr.adds h.adds

/-- The array is replaced by one at a fresh address. -/
theorem Beside.grow {m s : Mem} {r a : Addr} {ls : List Addr} {b : Block} (h : Beside m s r ls)
    (h0 : m 0 = none) (ha : a ≠ 0) (hf : s.set r none a = none) :
    Beside m ((s.set r none).set a (some b)) a ls := by
  have hals : a ∉ ls := by
    intro hm
    have hne : a ≠ r := fun e => h.apart (e ▸ hm)
    rw [Mem.set_ne hne] at hf
    exact h.leaked a hm hf
  have hma : m a = none := by
    by_cases har : a = r
    · exact h.adds.1 a (by rw [har] at ha ⊢; simp [arrBlocks, ha])
    · rw [Mem.set_ne har] at hf
      rw [← h.adds.2 a, hf]
      simp only [List.mem_append, not_or]
      refine ⟨?_, hals⟩
      simp only [arrBlocks]; split
      · simp
      · simpa using har
  refine ⟨⟨?_, ?_⟩, hals, ?_⟩
  · intro x hx
    simp only [arrBlocks, if_neg ha, List.cons_append, List.nil_append, List.mem_cons] at hx
    rcases hx with rfl | hx
    · exact hma
    · exact h.adds.1 x (by simp [hx])
  · intro x hx
    simp only [arrBlocks, if_neg ha, List.cons_append, List.nil_append, List.mem_cons, not_or] at hx
    rw [Mem.set_ne hx.1]
    by_cases hxr : x = r
    · subst hxr
      rw [Mem.set_same]
      by_cases hx0 : x = 0
      · rw [hx0, h0]
      · exact (h.adds.1 x (by simp [arrBlocks, hx0])).symm
    · rw [Mem.set_ne hxr]
      refine h.adds.2 x ?_
      simp only [List.mem_append, not_or]
      refine ⟨?_, hx.2⟩
      simp only [arrBlocks]; split
      · simp
      · simpa using hxr
  · intro x hx
    have h1 : x ≠ a := fun e => hals (e ▸ hx)
    have h2 : x ≠ r := fun e => h.apart (e ▸ hx)
    rw [Mem.set_ne h1, Mem.set_ne h2]
    exact h.leaked x hx

/-- The contents of the array change. -/
theorem Beside.write {m s : Mem} {r : Addr} {ls : List Addr} {b : Block} (h : Beside m s r ls)
    (hr : r ≠ 0) : Beside m (s.set r (some b)) r ls := by
  refine ⟨⟨h.adds.1, fun x hx => ?_⟩, h.apart, fun x hx => ?_⟩
  · have : x ≠ r := by
      rintro rfl; exact hx (by simp [arrBlocks, hr])
    rw [Mem.set_ne this, h.adds.2 x hx]
  · have h1 : x ≠ r := fun e => h.apart (e ▸ hx)
    rw [Mem.set_ne h1]; exact h.leaked x hx

end Iff.Heap
