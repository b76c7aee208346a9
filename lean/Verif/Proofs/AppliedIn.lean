import Verif.Proofs.Applied
import Verif.Proofs.HeapUpdate
/-
  The chunk that applies to a form is a chunk of the hierarchy.
-/
namespace Iff.Src

open Iff.Heap Iff.Spec

theorem member_frame {u t : Node} (h : u ∈ t.members) : ∃ f : Frame, f.fill u = t := by
  cases t with
  | raw => cases h
  | ext => cases h
  | grp a arr g size ty subs =>
    obtain ⟨pre, post, rfl⟩ := List.append_of_mem (show u ∈ subs from h)
    exact ⟨.grp a arr g size ty pre post, rfl⟩
  | lst a arr parr g size ty subs props =>
    obtain ⟨pre, post, rfl⟩ := List.append_of_mem (show u ∈ subs from h)
    exact ⟨.sub a arr parr g size ty pre post props, rfl⟩

theorem prop_frame {u t : Node} (h : u ∈ t.props) : ∃ f : Frame, f.fill u = t := by
  cases t with
  | raw => cases h
  | ext => cases h
  | grp => cases h
  | lst a arr parr g size ty subs props =>
    obtain ⟨pre, post, rfl⟩ := List.append_of_mem (show u ∈ props from h)
    exact ⟨.prop a arr parr g size ty subs pre post, rfl⟩

theorem shared_frame {ty id : ID} {g u : Node} (h : shared ty id g = some u) :
    u.chunk.id = id ∧ ∃ f f' : Frame, f'.fill (f.fill u) = g := by
  unfold shared at h
  obtain ⟨p, h1, h2⟩ := Option.bind_eq_some_iff.mp h
  obtain ⟨f', hf'⟩ := prop_frame (List.mem_of_find?_eq_some h1)
  obtain ⟨f, hf⟩ := member_frame (List.mem_of_find?_eq_some h2)
  exact ⟨by simpa using List.find?_some h2, f, f', by rw [hf, hf']⟩

theorem enclosing_frames {ty id : ID} {u : Node} : ∀ {fs : List Frame} {t : Node},
    (enclosing fs t).findSome? (shared ty id) = some u → u.chunk.id = id ∧ ∃ fs', plug fs' u = plug fs t := by
  intro fs
  induction fs with
  | nil => intro t h; cases h
  | cons f fs ih =>
    intro t h
    simp only [enclosing, List.findSome?_cons] at h
    cases hs : shared ty id (f.fill t) with
    | none =>
      rw [hs] at h
      exact ih h
    | some v =>
      rw [hs] at h
      cases h
      obtain ⟨h1, f1, f2, h2⟩ := shared_frame hs
      exact ⟨h1, f1 :: f2 :: fs, by simp only [plug, h2]⟩

/-- The chunk that applies to a form has the ID and is somewhere in the hierarchy. -/
theorem applies_frames {ty id : ID} {u t : Node} {fs : List Frame} (h : applies fs t ty id = some u) :
    u.chunk.id = id ∧ ∃ fs', plug fs' u = plug fs t := by
  unfold applies at h
  cases hf : Node.first id t.members with
  | none =>
    rw [hf] at h
    exact enclosing_frames h
  | some v =>
    rw [hf] at h
    cases h
    obtain ⟨f, rfl⟩ := member_frame (List.mem_of_find?_eq_some hf)
    exact ⟨by simpa using List.find?_some hf, f :: fs, rfl⟩

theorem within_fill (f : Frame) (u : Node) : Within u.chunk (f.fill u).chunk := by
  cases f with
  | grp => exact .grp (c := u.chunk) (by simp [Node.chunks_eq]) .self
  | sub => exact .sub (c := u.chunk) (by simp [Node.chunks_eq]) .self
  | prop => exact .prop (c := u.chunk) (by simp [Node.chunks_eq]) .self

theorem within_chain {b c d : Chunk} (h : Within b c) (h' : Within c d) : Within b d := by
  induction h' with
  | self => exact h
  | grp hc _ ih => exact .grp hc ih
  | sub hc _ ih => exact .sub hc ih
  | prop hc _ ih => exact .prop hc ih

theorem within_plug : ∀ (fs : List Frame) (u : Node), Within u.chunk (plug fs u).chunk
  | [], _ => .self
  | f :: fs, u => within_chain (within_fill f u) (within_plug fs (f.fill u))

theorem standard_within {c d : Chunk} (hs : Standard c) (h : Within d c) : Standard d := by
  induction h with
  | self => exact hs
  | grp hc _ ih => cases hs with | grp _ h => exact ih (h _ hc)
  | sub hc _ ih => cases hs with | lst _ h _ => exact ih (h _ hc)
  | prop hc _ ih => cases hs with | lst _ _ h => exact ih (h _ hc)

end Iff.Src
