import Verif.Spec.TestLookup
import Verif.Proofs.HeapSearch
import Mathlib.Data.List.Forall2
/-
  The forms that a search finds, the groups around them, and what applies to them.
-/
namespace Iff.Src

open Iff.Heap Iff.Spec

theorem named_chunks (id : ID) (ts : List Node) : named id (Node.chunks ts) = (Node.first id ts).map Node.chunk := by
  rw [Node.chunks_eq]
  simp only [named, Node.first, List.find?_map, Function.comp_def]

theorem insideOf_chunk (t : Node) : insideOf t.chunk = Node.chunks t.members := by
  cases t <;> rfl

theorem typeOf_chunk (t : Node) : typeOf t.chunk = t.ty? := by
  cases t <;> rfl

theorem shares_chunks (ty id : ID) (ts : List Node) : shares ty id (Node.chunks ts) =
    ((ts.find? fun p => p.ty? = some ty).bind fun p => Node.first id p.members).map Node.chunk := by
  rw [Node.chunks_eq]
  simp only [shares, List.find?_map, Function.comp_def, typeOf_chunk]
  cases ts.find? fun p => decide (p.ty? = some ty) with
  | none => rfl
  | some p => simp only [Option.map_some, insideOf_chunk, named_chunks, Option.bind_some]

/-- What the groups around a chunk share. -/
def around (ty id : ID) (fs : List Frame) (t : Node) : Option Chunk :=
  ((enclosing fs t).findSome? (shared ty id)).map Node.chunk

theorem applies_chunk {fs : List Frame} {t : Node} {ty id : ID} :
    (applies fs t ty id).map Node.chunk = orElse (named id (Node.chunks t.members)) (around ty id fs t) := by
  rw [named_chunks]
  unfold applies around orElse
  cases Node.first id t.members <;> rfl

theorem around_cons {ty id : ID} {f : Frame} {fs : List Frame} {t : Node} :
    around ty id (f :: fs) t = orElse ((shared ty id (f.fill t)).map Node.chunk) (around ty id fs (f.fill t)) := by
  simp only [around, enclosing, List.findSome?_cons, orElse]
  cases shared ty id (f.fill t) <;> rfl

/-- A form that is found: it is in the hierarchy, it has the type, and the chunk applies to it. -/
def FoundIn (ty id : ID) (root : Node) (u : Node) (x : Option Chunk) : Prop :=
  ∃ fs, plug fs u = root ∧ u.ty? = some ty ∧ (applies fs u ty id).map Node.chunk = x

theorem applied_found (ty id : ID) : ∀ (t : Node) (fs : List Frame),
    List.Forall₂ (FoundIn ty id (plug fs t)) (outermost [ty] t) (applied ty id (around ty id fs t) t.chunk) := by
  intro t
  induction t using Node.rec (motive_2 := fun ts => ∀ (root : Node) (above : Option Chunk),
    (∀ c ∈ ts, ∃ fs, plug fs c = root ∧ around ty id fs c = above) →
    List.Forall₂ (FoundIn ty id root) (outermostAll [ty] ts) (appliedAll ty id above (Node.chunks ts))) with
  | raw => exact fun _ => .nil
  | ext => exact fun _ => .nil
  | grp a arr g size t subs ih =>
    intro fs
    simp only [outermost, Node.chunk, applied, List.mem_singleton]
    by_cases h : g = idFORM ∧ t = ty
    · rw [if_pos h, if_pos h]
      exact .cons ⟨fs, rfl, by rw [h.2]; rfl, by rw [applies_chunk]; rfl⟩ .nil
    · rw [if_neg h, if_neg h]
      by_cases h' : g = idFORM ∨ g = idCAT ∨ g = idLIST
      · rw [if_pos h', if_pos h']
        refine ih _ _ fun c hc => ?_
        obtain ⟨pre, post, rfl⟩ := List.append_of_mem hc
        exact ⟨.grp a arr g size t pre post :: fs, rfl, by rw [around_cons]; rfl⟩
      · rw [if_neg h', if_neg h']
        exact .nil
  | lst a arr parr g size t subs props ih ih' =>
    intro fs
    simp only [outermost, Node.chunk, applied]
    by_cases h' : g = idFORM ∨ g = idCAT ∨ g = idLIST
    · rw [if_pos h', if_pos h']
      refine ih _ _ fun c hc => ?_
      obtain ⟨pre, post, rfl⟩ := List.append_of_mem hc
      refine ⟨.sub a arr parr g size t pre post props :: fs, rfl, ?_⟩
      rw [around_cons, shares_chunks]
      rfl
    · rw [if_neg h', if_neg h']
      exact .nil
  | nil => exact .nil
  | cons t ts ih ih' =>
    rename_i root above h
    obtain ⟨fs, h1, h2⟩ := h t (by simp)
    have h3 := ih fs
    rw [h1, h2] at h3
    simp only [outermostAll, Node.chunks, appliedAll]
    exact List.rel_append h3 (ih' root above fun c hc => h c (by simp [hc]))

end Iff.Src
