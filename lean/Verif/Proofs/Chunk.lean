import Verif.Model.Chunk
/-
  Induction over chunk hierarchies.
-/
namespace Iff

/-- Structural induction over a hierarchy, with the members of groups as a list. -/
theorem Chunk.ind {P : Chunk → Prop}
    (raw : ∀ id size data, P (.raw id size data))
    (ext : ∀ id size vals, P (.ext id size vals))
    (grp : ∀ id size ty subs, (∀ c ∈ subs, P c) → P (.grp id size ty subs))
    (lst : ∀ id size ty subs props, (∀ c ∈ subs, P c) → (∀ c ∈ props, P c) →
      P (.lst id size ty subs props)) : ∀ c, P c := by
  intro c
  exact Chunk.rec (motive_1 := P) (motive_2 := fun l => ∀ c ∈ l, P c)
    raw grp lst ext (by simp)
    (fun c cs hc hcs d hd => by
      rcases List.mem_cons.mp hd with rfl | h
      · exact hc
      · exact hcs d h) c

end Iff
