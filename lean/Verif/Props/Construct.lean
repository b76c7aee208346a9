import Verif.Proofs.Construct
import Verif.Props.HeapBuild
import Verif.Props.InstancesHeap
/-
  C76: every consistent hierarchy can be built with the functions of the library.
-/
namespace Iff
open Heap Spec

/-- C76: for every platform and every consistent hierarchy of standard chunks whose LISTs have their PROPs apart, if the
allocator refuses no struct and nothing up to the length of the file, then the calls that create its chunks and
add them to one another (`Builds`) all return, none of them runs into undefined behaviour, and afterwards the memory
holds exactly this hierarchy, with all sizes, and what it held before. -/
theorem C76_builds (A : Alloc) (e : Env) (he : e.Sane) (c : Chunk) (hc : Consistent c) (hs : Standard c)
    (hl : ListsSplit c) (hA : ServesUpTo A (encode c).length) (s : HS) (h0 : s.mem 0 = none) (hr : Roomy s.mem) :
    ∃ calls s' t, Builds c t.addr calls ∧
      Sequence (fun op s r s' => op.run A e s = .val (r, s')) s calls s' ∧
      Holds s.mem s'.mem t ∧ t.chunk = c ∧ s'.rs = s.rs := by
  obtain ⟨calls, s', t, h1, h2, h3⟩ := built he.wide (D := fun _ => True) hA c hc hs hl (Nat.le_refl _)
    (fun _ _ => trivial) s h0 hr
  refine ⟨calls, s', t, h1, ?_, h3⟩
  clear h1 h3
  generalize hh : s = s₀ at h2
  clear hh hr h0 s
  induction h2 with
  | nil => exact .nil
  | cons h _ ih => exact .cons h.1 ih

/-! ### Examples -/

/-- A LIST with a PROP and a FORM, each with a data chunk. -/
def builtList : Chunk :=
  .lst idLIST 52 idTEST [.grp idFORM 16 idTEST [.raw (makeId 'A' 'B' 'C' 'D') 3 [1, 2, 3]]]
    [.grp idPROP 16 idTEST [.raw (makeId 'D' 'E' 'F' 'G') 3 [1, 2, 3]]]

theorem builtList_consistent : Consistent builtList := by
  refine .lst (by decide) (by decide) ?_ ?_ <;> simp only [List.mem_singleton, forall_eq] <;>
    refine .grp (by decide) (by decide) ?_ <;> simp only [List.mem_singleton, forall_eq] <;>
    exact .raw rfl (by decide)

theorem builtList_standard : Standard builtList := by
  refine .lst rfl ?_ ?_ <;> simp only [List.mem_singleton, forall_eq] <;>
    refine .grp (by decide) ?_ <;> simp only [List.mem_singleton, forall_eq] <;>
    exact .raw (by decide) (by decide) (by decide) (by decide)

theorem builtList_split : ListsSplit builtList := by
  refine .lst ?_ ?_ ?_ ?_ <;> simp only [List.mem_singleton, forall_eq] <;> try decide
  all_goals refine .grp ?_ <;> simp only [List.mem_singleton, forall_eq] <;> exact .raw

/-- An allocator that takes the next address that is free, in a memory with an end. -/
theorem fallback_serves (K : Nat) : ServesUpTo (fallback always) K := by
  have key : ∀ t m q, Roomy m → ((fallback always).pick t m q).isSome := by
    intro t m q ⟨b, hb⟩
    cases hp : always.pick t m q with
    | some a => rw [fallback_some (by rw [hp]; rfl), hp]; rfl
    | none =>
      have h : ∃ a : Nat, a ≠ 0 ∧ m a = none := ⟨b + 1, by omega, hb _ (by omega)⟩
      simp only [fallback, hp, dif_pos h]; rfl
  exact ⟨fun t m h => key t m _ h, fun t m h => key t m _ h, fun t m h => key t m _ h, fun t m _ h _ => key t m _ h,
    fun t m _ h _ => key t m _ h⟩

/-- The hypotheses are met by this hierarchy. -/
example := C76_builds (fallback always) pc pc_sane builtList builtList_consistent builtList_standard builtList_split
  (fallback_serves _) ⟨fun _ => none, 0, ⟨[], []⟩⟩ rfl empty_roomy

/-- The calls, with an allocator that counts: the hierarchy is at the address 1. -/
example : ∃ s', Sequence (fun op s r s' => op.run always pc s = .val (r, s')) ⟨fun _ => none, 0, ⟨[], []⟩⟩
    [(.list idTEST, 1), (.group idPROP idTEST, 2), (.raw (makeId 'D' 'E' 'F' 'G') [1, 2, 3], 3), (.add 2 3, 0),
      (.addProp 1 2, 0)] s' :=
  ⟨_, .cons rfl (.cons rfl (.cons rfl (.cons rfl (.cons rfl .nil))))⟩

end Iff
