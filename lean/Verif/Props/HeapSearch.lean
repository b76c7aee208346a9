import Verif.Proofs.HeapForms
import Verif.Props.HeapRead
/-
  C24 IFF_searchForms returns all forms of the requested types.
  C39 Searching does not leak.

  Both are false of the code: forms inside a requested form are not returned, and
  `IFF_mergeFormArray` does not free the array it copies from.
-/
namespace Iff
open Spec Heap

/-! ### C24 -/

/-- What the claim C24 calls the result: the requested forms reached through FORM, CAT and LIST
chunks, each once. -/
theorem C24_forms {types : List ID} {t : Node} (ht : Typed t.chunk) (hd : t.blocks.Nodup) :
    (∀ u, u ∈ forms types t ↔ Reach t u ∧ Requested types u) ∧
      ((forms types t).map Node.addr).Nodup :=
  ⟨fun _ => mem_forms ht, forms_blocks.nodup hd⟩

/-- C24, what holds: the search returns exactly the outermost requested forms, in document order (a
subsequence of all requested forms; each of the others is inside one of them) and changes no existing
block.  Missing for C24: requested forms inside requested forms. -/
theorem C24_partial {A : Alloc} (hA : ArraysOk A) {types : List ID} {t : Node} {s : HS} {par : Addr}
    {n : Nat} (hin : In s.mem par t) (h0 : s.mem 0 = none) (hr : Roomy s.mem) (ht : Typed t.chunk)
    (hn : depth t.chunk ≤ n) :
    (∃ r m' t', searchForms A types n t.addr s =
        .val ((r, (outermost types t).length), ⟨m', t', s.rs⟩) ∧
      ArrayOrNull m' r ((outermost types t).map Node.addr) ∧ ∀ x, s.mem x ≠ none → m' x = s.mem x) ∧
    (outermost types t).Sublist (forms types t) ∧
    ∀ u, Reach t u → Requested types u → ∃ o ∈ outermost types t, Reach o u := by
  obtain ⟨ls, ⟨⟨r, m', t', h1, h2, h3⟩, _⟩, _⟩ := searchForms_run hA (types := types) t par n s hin h0
    hr ht hn
  refine ⟨⟨r, m', t', h1, h3, fun x hx => h2.old hx⟩, outermost_sublist, fun u hu hq => ?_⟩
  obtain ⟨o, ho, hou⟩ := forms_inside ((mem_forms ht).mpr ⟨hu, hq⟩)
  refine ⟨o, ho, ?_⟩
  have hreach : ∀ {a b : Node}, Typed a.chunk → Reach a b → Typed b.chunk := by
    intro a b hta hab
    induction hab with
    | self => exact hta
    | step _ _ hc ih => exact typed_member ih hc
  exact ((mem_forms (hreach ht ((mem_forms ht).mp (outermost_sublist.subset ho)).1)).mp hou).1

/-- C24 holds if no requested form contains another one: the result is all requested forms. -/
theorem C24_complete_partial {A : Alloc} (hA : ArraysOk A) {types : List ID} {t : Node} {s : HS}
    {par : Addr} {n : Nat} (hin : In s.mem par t) (h0 : s.mem 0 = none) (hr : Roomy s.mem)
    (ht : Typed t.chunk) (hn : depth t.chunk ≤ n)
    (hflat : ∀ u, Reach t u → Requested types u → ∀ c ∈ u.members, ∀ v, Reach c v →
      ¬ Requested types v) :
    ∃ r m' t', searchForms A types n t.addr s =
        .val ((r, (forms types t).length), ⟨m', t', s.rs⟩) ∧
      ArrayOrNull m' r ((forms types t).map Node.addr) ∧ ∀ x, s.mem x ≠ none → m' x = s.mem x := by
  have hreach : ∀ {a b : Node}, Typed a.chunk → Reach a b → Typed b.chunk := by
    intro a b hta hab
    induction hab with
    | self => exact hta
    | step _ _ hc ih => exact typed_member ih hc
  have := outermost_eq_forms (types := types) (t := t) fun u hu c hc => by
    obtain ⟨h1, h2⟩ := (mem_forms ht).mp hu
    refine List.eq_nil_iff_forall_not_mem.mpr fun v hv => ?_
    obtain ⟨h3, h4⟩ := (mem_forms (typed_member (hreach ht h1) hc)).mp hv
    exact hflat u h1 h2 c hc v h3 h4
  have hp := (C24_partial hA (types := types) hin h0 hr ht hn).1
  rw [this] at hp
  exact hp

/-! A concrete case: `CAT { FORM X { FORM X { } } }`. -/

/-- The CAT at 1 (array 2), the outer FORM at 3 (array 4), the inner FORM at 5. -/
def nestedMem : Mem := fun a => match a with
  | 1 => some (.grp ⟨0, idCAT, 28⟩ 0x58585858#32 1 2)
  | 2 => some (.ptrs [some 3])
  | 3 => some (.grp ⟨1, idFORM, 16⟩ 0x58585858#32 1 4)
  | 4 => some (.ptrs [some 5])
  | 5 => some (.grp ⟨3, idFORM, 4⟩ 0x58585858#32 0 0)
  | _ => none

/-- The inner form. -/
def nestedInner : Node := .grp 5 0 idFORM 4 0x58585858#32 []

/-- The outer form. -/
def nestedOuter : Node := .grp 3 4 idFORM 16 0x58585858#32 [nestedInner]

/-- The hierarchy. -/
def nested : Node := .grp 1 2 idCAT 28 0x58585858#32 [nestedOuter]

theorem nested_in : In nestedMem 0 nested := by
  simp [nested, nestedOuter, nestedInner, In, InAll, ArrayIn, Node.addr, nestedMem]

theorem nested_typed : Typed nested.chunk := by
  simp only [nested, nestedOuter, nestedInner, Node.chunk, Node.chunks]
  refine .grp (by decide) ?_
  simp only [List.mem_singleton, forall_eq]
  refine .grp (by decide) ?_
  simp only [List.mem_singleton, forall_eq]
  exact .grp (by decide) (by simp)

theorem nested_roomy : Roomy nestedMem := by
  refine ⟨6, fun a ha => ?_⟩
  obtain ⟨k, rfl⟩ : ∃ k, a = k + 6 := ⟨a - 6, by omega⟩
  rfl

theorem nested_outermost : outermost [0x58585858#32] nested = [nestedOuter] := by
  simp only [nested, nestedOuter, nestedInner, outermost, outermostAll]
  rw [if_neg (by decide), if_pos (by decide), if_pos (by decide)]
  rfl

theorem nested_forms : forms [0x58585858#32] nested = [nestedOuter, nestedInner] := by
  simp only [nested, nestedOuter, nestedInner, forms, formsAll]
  rw [if_neg (by decide), if_pos (by decide), if_pos (by decide), if_pos (by decide),
    if_pos (by decide)]
  simp

/-- C24 is false: the search of this hierarchy finds one form, though two are reached. -/
theorem C24_false {A : Alloc} (hA : ArraysOk A) {t₀ : Nat} {rs : RS} :
    (∃ r s', searchFormsOfType A 4 1 0x58585858#32 ⟨nestedMem, t₀, rs⟩ = .val ((r, 1), s')) ∧
    Reach nested nestedOuter ∧ Requested [0x58585858#32] nestedOuter ∧
    Reach nested nestedInner ∧ Requested [0x58585858#32] nestedInner ∧
    nestedOuter.addr ≠ nestedInner.addr := by
  obtain ⟨r, m', t', h, _⟩ := (C24_partial hA (types := [0x58585858#32]) (s := ⟨nestedMem, t₀, rs⟩)
    (n := 4) nested_in rfl nested_roomy nested_typed (by
      simp [nested, nestedOuter, nestedInner, Node.chunk, Node.chunks, depth, depthAll])).1
  rw [nested_outermost] at h
  have h1 := (mem_forms nested_typed).mp
    (show nestedOuter ∈ forms [0x58585858#32] nested by rw [nested_forms]; simp)
  have h2 := (mem_forms nested_typed).mp
    (show nestedInner ∈ forms [0x58585858#32] nested by rw [nested_forms]; simp)
  exact ⟨⟨r, _, h⟩, h1.1, h1.2, h2.1, h2.2, by decide⟩

/-! ### C39 -/

/-- A search whose result is freed by the caller. -/
def searchAndFree (A : Alloc) (types : List ID) (n : Nat) (p : Addr) : M HS Unit := do
  let (r, _) ← searchForms A types n p
  free r

theorem searchAndFree_run {A : Alloc} {types : List ID} {t : Node} {s : HS} {n : Nat}
    {ls : List Addr} (h0 : s.mem 0 = none)
    (hs : Searched A s.mem s (searchForms A types n t.addr s) (outermost types t) ls) :
    ∃ m' t', searchAndFree A types n t.addr s = .val ((), ⟨m', t', s.rs⟩) ∧
      Adds s.mem m' ls ∧ ∀ x ∈ ls, m' x ≠ none := by
  obtain ⟨⟨r, m', t', h1, h2, h3⟩, hls⟩ := hs
  have hm0 := h2.null h0 hls
  simp only [searchAndFree, M.bind_apply, h1]
  rcases h3 with ⟨rfl, _⟩ | ⟨hrne, hcell⟩
  · rw [free_null]
    refine ⟨m', t', rfl, ?_, h2.leaked⟩
    have := h2.adds
    simpa [arrBlocks] using this
  · rw [free_eq (s := ⟨m', t', s.rs⟩) hcell hm0]
    refine ⟨m'.set r none, t', rfl, ⟨fun x hx => h2.adds.1 x (by simp [hx]), fun x hx => ?_⟩,
      fun x hx => ?_⟩
    · by_cases hxr : x = r
      · subst hxr
        rw [Mem.set_same]
        exact (h2.adds.1 x (by simp [arrBlocks, hrne])).symm
      · rw [Mem.set_ne hxr]
        exact h2.adds.2 x (by simp [arrBlocks, hrne, hxr]; exact hx)
    · have hxr : x ≠ r := fun e => h2.apart (e ▸ hx)
      rw [Mem.set_ne hxr]; exact h2.leaked x hx

/-- C39 is false, and this is how far: unless the searched chunk itself is a requested form, every
search that finds a form leaves a block behind that the caller cannot free. -/
theorem C39_leak {A : Alloc} (hA : ArraysOk A) {types : List ID} {t : Node} {s : HS} {par : Addr}
    {n : Nat} (hin : In s.mem par t) (h0 : s.mem 0 = none) (hr : Roomy s.mem) (ht : Typed t.chunk)
    (hn : depth t.chunk ≤ n) (hroot : ¬ Requested types t) {u : Node} (hu : Reach t u)
    (hq : Requested types u) :
    ∃ m' t' x, searchAndFree A types n t.addr s = .val ((), ⟨m', t', s.rs⟩) ∧
      s.mem x = none ∧ m' x ≠ none := by
  obtain ⟨ls, h1, _, h2, _⟩ := searchForms_run hA (types := types) t par n s hin h0 hr ht hn
  obtain ⟨o, ho, _⟩ := forms_inside ((mem_forms ht).mpr ⟨hu, hq⟩)
  have hne := h2 hroot (List.ne_nil_of_mem ho)
  obtain ⟨m', t', h3, h4, h5⟩ := searchAndFree_run h0 h1
  obtain ⟨x, hx⟩ := List.exists_mem_of_ne_nil _ hne
  exact ⟨m', t', x, h3, h4.1 x hx, h5 x hx⟩

/-- The witness: searching the CAT above leaves a block behind. -/
theorem C39_false {A : Alloc} (hA : ArraysOk A) {t₀ : Nat} {rs : RS} :
    ∃ m' t' x, searchAndFree A [0x58585858#32] 4 1 ⟨nestedMem, t₀, rs⟩ = .val ((), ⟨m', t', rs⟩) ∧
      nestedMem x = none ∧ m' x ≠ none := by
  have h1 := (mem_forms nested_typed).mp
    (show nestedOuter ∈ forms [0x58585858#32] nested by rw [nested_forms]; simp)
  exact C39_leak hA (types := [0x58585858#32]) (t := nested) (s := ⟨nestedMem, t₀, rs⟩) (n := 4)
    nested_in rfl nested_roomy nested_typed
    (by simp [nested, nestedOuter, nestedInner, Node.chunk, Node.chunks, depth, depthAll])
    (fun h => absurd h.1 (by simp only [nested, Node.chunk, Chunk.id]; decide)) h1.1 h1.2

/-- C39, what holds: nothing is left if the searched chunk is a requested form, or if none of its
members is searched (they are data chunks, say) and `realloc(p, 0)` behaves in one of the usual ways.
In all other cases the arrays of the members stay allocated. -/
theorem C39_partial {A : Alloc} (hA : ArraysOk A) {types : List ID} {t : Node} {s : HS} {par : Addr}
    {n : Nat} (hin : In s.mem par t) (h0 : s.mem 0 = none) (hr : Roomy s.mem) (ht : Typed t.chunk)
    (hn : depth t.chunk ≤ n)
    (hc : Requested types t ∨ (∀ c ∈ t.members, Plain c) ∧ ZeroUsual A) :
    ∃ t', searchAndFree A types n t.addr s = .val ((), ⟨s.mem, t', s.rs⟩) := by
  obtain ⟨ls, h1, h2, _, h3⟩ := searchForms_run hA (types := types) t par n s hin h0 hr ht hn
  have hls : ls = [] := by
    rcases hc with h | ⟨h, hz⟩
    · exact h2 h
    · exact h3 h hz
  subst hls
  obtain ⟨m', t', h4, h5, _⟩ := searchAndFree_run h0 h1
  have : m' = s.mem := funext fun x => h5.2 x (by simp)
  exact ⟨t', by rw [h4, this]⟩

/-- C39: whatever is left behind, no existing block is changed or freed. -/
theorem C39_old_blocks_partial {A : Alloc} (hA : ArraysOk A) {types : List ID} {t : Node} {s : HS}
    {par : Addr} {n : Nat} (hin : In s.mem par t) (h0 : s.mem 0 = none) (hr : Roomy s.mem)
    (ht : Typed t.chunk) (hn : depth t.chunk ≤ n) :
    ∃ m' t', searchAndFree A types n t.addr s = .val ((), ⟨m', t', s.rs⟩) ∧
      ∀ x, s.mem x ≠ none → m' x = s.mem x := by
  obtain ⟨ls, h1, _⟩ := searchForms_run hA (types := types) t par n s hin h0 hr ht hn
  obtain ⟨m', t', h4, h5, _⟩ := searchAndFree_run h0 h1
  exact ⟨m', t', h4, fun x hx => h5.2 x fun hm => hx (h5.1 x hm)⟩

/-- The hypotheses are met: the outer form of the example is a requested form. -/
example : In nestedMem 1 nestedOuter ∧ nestedMem 0 = none ∧ Roomy nestedMem ∧
    Typed nestedOuter.chunk ∧ Requested [0x58585858#32] nestedOuter :=
  ⟨by simp [nestedOuter, nestedInner, In, InAll, ArrayIn, Node.addr, nestedMem], rfl, nested_roomy,
    typed_member (t := nested) nested_typed (by simp [nested, Node.members]),
    ((mem_forms nested_typed).mp
      (show nestedOuter ∈ forms [0x58585858#32] nested by rw [nested_forms]; simp)).2⟩

/-- The usual allocators meet `ZeroUsual`; an allocator that meets `ArraysOk` exists. -/
example (e : Env) : ∃ A : Alloc, ArraysOk A ∧ Total A e := by
  obtain ⟨A, h⟩ := total_exists e
  exact ⟨A, fun t m n hr => h.array t m n hr, h⟩

end Iff
