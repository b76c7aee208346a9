import Verif.Props.Instances
import Verif.Props.HeapBuild
import Verif.Props.HeapLookup
import Verif.Props.HeapSearch
import Verif.Props.HeapUpdate
import Verif.Props.HeapUse
import Verif.Props.HeapTools

/-!
Every property theorem of the model with memory that has hypotheses, applied to a concrete case.  Where
an allocator is asked for that never refuses (`Total`, `ArraysOk`), the case is for any such allocator;
`total_exists` shows that there is one.  `numbered` is an allocator that can be run.
-/

namespace Iff
open Spec Heap

set_option maxRecDepth 4000

/-- An empty memory, and this input. -/
def holding (inp : List Byte) : HS := ⟨fun _ => none, 0, ⟨inp, []⟩⟩

theorem empty_roomy : Roomy fun _ => none := ⟨0, fun _ _ => rfl⟩

/-- The allocator that grants everything. -/
def always : Alloc := numbered fun _ _ => false

/-! ### Reading: C33 to C37, C54 -/

theorem truncated_fails : ∃ s', Heap.readFd always pc none (holding truncatedForm) = .val (0, s') :=
  (returned_eq (t := 6) (by decide +kernel)).imp fun _ h => h.1

/-- A FORM with one data chunk. -/
def plainForm : Chunk := .grp idFORM 14 idTEST [.raw (makeId 'A' 'B' 'C' 'D') 2 [1, 2]]

theorem plain_reads : ∃ s', Heap.readFd always pc none (holding (encode plainForm)) = .val (1, s') :=
  (returned_eq (t := 4) (by decide +kernel)).imp fun _ h => h.1

example : ∃ s' : HS, s'.mem = (holding truncatedForm).mem := by
  obtain ⟨s', h⟩ := truncated_fails
  exact ⟨s', C33_failed_read_leaks_nothing always pc none default_lists _ s' rfl h⟩

example : ∃ s' : HS, s'.mem = (holding truncatedForm).mem := by
  obtain ⟨s', h⟩ := truncated_fails
  exact ⟨s', C33_default always pc _ s' rfl h⟩

example : ∃ s', Heap.readFile always pc none "a" none (holding []) = .val (0, s') ∧ s'.mem = fun _ => none := by
  refine ⟨_, rfl, C33_failed_read_file always pc none default_lists "a" none (holding []) _ rfl rfl⟩

example : ∃ s s'', Heap.readFd always pc none (holding (encode plainForm)) = .val (1, s) ∧
    iffFree none 26 1 s = .val ((), s'') ∧ s''.mem = fun _ => none := by
  obtain ⟨s, h⟩ := plain_reads
  obtain ⟨s'', h1, h2, _⟩ := C34_read_then_free always pc none default_lists _ s 1 rfl h (by decide) 26
    (by decide)
  exact ⟨s, s'', h, h1, h2⟩

example : ∃ s : HS, ParentIs s.mem 1 0 ∧ Linked (fun _ => none) s.mem := by
  obtain ⟨s, h⟩ := plain_reads
  exact ⟨s, C35_read always pc none default_lists _ s 1 rfl h (by decide)⟩

example : ∃ s' : HS, 8 * s'.tick ≤ 8 * 0 + 3 * (encode plainForm).length := by
  obtain ⟨s, h⟩ := plain_reads
  exact ⟨s, C54_requests always pc none _ s 1 h⟩

example (A : Alloc) (hA : Total A pc) := C36_reader_builds_hierarchy A pc hA none default_lists
  (holding (encode sample)) rfl empty_roomy sample
example (A : Alloc) (hA : Total A pc) := C36_same_failures A pc hA none default_lists
  (holding truncatedForm) rfl empty_roomy
example (A : Alloc) (hA : Total A pc) := C36_builds_encoded A pc pc_sane hA sample sample_consistent
  sample_standard sample_split (sample_data pc (by rfl)) (holding (encode sample)) rfl rfl empty_roomy
example (A : Alloc) (hA : Total A pc) := C37_read_default_partial A hA.array pc pc_sane hA.grants
  (holding (encode sample)) rfl empty_roomy (noNegativeGroups_of (by decide)) (by decide)

/-- The undefined behaviour of C37 does happen. -/
example (A : Alloc) (hA : Total A pc) : Heap.readFd A pc none (holding overflowing) = .ub .signedOverflow := by
  have h := ((C36_same_failures A pc hA none default_lists (holding overflowing) rfl empty_roomy).2.1
    .signedOverflow).mp C16_false
  have := C37_read_partial A hA.array pc pc_sane hA.grants none default_lists (holding overflowing) rfl
    empty_roomy _ h
  have := C37_read_only_null_store A pc pc_sane hA.grants none default_lists (holding overflowing) rfl _ h
  exact h

/-! ### Building: C27, C34, C35, C37, C38 -/

theorem up_none {m : Mem} {a b : Addr} (h : Up m a b) (ha : m a = none) : a = b := by
  cases h with
  | refl => rfl
  | step hp _ =>
    obtain ⟨_, _, hb, _⟩ := hp
    rw [ha] at hb; cases hb

/-- Two calls and an operation: what the calls returned, the memory before the operation, and whether the
operation ended. -/
def callsThen (A : Alloc) (e : Env) (op1 op2 : Op) (f : M HS Unit) (s : HS) :
    Option (Addr × Addr × List (Option Block)) :=
  match op1.run A e s with
  | .val (r1, s1) =>
    match op2.run A e s1 with
    | .val (r2, s2) =>
      match f s2 with
      | .val _ => some (r1, r2, (List.range 5).map s2.mem)
      | _ => none
    | _ => none
  | _ => none

theorem callsThen_eq {A : Alloc} {e : Env} {op1 op2 : Op} {f : M HS Unit} {s : HS} {r1 r2 : Addr}
    {bs : List (Option Block)} (h : callsThen A e op1 op2 f s = some (r1, r2, bs)) :
    ∃ s1 s2 s3, op1.run A e s = .val (r1, s1) ∧ op2.run A e s1 = .val (r2, s2) ∧ f s2 = .val ((), s3) ∧
      (List.range 5).map s2.mem = bs := by
  simp only [callsThen] at h
  split at h
  · rename_i h1
    split at h
    · rename_i h2
      split at h
      · rename_i x h3
        cases h
        exact ⟨_, _, x.2, h1, h2, h3, rfl⟩
      · cases h
    · cases h
  · cases h

/-- What an application that creates a FORM (at 1) and a data chunk (at 2) can do next. -/
theorem form_and_data (f : M HS Unit)
    (hf : callsThen always pc (.group idFORM 7) (.raw 5 [9]) f (holding []) = some (1, 2,
      [none, some (.grp ⟨0, idFORM, 4⟩ 7 0 0), some (.raw ⟨0, 5, 1⟩ 3), some (.bytes [some 9]), none])) :
    ∃ s s', History always pc StandardCall (holding []) s ∧ f s = .val ((), s') ∧
      s.mem 1 = some (.grp ⟨0, idFORM, 4⟩ 7 0 0) ∧ s.mem 2 = some (.raw ⟨0, 5, 1⟩ 3) ∧
      CanAdd (holding []).mem s.mem 1 2 := by
  obtain ⟨s1, s2, s3, h1, h2, h4, h3⟩ := callsThen_eq hf
  simp only [List.range, List.range.loop, List.map_cons, List.map_nil, List.cons.injEq] at h3
  obtain ⟨m0, m1, m2, m3, _⟩ := h3
  refine ⟨s2, s3, .call (.call .start (op := .group idFORM 7) (.inl rfl) trivial h1) (op := .raw 5 [9])
      (by simp only [StandardCall]; decide) (by simp only [Allowed]; decide) h2, h4, m1, m2,
    rfl, rfl, ⟨_, _, m1, rfl⟩, ⟨_, _, m2, rfl, rfl⟩, ?_⟩
  intro hu
  cases hu with
  | step hp hu =>
    obtain ⟨b, h, hb, hh, rfl⟩ := hp
    rw [m1] at hb; cases hb; cases hh
    exact absurd (up_none hu m0) (by decide)

/-- What an application that creates a LIST (at 1) and a PROP (at 2) can do next. -/
theorem list_and_prop (f : M HS Unit)
    (hf : callsThen always pc (.list 7) (.group idPROP 7) f (holding []) = some (1, 2,
      [none, some (.lst ⟨0, idLIST, 4⟩ 7 0 0 0 0), some (.grp ⟨0, idPROP, 4⟩ 7 0 0), none, none])) :
    ∃ s s', History always pc StandardCall (holding []) s ∧ f s = .val ((), s') ∧
      s.mem 1 = some (.lst ⟨0, idLIST, 4⟩ 7 0 0 0 0) ∧ CanAdd (holding []).mem s.mem 1 2 := by
  obtain ⟨s1, s2, s3, h1, h2, h4, h3⟩ := callsThen_eq hf
  simp only [List.range, List.range.loop, List.map_cons, List.map_nil, List.cons.injEq] at h3
  obtain ⟨m0, m1, m2, m3, _⟩ := h3
  refine ⟨s2, s3, .call (.call .start (op := .list 7) trivial trivial h1) (op := .group idPROP 7)
      (.inr (.inr rfl)) trivial h2, h4, m1,
    rfl, rfl, ⟨_, _, m1, rfl⟩, ⟨_, _, m2, rfl, rfl⟩, ?_⟩
  intro hu
  cases hu with
  | step hp hu =>
    obtain ⟨b, h, hb, hh, rfl⟩ := hp
    rw [m1] at hb; cases hb; cases hh
    exact absurd (up_none hu m0) (by decide)

example : ∃ s : HS, Linked (holding []).mem s.mem ∧ s.mem 1 ≠ none := by
  obtain ⟨s, _, hH, _, m1, _⟩ := form_and_data (pure ()) (by decide +kernel)
  exact ⟨s, C35_histories _ pc pc_sane _ _ s rfl hH, by rw [m1]; simp⟩

example : ∃ s s', Heap.addToGroup always pc 1 2 s = .val ((), s') ∧ MemberAt s'.mem 1 2 ∧
    ParentIs s'.mem 2 1 := by
  obtain ⟨s, s', hH, hr, m1, m2, ha⟩ := form_and_data (Heap.addToGroup always pc 1 2) (by decide +kernel)
  have := C27_heap_add always pc pc_sane _ _ s rfl hH 1 2 ha
  exact ⟨s, s', hr, C35_add _ pc pc_sane _ _ s s' rfl hH 1 2 ha hr⟩

example : ∃ s s', Heap.addAndUpdate always pc 1 2 s = .val ((), s') ∧ MemberAt s'.mem 1 2 ∧
    ParentIs s'.mem 2 1 := by
  obtain ⟨s, s', hH, hr, m1, ha⟩ := list_and_prop (Heap.addAndUpdate always pc 1 2) (by decide +kernel)
  exact ⟨s, s', hr, C35_add_auto _ pc pc_sane _ _ s s' rfl hH 1 2 ha hr⟩

example : ∃ s s', Heap.addPropToList always pc 1 2 s = .val ((), s') ∧ PropAt s'.mem 1 2 ∧
    ParentIs s'.mem 2 1 := by
  obtain ⟨s, s', hH, hr, m1, ha⟩ := list_and_prop (Heap.addPropToList always pc 1 2) (by decide +kernel)
  exact ⟨s, s', hr, C35_add_prop _ pc pc_sane _ _ s s' rfl hH 1 2 ha ⟨_, _, m1, rfl⟩ hr⟩

example : ∃ s s' : HS, ParentIs s'.mem 1 0 ∧ s = holding [] := by
  obtain ⟨s', h, _⟩ := returned_eq (o := Op.run always pc (.group idFORM 7) (holding [])) (p := 1) (t := 1)
    (by decide +kernel)
  exact ⟨holding [], s', C35_new always pc pc_sane StandardCall _ _ s' rfl .start (.group idFORM 7) 1 trivial h
    (by decide), rfl⟩

/-- The data chunk can be freed, and what C37 asks for adding it holds for any allocator. -/
example : ∃ s : HS, ∃ t : Node, t.addr = 2 ∧ In s.mem 0 t := by
  obtain ⟨s, _, hH, _, m1, m2, ha⟩ := form_and_data (pure ()) (by decide +kernel)
  obtain ⟨t, h1, h2, _⟩ := C34_built always pc pc_sane _ s rfl hH 2 rfl ⟨_, _, m2, rfl, rfl⟩
  exact ⟨s, t, h1, h2⟩

example (A : Alloc) (hA : ArraysOk A) (s : HS) (h : History A pc StandardCall (holding []) s)
    (ha : CanAdd (holding []).mem s.mem 1 2) (m1 : s.mem 1 = some (.grp ⟨0, idFORM, 4⟩ 7 0 0))
    (m2 : s.mem 2 = some (.raw ⟨0, 5, 1⟩ 3)) : ∃ s', Heap.addToGroup A pc 1 2 s = .val ((), s') := by
  refine C37_add_partial A hA pc pc_sane StandardCall _ s rfl empty_roomy h 1 2 ha ?_
  intro b h b' h' hb hh hb' hh'
  rw [m1] at hb; rw [m2] at hb'
  cases hb; cases hb'; cases hh; cases hh'
  decide

example := C37_create always pc pc_sane (holding []) rfl (.group idFORM 7) (.inl ⟨_, _, rfl⟩)

/-- An application that reads a file and frees the hierarchy has nothing left. -/
example : ∃ s : HS, s.mem = (holding []).mem := by
  obtain ⟨s', h⟩ := plain_reads
  have hp := (C35_read always pc none default_lists _ s' 1 rfl h (by decide)).1
  obtain ⟨t, _, _, _, _, hf⟩ := C34_built always pc pc_sane (holding []) s' rfl
    (.call .start (op := .read none (encode plainForm)) rfl default_lists h) 1 rfl hp
  obtain ⟨s1, h1, _, _, hH⟩ := hf (max (depth t.chunk) 26) (Nat.le_max_left _ _)
  obtain ⟨s2, h2, h3, _⟩ := C34_read_then_free always pc none default_lists _ s' 1 rfl h (by decide)
    (max (depth t.chunk) 26) (Nat.le_max_right _ _)
  rw [h1] at h2
  cases h2
  refine ⟨s1, C34_no_leak always pc pc_sane _ (holding []) s1 rfl hH ?_⟩
  rintro p _ ⟨b, _, hb, _⟩
  rw [h3] at hb; cases hb

/-- A data chunk with an old text. -/
def oldText : HS := ⟨fun a => match a with
  | 2 => some (.raw ⟨0, 5, 1⟩ 3)
  | 3 => some (.bytes [some 9])
  | _ => none, 3, ⟨[], []⟩⟩

theorem oldText_in : In oldText.mem 0 (.raw 2 3 5 1 [9]) := by simp [In, oldText]

example := C38_partial always oldText 0 2 3 5 1 [9] [1, 2] oldText_in (by decide) (by decide)
example : ∃ s' s'', setText always 2 [1, 2] oldText = .val ((), s') ∧ iffFree none 1 2 s' = .val ((), s'') ∧
    s''.mem 3 = some (.bytes [some 9]) := by
  obtain ⟨d, s', h, _⟩ := C38_partial always oldText 0 2 3 5 1 [9] [1, 2] oldText_in (by decide) (by decide)
  obtain ⟨s'', h1, _, h2⟩ := C38_false always oldText s' 0 2 3 5 1 [9] [1, 2] rfl oldText_in (by decide) h
  exact ⟨s', s'', h, h1, h2⟩
example := C38_refused (numbered fun _ _ => true) oldText rfl 2 [1, 2] (by rfl)
example := C37_add_refused (numbered fun _ _ => true) (fun _ _ _ => by simp [numbered]) pc ⟨sampleMem, 0, ⟨[], []⟩⟩ rfl 0
  sampleNode trivial sampleMem_in 20

/-! ### Freeing, lookup, size updates, searches: C24 to C26, C29, C34, C39 -/

theorem sample_roomy : Roomy sampleMem := by
  refine ⟨12, fun a ha => ?_⟩
  unfold sampleMem
  split <;> first | rfl | omega

theorem sample_released : Released defaultRegistry 0 sampleNode.chunk := by
  rw [sampleNode_chunk]
  refine .grp (.inr (.inl rfl)) ?_
  simp only [List.mem_cons, List.not_mem_nil, or_false, forall_eq_or_imp, forall_eq]
  refine ⟨.grp (.inl rfl) ?_, .lst rfl ?_ ?_⟩ <;> simp only [List.mem_singleton, forall_eq]
  · exact .raw rfl
  · exact .grp (.inl rfl) (by simp)
  · exact .grp (.inr (.inr rfl)) (by simp)

example := C34_free_exactly none ⟨sampleMem, 0, ⟨[], []⟩⟩ 0 sampleNode sampleMem_in (by decide) rfl
  sample_released 4 (by decide)

theorem listForm_in : In listFormMem 0 (plug listFormPath listFormForm) := by
  simp [plug, listFormPath, listFormForm, listFormData, Frame.fill, In, ArrayIn, Node.addr, listFormMem]

theorem listForm_typed : Typed (plug listFormPath listFormForm).chunk := by
  simp only [plug, listFormPath, listFormForm, listFormData, Frame.fill, Node.chunk, Node.chunks,
    List.nil_append]
  refine .lst rfl ?_ ?_ ?_
  · simp only [List.mem_singleton, forall_eq]
    exact .grp (by decide) (by simp)
  · simp only [List.mem_singleton, forall_eq]
    refine .grp (by decide) ?_
    simp only [List.mem_singleton, forall_eq]
    exact .raw (by decide) (by decide) (by decide) (by decide)
  · simp [Chunk.id]

/-- The form's own chunks, when the form is the PROP of the example. -/
def listFormProp : Node := .grp 5 6 idPROP 12 0x58585858#32 [listFormData]

example (rs : RS) := C25_lookup (id := 0x41424344#32) (s := ⟨listFormMem, 0, rs⟩) (n := 2) listForm_in rfl
  (by decide) listForm_typed rfl
example (rs : RS) := C25_null_iff (id := 0x41424344#32) (s := ⟨listFormMem, 0, rs⟩) (n := 2) listForm_in rfl
  (by decide) listForm_typed rfl
example (rs : RS) : getChunk 2 4 0x41424344#32 ⟨listFormMem, 0, rs⟩ = .val (7, ⟨listFormMem, 0, rs⟩) :=
  C25_inherited (id := 0x41424344#32) (s := ⟨listFormMem, 0, rs⟩) (n := 2) listForm_in rfl
    (by decide) listForm_typed rfl (by simp [listFormForm, Node.members])
    (inner := []) (outer := []) (g := plug listFormPath listFormForm) (ps := []) (qs := []) (p := listFormProp)
    (pre := []) (post := []) (c := listFormData) rfl (by simp) rfl (by simp) rfl rfl (by simp) rfl

/-- The chunk that the outer form of the example of C24 has itself. -/
theorem nested_plug : In nestedMem 0 (plug [.grp 1 2 idCAT 28 0x58585858#32 [] []] nestedOuter) := nested_in

example (rs : RS) : getChunk 2 3 idFORM ⟨nestedMem, 0, rs⟩ = .val (5, ⟨nestedMem, 0, rs⟩) :=
  C25_own (s := ⟨nestedMem, 0, rs⟩) (n := 2) nested_plug rfl (by decide) nested_typed rfl
    (pre := []) (post := []) (c := nestedInner) rfl (by simp) rfl
example (rs : RS) : getChunk 2 3 idFORM ⟨nestedMem, 0, rs⟩ = .val (5, ⟨nestedMem, 0, rs⟩) :=
  C26_first (s := ⟨nestedMem, 0, rs⟩) (n := 2) nested_plug rfl (by decide) nested_typed rfl
    (as := []) (by decide)
example (A : Alloc) (hA : Total A pc) (rs : RS) := C26_all_members (A := A) hA.array (id := idFORM)
  (s := ⟨nestedMem, 0, rs⟩) (t := nested) rfl nested_in rfl nested_roomy

theorem catForm_in : In catFormMem 0 (plug catFormPath catFormData) := by
  simp [plug, catFormPath, catFormData, Frame.fill, In, ArrayIn, Node.addr, catFormMem]

theorem catForm_typed : Typed (plug catFormPath catFormData).chunk := by
  simp only [plug, catFormPath, catFormData, Frame.fill, Node.chunk, Node.chunks, List.nil_append]
  refine .grp (by decide) ?_
  simp only [List.mem_singleton, forall_eq]
  refine .grp (by decide) ?_
  simp only [List.mem_singleton, forall_eq]
  exact .raw (by decide) (by decide) (by decide) (by decide)

example (rs : RS) := C29_update_repairs (e := pc) pc_sane.1 (s := ⟨catFormMem, 0, rs⟩) (n := 3) (by decide)
  catForm_in (by simp [plug, catFormPath, catFormData, Frame.fill, Node.blocks]) rfl catForm_typed
  (.raw rfl (by decide)) (by simp [catFormPath, Frame.others]) (by decide)
example := C29_no_change (fs := []) (t := sampleNode) sample_consistent

theorem nestedOuter_in : In nestedMem 1 nestedOuter := by
  simp [nestedOuter, nestedInner, In, InAll, ArrayIn, Node.addr, nestedMem]

theorem nestedOuter_requested : Requested [0x58585858#32] nestedOuter :=
  ⟨rfl, _, List.mem_singleton_self _, rfl⟩

theorem nestedOuter_reached : Reach nested nestedOuter :=
  .step .self (.inr (.inl rfl)) (List.mem_singleton_self _)

theorem inner_reaches {u : Node} (h : Reach nestedInner u) : u = nestedInner := by
  induction h with
  | self => rfl
  | step _ _ hc ih => subst ih; cases hc

theorem reach_inner {g c : Node} (h : Reach nestedInner g) (hc : c ∈ g.members) : False := by
  rw [inner_reaches h] at hc; cases hc

example (A : Alloc) (hA : Total A pc) (rs : RS) := C24_partial (A := A) hA.array (types := [0x58585858#32])
  (s := ⟨nestedMem, 0, rs⟩) (n := 3) nested_in rfl nested_roomy nested_typed (by decide)
example (A : Alloc) (hA : Total A pc) (rs : RS) := C24_complete_partial (A := A) hA.array
  (types := [0x58585858#32]) (t := nestedInner) (par := 3) (s := ⟨nestedMem, 0, rs⟩) (n := 1)
  (by simp [nestedInner, In, ArrayIn, nestedMem]) rfl nested_roomy (.grp (by decide) (by simp)) (by decide)
  (by intro u hu _ c hc
      cases hu with
      | self => cases hc
      | step h1 _ h2 => exact (reach_inner h1 h2).elim)
example := C24_forms (types := [0x58585858#32]) (t := nested) nested_typed (by decide)
example (A : Alloc) (hA : Total A pc) (rs : RS) := C39_partial (A := A) hA.array (types := [0x58585858#32])
  (s := ⟨nestedMem, 0, rs⟩) (n := 2) nestedOuter_in rfl nested_roomy
  (typed_member (t := nested) nested_typed (List.mem_singleton_self _)) (by decide) (.inl nestedOuter_requested)
example (A : Alloc) (hA : Total A pc) (rs : RS) := C39_old_blocks_partial (A := A) hA.array
  (types := [0x58585858#32]) (s := ⟨nestedMem, 0, rs⟩) (n := 3) nested_in rfl nested_roomy nested_typed (by decide)
example (A : Alloc) (hA : Total A pc) (rs : RS) := C39_leak (A := A) hA.array (types := [0x58585858#32])
  (s := ⟨nestedMem, 0, rs⟩) (n := 3) nested_in rfl nested_roomy nested_typed (by decide) (fun h => by
    have := h.1; revert this; decide) nestedOuter_reached nestedOuter_requested

/-! ### Checking, comparing, printing, writing: C50, C51 -/

example := C50_check pc (some testRegistry) sampleMem 0 sampleNode sampleMem_in 4 (by decide) 0 []
example := C50_compare pc none ⟨sampleMem, 0, ⟨[], []⟩⟩ 0 1 sampleNode
  (.grp 3 4 idFORM 14 (makeId 'T' 'E' 'S' 'T') [.raw 5 6 (makeId 'A' 'B' 'C' 'D') 1 [0x7f]]) sampleMem_in
  (by simp [In, InAll, ArrayIn, Node.addr, sampleMem]) 4 (by decide)
example := C50_print none sampleMem 0 sampleNode sampleMem_in 4 (by decide) 2 0 []
example := C50_check_decides pc pc_sane sampleMem 0 sampleNode sampleMem_in sample_standard
  (rawSizes_of_consistent sample_consistent) (propArrays_of_split sample_split) (by decide) 4 (by decide) 0 []
example := C50_compare_equal pc pc_sane none defaultRegistry_sorted ⟨sampleMem, 0, ⟨[], []⟩⟩ 0 0 sampleNode sampleNode
  sampleMem_in sampleMem_in sample_comparable sample_comparable sample_consistent sample_consistent
  (propArrays_of_split sample_split) (propArrays_of_split sample_split) 4 (by decide)
example (A : Alloc) (hA : Total A pc) := C51_write_partial A pc none sampleMem 0 sampleNode sampleMem_in
  (fun t n _ hn => hA.data t sampleMem n sample_roomy (decide_eq_true (show n < 2 ^ 63 by omega))) 4 (by decide) 0
  ⟨[], 100, []⟩
example (A : Alloc) := C51_write_without_filler A pc pc_sane none defaultRegistry_sorted sampleMem 0 sampleNode
  sampleMem_in sample_consistent (standard_iff.mpr sample_standard) (filled_of_standard sample_standard) 4 (by decide) 0 ⟨[], 10, []⟩
example (A : Alloc) := C51_write_encodes A pc pc_sane sampleMem 0 sampleNode sampleMem_in sample_consistent
  sample_standard 4 (by decide) 0 ⟨[], 70, []⟩ (by decide)
example (A : Alloc) := C51_memory_unchanged A pc none 4 1 ⟨sampleMem, 0, ⟨[], 70, []⟩⟩ _ _
  (C51_write_encodes A pc pc_sane sampleMem 0 sampleNode sampleMem_in sample_consistent
    sample_standard 4 (by decide) 0 ⟨[], 70, []⟩ (by decide))

/-! ### The tools: C52, C53 -/

/-- The files of the examples. -/
def joinable : List Source := [⟨"a", some (encode sample)⟩, ⟨"b", some (encode (.grp idFORM 4 idTEST []))⟩]

theorem joinable_depth (f : Source) (hf : f ∈ joinable) (bs : List Byte) (hb : f.contents = some bs) :
    bs.length + 5 ≤ 75 := by
  simp only [joinable, List.mem_cons, List.not_mem_nil, or_false] at hf
  rcases hf with rfl | rfl <;> cases hb <;> decide

theorem pc_ints (k : Nat) (hk : k < 2147483648) : pc.mallocOk k = true :=
  decide_eq_true (show k < 2 ^ 63 by omega)

theorem sample_depth (bs : List Byte) (hb : (⟨"a", some (encode sample)⟩ : Source).contents = some bs) :
    bs.length + 4 ≤ 74 := by cases hb; decide

example (A : Alloc) (hA : Total A pc) : ∃ x s', Heap.prettyPrint A pc 74 ⟨"a", some (encode sample)⟩ false
    ⟨fun _ => none, 0, []⟩ = .val (x, s') ∧ s'.mem = fun _ => none := by
  obtain ⟨t, h⟩ := C52_same_result A pc hA _ rfl empty_roomy ⟨"a", some (encode sample)⟩ false 74 sample_depth 0 []
  obtain ⟨a, b, l, hx⟩ := C31_total pc pc_sane ⟨"a", some (encode sample)⟩ false []
    (by intro bs hb; cases hb; exact ⟨noNegativeGroups_of (by decide), by decide⟩)
  rw [hx] at h
  exact ⟨_, _, h, C52_frees_everything A pc hA.grants _ rfl _ _ 74 sample_depth 0 [] _ _ h⟩

example (A : Alloc) (hA : Total A pc) : ∃ out s', Heap.join A pc 75 joinable ⟨"o", true, 1000, 0⟩
    ⟨fun _ => none, 0, []⟩ = .val ((0, out), s') ∧ s'.mem = fun _ => none := by
  obtain ⟨ty, size, t, log, h⟩ := C53_joins A pc pc_sane hA pc_ints _ rfl empty_roomy joinable twoInputs rfl
    twoInputs_accepted (by decide) ⟨"o", true, 1000, 0⟩ rfl (by decide) 75 (by decide) joinable_depth 0 []
  have := C53_frees_partial A pc hA.grants _ rfl joinable ⟨"o", true, 1000, 0⟩ 75 (by decide) joinable_depth 0 []
    _ _ h
  exact ⟨_, _, h, C53_frees_on_success A pc hA.grants _ rfl joinable ⟨"o", true, 1000, 0⟩ 75 (by decide)
    joinable_depth 0 [] _ _ h⟩
example (A : Alloc) (hA : Total A pc) := C53_same_result A pc hA pc_ints _ rfl empty_roomy joinable
  ⟨"o", true, 10, 0⟩ 75 (by decide) joinable_depth 0 []

/-- A PROP on its own is read, but it is not a valid file. -/
def unjoinable : List Source := [⟨"a", some (encode (.grp idPROP 4 idTEST []))⟩]

theorem unjoinable_depth (f : Source) (hf : f ∈ unjoinable) (bs : List Byte) (hb : f.contents = some bs) :
    bs.length + 5 ≤ 75 := by
  simp only [unjoinable, List.mem_singleton] at hf
  subst hf
  cases hb
  decide

example (A : Alloc) (hA : Total A pc) := C53_leaks A pc hA pc_ints _ rfl empty_roomy unjoinable
  ⟨"o", true, 10, 0⟩ 75 (by decide) unjoinable_depth 0 [] _
  (by intro f hf
      simp only [unjoinable, List.mem_singleton] at hf
      subst hf
      exact ⟨_, _, _, rfl, rfl⟩) rfl (by rfl)
example := C53_refused (numbered fun _ _ => true) pc (fun _ _ _ _ h => by simp [numbered] at h) (fun _ => none) rfl
  joinable ⟨"o", true, 10, 0⟩ 75 joinable_depth 0 [] rfl

end Iff
