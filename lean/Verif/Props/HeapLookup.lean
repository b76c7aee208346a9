import Verif.Proofs.HeapLookup
/-
  C25 Property lookup follows IFF-85 inheritance.
  C26 IFF_getChunksFromForm returns all direct members with the ID.
-/
namespace Iff
open Spec Heap

/-- C25: `t` is a group of type `ty` somewhere in a hierarchy in memory, `fs` being the groups around
it.  `IFF_getChunkFromForm` returns the address of the chunk with the ID that applies to it, NULL if
there is none, and changes nothing. -/
theorem C25_lookup {id ty : ID} {s : HS} {fs : List Frame} {t : Node} {n : Nat}
    (hin : In s.mem 0 (plug fs t)) (h0 : s.mem 0 = none) (hn : fs.length < n)
    (ht : Typed (plug fs t).chunk) (hty : t.ty? = some ty) :
    getChunk n t.addr id s = .val (Node.ptr (applies fs t ty id), s) :=
  getChunk_run h0 hin hn ht hty

/-- C25, a member: the first chunk with the ID in the form itself. -/
theorem C25_own {id ty : ID} {s : HS} {fs : List Frame} {t : Node} {n : Nat}
    (hin : In s.mem 0 (plug fs t)) (h0 : s.mem 0 = none) (hn : fs.length < n)
    (ht : Typed (plug fs t).chunk) (hty : t.ty? = some ty) {pre post : List Node} {c : Node}
    (hm : t.members = pre ++ c :: post) (hpre : ∀ d ∈ pre, d.chunk.id ≠ id) (hc : c.chunk.id = id) :
    getChunk n t.addr id s = .val (c.addr, s) := by
  rw [C25_lookup hin h0 hn ht hty]
  have : Node.first id t.members = some c := by
    rw [hm, Node.first, List.find?_append, List.find?_eq_none.mpr (by simpa using hpre)]
    simp [hc]
  simp [applies, this, Node.ptr]

/-- C25, inheritance: no member has the ID, the groups `inner` around the form share no such chunk,
and the next one `g` has, as its first PROP of the form's type, `p`, in which `c` is the first chunk
with the ID. -/
theorem C25_inherited {id ty : ID} {s : HS} {fs : List Frame} {t : Node} {n : Nat}
    (hin : In s.mem 0 (plug fs t)) (h0 : s.mem 0 = none) (hn : fs.length < n)
    (ht : Typed (plug fs t).chunk) (hty : t.ty? = some ty)
    (hm : ∀ d ∈ t.members, d.chunk.id ≠ id) {inner outer ps qs pre post : List Node} {g p c : Node}
    (he : enclosing fs t = inner ++ g :: outer)
    (hinner : ∀ l ∈ inner, ∀ q, l.props.find? (fun q => q.ty? = some ty) = some q →
      ∀ d ∈ q.members, d.chunk.id ≠ id)
    (hg : g.props = ps ++ p :: qs) (hps : ∀ q ∈ ps, q.ty? ≠ some ty) (hp : p.ty? = some ty)
    (hpm : p.members = pre ++ c :: post) (hpre : ∀ d ∈ pre, d.chunk.id ≠ id)
    (hc : c.chunk.id = id) :
    getChunk n t.addr id s = .val (c.addr, s) := by
  rw [C25_lookup hin h0 hn ht hty]
  have h1 : Node.first id t.members = none := List.find?_eq_none.mpr (by simpa using hm)
  have h2 : Node.first id p.members = some c := by
    rw [hpm, Node.first, List.find?_append, List.find?_eq_none.mpr (by simpa using hpre)]
    simp [hc]
  have h3 : g.props.find? (fun q => q.ty? = some ty) = some p := by
    rw [hg, List.find?_append, List.find?_eq_none.mpr (by simpa using hps)]
    simp [hp]
  have h4 : inner.findSome? (shared ty id) = none := by
    rw [List.findSome?_eq_none_iff]
    intro l hl
    simp only [shared]
    cases hf : l.props.find? (fun q => q.ty? = some ty) with
    | none => rfl
    | some q => exact List.find?_eq_none.mpr (by simpa using hinner l hl q hf)
  simp [applies, h1, he, h4, shared, h3, h2, Node.ptr]

/-- C25, nothing: NULL is returned only if no member has the ID and no enclosing LIST shares such a
chunk. -/
theorem C25_null_iff {id ty : ID} {s : HS} {fs : List Frame} {t : Node} {n : Nat}
    (hin : In s.mem 0 (plug fs t)) (h0 : s.mem 0 = none) (hn : fs.length < n)
    (ht : Typed (plug fs t).chunk) (hty : t.ty? = some ty) :
    getChunk n t.addr id s = .val (0, s) ↔
      (∀ d ∈ t.members, d.chunk.id ≠ id) ∧
      ∀ l ∈ enclosing fs t, ∀ q, l.props.find? (fun q => q.ty? = some ty) = some q →
        ∀ d ∈ q.members, d.chunk.id ≠ id := by
  have hshared : ∀ l, shared ty id l = none ↔
      ∀ q, l.props.find? (fun q => q.ty? = some ty) = some q → ∀ d ∈ q.members, d.chunk.id ≠ id := by
    intro l
    simp only [shared]
    cases hf : l.props.find? (fun q => q.ty? = some ty) with
    | none => simp
    | some q =>
      simp only [Option.bind_some, Node.first, List.find?_eq_none, decide_eq_true_eq,
        Option.some.injEq, forall_eq']
  have hz : ∀ o, (∀ c, o = some c → c.addr ≠ 0) → (Node.ptr o = 0 ↔ o = none) := by
    intro o ho
    cases o with
    | none => simp [Node.ptr]
    | some c => simp [Node.ptr, ho c rfl]
  -- what applies is in memory
  have hmem : ∀ (u : Node) (par : Addr), In s.mem par u → (∀ c ∈ u.members, c.addr ≠ 0) ∧
      ∀ q ∈ u.props, ∃ par', In s.mem par' q := by
    intro u par hu
    cases u <;> simp only [In] at hu <;> simp only [Node.members, Node.props]
    · simp
    · exact ⟨fun c hc => (inAll_iff.mp hu.2.2 c hc).ne_zero h0 c.addr_mem, by simp⟩
    · exact ⟨fun c hc => (inAll_iff.mp hu.2.2.2.1 c hc).ne_zero h0 c.addr_mem,
        fun q hq => ⟨_, inAll_iff.mp hu.2.2.2.2 q hq⟩⟩
    · simp
  have henc : ∀ (fs : List Frame) (u : Node), In s.mem 0 (plug fs u) →
      ∀ l ∈ enclosing fs u, ∃ par, In s.mem par l := by
    intro fs
    induction fs with
    | nil => intro u _ l hl; cases hl
    | cons f fs ih =>
      intro u hu l hl
      rcases List.mem_cons.mp hl with rfl | hl
      · exact ⟨_, (in_plug (fs := fs) |>.mp hu).2⟩
      · exact ih _ hu l hl
  rw [C25_lookup hin h0 hn ht hty]
  simp only [Out.val.injEq, Prod.mk.injEq, and_true]
  rw [hz]
  · simp only [applies]
    cases hf : Node.first id t.members with
    | some c =>
      have := List.mem_of_find?_eq_some hf
      have h2 := List.find?_some hf
      simp only [decide_eq_true_eq] at h2
      simp only [reduceCtorEq, false_iff, not_and]
      intro h; exact absurd h2 (h c this)
    | none =>
      have := List.find?_eq_none.mp hf
      simp only [decide_eq_true_eq] at this
      simp only [List.findSome?_eq_none_iff, hshared]
      exact ⟨fun h => ⟨this, h⟩, fun h => h.2⟩
  · intro c hc
    simp only [applies] at hc
    cases hf : Node.first id t.members with
    | some d =>
      rw [hf] at hc; cases hc
      exact (hmem t _ (in_plug.mp hin).2).1 _ (List.mem_of_find?_eq_some hf)
    | none =>
      rw [hf] at hc
      obtain ⟨l, hl, hs⟩ := List.exists_of_findSome?_eq_some hc
      obtain ⟨par, hlin⟩ := henc fs t hin l hl
      simp only [shared, Option.bind_eq_some_iff] at hs
      obtain ⟨q, hq, hfq⟩ := hs
      obtain ⟨par', hqin⟩ := (hmem l par hlin).2 q (List.mem_of_find?_eq_some hq)
      exact (hmem q par' hqin).1 c (List.mem_of_find?_eq_some hfq)

/-- C26: the result is a new array of the members with the ID, in order (NULL if there are none);
nothing else changes.  (The result of `realloc` is not checked: `ArraysOk`.) -/
theorem C26_all_members {A : Alloc} (hA : ArraysOk A) {id : ID} {t : Node} {s : HS} {par : Addr}
    {ty : ID} (hty : t.ty? = some ty) (hin : In s.mem par t) (h0 : s.mem 0 = none)
    (hr : Roomy s.mem) :
    ∃ r m' t', getChunks A t.addr id s =
        .val ((r, (t.members.filter fun c => c.chunk.id = id).length),
          { s with mem := m', tick := t' }) ∧
      ArrayIn m' r ((t.members.filter fun c => c.chunk.id = id).map Node.addr) ∧
      Adds s.mem m' (if r = 0 then [] else [r]) := by
  have ht : Node.IsGroup t := by cases t <;> simp_all [Node.ty?, Node.IsGroup]
  obtain ⟨r, m', t', h1, h2, h3⟩ := getChunks_run hA (id := id) ht hin h0 hr
  exact ⟨r, m', t', h1, h3, h2⟩

/-- C26: the first element, if there is one, is what `IFF_getChunkFromForm` returns. -/
theorem C26_first {id ty : ID} {s : HS} {fs : List Frame} {t : Node} {n : Nat}
    (hin : In s.mem 0 (plug fs t)) (h0 : s.mem 0 = none) (hn : fs.length < n)
    (ht : Typed (plug fs t).chunk) (hty : t.ty? = some ty) {a : Addr} {as : List Addr}
    (hf : (t.members.filter fun c => c.chunk.id = id).map Node.addr = a :: as) :
    getChunk n t.addr id s = .val (a, s) := by
  rw [C25_lookup hin h0 hn ht hty]
  have hh := List.head?_filter (p := fun c : Node => decide (c.chunk.id = id)) (l := t.members)
  cases hfl : t.members.filter (fun c => decide (c.chunk.id = id)) with
  | nil => rw [hfl] at hf; cases hf
  | cons c cs =>
    rw [hfl] at hf hh
    simp only [List.map_cons, List.cons.injEq] at hf
    simp only [List.head?_cons] at hh
    simp only [applies, Node.first, ← hh, Node.ptr, hf.1]

/-! A concrete case: `LIST { PROP X { ABCD }, FORM X { } }`. -/

/-- The PROP at 5 (array 6) with a data chunk at 7 (data 8); the LIST at 1 (arrays 2 and 3) with an
empty FORM at 4. -/
def listFormMem : Mem := fun a => match a with
  | 1 => some (.lst ⟨0, idLIST, 40⟩ 0x58585858#32 1 2 1 3)
  | 2 => some (.ptrs [some 4])
  | 3 => some (.ptrs [some 5])
  | 4 => some (.grp ⟨1, idFORM, 4⟩ 0x58585858#32 0 0)
  | 5 => some (.grp ⟨1, idPROP, 12⟩ 0x58585858#32 1 6)
  | 6 => some (.ptrs [some 7])
  | 7 => some (.raw ⟨5, 0x41424344#32, 0⟩ 8)
  | 8 => some (.bytes [])
  | _ => none

/-- The form. -/
def listFormForm : Node := .grp 4 0 idFORM 4 0x58585858#32 []

/-- The PROP's data chunk. -/
def listFormData : Node := .raw 7 8 0x41424344#32 0 []

/-- The list around the form. -/
def listFormPath : List Frame := [.sub 1 2 3 idLIST 40 0x58585858#32 [] []
  [.grp 5 6 idPROP 12 0x58585858#32 [listFormData]]]

example : In listFormMem 0 (plug listFormPath listFormForm) ∧ listFormMem 0 = none ∧
    Typed (plug listFormPath listFormForm).chunk ∧
    applies listFormPath listFormForm 0x58585858#32 0x41424344#32 = some listFormData := by
  refine ⟨?_, rfl, ?_, ?_⟩
  · simp [plug, listFormPath, listFormForm, listFormData, Frame.fill, In, ArrayIn, Node.addr,
      listFormMem]
  · simp only [plug, listFormPath, listFormForm, listFormData, Frame.fill, Node.chunk, Node.chunks,
      List.nil_append]
    refine .lst rfl ?_ ?_ ?_
    · simp only [List.mem_singleton, forall_eq]
      exact .grp (by decide) (by simp)
    · simp only [List.mem_singleton, forall_eq]
      refine .grp (by decide) ?_
      simp only [List.mem_singleton, forall_eq]
      exact .raw (by decide) (by decide) (by decide) (by decide)
    · simp [Chunk.id]
  · simp [applies, listFormPath, listFormForm, listFormData, Node.first, Node.members, enclosing,
      Frame.fill, shared, Node.props, Node.ty?, Node.chunk, Chunk.id]

end Iff
