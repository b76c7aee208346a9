import Verif.Proofs.SrcSearch
import Verif.Props.SrcLookup
import Verif.Props.SrcBuild
import Verif.Props.HeapSearch
/-
  C67 The program text of the searches does what the model says.
-/
namespace Iff.Src
set_option maxRecDepth 4000
open Spec
open Heap (Addr Block Mem HS HX Alloc)

/-! ### C67 -/

/-- C67: for every platform, memory and array of form types outside the heap, if the model of
`IFF_searchFormsFromArray` returns then executing its text and that of the functions it calls returns the
same pointer and stores the same length, without undefined behaviour; the memory is then that of the
model and nothing else changes. -/
theorem C67_search (X : Cfg) (g : CS) (s s' : HS) (p r : Addr) (types : List ID) (k len q : Nat) (o : Obj)
    (B : Blk) (hq : g.stk[q]? = some B) (ho : TypesAt X g.stk o types) (hoq : o ≠ .stk q)
    (ht : types.length < 4294967296) (hm : Rep s.mem) (hlen : len < 536870912)
    (h : Heap.searchForms X.alloc types k p s = .val ((r, len), s')) :
    Runs X .IFF_searchFormsFromArray [.ptr (.struct .IFF_Chunk) ⟨.heap p, 0⟩, .ptr (.int .uint) ⟨o, 0⟩,
        .int .uint types.length, .ptr (.int .uint) ⟨.stk q, 0⟩] (emb X g s)
      (.ptr (.ptr (.struct .IFF_Form)) ⟨.heap r, 0⟩)
      (emb X { g with stk := g.stk.set q (B.set 0 (.int .uint len)) } s') ∧ Rep s'.mem := by
  obtain ⟨h1, h2⟩ := searchForms_run (X := X) (out := g.out) (room := g.room) (text := g.text) types ht k
    hq ho hoq hm hlen h
  exact ⟨h2, h1.rep hm⟩

/-- C67, one type: likewise for `IFF_searchForms`. -/
theorem C67_search_type (X : Cfg) (g : CS) (s s' : HS) (p r : Addr) (ty : ID) (k len q : Nat)
    (B : Blk) (hq : g.stk[q]? = some B) (hm : Rep s.mem) (hlen : len < 536870912)
    (h : Heap.searchFormsOfType X.alloc k p ty s = .val ((r, len), s')) :
    Runs X .IFF_searchForms [.ptr (.struct .IFF_Chunk) ⟨.heap p, 0⟩, .int .uint ty.toNat,
        .ptr (.int .uint) ⟨.stk q, 0⟩] (emb X g s)
      (.ptr (.ptr (.struct .IFF_Form)) ⟨.heap r, 0⟩)
      (emb X { g with stk := g.stk.set q (B.set 0 (.int .uint len)) } s') ∧ Rep s'.mem := by
  obtain ⟨h1, h2⟩ := searchFormsOfType_run (X := X) (out := g.out) (room := g.room) (text := g.text)
    hq hm hlen h
  exact ⟨h2, h1.rep hm⟩

/-- C67, members: likewise for `IFF_getChunksFromForm`. -/
theorem C67_get_chunks (X : Cfg) (g : CS) (s s' : HS) (p r : Addr) (id : ID) (len q : Nat)
    (B : Blk) (hq : g.stk[q]? = some B) (hm : Rep s.mem) (hlen : len < 536870912)
    (h : Heap.getChunks X.alloc p id s = .val ((r, len), s')) :
    Runs X .IFF_getChunksFromForm [.ptr (.struct .IFF_Form) ⟨.heap p, 0⟩, .int .uint id.toNat,
        .ptr (.int .uint) ⟨.stk q, 0⟩] (emb X g s)
      (.ptr (.ptr (.struct .IFF_Chunk)) ⟨.heap r, 0⟩)
      (emb X { g with stk := g.stk.set q (B.set 0 (.int .uint len)) } s') ∧ Rep s'.mem := by
  obtain ⟨h1, h2⟩ := getChunks_run (X := X) (out := g.out) (room := g.room) (text := g.text)
    hq hm hlen h
  exact ⟨h2, h1.rep hm⟩

/-- C67 with C24: where arrays of up to `N` pointers are not refused, the text of
`IFF_searchFormsFromArray` returns an array of the outermost FORMs of the requested types, if these are
at most `N`, and stores their number; all structs and arrays that were there stay as they are. -/
theorem C67_finds_outermost (X : Cfg) (g : CS) (s : HS) (t : Node) (par : Addr) (types : List ID)
    (N q : Nat) (o : Obj) (B : Blk) (hN : X.ArraysOk N) (hN1 : 1 ≤ N) (hN2 : N < 536870912)
    (hq : g.stk[q]? = some B) (ho : TypesAt X g.stk o types) (hoq : o ≠ .stk q)
    (ht : types.length < 4294967296) (hm : Rep s.mem) (hin : In s.mem par t) (h0 : s.mem 0 = none)
    (hr : Roomy s.mem) (hty : Typed t.chunk) (hlen : (outermost types t).length ≤ N) :
    ∃ (r : Addr) (s' : HS), Runs X .IFF_searchFormsFromArray [.ptr (.struct .IFF_Chunk) ⟨.heap t.addr, 0⟩,
        .ptr (.int .uint) ⟨o, 0⟩, .int .uint types.length, .ptr (.int .uint) ⟨.stk q, 0⟩] (emb X g s)
      (.ptr (.ptr (.struct .IFF_Form)) ⟨.heap r, 0⟩)
      (emb X { g with stk := g.stk.set q (B.set 0 (.int .uint (outermost types t).length)) } s') ∧
      ArrayOrNull s'.mem r ((outermost types t).map Node.addr) ∧
      ∀ x, s.mem x ≠ none → s'.mem x = s.mem x := by
  obtain ⟨r, m', t', h1, h2, h3⟩ := (C24_partial (complete_arrays hN) (types := types) hin h0 hr hty
    (Nat.le_refl _)).1
  have h := searchForms_like (like_complete (X := X) (N := N) (by omega)) hN1 _ _ _ _ _ hlen h1
  exact ⟨r, _, (C67_search X g s _ _ r types _ _ q o B hq ho hoq ht hm (by omega) h).1, h2, h3⟩

/-- C67 with C24, one type: likewise for `IFF_searchForms`. -/
theorem C67_finds_outermost_of_type (X : Cfg) (g : CS) (s : HS) (t : Node) (par : Addr) (ty : ID)
    (N q : Nat) (B : Blk) (hN : X.ArraysOk N) (hN1 : 1 ≤ N) (hN2 : N < 536870912)
    (hq : g.stk[q]? = some B) (hm : Rep s.mem) (hin : In s.mem par t) (h0 : s.mem 0 = none)
    (hr : Roomy s.mem) (hty : Typed t.chunk) (hlen : (outermost [ty] t).length ≤ N) :
    ∃ (r : Addr) (s' : HS), Runs X .IFF_searchForms [.ptr (.struct .IFF_Chunk) ⟨.heap t.addr, 0⟩,
        .int .uint ty.toNat, .ptr (.int .uint) ⟨.stk q, 0⟩] (emb X g s)
      (.ptr (.ptr (.struct .IFF_Form)) ⟨.heap r, 0⟩)
      (emb X { g with stk := g.stk.set q (B.set 0 (.int .uint (outermost [ty] t).length)) } s') ∧
      ArrayOrNull s'.mem r ((outermost [ty] t).map Node.addr) ∧
      ∀ x, s.mem x ≠ none → s'.mem x = s.mem x := by
  obtain ⟨r, m', t', h1, h2, h3⟩ := (C24_partial (complete_arrays hN) (types := [ty]) hin h0 hr hty
    (Nat.le_refl _)).1
  have h := searchForms_like (like_complete (X := X) (N := N) (by omega)) hN1 _ _ _ _ _ hlen h1
  exact ⟨r, _, (C67_search_type X g s _ _ r ty _ _ q B hq hm (by omega) h).1, h2, h3⟩

/-- C67 with C26: the text of `IFF_getChunksFromForm` returns a new array of the members with the ID, in
order (NULL if there are none), and stores their number; nothing else changes. -/
theorem C67_finds_members (X : Cfg) (g : CS) (s : HS) (t : Node) (par : Addr) (id ty : ID)
    (N q : Nat) (B : Blk) (hN : X.ArraysOk N) (hN2 : N < 536870912)
    (hq : g.stk[q]? = some B) (hm : Rep s.mem) (hty : t.ty? = some ty) (hin : In s.mem par t)
    (h0 : s.mem 0 = none) (hr : Roomy s.mem)
    (hlen : (t.members.filter fun c => c.chunk.id = id).length ≤ N) :
    ∃ (r : Addr) (s' : HS), Runs X .IFF_getChunksFromForm [.ptr (.struct .IFF_Form) ⟨.heap t.addr, 0⟩,
        .int .uint id.toNat, .ptr (.int .uint) ⟨.stk q, 0⟩] (emb X g s)
      (.ptr (.ptr (.struct .IFF_Chunk)) ⟨.heap r, 0⟩)
      (emb X { g with stk := g.stk.set q (B.set 0
        (.int .uint (t.members.filter fun c => c.chunk.id = id).length)) } s') ∧
      ArrayIn s'.mem r ((t.members.filter fun c => c.chunk.id = id).map Node.addr) ∧
      Adds s.mem s'.mem (if r = 0 then [] else [r]) ∧ s'.rs = s.rs := by
  obtain ⟨r, m', t', h1, h2, h3⟩ := C26_all_members (complete_arrays hN) (id := id) hty hin h0 hr
  have h := getChunks_like (like_complete (X := X) (N := N) (by omega)) hlen h1
  exact ⟨r, _, (C67_get_chunks X g s _ _ r id _ q B hq hm (by omega) h).1, h2, h3, rfl⟩

/-- C67 with C39: unless the searched chunk itself is a requested form, a search that finds a form, both
the search and the release of its result as text, leaves a block behind. -/
theorem C67_search_leaks (X : Cfg) (g : CS) (s : HS) (t u : Node) (par : Addr) (types : List ID)
    (N q : Nat) (o : Obj) (B : Blk) (hN : X.ArraysOk N) (hN1 : 1 ≤ N) (hN2 : N < 536870912)
    (hq : g.stk[q]? = some B) (ho : TypesAt X g.stk o types) (hoq : o ≠ .stk q)
    (ht : types.length < 4294967296) (hm : Rep s.mem) (hin : In s.mem par t) (h0 : s.mem 0 = none)
    (hr : Roomy s.mem) (hty : Typed t.chunk) (hlen : (outermost types t).length ≤ N)
    (hroot : ¬ Requested types t) (hu : Reach t u) (hreq : Requested types u) :
    ∃ (r x : Addr) (g₁ g₂ : CS), Runs X .IFF_searchFormsFromArray [
          .ptr (.struct .IFF_Chunk) ⟨.heap t.addr, 0⟩, .ptr (.int .uint) ⟨o, 0⟩,
          .int .uint types.length, .ptr (.int .uint) ⟨.stk q, 0⟩] (emb X g s)
        (.ptr (.ptr (.struct .IFF_Form)) ⟨.heap r, 0⟩) g₁ ∧
      Runs X .free [.ptr (.ptr (.struct .IFF_Form)) ⟨.heap r, 0⟩] g₁ .void g₂ ∧
      (emb X g s).heap x = none ∧ g₂.heap x ≠ none := by
  obtain ⟨m', t', x, h, hx, hx'⟩ := C39_leak (complete_arrays hN) (types := types) hin h0 hr hty
    (Nat.le_refl _) hroot hu hreq
  obtain ⟨r', m'', t'', hs', -, -⟩ := (C24_partial (complete_arrays hN) (types := types) hin h0 hr hty
    (Nat.le_refl _)).1
  unfold searchAndFree at h
  obtain ⟨⟨r, len⟩, s1, h1, h2⟩ := bind_inv h
  rw [hs'] at h1
  cases h1
  have h3 := searchForms_like (like_complete (X := X) (N := N) (by omega)) hN1 _ _ _ _ _ hlen hs'
  refine ⟨r', x, _, emb X { g with stk := g.stk.set q (B.set 0 (.int .uint (outermost types t).length)) }
    ⟨m', t', s.rs⟩, (C67_search X g s _ _ r' types _ _ q o B hq ho hoq ht hm (by omega) h3).1,
    ⟨1, fun n hn => ?_⟩, ?_, ?_⟩
  · obtain ⟨n, rfl⟩ : ∃ n', n = n' + 1 := ⟨n - 1, by omega⟩
    exact free_run h2
  · simp [emb, heapOf, hx]
  · simpa [emb, heapOf] using hx'

/-! ### Examples -/

theorem nested_rep : Rep nestedMem := by
  intro a b h
  simp only [nestedMem] at h
  split at h <;> cases h <;> simp only [Fits] <;> decide

theorem generous_arrays : generous.ArraysOk 536870911 := fun t s n hs hn =>
  generous_serves t s _ hs (by
    show (n + 1) * (64 / 8) < 2 ^ 63
    omega)

/-- A stack with a variable for the length and an array with one form type. -/
def lengthAndTypes : List Blk := [⟨4, cells []⟩, ⟨4, cells [.int .uint 0x58585858]⟩]

theorem types_at (X : Cfg) : TypesAt X lengthAndTypes (.stk 1) [0x58585858#32] := by
  refine ⟨_, rfl, Nat.le_refl _, fun i t h => ?_⟩
  rcases i with _ | i
  · cases h; rfl
  · cases h

/-- The hypotheses of `C67_finds_outermost` are met by a CAT with nested FORMs … -/
example (g : CS) : ∃ (r : Addr) (s' : HS), Runs generous .IFF_searchFormsFromArray [
      .ptr (.struct .IFF_Chunk) ⟨.heap 1, 0⟩, .ptr (.int .uint) ⟨.stk 1, 0⟩, .int .uint 1,
      .ptr (.int .uint) ⟨.stk 0, 0⟩] (emb generous { g with stk := lengthAndTypes } ⟨nestedMem, 0, ⟨[], []⟩⟩)
    (.ptr (.ptr (.struct .IFF_Form)) ⟨.heap r, 0⟩)
    (emb generous { g with stk := [Blk.set ⟨4, cells []⟩ 0 (.int .uint 1),
      ⟨4, cells [.int .uint 0x58585858]⟩] } s') ∧ ArrayOrNull s'.mem r [3] := by
  obtain ⟨r, s', h, h1, -⟩ := C67_finds_outermost generous { g with stk := lengthAndTypes }
    ⟨nestedMem, 0, ⟨[], []⟩⟩ nested 0 [0x58585858#32] 536870911 0 (.stk 1) _ generous_arrays (by decide)
    (by decide) rfl (types_at _) (by simp) (by decide) nested_rep nested_in rfl nested_roomy nested_typed
    (by rw [nested_outermost]; decide)
  rw [nested_outermost] at h h1
  exact ⟨r, s', h, h1⟩

/-- … those of `C67_search_leaks` too … -/
example (g : CS) : ∃ (r x : Addr) (g₁ g₂ : CS), Runs generous .IFF_searchFormsFromArray [
      .ptr (.struct .IFF_Chunk) ⟨.heap 1, 0⟩, .ptr (.int .uint) ⟨.stk 1, 0⟩, .int .uint 1,
      .ptr (.int .uint) ⟨.stk 0, 0⟩] (emb generous { g with stk := lengthAndTypes } ⟨nestedMem, 0, ⟨[], []⟩⟩)
      (.ptr (.ptr (.struct .IFF_Form)) ⟨.heap r, 0⟩) g₁ ∧
    Runs generous .free [.ptr (.ptr (.struct .IFF_Form)) ⟨.heap r, 0⟩] g₁ .void g₂ ∧
    heapOf pc nestedMem x = none ∧ g₂.heap x ≠ none := by
  have h1 := (mem_forms nested_typed).mp
    (show nestedOuter ∈ forms [0x58585858#32] nested by rw [nested_forms]; simp)
  exact C67_search_leaks generous { g with stk := lengthAndTypes }
    ⟨nestedMem, 0, ⟨[], []⟩⟩ nested nestedOuter 0 [0x58585858#32] 536870911 0 (.stk 1) _ generous_arrays
    (by decide) (by decide) rfl (types_at _) (by simp) (by decide) nested_rep nested_in rfl nested_roomy
    nested_typed (by rw [nested_outermost]; decide)
    (fun h => absurd h.1 (by simp only [nested, Node.chunk, Chunk.id]; decide)) h1.1 h1.2

/-- … and those of `C67_finds_members`. -/
example (g : CS) : ∃ (r : Addr) (s' : HS), Runs generous .IFF_getChunksFromForm [
      .ptr (.struct .IFF_Form) ⟨.heap 3, 0⟩, .int .uint idFORM.toNat,
      .ptr (.int .uint) ⟨.stk 0, 0⟩] (emb generous { g with stk := lengthAndTypes } ⟨nestedMem, 0, ⟨[], []⟩⟩)
    (.ptr (.ptr (.struct .IFF_Chunk)) ⟨.heap r, 0⟩)
    (emb generous { g with stk := [Blk.set ⟨4, cells []⟩ 0 (.int .uint 1),
      ⟨4, cells [.int .uint 0x58585858]⟩] } s') ∧ ArrayIn s'.mem r [5] := by
  obtain ⟨r, s', h, h1, -⟩ := C67_finds_members generous { g with stk := lengthAndTypes }
    ⟨nestedMem, 0, ⟨[], []⟩⟩ nestedOuter 1 idFORM 0x58585858#32 536870911 0 _ generous_arrays (by decide)
    rfl nested_rep rfl (by simp [nestedOuter, nestedInner, In, InAll, ArrayIn, Node.addr, nestedMem])
    rfl nested_roomy (by decide)
  exact ⟨r, s', h, h1⟩

/-- A state with a memory and the stack above. -/
def searching (m : Mem) : CS := ⟨heapOf pc m, 100, lengthAndTypes, [], [], 0, [], []⟩

/-- The scalar in an object on the stack after an execution. -/
def stackAt (q i : Nat) : Out (V × CS) → Option Cell
  | .val (_, g) => g.stk[q]?.map fun b => b.cell i
  | _ => none

/-- The text can be run: the outer FORM of the nested two is found, in an array at 102, and the array that
it was copied from is still at 101 (C24 and C39 are false). -/
example :
    let r := callFn (linked fun _ _ => false) 40 .IFF_searchForms [.ptr (.struct .IFF_Chunk) ⟨.heap 1, 0⟩,
      .int .uint 0x58585858, .ptr (.int .uint) ⟨.stk 0, 0⟩] (searching nestedMem)
    (resultOf r, stackAt 0 0 r, cellAt 102 0 r, cellAt 101 0 r) =
      (some (.ptr (.ptr (.struct .IFF_Form)) ⟨.heap 102, 0⟩, 0), some (.int .uint 1),
        some (.ptr ⟨.heap 3, 0⟩), some (.ptr ⟨.heap 3, 0⟩)) := by decide +kernel

end Iff.Src
