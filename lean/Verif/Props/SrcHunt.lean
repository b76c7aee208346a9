import Verif.Proofs.SrcHunt
import Verif.Props.SrcData
import Verif.Props.SrcSearch
import Verif.Props.HeapCost
/-
  C78 The test programs that search find what they are meant to find.
-/
namespace Iff.Src

open Iff.Heap Iff.Spec

set_option maxRecDepth 4000

theorem outermost_count (ty : ID) : ∀ t : Node, (outermost [ty] t).length = topForms ty t.chunk := by
  intro t
  induction t using Node.rec (motive_2 := fun ts => (outermostAll [ty] ts).length = topFormsAll ty (Node.chunks ts)) with
  | raw => rfl
  | ext => rfl
  | grp a arr id size t subs ih =>
    simp only [outermost, Node.chunk, topForms, List.mem_singleton]
    split
    · rfl
    · split
      · exact ih
      · rfl
  | lst a arr parr id size t subs props ih ih' =>
    simp only [outermost, Node.chunk, topForms]
    split
    · exact ih
    · rfl
  | nil => rfl
  | cons t ts ih ih' =>
    simp only [outermostAll, List.length_append, Node.chunks, topFormsAll, ih, ih']

theorem topForms_le (ty : ID) : ∀ c : Chunk, topForms ty c ≤ nodes c := by
  intro c
  induction c using Chunk.rec (motive_2 := fun cs => topFormsAll ty cs ≤ nodesAll cs) with
  | raw => simp [topForms]
  | ext => simp [topForms]
  | grp id size t subs ih =>
    simp only [topForms, nodes]
    split
    · omega
    · split <;> omega
  | lst id size t subs props ih ih' =>
    simp only [topForms, nodes]
    split <;> omega
  | nil => exact Nat.le_refl _
  | cons t ts ih ih' =>
    simp only [topFormsAll, nodesAll]
    omega

theorem typed_of_props {c : Chunk} (hs : Standard c) (hp : PropArrays c) : Typed c := by
  induction hs with
  | raw h1 h2 h3 h4 => exact .raw h1 h2 h3 h4
  | grp h1 _ ih => exact .grp h1 fun c hc => ih c hc fun _ _ _ _ _ hw => hp _ _ _ _ _ (.grp hc hw)
  | lst h1 _ _ ih ih' =>
    exact .lst h1 (fun c hc => ih c hc fun _ _ _ _ _ hw => hp _ _ _ _ _ (.sub hc hw))
      (fun c hc => ih' c hc fun _ _ _ _ _ hw => hp _ _ _ _ _ (.prop hc hw)) (hp _ _ _ _ _ .self)

variable {X : Cfg}

/-- `IFF_read` of a file that has a name in the program text: nothing is read, or a hierarchy is in memory. -/
theorem reads_file (hX : X.Linked) (he : X.e.Sane) (hg : X.Grants) (name command : String) (args : List String) (room : Nat)
    (hd : ∀ t s n, Finite s → X.e.mallocOk n = true → (X.pick t s n).isSome)
    (hA : ∀ k, k ≤ ((X.files name).getD []).length + 1024 → X.e.mallocOk k = true)
    (hn : ∀ bs, X.files name = some bs → NoNegativeGroups bs ∧ bs.length < 2147483648) :
    ∃ (rest : List Byte) (tick : Nat) (log : List Msg),
      (Runs X .IFF_read [.str name, .ptr .void Ptr.null] (launched X.e command args [] room) (chunkV 0)
          (emb X (launched X.e command args [] room) ⟨fun _ => none, tick, ⟨rest, log⟩⟩) ∧
        ∀ bs c s, X.files name = some bs → readFd X.e none ⟨bs, []⟩ ≠ .val (some c, s)) ∨
      ∃ (bs : List Byte) (t : Node) (s : RS) (m : Mem), X.files name = some bs ∧
        readFd X.e none ⟨bs, []⟩ = .val (some t.chunk, s) ∧ t.addr ≠ 0 ∧ Released defaultRegistry 0 t.chunk ∧
        Runs X .IFF_read [.str name, .ptr .void Ptr.null] (launched X.e command args [] room) (chunkV t.addr)
          (emb X (launched X.e command args [] room) ⟨m, tick, ⟨rest, log⟩⟩) ∧
        Work (fun _ => none) ⟨fun _ => none, 0, ⟨rest, log⟩⟩ bs.length ⟨m, tick, ⟨rest, log⟩⟩ [t] := by
  obtain ⟨f, hfn, hfc, hfl⟩ : ∃ f : Source, f.name = name ∧ f.contents = X.files name ∧
      f.length = ((X.files name).getD []).length := 
    ⟨⟨name, X.files name⟩, rfl, rfl, by unfold Source.length; cases X.files name <;> rfl⟩
  have hlen : f.length < 2147483648 := by
    rw [hfl]
    cases hc : X.files name with
    | none => decide
    | some bs => exact (hn bs hc).2
  have hsv : X.Serves (f.length + 1024) := fun t s n hf hn => hd t s n hf (hA n (by rw [← hfl]; exact hn))
  have hT := complete_total hg (arrays_of_serves (N := f.length) fun t s n hf hn => hsv t s n hf (by omega))
    (fun t s n hf hn => hsv t s n hf (by omega)) hd
  have hbd : MBd 0 (fun _ => none : Mem) := fun _ _ h => nomatch h
  have hlk := like_complete (X := X) (N := (f.length + 7) / 8) (by omega)
  have hread := fun {p : Addr} {s' : TS} (h : lib (Heap.readFile (complete X ((f.length + 7) / 8)) X.e none f.name f.contents)
      ⟨fun _ => none, 0, []⟩ = .val (p, s')) =>
    iffRead_run (X := X) (stk := (launched X.e command args [] room).stk) (out := []) (room := room) (text := []) hX
      (reg := none) (q := Ptr.null) rfl hlk (f := f) (v := .str name) (inp := [])
      (.inl ⟨by rw [hfn], rfl, by rw [hfn, hfc]⟩) (fun _ _ => propOk_none) (L := 0) ⟨by omega, by omega⟩ hbd h
  have hval : ∃ oc l, Iff.readFile X.e none f.name f.contents [] = .val (oc, l) ∧
      (oc = none → ∀ bs c s, X.files name = some bs → readFd X.e none ⟨bs, []⟩ ≠ .val (some c, s)) ∧
      ∀ c, oc = some c → ∃ bs s, X.files name = some bs ∧ readFd X.e none ⟨bs, []⟩ = .val (some c, s) := by
    rw [hfc]
    cases hc : X.files name with
    | none => exact ⟨none, _, rfl, (fun _ _ _ _ h => nomatch h), nofun⟩
    | some bs =>
      obtain ⟨oc, s, hr⟩ := C16_no_undefined_behaviour_partial X.e he ⟨bs, []⟩ (hn bs hc).1 (hn bs hc).2
      refine ⟨oc, [] ++ s.log, by rw [readFile_eq, hr], ?_, ?_⟩
      · rintro rfl bs' c s' h h'
        cases h
        rw [hr] at h'; cases h'
      · rintro c rfl
        exact ⟨bs, s, rfl, hr⟩
  obtain ⟨oc, l, hv, hnone, hsome⟩ := hval
  have hroomy : Roomy (fun _ => none : Mem) := ⟨0, fun _ _ => rfl⟩
  have hk : ∀ bs, f.contents = some bs → bs.length + 4 ≤ f.length + 4 := fun bs hb => by simp [Source.length, hb]
  rcases lib_readFile (m := fun _ => none) (tick := 0) (log := []) hT.grants rfl f hk with ⟨t', log', h1, h2⟩ |
    ⟨t, ⟨m', t', l'⟩, h1, hz, hh, hrel, hdep, h2⟩ | ⟨u, h1, h2⟩ | ⟨h1, h2⟩
  · rcases h2 with h2 | h2
    · obtain ⟨-, rest, hrun⟩ := hread h1
      rw [hv] at h2; cases h2
      exact ⟨rest, t', _, .inl ⟨Runs.null hrun rfl rfl, hnone rfl⟩⟩
    · exact absurd hT (h2 hroomy)
  · obtain ⟨hm', rest, hrun⟩ := hread h1
    rw [hv] at h2; cases h2
    obtain ⟨bs, s, hb, hr⟩ := hsome _ rfl
    have h0 : Forest (fun _ => none) (fun _ => none) [] := ⟨rfl, nofun, List.nodup_nil, nofun, fun _ _ => rfl⟩
    have hbl : 0 + f.length = bs.length := by rw [hfl, hb]; simp
    exact ⟨rest, t', l', .inr ⟨bs, t, s, m', hb, hr, hz, hrel, Runs.null hrun rfl rfl, h0.new hh, hbl ▸ hm', rfl⟩⟩
  · rcases h2 with h2 | h2
    · rw [hv] at h2; cases h2
    · exact absurd hT (h2 hroomy)
  · rw [hv] at h2; cases h2

/-- Searching a hierarchy in memory and releasing it: the array with the forms that were found stays. -/
theorem search_and_free (hX : X.Linked) {g : CS} {s : HS} {L N q : Nat} {B : Blk} {t : Node} {ty : ID} {s₀ : HS}
    (hw : Work (fun _ => none) s₀ L s [t]) (hL : L ≤ 4294967296) (hq : g.stk[q]? = some B)
    (hrel : Released defaultRegistry 0 t.chunk) (hty : Typed t.chunk) (hN : X.ArraysOk N) (hN1 : 1 ≤ N)
    (hN2 : N < 536870912) (hlen : topForms ty t.chunk ≤ N) :
    ∃ (r : Addr) (s₁ s₂ : HS), Runs X .IFF_searchForms [.ptr (.struct .IFF_Chunk) ⟨.heap t.addr, 0⟩,
        .int .uint ty.toNat, .ptr (.int .uint) ⟨.stk q, 0⟩] (emb X g s)
      (.ptr (.ptr (.struct .IFF_Form)) ⟨.heap r, 0⟩)
      (emb X { g with stk := g.stk.set q (B.set 0 (.int .uint (topForms ty t.chunk))) } s₁) ∧
      Runs X .IFF_free [chunkV t.addr, .ptr .void Ptr.null]
        (emb X { g with stk := g.stk.set q (B.set 0 (.int .uint (topForms ty t.chunk))) } s₁) .void
        (emb X { g with stk := g.stk.set q (B.set 0 (.int .uint (topForms ty t.chunk))) } s₂) ∧
      (topForms ty t.chunk ≠ 0 → s₂.mem r ≠ none) := by
  have hin := hw.forest.isIn t (by simp)
  have hroomy : Roomy s.mem := Roomy.adds ⟨0, fun _ _ => rfl⟩ hw.forest.adds
  obtain ⟨ls, ⟨⟨r, m', t', h1, h2, h3⟩, h4⟩, -⟩ := Heap.searchForms_run (complete_arrays hN) (types := [ty]) t 0 _ s hin
    hw.forest.null hroomy hty (Nat.le_refl _)
  rw [outermost_count] at h1
  have h := searchForms_like (like_complete (X := X) (N := N) (by omega)) hN1 _ _ _ _ _ hlen h1
  obtain ⟨hk, hrun⟩ := searchFormsOfType_run (X := X) (stk := g.stk) (out := g.out) (room := g.room) (text := g.text)
    hq (Rep.of_bd hw.bd hL) (by omega) h
  have hin' : In m' 0 t := hin.frame fun a ha => h2.old (hin.mapped a ha)
  have hw' : Work (m'.without t.blocks) ⟨m', t', s.rs⟩ L ⟨m', t', s.rs⟩ [t] := by
    refine ⟨⟨h2.null hw.forest.null h4, ?_, hw.forest.distinct, ?_, ?_⟩, hk.bd hw.bd, rfl⟩
    · intro u hu
      rw [List.mem_singleton.mp hu]
      exact hin'
    · intro x hx
      rw [Node.blocksAll_cons] at hx
      exact Mem.without_of_mem (by simpa [Node.blocksAll] using hx)
    · intro x hx
      rw [Node.blocksAll_cons] at hx
      exact (Mem.without_of_notMem (by simpa [Node.blocksAll] using hx)).symm
  obtain ⟨s₂, hfr, hw2⟩ := free_step
    (g := { g with stk := g.stk.set q (B.set 0 (.int .uint (topForms ty t.chunk))) }) hX hw' hL hrel
  refine ⟨r, ⟨m', t', s.rs⟩, s₂, hrun, hfr, fun hne => ?_⟩
  rcases h3 with ⟨-, h3⟩ | ⟨hr0, h3⟩
  · have h5 := congrArg List.length h3
    rw [List.length_map, outermost_count] at h5
    exact absurd h5 hne
  · have hnot : r ∉ t.blocks := fun hm => hin.mapped r hm (h2.adds.1 r (by simp [arrBlocks, hr0]))
    have h6 := hw2.forest.adds.2 r (by simp [Node.blocksAll])
    rw [h6, Mem.without_of_notMem hnot, h3]
    simp

/-! ### C78 -/

theorem hunt_none (d : Hunt) {args : List String} {g g₁ : CS} (hr : args.length + 1 < 2147483648) (hk : g₁.stk = g.stk)
    (h1 : Runs X .IFF_read [.str d.file, .ptr .void Ptr.null] g (chunkV 0) g₁) :
    Runs X d.main (mainArgs args) g (.int .int 1) g₁ := by
  cases d
  · exact searchforms_form_none hr hk h1
  · exact searchforms_cat_none hr hk h1
  · exact searchforms_nestedform_none hr hk h1

theorem hunt_some (d : Hunt) {args : List String} {g : CS} {s₁ s₂ s₃ : HS} {a r : Addr} {len : Nat}
    (hr : args.length + 1 < 2147483648) (ha : a ≠ 0) (hl : len < 4294967296)
    (h1 : Runs X .IFF_read [.str d.file, .ptr .void Ptr.null] g (chunkV a) (emb X g s₁))
    (h2 : Runs X .IFF_searchForms [chunkV a, .int .int typeTEST.toNat, .ptr (.int .uint) ⟨.stk g.stk.length, 0⟩]
      (emb X { g with stk := g.stk ++ [⟨4, cells []⟩] } s₁) (.ptr (.ptr (.struct .IFF_Form)) ⟨.heap r, 0⟩)
      (emb X { g with stk := g.stk ++ [lengthObj len] } s₂))
    (h3 : Runs X .IFF_free [chunkV a, .ptr .void Ptr.null] (emb X { g with stk := g.stk ++ [lengthObj len] } s₂) .void
      (emb X { g with stk := g.stk ++ [lengthObj len] } s₃)) :
    Runs X d.main (mainArgs args) g (.int .int (if len = d.number then 0 else 1)) (emb X g s₃) := by
  cases d
  · exact searchforms_form_some hr ha rfl hl h1 h2 h3
  · exact searchforms_cat_some hr ha rfl hl h1 h2 h3
  · exact searchforms_nestedform_some hr ha rfl hl h1 h2 h3

/-- C78, searching: if requests for memory are served, each of the three programs that search returns, without undefined
behaviour and with nothing written or printed, on every file below 2 GiB without negative group sizes.  It returns 0 if
the file is read and has as many outermost FORMs of type TEST as it is meant to have; otherwise, and if the file cannot
be opened, it returns 1.  What is missing: the memory is not freed, see `C78_leaks`. -/
theorem C78_searches_partial (X : Cfg) (hX : X.Linked) (he : X.e.Sane) (hg : X.Grants) (d : Hunt)
    (command : String) (args : List String) (hr : args.length + 1 < 2147483648) (room : Nat)
    (hd : ∀ t s n, Finite s → X.e.mallocOk n = true → (X.pick t s n).isSome)
    (hA : ∀ k, k ≤ ((X.files d.file).getD []).length + 1024 → X.e.mallocOk k = true)
    (hn : ∀ bs, X.files d.file = some bs → NoNegativeGroups bs ∧ bs.length < 2147483648) :
    ∃ (status : Int) (g' : CS), Runs X d.main (mainArgs args) (launched X.e command args [] room)
      (.int .int status) g' ∧ g'.out = [] ∧ g'.text = [] ∧ (status = 0 ∨ status = 1) ∧
      (status = 0 ↔ ∃ bs c s, X.files d.file = some bs ∧ readFd X.e none ⟨bs, []⟩ = .val (some c, s) ∧
        topForms typeTEST c = d.number) ∧
      (status = 0 → ∃ a, g'.heap a ≠ none) := by
  obtain ⟨rest, tick, log, ⟨h1, h2⟩ | ⟨bs, t, s, m, hb, hread, ha, hrel, h1, hw⟩⟩ :=
    reads_file hX he hg d.file command args room hd hA hn
  · exact ⟨1, _, hunt_none d hr (by rfl) h1, rfl, rfl, .inr rfl,
      ⟨(fun h => by cases h), fun ⟨bs, c, s, k1, k2, _⟩ => absurd k2 (h2 bs c s k1)⟩, (fun h => by cases h)⟩
  · have hbl := (hn bs hb).2
    have hfacts := readFd_facts he hread
    have hty := typed_of_props (standard_iff.mp hfacts.sound.dispatched) hfacts.props
    have hcost := C54_data X.e he none _ _ _ hread
    have hle := topForms_le typeTEST t.chunk
    have hsv : X.Serves (bs.length + 1024) := fun t s n hf hn => hd t s n hf (hA n (by rw [hb]; exact hn))
    obtain ⟨r, s₁, s₂, k1, k2, k3⟩ := search_and_free (X := X) (N := (bs.length + 7) / 8 + 1) (q := (launched X.e command args [] room).stk.length)
      (B := ⟨4, cells []⟩) (ty := typeTEST)
      (g := { launched X.e command args [] room with stk := (launched X.e command args [] room).stk ++ [⟨4, cells []⟩] })
      hX hw (by omega) (by simp) hrel hty
      (by
        intro t s n hf hn
        refine hsv t s _ hf ?_
        have : (n + 1) * (X.e.sizeBits / 8) ≤ (n + 1) * 8 := Nat.mul_le_mul_left _ (by
          rcases X.word with h | h <;> rw [h] <;> decide)
        omega) (by omega) (by omega) (by simp only at hcost; omega)
    have hset : ((launched X.e command args [] room).stk ++ [(⟨4, cells []⟩ : Blk)]).set
        (launched X.e command args [] room).stk.length (Blk.set ⟨4, cells []⟩ 0 (.int .uint (topForms typeTEST t.chunk))) =
        (launched X.e command args [] room).stk ++ [lengthObj (topForms typeTEST t.chunk)] := by
      simp [lengthObj, List.set_append_right]
    simp only [hset] at k1 k2
    refine ⟨if topForms typeTEST t.chunk = d.number then 0 else 1, emb X (launched X.e command args [] room) s₂,
      hunt_some d hr ha (by simp only at hcost; omega) h1 (Runs.null k1 rfl rfl) k2, rfl, rfl, ?_, ?_, ?_⟩
    · split
      · exact .inl rfl
      · exact .inr rfl
    · constructor
      · intro h
        refine ⟨bs, t.chunk, s, hb, hread, ?_⟩
        by_contra hne
        rw [if_neg hne] at h
        cases h
      · rintro ⟨bs', c, s', j1, j2, j3⟩
        rw [hb] at j1; cases j1
        rw [hread] at j2; cases j2
        rw [if_pos j3]
    · intro h
      have hne : topForms typeTEST t.chunk = d.number := by
        by_contra hne
        rw [if_neg hne] at h
        cases h
      have hmem := k3 (by rw [hne]; cases d <;> decide)
      refine ⟨r, ?_⟩
      show heapOf X.e s₂.mem r ≠ none
      simpa [heapOf] using hmem

/-- C78, searching, of files: if the file begins with an encoding of a conforming hierarchy, the program returns 0 if and
only if the hierarchy has the right number of outermost FORMs of type TEST. -/
theorem C78_finds (X : Cfg) (hX : X.Linked) (he : X.e.Sane) (hg : X.Grants) (d : Hunt)
    (command : String) (args : List String) (hr : args.length + 1 < 2147483648) (room : Nat)
    (hd : ∀ t s n, Finite s → X.e.mallocOk n = true → (X.pick t s n).isSome)
    (w rest : List Byte) (c : Chunk) (hw : Encodes False w c) (hc : Conforms c)
    (hf : X.files d.file = some (w ++ rest)) (hn : NoNegativeGroups (w ++ rest)) (hl : (w ++ rest).length < 2147483648)
    (hA : ∀ k, k ≤ (w ++ rest).length + 1024 → X.e.mallocOk k = true) :
    ∃ g', Runs X d.main (mainArgs args) (launched X.e command args [] room)
      (.int .int (if topForms typeTEST c = d.number then 0 else 1)) g' ∧ g'.out = [] ∧ g'.text = [] := by
  obtain ⟨status, g', h1, h2, h3, h4, h5, -⟩ := C78_searches_partial X hX he hg d command args hr room hd
    (by rw [hf]; exact hA) (fun bs h => by rw [hf] at h; cases h; exact ⟨hn, hl⟩)
  obtain ⟨⟨s, hrd⟩, -⟩ := (C12_recognises_partial X.e he (w ++ rest) hl (fun n h => hA n (by omega)) c).mpr
    ⟨w, rest, rfl, hw, hc⟩
  have h6 : status = 0 ↔ topForms typeTEST c = d.number := by
    rw [h5]
    constructor
    · rintro ⟨bs, c', s', j1, j2, j3⟩
      rw [hf] at j1; cases j1
      rw [hrd] at j2; cases j2
      exact j3
    · exact fun h => ⟨_, c, s, hf, hrd, h⟩
  refine ⟨g', ?_, h2, h3⟩
  split
  · next h => rw [h6.mpr h] at h1; exact h1
  · next h =>
    rcases h4 with h4 | h4
    · exact absurd (h6.mp h4) h
    · rw [h4] at h1; exact h1

/-- C78, memory: each of the three programs, when it has found what it is meant to find, ends with memory that is not
freed.  The array that `IFF_searchForms` returns is given to nobody. -/
theorem C78_leaks (X : Cfg) (hX : X.Linked) (he : X.e.Sane) (hg : X.Grants) (d : Hunt)
    (command : String) (args : List String) (hr : args.length + 1 < 2147483648) (room : Nat)
    (hd : ∀ t s n, Finite s → X.e.mallocOk n = true → (X.pick t s n).isSome)
    (hA : ∀ k, k ≤ ((X.files d.file).getD []).length + 1024 → X.e.mallocOk k = true)
    (hn : ∀ bs, X.files d.file = some bs → NoNegativeGroups bs ∧ bs.length < 2147483648)
    {g' : CS} (h : Runs X d.main (mainArgs args) (launched X.e command args [] room) (.int .int 0) g') :
    ∃ a, g'.heap a ≠ none := by
  obtain ⟨status, g'', h1, -, -, -, -, h2⟩ := C78_searches_partial X hX he hg d command args hr room hd hA hn
  obtain ⟨N, hN⟩ := h
  obtain ⟨N', hN'⟩ := h1
  have h3 := (hN (N + N') (by omega)).symm.trans (hN' (N + N') (by omega))
  cases h3
  exact h2 rfl

/-- C78, looking up: if requests for memory are served, lookupproperty-simple returns, without undefined behaviour, with
all memory freed and nothing written or printed, on every file below 2 GiB without negative group sizes.  It returns 0
if the file is read as a FORM with a member HELO; otherwise, and if the file cannot be opened, it returns 1. -/
theorem C78_looks_up (X : Cfg) (hX : X.Linked) (he : X.e.Sane) (hg : X.Grants)
    (command : String) (args : List String) (hr : args.length + 1 < 2147483648) (room : Nat)
    (hd : ∀ t s n, Finite s → X.e.mallocOk n = true → (X.pick t s n).isSome)
    (hA : ∀ k, k ≤ ((X.files "hello.TEST").getD []).length + 1024 → X.e.mallocOk k = true)
    (hn : ∀ bs, X.files "hello.TEST" = some bs → NoNegativeGroups bs ∧ bs.length < 2147483648) :
    ∃ (status : Int) (g' : CS), Runs X .lookupproperty_simple_main (mainArgs args) (launched X.e command args [] room)
      (.int .int status) g' ∧ (∀ a, g'.heap a = none) ∧ g'.out = [] ∧ g'.text = [] ∧ (status = 0 ∨ status = 1) ∧
      (status = 0 ↔ ∃ bs c s, X.files "hello.TEST" = some bs ∧ readFd X.e none ⟨bs, []⟩ = .val (some c, s) ∧
        FormWith nameHELO c) := by
  obtain ⟨rest, tick, log, ⟨h1, h2⟩ | ⟨bs, t, s, m, hb, hread, ha, hrel, h1, hw⟩⟩ :=
    reads_file hX he hg "hello.TEST" command args room hd hA hn
  · exact ⟨1, _, lookup_none hr (by rfl) h1, fun _ => rfl, rfl, rfl, .inr rfl,
      (fun h => by cases h), fun ⟨bs, c, s, k1, k2, _⟩ => absurd k2 (h2 bs c s k1)⟩
  · have hbl := (hn bs hb).2
    have hfacts := readFd_facts he hread
    have hst := standard_iff.mp hfacts.sound.dispatched
    have hty := typed_of_props hst hfacts.props
    have hin := hw.forest.isIn t (by simp)
    have hhead : ∀ {u : Node} {par : Addr}, In m par u → HeaderAt X (heapOf X.e m) u.addr u.chunk.id := by
      intro u par hu
      obtain ⟨b, hbm, hbh⟩ := hu.hdr
      obtain ⟨sz, rest, hsz, hl, -⟩ := hdr_layout X hbh
      exact ⟨sz, _, _, rest, hsz, by rw [heapOf_some hbm, hl]⟩
    obtain ⟨s₂, k2, hw2⟩ := free_step (g := launched X.e command args [] room) hX hw (by omega) hrel
    have hm2 : ∀ a, s₂.mem a = none := fun a => hw2.forest.adds.2 a (by simp [Node.blocksAll])
    have hclear : ∀ a, (emb X (launched X.e command args [] room) s₂).heap a = none := fun a => by
      show heapOf X.e s₂.mem a = none
      simp [heapOf, hm2]
    by_cases hid : t.chunk.id = idFORM
    · obtain ⟨a, arr, size, ty, subs, rfl⟩ : ∃ a arr size ty subs, t = .grp a arr idFORM size ty subs := by
        cases t with
        | grp a arr id size ty subs => exact ⟨a, arr, size, ty, subs, by rw [show id = idFORM from hid]⟩
        | raw => cases hst with | raw h _ _ _ => exact absurd hid h
        | ext => cases hst
        | lst => cases hst with | lst h _ _ => exact absurd (hid.symm.trans h) (by decide)
      have hlk := C64_lookup X (launched X.e command args [] room) ⟨m, tick, ⟨rest, log⟩⟩ nameHELO ty [] _ hin
        hw.forest.null hty rfl (Rep.of_bd hw.bd (by omega)) hw.forest.linked
      have happ : applies [] (.grp a arr idFORM size ty subs) ty nameHELO = Node.first nameHELO subs := by
        simp only [applies, enclosing, Node.members, List.findSome?_nil]
        cases Node.first nameHELO subs <;> rfl
      rw [happ] at hlk
      have hsub : ∀ u ∈ subs, In m a u := by
        have h := hin
        simp only [In] at h
        exact inAll_iff.mp h.2.2
      have hfound : Node.ptr (Node.first nameHELO subs) ≠ 0 → HeaderAt X (heapOf X.e m) (Node.ptr (Node.first nameHELO subs)) nameHELO := by
        cases hf : Node.first nameHELO subs with
        | none => exact fun h => absurd rfl h
        | some u =>
          intro _
          have hu := List.find?_some hf
          have := hhead (hsub u (List.mem_of_find?_eq_some hf))
          rwa [show u.chunk.id = nameHELO by simpa using hu] at this
      refine ⟨_, _, lookup_form hr ha rfl h1 (hhead hin) (Runs.null hlk rfl rfl) hfound k2, hclear, rfl, rfl, ?_, ?_⟩
      · split
        · exact .inr rfl
        · exact .inl rfl
      · have hiff : Node.ptr (Node.first nameHELO subs) = 0 ↔ ¬ FormWith nameHELO (.grp idFORM size ty (Node.chunks subs)) := by
          cases hf : Node.first nameHELO subs with
          | none =>
            refine ⟨fun _ => ?_, fun _ => rfl⟩
            rintro ⟨_, _, _, h, c, hc, hcid⟩
            cases h
            rw [Node.chunks_eq] at hc
            obtain ⟨u, hu, rfl⟩ := List.mem_map.mp hc
            exact List.find?_eq_none.mp hf u hu (by simpa using hcid)
          | some u =>
            have hmem := List.mem_of_find?_eq_some hf
            refine ⟨fun h => absurd h ((hsub u hmem).ne_zero hw.forest.null u.addr_mem), fun h => absurd ?_ h⟩
            refine ⟨_, _, _, rfl, u.chunk, ?_, by simpa using List.find?_some hf⟩
            rw [Node.chunks_eq]
            exact List.mem_map.mpr ⟨u, hmem, rfl⟩
        constructor
        · intro h
          refine ⟨bs, _, s, hb, hread, ?_⟩
          by_contra hne
          rw [if_pos (hiff.mpr hne)] at h
          cases h
        · rintro ⟨bs', c, s', j1, j2, j3⟩
          rw [hb] at j1; cases j1
          rw [hread] at j2; cases j2
          rw [if_neg fun h => hiff.mp h j3]
    · refine ⟨1, _, lookup_other hr ha rfl hid h1 (hhead hin) k2, hclear, rfl, rfl, .inr rfl, (fun h => by cases h), ?_⟩
      rintro ⟨bs', c, s', j1, j2, ⟨size, ty, subs, rfl, -⟩⟩
      rw [hb] at j1; cases j1
      rw [hread] at j2
      have : t.chunk = .grp idFORM size ty subs := by
        have h := congrArg (fun o => match o with | Out.val (some c, _) => some c | _ => none) j2
        exact Option.some.inj h
      rw [this] at hid
      exact absurd rfl hid

/-! ### Examples -/

/-- The test data that a program searches. -/
def Hunt.fixture : Hunt → Fixture
  | .form => .form
  | .cat => .cat
  | .nested => .nested

/-- The hypotheses of `C78_finds` are met by the files that the other test programs write (C77): they have as many forms
as the programs are meant to find … -/
theorem hunt_fixture (d : Hunt) : ∃ g', Runs (generousData (fun _ => some (Hunt.fixture d).bytes) fun _ => none) d.main
    (mainArgs []) (launched pc "search" [] [] 0) (.int .int 0) g' := by
  obtain ⟨w, rest, hb, hw⟩ : (Hunt.fixture d).Begins (Hunt.fixture d).bytes := by simpa using fixture_begins (Hunt.fixture d) []
  have hlen : (w ++ rest).length ≤ 90 := by rw [← hb, fixture_encode]; exact fixture_length _
  obtain ⟨g', h, -, -⟩ := C78_finds (generousData (fun _ => some (Hunt.fixture d).bytes) fun _ => none)
    generousData_linked pc_sane generousData_grants d "search" [] (by decide) 0
    (fun t s n hf hn => generous_serves t s n hf (of_decide_eq_true hn)) w rest (Hunt.fixture d).chunk hw
    (fixture_conforms _) (by rw [← hb]; rfl)
    (by rw [← hb]; cases d <;> exact noNegativeGroups_of (by decide)) (by omega)
    (fun n hn => decide_eq_true (show n < 2 ^ 63 by omega))
  have hnum : topForms typeTEST (Hunt.fixture d).chunk = d.number := by cases d <;> decide
  rw [if_pos hnum] at h
  exact ⟨g', h⟩

/-- … and so are those of `C78_leaks`: C78 is false on the very files that the programs are tested with … -/
theorem C78_false (d : Hunt) : ∃ g' a, Runs (generousData (fun _ => some (Hunt.fixture d).bytes) fun _ => none) d.main
    (mainArgs []) (launched pc "search" [] [] 0) (.int .int 0) g' ∧ g'.heap a ≠ none := by
  obtain ⟨g', h⟩ := hunt_fixture d
  have hlen : (Hunt.fixture d).bytes.length ≤ 90 := by rw [fixture_encode]; exact fixture_length _
  obtain ⟨a, ha⟩ := C78_leaks (generousData (fun _ => some (Hunt.fixture d).bytes) fun _ => none)
    generousData_linked pc_sane generousData_grants d "search" [] (by decide) 0
    (fun t s n hf hn => generous_serves t s n hf (of_decide_eq_true hn))
    (fun n hn => decide_eq_true (show n < 2 ^ 63 by
      have : n ≤ (Hunt.fixture d).bytes.length + 1024 := hn
      omega))
    (fun bs hb => by
      obtain rfl : (Hunt.fixture d).bytes = bs := Option.some.inj hb
      cases d <;> exact ⟨noNegativeGroups_of (by decide), by decide⟩) h
  exact ⟨g', a, h, ha⟩

/-- … and those of `C78_looks_up`. -/
example : ∃ (status : Int) (g' : CS), Runs (generousData (fun _ => some Fixture.form.bytes) fun _ => none)
    .lookupproperty_simple_main (mainArgs []) (launched pc "lookup" [] [] 0) (.int .int status) g' ∧ status = 0 ∧
    ∀ a, g'.heap a = none := by
  obtain ⟨status, g', h1, h2, -, -, -, h3⟩ := C78_looks_up (generousData (fun _ => some Fixture.form.bytes) fun _ => none)
    generousData_linked pc_sane generousData_grants "lookup" [] (by decide) 0
    (fun t s n hf hn => generous_serves t s n hf (of_decide_eq_true hn))
    (fun n hn => decide_eq_true (show n < 2 ^ 63 by
      have : n ≤ Fixture.form.bytes.length + 1024 := hn
      have : Fixture.form.bytes.length = 36 := rfl
      omega))
    (fun bs hb => by
      obtain rfl : Fixture.form.bytes = bs := Option.some.inj hb
      exact ⟨noNegativeGroups_of (by decide), by decide⟩)
  refine ⟨status, g', h1, h3.mpr ⟨_, Fixture.form.chunk, ⟨[], []⟩, rfl, by rfl, _, _, _, rfl, ?_⟩, h2⟩
  exact ⟨_, List.mem_cons_self, rfl⟩

/-- The programs can be run: they find the forms in their own files, not in those of others. -/
example :
    ([(Hunt.form, Fixture.form), (.cat, .cat), (.nested, .nested), (.form, .cat), (.cat, .form), (.nested, .pad)].map
      fun (d, f) => (toolOf (callFn (linkedData fun _ => some f.bytes) 40 d.main (mainArgs [])
        (launched pc "search" [] [] 0))).map (·.1)) =
      [some (.int .int 0), some (.int .int 0), some (.int .int 0), some (.int .int 1), some (.int .int 1), some (.int .int 1)] ∧
    ([Fixture.form, .cat].map fun f => (toolOf (callFn (linkedData fun _ => some f.bytes) 40 .lookupproperty_simple_main
      (mainArgs []) (launched pc "lookup" [] [] 0))).map (·.1)) = [some (.int .int 0), some (.int .int 1)] := by
  refine ⟨?_, ?_⟩ <;> decide +kernel

end Iff.Src
