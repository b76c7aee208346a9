import Verif.Proofs.SrcLookupNested
import Verif.Proofs.AppliedIn
import Verif.Props.SrcHunt
import Verif.Props.SrcLookup
/-
  C79 The test programs that look for inherited chunks find what applies.
-/
namespace Iff.Src

open Iff.Heap Iff.Spec

set_option maxRecDepth 4000

variable {X : Cfg}

theorem Kept.parented {m m' : Mem} (h : Kept m m') (hp : Parented m) : Parented m' := by
  intro a b hd hb
  refine h.2 (fun b => ∀ hd : Hdr, b.hdr? = some hd → hd.parent ≠ 0 → ∃ b' g, m' hd.parent = some b' ∧ b'.grp? = some g)
    (fun _ _ h => nomatch h) (fun a b hb hd hh h0 => ?_) a b hb hd
  obtain ⟨b', g, h1, h2⟩ := hp a b hd hb hh h0
  exact ⟨b', g, h.1 _ _ _ h1 h2, h2⟩

/-- Searching a hierarchy in memory, looking for chunks in its groups, and releasing it. -/
theorem search_look_free (hX : X.Linked) {g : CS} {s : HS} {L N q : Nat} {B : Blk} {t : Node} {ty : ID} {s₀ : HS}
    (hw : Work (fun _ => none) s₀ L s [t]) (hL : L ≤ 4294967296) (hq : g.stk[q]? = some B)
    (hrel : Released defaultRegistry 0 t.chunk) (hty : Typed t.chunk) (hN : X.ArraysOk N) (hN1 : 1 ≤ N)
    (hN2 : N < 536870912) (hlen : topForms ty t.chunk ≤ N) :
    ∃ (r : Addr) (s₁ s₂ : HS), Runs X .IFF_searchForms [.ptr (.struct .IFF_Chunk) ⟨.heap t.addr, 0⟩,
        .int .uint ty.toNat, .ptr (.int .uint) ⟨.stk q, 0⟩] (emb X g s)
      (.ptr (.ptr (.struct .IFF_Form)) ⟨.heap r, 0⟩)
      (emb X { g with stk := g.stk.set q (B.set 0 (.int .uint (topForms ty t.chunk))) } s₁) ∧
      Runs X .IFF_free [chunkV t.addr, .ptr .void Ptr.null]
        (emb X { g with stk := g.stk.set q (B.set 0 (.int .uint (topForms ty t.chunk))) } s₁) .void
        (emb X { g with stk := g.stk.set q (B.set 0 (.int .uint (topForms ty t.chunk))) } s₂) ∧
      (topForms ty t.chunk ≠ 0 → s₂.mem r ≠ none) ∧
      ArrayOrNull s₁.mem r ((outermost [ty] t).map Node.addr) ∧ In s₁.mem 0 t ∧ s₁.mem 0 = none ∧
      ∀ (id : ID) (fs : List Frame) (u : Node) (g' : CS), plug fs u = t → u.ty? = some ty →
        Runs X .IFF_getChunkFromForm [.ptr (.struct .IFF_Form) ⟨.heap u.addr, 0⟩, .int .uint id.toNat]
          (emb X g' s₁) (.ptr (.struct .IFF_Chunk) ⟨.heap (Node.ptr (applies fs u ty id)), 0⟩) (emb X g' s₁) := by
  have hin := hw.forest.isIn t (by simp)
  have hroomy : Roomy s.mem := Roomy.adds ⟨0, fun _ _ => rfl⟩ hw.forest.adds
  obtain ⟨ls, ⟨⟨r, m', t', h1, h2, h3⟩, h4⟩, -⟩ := Heap.searchForms_run (complete_arrays hN) (types := [ty]) t 0 _ s hin
    hw.forest.null hroomy hty (Nat.le_refl _)
  rw [outermost_count] at h1
  have h := searchForms_like (like_complete (X := X) (N := N) (by omega)) hN1 _ _ _ _ _ hlen h1
  obtain ⟨hk, hrun⟩ := searchFormsOfType_run (X := X) (stk := g.stk) (out := g.out) (room := g.room) (text := g.text)
    hq (Rep.of_bd hw.bd hL) (by omega) h
  have hin' : In m' 0 t := hin.frame fun a ha => h2.old (hin.mapped a ha)
  have hw' : Work (m'.without t.blocks) ⟨m', t', s.rs⟩ L ⟨m', t', s.rs⟩ [t] := by
    refine ⟨⟨h2.null hw.forest.null h4, ?_, hw.forest.distinct, ?_, ?_⟩, hk.bd hw.bd, rfl⟩
    · intro u hu
      rw [List.mem_singleton.mp hu]
      exact hin'
    · intro x hx
      rw [Node.blocksAll_cons] at hx
      exact Mem.without_of_mem (by simpa [Node.blocksAll] using hx)
    · intro x hx
      rw [Node.blocksAll_cons] at hx
      exact (Mem.without_of_notMem (by simpa [Node.blocksAll] using hx)).symm
  obtain ⟨s₂, hfr, hw2⟩ := free_step
    (g := { g with stk := g.stk.set q (B.set 0 (.int .uint (topForms ty t.chunk))) }) hX hw' hL hrel
  refine ⟨r, ⟨m', t', s.rs⟩, s₂, hrun, hfr, fun hne => ?_, h3, hin', hw'.forest.null, fun id fs u g' hp hu => ?_⟩
  · rcases h3 with ⟨-, h3⟩ | ⟨hr0, h3⟩
    · have h5 := congrArg List.length h3
      rw [List.length_map, outermost_count] at h5
      exact absurd h5 hne
    · have hnot : r ∉ t.blocks := fun hm => hin.mapped r hm (h2.adds.1 r (by simp [arrBlocks, hr0]))
      have h6 := hw2.forest.adds.2 r (by simp [Node.blocksAll])
      rw [h6, Mem.without_of_notMem hnot, h3]
      simp
  · subst hp
    exact (C64_get_chunk X g' ⟨m', t', s.rs⟩ _ _ _ id _ (hk.rep (Rep.of_bd hw.bd hL))
      (hk.parented (parented_of_linked hw.forest.linked))
      (C25_lookup (s := ⟨m', t', s.rs⟩) hin' hw'.forest.null (Nat.lt_succ_self _) hty hu)).1

/-- A chunk that applies to a form, and that has a name that no group has, is a raw chunk in memory. -/
theorem found_raw {m : Mem} {t u v : Node} {fs : List Frame} {ty id : ID} (hin : In m 0 t) (hm0 : m 0 = none)
    (hp : plug fs u = t) (hst : Standard t.chunk) (hraw : RawSizes t.chunk)
    (hsmall : ∀ id size data, Within (.raw id size data) t.chunk → size < 2147483648)
    (hid : id ≠ idFORM ∧ id ≠ idCAT ∧ id ≠ idLIST ∧ id ≠ idPROP)
    (h : applies fs u ty id = some v) : ∃ data : List Byte, v.chunk = .raw id data.length data ∧ data.length < 2147483648 ∧
      v.addr ≠ 0 ∧ RawAt X (heapOf X.e m) v.addr id data := by
  obtain ⟨h1, fs', h2⟩ := applies_frames h
  rw [hp] at h2
  have hwi : Within v.chunk t.chunk := h2 ▸ within_plug fs' v
  have hs := standard_within hst hwi
  have hv : In m (pathParent 0 fs') v := (in_plug.mp (h2 ▸ hin)).2
  have hne := hv.ne_zero hm0 v.addr_mem
  cases v with
  | raw a d i size data =>
    cases (show i = id from h1)
    have hz := hraw _ _ _ hwi
    have hz' := hsmall _ _ _ hwi
    subst hz
    refine ⟨data, rfl, by omega, hne, ?_⟩
    simp only [In] at hv
    refine ⟨_, d, heapOf_some hv.1, ?_⟩
    rw [heapOf_some hv.2]
    simp [layout]
  | ext => cases hs
  | grp a arr i size ty subs =>
    cases (show i = id from h1)
    cases hs with | grp h _ => rcases h with h | h | h <;> simp [h] at hid
  | lst a arr parr i size ty subs props =>
    cases (show i = id from h1)
    cases hs with | lst h _ _ => simp [h] at hid

/-! ### C79 -/

/-- Reading a file with a name in the program text, searching it for forms of type TEST, and looking for chunks in them. -/
theorem reads_and_looks (hX : X.Linked) (he : X.e.Sane) (hg : X.Grants) (name command : String) (args : List String)
    (room : Nat) (hd : ∀ t s n, Finite s → X.e.mallocOk n = true → (X.pick t s n).isSome)
    (hA : ∀ k, k ≤ ((X.files name).getD []).length + 1024 → X.e.mallocOk k = true)
    (hn : ∀ bs, X.files name = some bs → NoNegativeGroups bs ∧ bs.length < 2147483648) :
    (∃ s : HS, Runs X .IFF_read [.str name, .ptr .void Ptr.null] (launched X.e command args [] room) (chunkV 0)
        (emb X (launched X.e command args [] room) s) ∧
      ∀ bs c s, X.files name = some bs → readFd X.e none ⟨bs, []⟩ ≠ .val (some c, s)) ∨
    ∃ (bs : List Byte) (t : Node) (s : RS) (s₀ s₁ s₂ : HS) (r : Addr), X.files name = some bs ∧
      readFd X.e none ⟨bs, []⟩ = .val (some t.chunk, s) ∧ t.addr ≠ 0 ∧ topForms typeTEST t.chunk < 4294967296 ∧
      Standard t.chunk ∧ RawSizes t.chunk ∧ (∀ id size data, Within (.raw id size data) t.chunk → size < 2147483648) ∧
      Runs X .IFF_read [.str name, .ptr .void Ptr.null] (launched X.e command args [] room) (chunkV t.addr)
        (emb X (launched X.e command args [] room) s₀) ∧
      Runs X .IFF_searchForms [chunkV t.addr, .int .int typeTEST.toNat,
          .ptr (.int .uint) ⟨.stk (launched X.e command args [] room).stk.length, 0⟩]
        (emb X { launched X.e command args [] room with stk := (launched X.e command args [] room).stk ++ [⟨4, cells []⟩] } s₀)
        (.ptr (.ptr (.struct .IFF_Form)) ⟨.heap r, 0⟩)
        (emb X { launched X.e command args [] room with stk := (launched X.e command args [] room).stk ++
          [lengthObj (topForms typeTEST t.chunk)] } s₁) ∧
      Runs X .IFF_free [chunkV t.addr, .ptr .void Ptr.null]
        (emb X { launched X.e command args [] room with stk := (launched X.e command args [] room).stk ++
          [lengthObj (topForms typeTEST t.chunk)] } s₁) .void
        (emb X { launched X.e command args [] room with stk := (launched X.e command args [] room).stk ++
          [lengthObj (topForms typeTEST t.chunk)] } s₂) ∧
      (topForms typeTEST t.chunk ≠ 0 → s₂.mem r ≠ none) ∧
      ArrayOrNull s₁.mem r ((outermost [typeTEST] t).map Node.addr) ∧ In s₁.mem 0 t ∧ s₁.mem 0 = none ∧
      ∀ (id : ID) (fs : List Frame) (u : Node) (g' : CS), plug fs u = t → u.ty? = some typeTEST →
        Runs X .IFF_getChunkFromForm [.ptr (.struct .IFF_Form) ⟨.heap u.addr, 0⟩, .int .uint id.toNat]
          (emb X g' s₁) (.ptr (.struct .IFF_Chunk) ⟨.heap (Node.ptr (applies fs u typeTEST id)), 0⟩) (emb X g' s₁) := by
  obtain ⟨rest, tick, log, ⟨h1, h2⟩ | ⟨bs, t, s, m, hb, hread, ha, hrel, h1, hw⟩⟩ :=
    reads_file hX he hg name command args room hd hA hn
  · exact .inl ⟨_, h1, h2⟩
  · have hbl := (hn bs hb).2
    have hfacts := readFd_facts he hread
    have hst := standard_iff.mp hfacts.sound.dispatched
    have hty := typed_of_props hst hfacts.props
    have hcost := C54_data X.e he none _ _ _ hread
    have hle := topForms_le typeTEST t.chunk
    have hsv : X.Serves (bs.length + 1024) := fun t s n hf hn => hd t s n hf (hA n (by rw [hb]; exact hn))
    obtain ⟨r, s₁, s₂, k1, k2, k3, k4, k5, k6, k7⟩ := search_look_free (X := X) (N := (bs.length + 7) / 8 + 1)
      (q := (launched X.e command args [] room).stk.length) (B := ⟨4, cells []⟩) (ty := typeTEST)
      (g := { launched X.e command args [] room with stk := (launched X.e command args [] room).stk ++ [⟨4, cells []⟩] })
      hX hw (by omega) (by simp) hrel hty
      (by
        intro t s n hf hn
        refine hsv t s _ hf ?_
        have : (n + 1) * (X.e.sizeBits / 8) ≤ (n + 1) * 8 := Nat.mul_le_mul_left _ (by
          rcases X.word with h | h <;> rw [h] <;> decide)
        omega) (by omega) (by omega) (by simp only at hcost; omega)
    have hset : ((launched X.e command args [] room).stk ++ [(⟨4, cells []⟩ : Blk)]).set
        (launched X.e command args [] room).stk.length (Blk.set ⟨4, cells []⟩ 0 (.int .uint (topForms typeTEST t.chunk))) =
        (launched X.e command args [] room).stk ++ [lengthObj (topForms typeTEST t.chunk)] := by
      simp [lengthObj, List.set_append_right]
    simp only [hset] at k1 k2
    exact .inr ⟨bs, t, s, _, s₁, s₂, r, hb, hread, ha, by simp only at hcost; omega, hst, hfacts.sound.raws,
      hfacts.sound.small, h1, Runs.null k1 rfl rfl, k2, k3, k4, k5, k6, k7⟩

/-- The first cell of the array that the search returns. -/
theorem array_cell {m : Mem} {r : Addr} {ps : List Addr} (h : ArrayOrNull m r ps) {i : Nat} {p : Addr} (hp : ps[i]? = some p) :
    ∃ B : Blk, heapOf X.e m r = some B ∧ (i + 1) * (X.e.sizeBits / 8) ≤ B.size ∧ B.cell i = .ptr (.ofAddr p) := by
  rcases h with ⟨-, rfl⟩ | ⟨-, h⟩
  · cases hp
  · have hl : i < ps.length := (List.getElem?_eq_some_iff.mp hp).1
    refine ⟨_, heapOf_some h, Nat.mul_le_mul_right _ (by simpa [layout] using Nat.succ_le_of_lt hl), ?_⟩
    simp [layout, ptrCells, hp]

/-- C79, one chunk: if requests for memory are served, lookupproperty-prop returns, without undefined behaviour and with
nothing written or printed, on every file below 2 GiB without negative group sizes.  It returns 0 if the file is read, has
a FORM of type TEST, and a chunk HELO applies to the first one, its own or one that a LIST around it shares; otherwise,
and if the file cannot be opened, it returns 1.  What is missing: the memory is not freed, see `C79_leaks`. -/
theorem C79_prop_partial (X : Cfg) (hX : X.Linked) (he : X.e.Sane) (hg : X.Grants)
    (command : String) (args : List String) (hr : args.length + 1 < 2147483648) (room : Nat)
    (hd : ∀ t s n, Finite s → X.e.mallocOk n = true → (X.pick t s n).isSome)
    (hA : ∀ k, k ≤ ((X.files "list.TEST").getD []).length + 1024 → X.e.mallocOk k = true)
    (hn : ∀ bs, X.files "list.TEST" = some bs → NoNegativeGroups bs ∧ bs.length < 2147483648) :
    ∃ (status : Int) (g' : CS), Runs X .lookupproperty_prop_main (mainArgs args) (launched X.e command args [] room)
      (.int .int status) g' ∧ g'.out = [] ∧ g'.text = [] ∧ (status = 0 ∨ status = 1) ∧
      (status = 0 ↔ ∃ bs c s, X.files "list.TEST" = some bs ∧ readFd X.e none ⟨bs, []⟩ = .val (some c, s) ∧
        ∃ x xs, applied typeTEST nameHELO none c = some x :: xs) ∧
      (status = 0 → ∃ a, g'.heap a ≠ none) := by
  rcases reads_and_looks hX he hg "list.TEST" command args room hd hA hn with ⟨s, h1, h2⟩ |
    ⟨bs, t, s, s₀, s₁, s₂, r, hb, hread, ha, hlt, hst, hraw, hsm, h1, k1, k2, k3, k4, k5, k6, k7⟩
  · exact ⟨1, _, lookupprop_none hr (by rfl) h1, rfl, rfl, .inr rfl,
      ⟨(fun h => by cases h), fun ⟨bs, c, s, j1, j2, _⟩ => absurd j2 (h2 bs c s j1)⟩, (fun h => by cases h)⟩
  · have hall := applied_found typeTEST nameHELO t []
    rw [show around typeTEST nameHELO [] t = none from rfl] at hall
    have honly : ∀ {P : Chunk → Prop}, (∃ bs c s, X.files "list.TEST" = some bs ∧
        readFd X.e none ⟨bs, []⟩ = .val (some c, s) ∧ P c) ↔ P t.chunk := by
      intro P
      constructor
      · rintro ⟨bs', c, s', j1, j2, j3⟩
        rw [hb] at j1; cases j1
        rw [hread] at j2
        injection j2 with j2
        injection j2 with j2 j4
        injection j2 with j2
        exact j2 ▸ j3
      · exact fun h => ⟨bs, _, s, hb, hread, h⟩
    cases ho : outermost [typeTEST] t with
    | nil =>
      rw [ho] at hall
      have hz : topForms typeTEST t.chunk = 0 := by rw [← outermost_count, ho]; rfl
      rw [hz] at k1 k2
      refine ⟨1, _, lookupprop_nothing hr ha rfl h1 k1 k2, rfl, rfl, .inr rfl, ?_, (fun h => by cases h)⟩
      rw [honly]
      generalize applied typeTEST nameHELO none t.chunk = xs at hall
      cases hall
      exact ⟨(fun h => by cases h), fun ⟨_, _, h⟩ => nomatch h⟩
    | cons u us =>
      have hlen : topForms typeTEST t.chunk = us.length + 1 := by rw [← outermost_count, ho]; rfl
      rw [ho] at hall k4
      obtain ⟨B, hB, hBs, hBc⟩ := array_cell (X := X) (i := 0) k4 rfl
      generalize hxs : applied typeTEST nameHELO none t.chunk = xs at hall
      cases hall with
      | @cons _ x _ xs hx _ =>
      obtain ⟨fs, hp, huty, hx⟩ := hx
      have hlk := k7 nameHELO fs u { launched X.e command args [] room with stk := (launched X.e command args [] room).stk ++
          [lengthObj (topForms typeTEST t.chunk)] } hp huty
      have hhead : Node.ptr (applies fs u typeTEST nameHELO) ≠ 0 →
          HeaderAt X (heapOf X.e s₁.mem) (Node.ptr (applies fs u typeTEST nameHELO)) nameHELO := by
        cases hap : applies fs u typeTEST nameHELO with
        | none => exact fun h => absurd rfl h
        | some v =>
          intro _
          obtain ⟨hvid, fs', hv⟩ := applies_frames hap
          rw [hp] at hv
          obtain ⟨b, hbm, hbh⟩ := (in_plug.mp (hv ▸ k5 : In s₁.mem 0 (plug fs' v))).2.hdr
          obtain ⟨sz, rest, hsz, hl, -⟩ := hdr_layout X hbh
          exact ⟨sz, _, _, rest, hsz, by rw [← hvid]; show heapOf X.e s₁.mem v.addr = _; rw [heapOf_some hbm, hl]⟩
      refine ⟨_, _, lookupprop_some hr ha rfl hlt (by omega) hB hBs hBc h1 k1 (Runs.null hlk rfl rfl) hhead k2, rfl, rfl, ?_, ?_, ?_⟩
      · split
        · exact .inr rfl
        · exact .inl rfl
      · rw [honly, hxs]
        cases hap : applies fs u typeTEST nameHELO with
        | none =>
          rw [hap] at hx
          subst hx
          exact ⟨(fun h => by cases h), fun ⟨_, _, h⟩ => nomatch h⟩
        | some v =>
          rw [hap] at hx
          subst hx
          obtain ⟨data, -, -, hv0, -⟩ := found_raw (X := X) k5 k6 hp hst hraw hsm (by decide) hap
          rw [if_neg (show Node.ptr (some v) ≠ 0 from hv0)]
          exact ⟨fun _ => ⟨_, _, rfl⟩, fun _ => rfl⟩
      · intro _
        refine ⟨r, ?_⟩
        show heapOf X.e s₂.mem r ≠ none
        simpa [heapOf] using k3 (by omega)

/-- C79, contents: likewise for lookupproperty-override, which returns 0 if there are two outermost FORMs of type TEST and
the chunk HELO that applies to the first one has the contents 1, 2, 3, 4 (as characters). -/
theorem C79_override_partial (X : Cfg) (hX : X.Linked) (he : X.e.Sane) (hg : X.Grants)
    (command : String) (args : List String) (hr : args.length + 1 < 2147483648) (room : Nat)
    (hd : ∀ t s n, Finite s → X.e.mallocOk n = true → (X.pick t s n).isSome)
    (hA : ∀ k, k ≤ ((X.files "lookupproperty-override.TEST").getD []).length + 1024 → X.e.mallocOk k = true)
    (hn : ∀ bs, X.files "lookupproperty-override.TEST" = some bs → NoNegativeGroups bs ∧ bs.length < 2147483648) :
    ∃ (status : Int) (g' : CS), Runs X .lookupproperty_override_main (mainArgs args) (launched X.e command args [] room)
      (.int .int status) g' ∧ g'.out = [] ∧ g'.text = [] ∧ (status = 0 ∨ status = 1) ∧
      (status = 0 ↔ ∃ bs c s, X.files "lookupproperty-override.TEST" = some bs ∧
        readFd X.e none ⟨bs, []⟩ = .val (some c, s) ∧
        ∃ y, applied typeTEST nameHELO none c = [some (.raw nameHELO 4 [49#8, 50#8, 51#8, 52#8]), y]) ∧
      (status = 0 → ∃ a, g'.heap a ≠ none) := by
  rcases reads_and_looks hX he hg "lookupproperty-override.TEST" command args room hd hA hn with ⟨s, h1, h2⟩ |
    ⟨bs, t, s, s₀, s₁, s₂, r, hb, hread, ha, hlt, hst, hraw, hsm, h1, k1, k2, k3, k4, k5, k6, k7⟩
  · exact ⟨1, _, override_none hr (by rfl) h1, rfl, rfl, .inr rfl,
      ⟨(fun h => by cases h), fun ⟨bs, c, s, j1, j2, _⟩ => absurd j2 (h2 bs c s j1)⟩, (fun h => by cases h)⟩
  · have hall := applied_found typeTEST nameHELO t []
    rw [show around typeTEST nameHELO [] t = none from rfl] at hall
    have honly : ∀ {P : Chunk → Prop}, (∃ bs c s, X.files "lookupproperty-override.TEST" = some bs ∧
        readFd X.e none ⟨bs, []⟩ = .val (some c, s) ∧ P c) ↔ P t.chunk := by
      intro P
      constructor
      · rintro ⟨bs', c, s', j1, j2, j3⟩
        rw [hb] at j1; cases j1
        rw [hread] at j2
        injection j2 with j2
        injection j2 with j2 j4
        injection j2 with j2
        exact j2 ▸ j3
      · exact fun h => ⟨bs, _, s, hb, hread, h⟩
    have hcount : topForms typeTEST t.chunk = (applied typeTEST nameHELO none t.chunk).length := by
      rw [← outermost_count]; exact hall.length_eq
    by_cases h2 : topForms typeTEST t.chunk = 2
    · rw [h2] at k1 k2
      rw [h2] at hcount
      obtain ⟨u, u', ho⟩ : ∃ u u', outermost [typeTEST] t = [u, u'] := by
        have hl := outermost_count typeTEST t
        rw [h2] at hl
        match outermost [typeTEST] t, hl with
        | [u, u'], _ => exact ⟨u, u', rfl⟩
      obtain ⟨x, y, hxs⟩ : ∃ x y, applied typeTEST nameHELO none t.chunk = [x, y] := by
        match applied typeTEST nameHELO none t.chunk, hcount with
        | [x, y], _ => exact ⟨x, y, rfl⟩
      rw [ho] at k4 hall
      rw [hxs] at hall
      obtain ⟨B, hB, hBs, hBc⟩ := array_cell (X := X) (i := 0) k4 rfl
      cases hall with
      | cons hx _ =>
      obtain ⟨fs, hp, huty, hx⟩ := hx
      have hlk := k7 nameHELO fs u { launched X.e command args [] room with stk := (launched X.e command args [] room).stk ++
          [lengthObj 2] } hp huty
      have hmem : (1 : Int) = 0 → False := by decide
      cases hap : applies fs u typeTEST nameHELO with
      | none =>
        rw [hap] at hx hlk
        subst hx
        refine ⟨_, _, override_some (data := []) hr ha rfl hB hBs hBc (by decide) h1 k1 (Runs.null hlk rfl rfl)
          (fun h => absurd rfl h) k2, rfl, rfl, .inr rfl, ?_, (fun h => by cases h)⟩
        rw [honly, hxs]
        exact ⟨(fun h => by cases h), fun ⟨_, h⟩ => nomatch h⟩
      | some v =>
        rw [hap] at hx hlk
        obtain ⟨data, hvc, hdl, hv0, hra⟩ := found_raw (X := X) k5 k6 hp hst hraw hsm (by decide) hap
        refine ⟨_, _, override_some hr ha rfl hB hBs hBc hdl h1 k1 (Runs.null hlk rfl rfl) (fun _ => hra) k2, rfl, rfl, ?_, ?_, ?_⟩
        · split
          · exact .inl rfl
          · exact .inr rfl
        · rw [honly, hxs, ← hx]
          simp only [Option.map_some, hvc]
          constructor
          · intro h
            split at h
            · next hc => rw [hc.2]; exact ⟨_, rfl⟩
            · cases h
          · rintro ⟨y', h⟩
            simp only [List.cons.injEq, Option.some.injEq, Chunk.raw.injEq] at h
            rw [if_pos ⟨hv0, h.1.2.2⟩]
        · intro _
          refine ⟨r, ?_⟩
          show heapOf X.e s₂.mem r ≠ none
          simpa [heapOf] using k3 (by omega)
    · refine ⟨1, _, override_number hr ha rfl hlt h2 h1 k1 k2, rfl, rfl, .inr rfl, ?_, (fun h => by cases h)⟩
      rw [honly]
      refine ⟨(fun h => by cases h), ?_⟩
      rintro ⟨y, h⟩
      rw [h] at hcount
      exact absurd hcount h2

/-- C79, nested: likewise for lookupproperty-nested, which returns 0 if there are two outermost FORMs of type TEST, the
chunk HELO that applies to the second one has the contents 1, 2, 3, 4, and the chunk BYE that applies to it, if there is
one, has the contents q, w, e, r.  What is missing is also that there has to be one, see `C79_nested_false`. -/
theorem C79_nested_partial (X : Cfg) (hX : X.Linked) (he : X.e.Sane) (hg : X.Grants)
    (command : String) (args : List String) (hr : args.length + 1 < 2147483648) (room : Nat)
    (hd : ∀ t s n, Finite s → X.e.mallocOk n = true → (X.pick t s n).isSome)
    (hA : ∀ k, k ≤ ((X.files "lookupproperty-nested.TEST").getD []).length + 1024 → X.e.mallocOk k = true)
    (hn : ∀ bs, X.files "lookupproperty-nested.TEST" = some bs → NoNegativeGroups bs ∧ bs.length < 2147483648) :
    ∃ (status : Int) (g' : CS), Runs X .lookupproperty_nested_main (mainArgs args) (launched X.e command args [] room)
      (.int .int status) g' ∧ g'.out = [] ∧ g'.text = [] ∧ (status = 0 ∨ status = 1) ∧
      (status = 0 ↔ ∃ bs c s, X.files "lookupproperty-nested.TEST" = some bs ∧
        readFd X.e none ⟨bs, []⟩ = .val (some c, s) ∧
        ∃ x y z, applied typeTEST nameHELO none c = [x, some (.raw nameHELO 4 [49#8, 50#8, 51#8, 52#8])] ∧
          applied typeTEST nameBYE none c = [y, z] ∧
          (z = none ∨ z = some (.raw nameBYE 4 [113#8, 119#8, 101#8, 114#8]))) ∧
      (status = 0 → ∃ a, g'.heap a ≠ none) := by
  rcases reads_and_looks hX he hg "lookupproperty-nested.TEST" command args room hd hA hn with ⟨s, h1, h2⟩ |
    ⟨bs, t, s, s₀, s₁, s₂, r, hb, hread, ha, hlt, hst, hraw, hsm, h1, k1, k2, k3, k4, k5, k6, k7⟩
  · exact ⟨1, _, nested_none hr (by rfl) h1, rfl, rfl, .inr rfl,
      ⟨(fun h => by cases h), fun ⟨bs, c, s, j1, j2, _⟩ => absurd j2 (h2 bs c s j1)⟩, (fun h => by cases h)⟩
  · have hall := applied_found typeTEST nameHELO t []
    rw [show around typeTEST nameHELO [] t = none from rfl] at hall
    have hall' := applied_found typeTEST nameBYE t []
    rw [show around typeTEST nameBYE [] t = none from rfl] at hall'
    have honly : ∀ {P : Chunk → Prop}, (∃ bs c s, X.files "lookupproperty-nested.TEST" = some bs ∧
        readFd X.e none ⟨bs, []⟩ = .val (some c, s) ∧ P c) ↔ P t.chunk := by
      intro P
      constructor
      · rintro ⟨bs', c, s', j1, j2, j3⟩
        rw [hb] at j1; cases j1
        rw [hread] at j2
        injection j2 with j2
        injection j2 with j2 j4
        injection j2 with j2
        exact j2 ▸ j3
      · exact fun h => ⟨bs, _, s, hb, hread, h⟩
    have hcount : topForms typeTEST t.chunk = (applied typeTEST nameHELO none t.chunk).length := by
      rw [← outermost_count]; exact hall.length_eq
    have hcount' : topForms typeTEST t.chunk = (applied typeTEST nameBYE none t.chunk).length := by
      rw [← outermost_count]; exact hall'.length_eq
    by_cases h2 : topForms typeTEST t.chunk = 2
    · rw [h2] at k1 k2
      rw [h2] at hcount hcount'
      obtain ⟨u, u', ho⟩ : ∃ u u', outermost [typeTEST] t = [u, u'] := by
        have hl := outermost_count typeTEST t
        rw [h2] at hl
        match outermost [typeTEST] t, hl with
        | [u, u'], _ => exact ⟨u, u', rfl⟩
      obtain ⟨x, x', hxs⟩ : ∃ x y, applied typeTEST nameHELO none t.chunk = [x, y] := by
        match applied typeTEST nameHELO none t.chunk, hcount with
        | [x, y], _ => exact ⟨x, y, rfl⟩
      obtain ⟨y, y', hys⟩ : ∃ x y, applied typeTEST nameBYE none t.chunk = [x, y] := by
        match applied typeTEST nameBYE none t.chunk, hcount' with
        | [x, y], _ => exact ⟨x, y, rfl⟩
      rw [ho] at k4 hall hall'
      rw [hxs] at hall
      rw [hys] at hall'
      obtain ⟨B, hB, hBs, hBc⟩ := array_cell (X := X) (i := 1) k4 rfl
      cases hall with
      | cons _ hall =>
      cases hall with
      | cons hx _ =>
      cases hall' with
      | cons _ hall' =>
      cases hall' with
      | cons hy _ =>
      obtain ⟨fs, hp, huty, hx⟩ := hx
      obtain ⟨fs', hp', -, hy⟩ := hy
      have hlk := k7 nameHELO fs u' { launched X.e command args [] room with stk := (launched X.e command args [] room).stk ++
          [lengthObj 2] } hp huty
      have hlk' := k7 nameBYE fs' u' { launched X.e command args [] room with stk := (launched X.e command args [] room).stk ++
          [lengthObj 2] } hp' huty
      obtain ⟨data, hd1, hd2, hd3⟩ : ∃ data : List Byte, data.length < 2147483648 ∧
          (Node.ptr (applies fs u' typeTEST nameHELO) ≠ 0 →
            RawAt X (heapOf X.e s₁.mem) (Node.ptr (applies fs u' typeTEST nameHELO)) nameHELO data) ∧
          (∀ d, x' = some (.raw nameHELO d.length d) ↔ Node.ptr (applies fs u' typeTEST nameHELO) ≠ 0 ∧ data = d) := by
        cases hap : applies fs u' typeTEST nameHELO with
        | none =>
          rw [hap] at hx
          subst hx
          exact ⟨[], by decide, fun h => absurd rfl h, fun d => ⟨(fun h => nomatch h), fun h => absurd rfl h.1⟩⟩
        | some v =>
          obtain ⟨data, hvc, hdl, hv0, hra⟩ := found_raw (X := X) k5 k6 hp hst hraw hsm (by decide) hap
          rw [hap] at hx
          refine ⟨data, hdl, fun _ => hra, fun d => ?_⟩
          rw [← hx]
          simp only [Option.map_some, hvc, Option.some.injEq, Chunk.raw.injEq, true_and]
          exact ⟨fun h => ⟨hv0, h.2⟩, fun h => ⟨by rw [h.2], h.2⟩⟩
      obtain ⟨data', hd1', hd2', hd3', hd4'⟩ : ∃ data : List Byte, data.length < 2147483648 ∧
          (Node.ptr (applies fs' u' typeTEST nameBYE) ≠ 0 →
            RawAt X (heapOf X.e s₁.mem) (Node.ptr (applies fs' u' typeTEST nameBYE)) nameBYE data) ∧
          (∀ d, y' = some (.raw nameBYE d.length d) ↔ Node.ptr (applies fs' u' typeTEST nameBYE) ≠ 0 ∧ data = d) ∧
          (y' = none ↔ Node.ptr (applies fs' u' typeTEST nameBYE) = 0) := by
        cases hap : applies fs' u' typeTEST nameBYE with
        | none =>
          rw [hap] at hy
          subst hy
          exact ⟨[], by decide, fun h => absurd rfl h, fun d => ⟨(fun h => nomatch h), fun h => absurd rfl h.1⟩,
            fun _ => rfl, fun _ => rfl⟩
        | some v =>
          obtain ⟨data, hvc, hdl, hv0, hra⟩ := found_raw (X := X) k5 k6 hp' hst hraw hsm (by decide) hap
          rw [hap] at hy
          refine ⟨data, hdl, fun _ => hra, fun d => ?_, ?_⟩
          · rw [← hy]
            simp only [Option.map_some, hvc, Option.some.injEq, Chunk.raw.injEq, true_and]
            exact ⟨fun h => ⟨hv0, h.2⟩, fun h => ⟨by rw [h.2], h.2⟩⟩
          · rw [← hy]
            exact ⟨(fun h => nomatch h), fun h => absurd h hv0⟩
      refine ⟨_, _, nested_some hr ha rfl hB hBs hBc hd1 hd1' h1 k1 (Runs.null hlk rfl rfl) (Runs.null hlk' rfl rfl) hd2 hd2' k2,
        rfl, rfl, ?_, ?_, ?_⟩
      · split
        · exact .inl rfl
        · exact .inr rfl
      · rw [honly, hxs, hys]
        have e1 := hd3 [49#8, 50#8, 51#8, 52#8]
        have e2 := hd3' [113#8, 119#8, 101#8, 114#8]
        constructor
        · intro h
          split at h
          · next hc =>
            refine ⟨x, y, y', by rw [e1.mpr hc.1]; rfl, rfl, ?_⟩
            by_cases hz : Node.ptr (applies fs' u' typeTEST nameBYE) = 0
            · exact .inl (hd4'.mpr hz)
            · exact .inr (e2.mpr ⟨hz, hc.2.resolve_left hz⟩)
          · cases h
        · rintro ⟨x₁, y₁, z, j1, j2, j3⟩
          simp only [List.cons.injEq, and_true] at j1 j2
          obtain ⟨-, rfl⟩ := j2
          refine if_pos ⟨e1.mp j1.2, ?_⟩
          rcases j3 with j3 | j3
          · exact .inl (hd4'.mp j3)
          · exact .inr (e2.mp j3).2
      · intro _
        refine ⟨r, ?_⟩
        show heapOf X.e s₂.mem r ≠ none
        simpa [heapOf] using k3 (by omega)
    · refine ⟨1, _, nested_number hr ha rfl hlt h2 h1 k1 k2, rfl, rfl, .inr rfl, ?_, (fun h => by cases h)⟩
      rw [honly]
      refine ⟨(fun h => by cases h), ?_⟩
      rintro ⟨x, y, z, h, -⟩
      rw [h] at hcount
      exact absurd hcount h2

/-- What is read from a file that begins with an encoding of a conforming hierarchy (C12). -/
theorem reads_only {X : Cfg} (he : X.e.Sane) {name : String} {w rest : List Byte} {c : Chunk} (hw : Encodes False w c)
    (hc : Conforms c) (hf : X.files name = some (w ++ rest)) (hl : (w ++ rest).length < 2147483648)
    (hA : ∀ k, k ≤ (w ++ rest).length + 1024 → X.e.mallocOk k = true) (P : Chunk → Prop) :
    (∃ bs c s, X.files name = some bs ∧ readFd X.e none ⟨bs, []⟩ = .val (some c, s) ∧ P c) ↔ P c := by
  obtain ⟨⟨s, hrd⟩, -⟩ := (C12_recognises_partial X.e he (w ++ rest) hl (fun n h => hA n (by omega)) c).mpr
    ⟨w, rest, rfl, hw, hc⟩
  constructor
  · rintro ⟨bs, c', s', j1, j2, j3⟩
    rw [hf] at j1; cases j1
    rw [hrd] at j2; cases j2
    exact j3
  · exact fun h => ⟨_, c, s, hf, hrd, h⟩

/-- C79, of files: if the file begins with an encoding of a conforming hierarchy, lookupproperty-prop returns 0 if and
only if a chunk HELO applies to the first FORM of type TEST of the hierarchy … -/
theorem C79_prop_finds (X : Cfg) (hX : X.Linked) (he : X.e.Sane) (hg : X.Grants)
    (command : String) (args : List String) (hr : args.length + 1 < 2147483648) (room : Nat)
    (hd : ∀ t s n, Finite s → X.e.mallocOk n = true → (X.pick t s n).isSome)
    (w rest : List Byte) (c : Chunk) (hw : Encodes False w c) (hc : Conforms c)
    (hf : X.files "list.TEST" = some (w ++ rest)) (hn : NoNegativeGroups (w ++ rest))
    (hl : (w ++ rest).length < 2147483648) (hA : ∀ k, k ≤ (w ++ rest).length + 1024 → X.e.mallocOk k = true) :
    ∃ (status : Int) (g' : CS), Runs X .lookupproperty_prop_main (mainArgs args) (launched X.e command args [] room)
      (.int .int status) g' ∧ g'.out = [] ∧ g'.text = [] ∧ (status = 0 ∨ status = 1) ∧
      (status = 0 ↔ ∃ x xs, applied typeTEST nameHELO none c = some x :: xs) := by
  obtain ⟨status, g', h1, h2, h3, h4, h5, -⟩ := C79_prop_partial X hX he hg command args hr room hd
    (by rw [hf]; exact hA) (fun bs h => by rw [hf] at h; cases h; exact ⟨hn, hl⟩)
  exact ⟨status, g', h1, h2, h3, h4, h5.trans (reads_only he hw hc hf hl hA _)⟩

/-- … lookupproperty-override if and only if there are two, and the chunk HELO of the first one is 1, 2, 3, 4 … -/
theorem C79_override_finds (X : Cfg) (hX : X.Linked) (he : X.e.Sane) (hg : X.Grants)
    (command : String) (args : List String) (hr : args.length + 1 < 2147483648) (room : Nat)
    (hd : ∀ t s n, Finite s → X.e.mallocOk n = true → (X.pick t s n).isSome)
    (w rest : List Byte) (c : Chunk) (hw : Encodes False w c) (hc : Conforms c)
    (hf : X.files "lookupproperty-override.TEST" = some (w ++ rest)) (hn : NoNegativeGroups (w ++ rest))
    (hl : (w ++ rest).length < 2147483648) (hA : ∀ k, k ≤ (w ++ rest).length + 1024 → X.e.mallocOk k = true) :
    ∃ (status : Int) (g' : CS), Runs X .lookupproperty_override_main (mainArgs args) (launched X.e command args [] room)
      (.int .int status) g' ∧ g'.out = [] ∧ g'.text = [] ∧ (status = 0 ∨ status = 1) ∧
      (status = 0 ↔ ∃ y, applied typeTEST nameHELO none c = [some (.raw nameHELO 4 [49#8, 50#8, 51#8, 52#8]), y]) := by
  obtain ⟨status, g', h1, h2, h3, h4, h5, -⟩ := C79_override_partial X hX he hg command args hr room hd
    (by rw [hf]; exact hA) (fun bs h => by rw [hf] at h; cases h; exact ⟨hn, hl⟩)
  exact ⟨status, g', h1, h2, h3, h4, h5.trans (reads_only he hw hc hf hl hA _)⟩

/-- … and lookupproperty-nested if and only if there are two, the chunk HELO of the second one is 1, 2, 3, 4, and its chunk
BYE, if any, is q, w, e, r. -/
theorem C79_nested_finds (X : Cfg) (hX : X.Linked) (he : X.e.Sane) (hg : X.Grants)
    (command : String) (args : List String) (hr : args.length + 1 < 2147483648) (room : Nat)
    (hd : ∀ t s n, Finite s → X.e.mallocOk n = true → (X.pick t s n).isSome)
    (w rest : List Byte) (c : Chunk) (hw : Encodes False w c) (hc : Conforms c)
    (hf : X.files "lookupproperty-nested.TEST" = some (w ++ rest)) (hn : NoNegativeGroups (w ++ rest))
    (hl : (w ++ rest).length < 2147483648) (hA : ∀ k, k ≤ (w ++ rest).length + 1024 → X.e.mallocOk k = true) :
    ∃ (status : Int) (g' : CS), Runs X .lookupproperty_nested_main (mainArgs args) (launched X.e command args [] room)
      (.int .int status) g' ∧ g'.out = [] ∧ g'.text = [] ∧ (status = 0 ∨ status = 1) ∧
      (status = 0 ↔ ∃ x y z, applied typeTEST nameHELO none c = [x, some (.raw nameHELO 4 [49#8, 50#8, 51#8, 52#8])] ∧
        applied typeTEST nameBYE none c = [y, z] ∧
        (z = none ∨ z = some (.raw nameBYE 4 [113#8, 119#8, 101#8, 114#8]))) := by
  obtain ⟨status, g', h1, h2, h3, h4, h5, -⟩ := C79_nested_partial X hX he hg command args hr room hd
    (by rw [hf]; exact hA) (fun bs h => by rw [hf] at h; cases h; exact ⟨hn, hl⟩)
  exact ⟨status, g', h1, h2, h3, h4, h5.trans (reads_only he hw hc hf hl hA _)⟩

/-- C79, after writelist: on every file that begins like the one that writelist writes (C77), in particular on that one,
lookupproperty-prop returns 0. -/
theorem C79_after_writelist (X : Cfg) (hX : X.Linked) (he : X.e.Sane) (hg : X.Grants)
    (command : String) (args : List String) (hr : args.length + 1 < 2147483648) (room : Nat)
    (hd : ∀ t s n, Finite s → X.e.mallocOk n = true → (X.pick t s n).isSome)
    (bs : List Byte) (hb : Fixture.list.Begins bs) (hf : X.files "list.TEST" = some bs) (hn : NoNegativeGroups bs)
    (hl : bs.length < 2147483648) (hA : ∀ k, k ≤ bs.length + 1024 → X.e.mallocOk k = true) :
    ∃ g', Runs X .lookupproperty_prop_main (mainArgs args) (launched X.e command args [] room) (.int .int 0) g' ∧
      g'.out = [] ∧ g'.text = [] := by
  obtain ⟨w, rest, rfl, hw⟩ := hb
  obtain ⟨status, g', h1, h2, h3, -, h4⟩ := C79_prop_finds X hX he hg command args hr room hd w rest _ hw (fixture_conforms _)
    hf hn hl hA
  have h5 : status = 0 := h4.mpr ⟨_, _, rfl⟩
  subst h5
  exact ⟨g', h1, h2, h3⟩

/-! ### Examples -/

/-- /repo tests/lookupproperty-override.TEST. -/
def overrideTest : List Byte :=
  [76, 73, 83, 84, 0, 0, 0, 88, 84, 69, 83, 84, 80, 82, 79, 80, 0, 0, 0, 16, 84, 69, 83, 84, 72, 69, 76, 79,
   0, 0, 0, 4, 113, 119, 101, 114, 70, 79, 82, 77, 0, 0, 0, 28, 84, 69, 83, 84, 72, 69, 76, 79, 0, 0, 0, 4,
   49, 50, 51, 52, 66, 89, 69, 32, 0, 0, 0, 4, 97, 98, 99, 100, 70, 79, 82, 77, 0, 0, 0, 16, 84, 69, 83, 84,
   66, 89, 69, 32, 0, 0, 0, 4, 69, 70, 71, 72]

/-- /repo tests/lookupproperty-nested.TEST. -/
def nestedTest : List Byte :=
  [76, 73, 83, 84, 0, 0, 0, 88, 84, 69, 83, 84, 80, 82, 79, 80, 0, 0, 0, 16, 84, 69, 83, 84, 72, 69, 76, 79,
   0, 0, 0, 4, 49, 50, 51, 52, 70, 79, 82, 77, 0, 0, 0, 16, 84, 69, 83, 84, 66, 89, 69, 32, 0, 0, 0, 4, 97,
   98, 99, 100, 76, 73, 83, 84, 0, 0, 0, 28, 84, 69, 83, 84, 70, 79, 82, 77, 0, 0, 0, 16, 84, 69, 83, 84, 66,
   89, 69, 32, 0, 0, 0, 4, 113, 119, 101, 114]

/-- A LIST that shares HELO with two empty FORMs. -/
def noByeTest : List Byte :=
  [76, 73, 83, 84, 0, 0, 0, 52, 84, 69, 83, 84, 80, 82, 79, 80, 0, 0, 0, 16, 84, 69, 83, 84, 72, 69, 76, 79,
   0, 0, 0, 4, 49, 50, 51, 52, 70, 79, 82, 77, 0, 0, 0, 4, 84, 69, 83, 84, 70, 79, 82, 77, 0, 0, 0, 4, 84, 69,
   83, 84]

/-- Whether what is read has two forms, the first of which with the chunk HELO 1, 2, 3, 4. -/
def overridden : Out (Option Chunk × RS) → Bool
  | .val (some c, _) => match applied typeTEST nameHELO none c with
    | [some (.raw id n d), _] => id == nameHELO && n == 4 && d == [49#8, 50#8, 51#8, 52#8]
    | _ => false
  | _ => false

theorem overridden_spec {r : Out (Option Chunk × RS)} (h : overridden r = true) : ∃ c s, r = .val (some c, s) ∧
    ∃ y, applied typeTEST nameHELO none c = [some (.raw nameHELO 4 [49#8, 50#8, 51#8, 52#8]), y] := by
  unfold overridden at h
  split at h
  · next c s =>
    split at h
    · next id n d y hy =>
      simp only [Bool.and_eq_true, beq_iff_eq] at h
      obtain ⟨⟨rfl, rfl⟩, rfl⟩ := h
      exact ⟨c, s, rfl, _, hy⟩
    · cases h
  · cases h

/-- C79, memory: on list.TEST as the test programs write it, lookupproperty-prop returns 0 and leaves memory … -/
theorem C79_prop_false : ∃ g' a, Runs (generousData (fun _ => some Fixture.list.bytes) fun _ => none)
    .lookupproperty_prop_main (mainArgs []) (launched pc "lookup" [] [] 0) (.int .int 0) g' ∧ g'.heap a ≠ none := by
  obtain ⟨status, g', h1, -, -, -, h2, h3⟩ := C79_prop_partial (generousData (fun _ => some Fixture.list.bytes) fun _ => none)
    generousData_linked pc_sane generousData_grants "lookup" [] (by decide) 0
    (fun t s n hf hn => generous_serves t s n hf (of_decide_eq_true hn))
    (fun n hn => decide_eq_true (show n < 2 ^ 63 by
      have : n ≤ Fixture.list.bytes.length + 1024 := hn
      have : Fixture.list.bytes.length ≤ 90 := by rw [fixture_encode]; exact fixture_length _
      omega))
    (fun bs hb => by
      obtain rfl : Fixture.list.bytes = bs := Option.some.inj hb
      exact ⟨noNegativeGroups_of (by decide), by decide⟩)
  obtain ⟨w, rest, hb, hw⟩ : Fixture.list.Begins Fixture.list.bytes := by simpa using fixture_begins .list []
  have hlen : Fixture.list.bytes.length ≤ 90 := by rw [fixture_encode]; exact fixture_length _
  obtain ⟨⟨s, hrd⟩, -⟩ := (C12_recognises_partial pc pc_sane Fixture.list.bytes (by omega)
    (fun n h => decide_eq_true (show n < 2 ^ 63 by omega)) Fixture.list.chunk).mpr ⟨w, rest, hb, hw, fixture_conforms _⟩
  have h4 : status = 0 := h2.mpr ⟨_, Fixture.list.chunk, s, rfl, hrd, _, _, rfl⟩
  subst h4
  obtain ⟨a, ha⟩ := h3 rfl
  exact ⟨g', a, h1, ha⟩

/-- … and so does lookupproperty-override on the file that it is tested with. -/
theorem C79_override_false : ∃ g' a, Runs (generousData (fun _ => some overrideTest) fun _ => none)
    .lookupproperty_override_main (mainArgs []) (launched pc "lookup" [] [] 0) (.int .int 0) g' ∧ g'.heap a ≠ none := by
  obtain ⟨status, g', h1, -, -, -, h2, h3⟩ := C79_override_partial (generousData (fun _ => some overrideTest) fun _ => none)
    generousData_linked pc_sane generousData_grants "lookup" [] (by decide) 0
    (fun t s n hf hn => generous_serves t s n hf (of_decide_eq_true hn))
    (fun n hn => decide_eq_true (show n < 2 ^ 63 by
      have : n ≤ overrideTest.length + 1024 := hn
      have : overrideTest.length = 96 := rfl
      omega))
    (fun bs hb => by
      obtain rfl : overrideTest = bs := Option.some.inj hb
      exact ⟨noNegativeGroups_of (by decide), by decide⟩)
  obtain ⟨c, s, h4, h5⟩ := overridden_spec (r := readFd pc none ⟨overrideTest, []⟩) (by decide +kernel)
  have h4 : status = 0 := h2.mpr ⟨_, c, s, rfl, h4, h5⟩
  subst h4
  obtain ⟨a, ha⟩ := h3 rfl
  exact ⟨g', a, h1, ha⟩

/-- What is read has two forms, HELO 1, 2, 3, 4 applies to the second one, and BYE does not. -/
def withoutBye : Out (Option Chunk × RS) → Bool
  | .val (some c, _) => (match applied typeTEST nameHELO none c with
    | [_, some (.raw id n d)] => id == nameHELO && n == 4 && d == [49#8, 50#8, 51#8, 52#8]
    | _ => false) && (match applied typeTEST nameBYE none c with
    | [_, none] => true
    | _ => false)
  | _ => false

theorem withoutBye_spec {r : Out (Option Chunk × RS)} (h : withoutBye r = true) : ∃ c s, r = .val (some c, s) ∧
    ∃ x y, applied typeTEST nameHELO none c = [x, some (.raw nameHELO 4 [49#8, 50#8, 51#8, 52#8])] ∧
      applied typeTEST nameBYE none c = [y, none] := by
  unfold withoutBye at h
  split at h
  · next c s =>
    rw [Bool.and_eq_true] at h
    obtain ⟨h1, h2⟩ := h
    split at h1
    · next x id n d hx =>
      split at h2
      · next y hy =>
        simp only [Bool.and_eq_true, beq_iff_eq] at h1
        obtain ⟨⟨rfl, rfl⟩, rfl⟩ := h1
        exact ⟨c, s, rfl, _, _, hx, hy⟩
      · cases h2
    · cases h1
  · cases h

/-- C79, nested: lookupproperty-nested returns 0, and leaves memory, on a file in which no chunk BYE applies to the second
FORM: lookupproperty-nested.c:80-98 has no `else` for that. -/
theorem C79_nested_false :
    (∃ c s, readFd pc none ⟨noByeTest, []⟩ = .val (some c, s) ∧ ∃ y, applied typeTEST nameBYE none c = [y, none]) ∧
    ∃ g' a, Runs (generousData (fun _ => some noByeTest) fun _ => none)
      .lookupproperty_nested_main (mainArgs []) (launched pc "lookup" [] [] 0) (.int .int 0) g' ∧ g'.heap a ≠ none := by
  obtain ⟨status, g', h1, -, -, -, h2, h3⟩ := C79_nested_partial (generousData (fun _ => some noByeTest) fun _ => none)
    generousData_linked pc_sane generousData_grants "lookup" [] (by decide) 0
    (fun t s n hf hn => generous_serves t s n hf (of_decide_eq_true hn))
    (fun n hn => decide_eq_true (show n < 2 ^ 63 by
      have : n ≤ noByeTest.length + 1024 := hn
      have : noByeTest.length = 60 := rfl
      omega))
    (fun bs hb => by
      obtain rfl : noByeTest = bs := Option.some.inj hb
      exact ⟨noNegativeGroups_of (by decide), by decide⟩)
  obtain ⟨c, s, h4, x, y, h5, h6⟩ := withoutBye_spec (r := readFd pc none ⟨noByeTest, []⟩) (by decide +kernel)
  have h7 : status = 0 := h2.mpr ⟨_, c, s, rfl, h4, x, y, none, h5, h6, .inl rfl⟩
  subst h7
  obtain ⟨a, ha⟩ := h3 rfl
  exact ⟨⟨c, s, h4, y, h6⟩, g', a, h1, ha⟩

/-- The hypotheses of `C79_after_writelist` are met by the file that writelist writes. -/
example : ∃ g', Runs (generousData (fun _ => some Fixture.list.bytes) fun _ => none)
    .lookupproperty_prop_main (mainArgs []) (launched pc "lookup" [] [] 0) (.int .int 0) g' := by
  have hlen : Fixture.list.bytes.length ≤ 90 := by rw [fixture_encode]; exact fixture_length _
  obtain ⟨g', h, -⟩ := C79_after_writelist (generousData (fun _ => some Fixture.list.bytes) fun _ => none)
    generousData_linked pc_sane generousData_grants "lookup" [] (by decide) 0
    (fun t s n hf hn => generous_serves t s n hf (of_decide_eq_true hn)) Fixture.list.bytes
    (by simpa using fixture_begins .list []) rfl (noNegativeGroups_of (by decide)) (by omega)
    (fun n hn => decide_eq_true (show n < 2 ^ 63 by omega))
  exact ⟨g', h⟩

/-- The programs run on files that have what they look for and on files that do not. -/
example :
    ([Fixture.list.bytes, Fixture.form.bytes, Fixture.cat.bytes, overrideTest].map fun bs =>
      (toolOf (callFn (linkedData fun _ => some bs) 40 .lookupproperty_prop_main
        (mainArgs []) (launched pc "lookup" [] [] 0))).map (·.1)) =
      [some (.int .int 0), some (.int .int 0), some (.int .int 0), some (.int .int 0)] ∧
    ([overrideTest, nestedTest, Fixture.list.bytes, Fixture.form.bytes].map fun bs =>
      (toolOf (callFn (linkedData fun _ => some bs) 40 .lookupproperty_override_main
        (mainArgs []) (launched pc "lookup" [] [] 0))).map (·.1)) =
      [some (.int .int 0), some (.int .int 0), some (.int .int 1), some (.int .int 1)] ∧
    ([nestedTest, noByeTest, overrideTest].map fun bs =>
      (toolOf (callFn (linkedData fun _ => some bs) 40 .lookupproperty_nested_main
        (mainArgs []) (launched pc "lookup" [] [] 0))).map (·.1)) =
      [some (.int .int 0), some (.int .int 0), some (.int .int 1)] := by
  refine ⟨?_, ?_, ?_⟩ <;> decide +kernel

end Iff.Src
