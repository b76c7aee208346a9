import Verif.Proofs.SrcDataBuild
import Verif.Props.SrcTests
/-
  C77 The test programs write the files they are meant to write, and recognise them.
-/
namespace Iff.Src

open Iff.Heap Iff.Spec

set_option maxRecDepth 4000

/-! ### The hierarchies -/

/-- The bytes of each file are the encoding of its hierarchy. -/
theorem fixture_encode (d : Fixture) : d.bytes = encode d.chunk := by cases d <;> decide

theorem fixture_consistent (d : Fixture) : Consistent d.chunk := by
  cases d
  · exact consistent_two (consistent_helo (by decide)) (consistent_bye (by decide)) (by decide) (by decide)
  · exact consistent_two (consistent_helo (by decide)) (consistent_bye (by decide)) (by decide) (by decide)
  · exact consistent_two
      (consistent_two (consistent_helo (by decide)) (consistent_bye (by decide)) (by decide) (by decide))
      (consistent_two (consistent_helo (by decide)) (consistent_bye (by decide)) (by decide) (by decide))
      (by decide) (by decide)
  · exact consistent_two
      (consistent_two (consistent_helo (by decide)) (consistent_bye (by decide)) (by decide) (by decide))
      (consistent_two (consistent_helo (by decide)) (consistent_bye (by decide)) (by decide) (by decide))
      (by decide) (by decide)
  · refine .lst (by decide) (by decide) ?_ ?_
    · simp only [List.mem_cons, List.not_mem_nil, or_false, forall_eq_or_imp, forall_eq]
      exact ⟨consistent_one (consistent_bye (by decide)) (by decide) (by decide),
        consistent_one (consistent_bye (by decide)) (by decide) (by decide)⟩
    · simp only [List.mem_cons, List.not_mem_nil, or_false, forall_eq]
      exact consistent_one (consistent_helo (by decide)) (by decide) (by decide)

theorem standard_raw {data : List Byte} : Standard (Fixture.helo data) ∧ Standard (Fixture.bye data) :=
  ⟨.raw (by decide) (by decide) (by decide) (by decide), .raw (by decide) (by decide) (by decide) (by decide)⟩

theorem standard_form {size : Int} {subs : List Chunk} (h : ∀ c ∈ subs, Standard c) :
    Standard (Fixture.testForm size subs) := .grp (.inl rfl) h

theorem fixture_standard (d : Fixture) : Standard d.chunk := by
  have two : ∀ {size x y}, Standard (Fixture.testForm size [Fixture.helo x, Fixture.bye y]) := by
    intro size x y
    exact standard_form (by simp [standard_raw])
  have one : ∀ {size x}, Standard (Fixture.testForm size [Fixture.bye x]) := by
    intro size x
    exact standard_form (by simp [standard_raw])
  cases d
  · exact two
  · exact two
  · exact .grp (.inr (.inl rfl)) (by simp [two])
  · exact .grp (.inl rfl) (by simp [two])
  · refine .lst rfl (by simp [one]) ?_
    simp only [List.mem_cons, List.not_mem_nil, or_false, forall_eq]
    exact .grp (.inr (.inr rfl)) (by simp [standard_raw])

theorem fixture_split (d : Fixture) : ListsSplit d.chunk := by
  have two : ∀ {size x y}, ListsSplit (Fixture.testForm size [Fixture.helo x, Fixture.bye y]) := by
    intro size x y
    refine .grp ?_
    simp only [List.mem_cons, List.not_mem_nil, or_false, forall_eq_or_imp, forall_eq]
    exact ⟨.raw, .raw⟩
  have one : ∀ {id size ty c}, ListsSplit c → ListsSplit (.grp id size ty [c]) := by
    intro id size ty c h
    refine .grp ?_
    simp only [List.mem_cons, List.not_mem_nil, or_false, forall_eq]
    exact h
  have both : ∀ {id size ty a b}, ListsSplit a → ListsSplit b → ListsSplit (.grp id size ty [a, b]) := by
    intro id size ty a b ha hb
    refine .grp ?_
    simp only [List.mem_cons, List.not_mem_nil, or_false, forall_eq_or_imp, forall_eq]
    exact ⟨ha, hb⟩
  cases d
  · exact two
  · exact two
  · exact both two two
  · exact both two two
  · refine .lst (by decide) (by decide) ?_ ?_
    · simp only [List.mem_cons, List.not_mem_nil, or_false, forall_eq_or_imp, forall_eq]
      exact ⟨one .raw, one .raw⟩
    · simp only [List.mem_cons, List.not_mem_nil, or_false, forall_eq]
      exact one .raw

theorem fixture_length (d : Fixture) : (encode d.chunk).length ≤ 90 := by cases d <;> decide

/-- Does a check succeed? -/
def passes : Out (Bool × List Msg) → Bool
  | .val (b, _) => b
  | _ => false

theorem fixture_conforms (d : Fixture) : Conforms d.chunk := by
  refine Classical.byContradiction fun h => ?_
  have hl := fixture_length d
  obtain ⟨l, hc⟩ := (C20_check_decides_partial pc pc_sane d.chunk (fixture_standard d)
    (rawSizes_of_consistent (fixture_consistent d)) (propArrays_of_split (fixture_split d)) (by omega) []).2 h
  have hp : passes (check pc none d.chunk []) = true := by cases d <;> decide +kernel
  rw [hc] at hp
  cases hp

theorem fixture_begins (d : Fixture) (rest : List Byte) : d.Begins (d.bytes ++ rest) :=
  ⟨d.bytes, rest, rfl, by
    rw [fixture_encode]
    exact (encodes_encode _ (fixture_consistent d) (fixture_standard d) (fixture_split d)).weaken⟩

/-! ### Comparing -/

/-- There is no LIST in the hierarchy. -/
def NoLists (c : Chunk) : Prop := ∀ id size ty subs props, ¬ Within (.lst id size ty subs props) c

/-- A hierarchy without LISTs is alike only to itself. -/
theorem alike_plain (c : Chunk) : ∀ d, NoLists d → Alike c d → c = d := by
  induction c using Chunk.ind with
  | raw => intro d _ h; cases d <;> simp_all [Alike]
  | ext => intro d _ h; cases d <;> simp_all [Alike]
  | grp id size ty subs ih =>
    intro d hd h
    cases d <;> simp only [Alike] at h
    obtain ⟨rfl, rfl, rfl, h⟩ := h
    rw [alikeAll_eq (Q := NoLists) ih (fun d hm i s t u v hw => hd i s t u v (.grp hm hw)) h]
  | lst =>
    intro d hd h
    cases d with
    | lst => exact absurd .self (hd _ _ _ _ _)
    | _ => simp [Alike] at h

theorem fixture_plain {d : Fixture} (h : d ≠ .list) : NoLists d.chunk := by
  have raw : ∀ {id size data}, NoLists (.raw id size data) := by
    intro id size data i s t u v hw
    cases hw
  have grp : ∀ {id size ty subs}, (∀ c ∈ subs, NoLists c) → NoLists (.grp id size ty subs) := by
    intro id size ty subs hs i s t u v hw
    cases hw with
    | grp hm hw => exact hs _ hm _ _ _ _ _ hw
  have two : ∀ {id size ty a b}, NoLists a → NoLists b → NoLists (.grp id size ty [a, b]) := by
    intro id size ty a b ha hb
    refine grp ?_
    simp only [List.mem_cons, List.not_mem_nil, or_false, forall_eq_or_imp, forall_eq]
    exact ⟨ha, hb⟩
  cases d
  · exact two raw raw
  · exact two raw raw
  · exact two (two raw raw) (two raw raw)
  · exact two (two raw raw) (two raw raw)
  · exact absurd rfl h

/-! ### Steps of the programs -/

/-- The function that builds the hierarchy, and the type of its result. -/
def maker : Fixture → Fn × Struct
  | .form => (.formdata_IFF_createTestForm, .IFF_Form)
  | .pad => (.formdata_pad_IFF_createTestForm, .IFF_Form)
  | .cat => (.catdata_IFF_createTestCAT, .IFF_CAT)
  | .nested => (.nestedformdata_IFF_createTestForm, .IFF_Form)
  | .list => (.listdata_IFF_createTestList, .IFF_List)

variable {X : Cfg} {g g₁ g₂ g₃ g₄ g₅ : CS} {m₀ : Mem} {s s₀ : HS} {ts : List Node} {L : Nat} {args : List String}

theorem Makes.mono {f : Fn} {ty : Struct} {k k' : Nat} {c : Chunk} (h : Makes X m₀ s₀ g f ty k c) (hk : k ≤ k') :
    Makes X m₀ s₀ g f ty k' c := fun hw hL => by
  obtain ⟨s', t, h1, h2, h3⟩ := h hw (by omega)
  exact ⟨s', t, h1, h2.mono (by omega), h3⟩

theorem fixture_makes (hX : X.Linked) (hD : X.LinkedData) (he : X.e.Sane) (hsv : X.Serves 1024) (hr : Roomy m₀)
    (d : Fixture) : Makes X m₀ s₀ g (maker d).1 (maker d).2 48 d.chunk := by
  cases d
  · exact Makes.mono (form_makes hX hD he hsv hr) (by decide)
  · exact Makes.mono (pad_makes hX hD he hsv hr) (by decide)
  · exact cat_makes hX hD he hsv hr
  · exact nested_makes hX hD he hsv hr
  · exact list_makes hX hD he hsv hr

theorem writer_run (d : Fixture) (hr : args.length + 1 < 2147483648) {ok : Bool} {p : Addr} (hk : g₃.stk = g.stk)
    (h1 : Runs X (maker d).1 [] g (ptrV (maker d).2 p) g₁)
    (h2 : Runs X .IFF_write [.str d.file, chunkV p, .ptr .void Ptr.null] g₁ (truth ok) g₂)
    (h3 : Runs X .IFF_free [chunkV p, .ptr .void Ptr.null] g₂ .void g₃) :
    Runs X d.writer (mainArgs args) g (truth !ok) g₃ := by
  cases d
  · exact writeform_run hr hk h1 h2 h3
  · exact writeform_pad_run hr hk h1 h2 h3
  · exact writecat_run hr hk h1 h2 h3
  · exact writenestedform_run hr hk h1 h2 h3
  · exact writelist_run hr hk h1 h2 h3

theorem forest_holds {m : Mem} {t : Node} (h : Forest m₀ m (t :: ts)) : Holds (m.without t.blocks) m t := by
  have hd := h.distinct
  rw [Node.blocksAll_cons, List.nodup_append] at hd
  refine ⟨h.isIn t (by simp), hd.1, fun h0 => ?_, ?_, ?_⟩
  · exact (h.isIn t (by simp)).mapped 0 h0 h.null
  · intro x hx
    exact Mem.without_of_mem hx
  · intro x hx
    exact (Mem.without_of_notMem hx).symm

/-- Releasing one of the hierarchies. -/
theorem free_step (hX : X.Linked) {t : Node} (h : Work m₀ s₀ L s (t :: ts)) (hL : L ≤ 4294967296)
    (hs : Released defaultRegistry 0 t.chunk) :
    ∃ s', Runs X .IFF_free [chunkV t.addr, .ptr .void Ptr.null] (emb X g s) .void (emb X g s') ∧ Work m₀ s₀ L s' ts := by
  have hf := h.forest.release
  have hfr := (forest_holds h.forest).frees (r := defaultRegistry) (ft := 0) hf.null hs (Nat.le_refl _) s rfl
  have hr := iffFree_run (X := X) (stk := g.stk) (out := g.out) (room := g.room) (text := g.text) hX (reg := none)
    (q := Ptr.null) rfl (k := depth t.chunk) h.bd hL hfr
  exact ⟨_, Runs.null hr rfl rfl, hf, h.bd.sub fun a b hb => by
    change s.mem.without t.blocks a = some b at hb
    by_cases hm : a ∈ t.blocks
    · rw [Mem.without_of_mem hm] at hb; cases hb
    · rwa [Mem.without_of_notMem hm] at hb, h.rs⟩

theorem reader_none (d : Fixture) (hr : args.length + 1 < 2147483648) (hk : g₁.stk = g.stk)
    (h1 : Runs X .IFF_read [.str d.file, .ptr .void Ptr.null] g (chunkV 0) g₁) :
    Runs X d.reader (mainArgs args) g (.int .int 1) g₁ := by
  cases d
  · exact readform_none hr hk h1 fprintf_run
  · exact readform_pad_none hr hk h1 fprintf_run
  · exact readcat_none hr hk h1 fprintf_run
  · exact readnestedform_none hr hk h1 fprintf_run
  · exact readlist_none hr hk h1 fprintf_run

theorem reader_some (d : Fixture) (hr : args.length + 1 < 2147483648) {ok : Bool} {a p : Addr} (ha : a ≠ 0)
    (hk : g₅.stk = g.stk)
    (h1 : Runs X .IFF_read [.str d.file, .ptr .void Ptr.null] g (chunkV a) g₁)
    (h2 : Runs X (maker d).1 [] g₁ (ptrV (maker d).2 p) g₂)
    (h3 : Runs X .IFF_compare [chunkV a, chunkV p, .ptr .void Ptr.null] g₂ (truth ok) g₃)
    (h4 : Runs X .IFF_free [chunkV (if d = .cat then a else p), .ptr .void Ptr.null] g₃ .void g₄)
    (h5 : Runs X .IFF_free [chunkV (if d = .cat then p else a), .ptr .void Ptr.null] g₄ .void g₅) :
    Runs X d.reader (mainArgs args) g (truth !ok) g₅ := by
  cases d
  · exact readform_some hr ha hk h1 h2 h3 h4 h5
  · exact readform_pad_some hr ha hk h1 h2 h3 h4 h5
  · exact readcat_some hr ha hk h1 h2 h3 h4 h5
  · exact readnestedform_some hr ha hk h1 h2 h3 h4 h5
  · exact readlist_some hr ha hk h1 h2 h3 h4 h5

/-! ### C77 -/

/-- What a test program that writes has written: with what result, and what is in the file. -/
def Wrote (bytes : List Byte) : Option Nat → Int → List Byte → Prop
  | some n, status, out =>
    if bytes.length ≤ n then status = 0 ∧ out.take n = bytes else status = 1 ∧ out.take n = bytes.take n
  | none, status, out => status = 1 ∧ out = []

/-- C77, writing: if requests for up to 1024 bytes are served, each of the five programs that write returns, without
undefined behaviour and with all memory freed; if the file can be opened and takes all bytes, the program returns 0
and the file holds exactly the bytes it is meant to hold; if it takes fewer, the program returns 1 and the file holds
the first of them; and if it cannot be opened, it returns 1. -/
theorem C77_writes (X : Cfg) (hX : X.Linked) (hD : X.LinkedData) (he : X.e.Sane) (hsv : X.Serves 1024) (d : Fixture)
    (command : String) (args : List String) (hr : args.length + 1 < 2147483648) (inp : List Byte) (room : Nat) :
    ∃ (status : Int) (g' : CS), Runs X d.writer (mainArgs args) (launched X.e command args inp room)
      (.int .int status) g' ∧ (∀ a, g'.heap a = none) ∧ g'.text = [] ∧
      Wrote d.bytes (X.dests d.file) status g'.out := by
  have hroomy : Roomy (fun _ => none : Mem) := ⟨0, fun _ _ => rfl⟩
  have h0 : Work (fun _ => none) ⟨fun _ => none, 0, ⟨inp, []⟩⟩ 0 ⟨fun _ => none, 0, ⟨inp, []⟩⟩ [] :=
    ⟨⟨rfl, nofun, List.nodup_nil, nofun, fun _ _ => rfl⟩, (fun _ _ h => nomatch h), rfl⟩
  obtain ⟨s₁, t, h1, hw, hc, hz⟩ := fixture_makes (g := launched X.e command args inp room) hX hD he hsv hroomy d h0
    (by decide)
  obtain ⟨m₁, t₁, r₁⟩ := s₁
  obtain rfl : r₁ = ⟨inp, []⟩ := hw.rs
  have hst : Standard t.chunk := hc ▸ fixture_standard d
  have hcc : Consistent t.chunk := hc ▸ fixture_consistent d
  have hin := hw.forest.isIn t (by simp)
  have hrep : Rep m₁ := Rep.of_bd hw.bd (by decide)
  -- the file
  obtain ⟨ok, o, log', hwr, hdest⟩ : ∃ ok o log', Heap.writeFile X.alloc X.e none (depth t.chunk) t.addr
      ⟨d.file, (X.dests d.file).isSome, (X.dests d.file).getD 0, 0⟩ ⟨m₁, t₁, []⟩ = .val ((ok, o), ⟨m₁, t₁, log'⟩) ∧
      ∀ out', Written ⟨d.file, (X.dests d.file).isSome, (X.dests d.file).getD 0, 0⟩ [] o out' →
        Wrote d.bytes (X.dests d.file) (if ok then 0 else 1) out' := by
    cases hx : X.dests d.file with
    | none =>
      refine ⟨false, none, _, rfl, ?_⟩
      rintro out' (⟨-, h⟩ | h)
      · exact ⟨rfl, h⟩
      · cases h
    | some n =>
      have hh := C51_write_without_filler X.alloc X.e he none defaultRegistry_sorted m₁ 0 t hin hcc
        (standard_iff.mpr hst) (filled_of_standard hst) _ (Nat.le_refl _) t₁ ⟨[], n + 0, []⟩
      have hwc := writes_chunk X.e he.wide defaultRegistry_sorted t.chunk 0 hcc (standard_iff.mpr hst)
      have hb : encode t.chunk = d.bytes := by rw [hc, fixture_encode]
      rw [hb] at hwc
      by_cases hl : d.bytes.length ≤ n
      · have h1 : writeFd X.e none t.chunk ⟨[], n + 0, []⟩ = _ := hwc.full ⟨[], n + 0, []⟩ hl
        rw [h1] at hh
        refine ⟨true, _, _, by simp only [Heap.writeFile, Option.isSome_some, if_true, Option.getD_some, hh]; rfl, ?_⟩
        rintro out' (⟨h, -⟩ | h)
        · cases h
        · simp only [Option.getD_some, Option.some.injEq, List.nil_append] at h
          simp only [Wrote, if_pos hl, if_true, true_and]
          rw [← h, List.take_of_length_le hl]
      · obtain ⟨log', h1, -⟩ := hwc.short ⟨[], n + 0, []⟩ (by simpa using hl)
        have h1 : writeFd X.e none t.chunk ⟨[], n + 0, []⟩ = _ := h1
        rw [h1] at hh
        refine ⟨false, _, _, by simp only [Heap.writeFile, Option.isSome_some, if_true, Option.getD_some, hh]; rfl, ?_⟩
        rintro out' (⟨h, -⟩ | h)
        · cases h
        · simp only [Option.getD_some, Option.some.injEq, List.nil_append] at h
          simp only [Wrote, if_neg hl, if_false, Bool.false_eq_true, true_and]
          rw [← h, List.take_take, Nat.add_zero, Nat.min_self]
  obtain ⟨-, out', room', hwritten, h2⟩ := C68_write X hX none Ptr.null rfl (launched X.e command args inp room)
    ⟨d.file, (X.dests d.file).isSome, (X.dests d.file).getD 0, 0⟩ (.str d.file)
    (.inl ⟨rfl, by cases X.dests d.file <;> rfl⟩) ⟨m₁, t₁, []⟩ _ t.addr _ ok o hrep hwr
  obtain ⟨⟨m₂, t₂, r₂⟩, h3, hw2⟩ := free_step
    (g := { launched X.e command args inp room with out := out', room := room' }) hX
    (s := ⟨m₁, t₁, ⟨inp, log'⟩⟩) (s₀ := ⟨fun _ => none, 0, ⟨inp, log'⟩⟩) (t := t) (ts := [])
    ⟨hw.forest, hw.bd, rfl⟩ (by decide) (released_of_standard hst)
  have hm2 : ∀ a, m₂ a = none := fun a => hw2.forest.adds.2 a (by simp [Node.blocksAll])
  have hrun := writer_run (args := args) d hr (by rfl) h1 (Runs.null h2 rfl rfl) h3
  refine ⟨if ok then 0 else 1, emb X { launched X.e command args inp room with out := out', room := room' } ⟨m₂, t₂, r₂⟩,
    ?_, fun a => ?_, rfl, hdest out' hwritten⟩
  · cases ok <;> exact hrun
  · show heapOf X.e m₂ a = none
    simp [heapOf, hm2]

/-- What is read, and whether it is found equal. -/
theorem read_value (e : Env) (he : e.Sane) (d : Fixture) (bs : List Byte) (hn : NoNegativeGroups bs)
    (hl : bs.length < 2147483648) (hm : ∀ n ≤ bs.length, e.mallocOk n = true) (name : String) (log : List Msg) :
    ∃ oc l, Iff.readFile e none name (some bs) log = .val (oc, l) ∧
      (oc = none → ¬ d.Begins bs) ∧ ∀ c, oc = some c → Standard c ∧
        ∃ ok, Iff.compare e none c d.chunk = .val ok ∧ (d.Begins bs → ok = true) ∧
          (d ≠ .list → ok = true → d.Begins bs) := by
  have hcf := fixture_conforms d
  have hacc : d.Begins bs ↔ Accepts e bs d.chunk := by
    rw [C12_recognises_partial e he bs hl hm]
    exact ⟨fun ⟨w, rest, h1, h2⟩ => ⟨w, rest, h1, h2, hcf⟩, fun ⟨w, rest, h1, h2, _⟩ => ⟨w, rest, h1, h2⟩⟩
  obtain ⟨oc, s, hr⟩ := C16_no_undefined_behaviour_partial e he ⟨bs, []⟩ hn hl
  refine ⟨oc, log ++ s.log, by rw [readFile_eq, hr], ?_, ?_⟩
  · rintro rfl hb
    obtain ⟨⟨s', h⟩, -⟩ := hacc.mp hb
    rw [hr] at h; cases h
  · rintro c rfl
    have hfacts := readFd_facts he hr
    have hst := standard_iff.mp hfacts.sound.dispatched
    obtain ⟨c1, c2, c3, c4⟩ := comparable_standard (fixture_standard d) (fixture_consistent d) (fixture_split d)
    obtain ⟨ok, h1, h2⟩ := (compares he.wide defaultRegistry_sorted c).1 0 d.chunk hfacts.sound ⟨c1, c2, c3, c4⟩
    refine ⟨hst, ok, h1, fun hb => ?_, fun hd hok => ?_⟩
    · obtain ⟨⟨s', h⟩, -⟩ := hacc.mp hb
      rw [hr] at h; cases h
      have hcmp := comparable_standard (fixture_standard d) (fixture_consistent d) (fixture_split d)
      have hpa := propArrays_of_split (fixture_split d)
      obtain ⟨b, h3, h4⟩ := C23_equal e he none defaultRegistry_sorted d.chunk d.chunk hcmp hcmp
        (fixture_consistent d) (fixture_consistent d) hpa hpa
      rw [show Iff.compare e none d.chunk d.chunk = _ from h1] at h3
      cases h3
      exact h4.mpr rfl
    · obtain rfl := alike_plain c d.chunk (fixture_plain hd) (h2.mp hok)
      have hlen := fixture_length d
      exact hacc.mpr ⟨⟨s, hr⟩, _, (C20_check_decides_partial e he d.chunk (fixture_standard d)
        (rawSizes_of_consistent (fixture_consistent d)) (propArrays_of_split (fixture_split d)) (by omega) []).1 hcf⟩

/-- C77, reading: if requests for memory are served, each of the five programs that read returns, without undefined
behaviour, with all memory freed and nothing written or printed, on every file below 2 GiB without negative group sizes.
It returns 0 if the file begins with an encoding of the hierarchy that the program is meant to recognise.
Otherwise, and if the file cannot be opened, it returns 1 -- except for readlist, see `C77_false`. -/
theorem C77_reads_partial (X : Cfg) (hX : X.Linked) (hD : X.LinkedData) (he : X.e.Sane) (hg : X.Grants) (d : Fixture)
    (command : String) (args : List String) (hr : args.length + 1 < 2147483648) (room : Nat)
    (hd : ∀ t s n, Finite s → X.e.mallocOk n = true → (X.pick t s n).isSome)
    (hA : ∀ k, k ≤ ((X.files d.file).getD []).length + 1024 → X.e.mallocOk k = true)
    (hn : ∀ bs, X.files d.file = some bs → NoNegativeGroups bs ∧ bs.length < 2147483648) :
    ∃ (status : Int) (g' : CS), Runs X d.reader (mainArgs args) (launched X.e command args [] room)
      (.int .int status) g' ∧ (∀ a, g'.heap a = none) ∧ g'.out = [] ∧ g'.text = [] ∧
      (status = 0 ∨ status = 1) ∧
      ((∃ bs, X.files d.file = some bs ∧ d.Begins bs) → status = 0) ∧
      (d ≠ .list → status = 0 → ∃ bs, X.files d.file = some bs ∧ d.Begins bs) := by
  obtain ⟨f, hfn, hfc, hfl⟩ : ∃ f : Source, f.name = d.file ∧ f.contents = X.files d.file ∧
      f.length = ((X.files d.file).getD []).length := 
    ⟨⟨d.file, X.files d.file⟩, rfl, rfl, by unfold Source.length; cases X.files d.file <;> rfl⟩
  have hlen : f.length < 2147483648 := by
    rw [hfl]
    cases hc : X.files d.file with
    | none => decide
    | some bs => exact (hn bs hc).2
  have hsv : X.Serves (f.length + 1024) := fun t s n hf hn => hd t s n hf (hA n (by rw [← hfl]; exact hn))
  have hsv' : X.Serves 1024 := fun t s n hf hn => hsv t s n hf (by omega)
  have hT := complete_total hg (arrays_of_serves (N := f.length) fun t s n hf hn => hsv t s n hf (by omega))
    (fun t s n hf hn => hsv t s n hf (by omega)) hd
  have hbd : MBd 0 (fun _ => none : Mem) := fun _ _ h => nomatch h
  have hlk := like_complete (X := X) (N := (f.length + 7) / 8) (by omega)
  have hread := fun {p : Addr} {s' : TS} (h : lib (Heap.readFile (complete X ((f.length + 7) / 8)) X.e none f.name f.contents)
      ⟨fun _ => none, 0, []⟩ = .val (p, s')) =>
    iffRead_run (X := X) (stk := (launched X.e command args [] room).stk) (out := []) (room := room) (text := []) hX
      (reg := none) (q := Ptr.null) rfl hlk (f := f) (v := .str d.file) (inp := [])
      (.inl ⟨by rw [hfn], rfl, by rw [hfn, hfc]⟩) (fun _ _ => propOk_none) (L := 0) ⟨by omega, by omega⟩ hbd h
  have hval : ∃ oc l, Iff.readFile X.e none f.name f.contents [] = .val (oc, l) ∧
      (oc = none → ¬ ∃ bs, X.files d.file = some bs ∧ d.Begins bs) ∧ ∀ c, oc = some c → Standard c ∧
        ∃ ok, Iff.compare X.e none c d.chunk = .val ok ∧ ((∃ bs, X.files d.file = some bs ∧ d.Begins bs) → ok = true) ∧
          (d ≠ .list → ok = true → ∃ bs, X.files d.file = some bs ∧ d.Begins bs) := by
    rw [hfc]
    cases hc : X.files d.file with
    | none => exact ⟨none, _, rfl, (fun _ ⟨_, h, _⟩ => nomatch h), nofun⟩
    | some bs =>
      obtain ⟨oc, l, h1, h2, h3⟩ := read_value X.e he d bs (hn bs hc).1 (hn bs hc).2
        (fun n h => hA n (by rw [hc]; exact Nat.le_trans h (Nat.le_add_right _ _))) f.name []
      refine ⟨oc, l, h1, ?_, fun c hoc => ?_⟩
      · rintro ho ⟨_, h, hb⟩
        cases h
        exact h2 ho hb
      · obtain ⟨k1, ok, k2, k3, k4⟩ := h3 c hoc
        refine ⟨k1, ok, k2, ?_, fun h h' => ⟨bs, rfl, k4 h h'⟩⟩
        rintro ⟨_, h, hb⟩
        cases h
        exact k3 hb
  obtain ⟨oc, l, hv, hnone, hsome⟩ := hval
  have hroomy : Roomy (fun _ => none : Mem) := ⟨0, fun _ _ => rfl⟩
  have hk : ∀ bs, f.contents = some bs → bs.length + 4 ≤ f.length + 4 := fun bs hb => by simp [Source.length, hb]
  rcases lib_readFile (m := fun _ => none) (tick := 0) (log := []) hT.grants rfl f hk with ⟨t', log', h1, h2⟩ |
    ⟨t, ⟨m', t', l'⟩, h1, hz, hh, hrel, hdep, h2⟩ | ⟨u, h1, h2⟩ | ⟨h1, h2⟩
  · rcases h2 with h2 | h2
    · obtain ⟨-, rest, hrun⟩ := hread h1
      rw [hv] at h2; cases h2
      exact ⟨1, _, reader_none d hr (by rfl) (Runs.null hrun rfl rfl), fun _ => rfl, rfl, rfl, .inr rfl,
        fun h => absurd h (hnone rfl), fun _ h => by cases h⟩
    · exact absurd hT (h2 hroomy)
  · obtain ⟨hm', rest, hrun⟩ := hread h1
    rw [hv] at h2; cases h2
    obtain ⟨hst, ok, hcmp, hyes, hno⟩ := hsome _ rfl
    have h0 : Forest (fun _ => none) (fun _ => none) [] := ⟨rfl, nofun, List.nodup_nil, nofun, fun _ _ => rfl⟩
    have hw1 : Work (fun _ => none) ⟨fun _ => none, 0, ⟨rest, l'⟩⟩ (0 + f.length) ⟨m', t', ⟨rest, l'⟩⟩ [t] :=
      ⟨h0.new hh, hm', rfl⟩
    obtain ⟨s₂, t₂, hmk, hw2, hc2, hz2⟩ := fixture_makes (g := launched X.e command args [] room) hX hD he hsv' hroomy d
      hw1 (by omega)
    have hrep : Rep s₂.mem := Rep.of_bd hw2.bd (by omega)
    have hck := C50_compare X.e none s₂ 0 0 t t₂ (hw2.forest.isIn t (by simp)) (hw2.forest.isIn t₂ (by simp)) _
      (Nat.le_refl _)
    rw [hc2, hcmp] at hck
    have hc3 := C61_compare X hX none Ptr.null rfl (launched X.e command args [] room) s₂ _ t.addr t₂.addr ok _ hrep hck
    have hrel2 : Released defaultRegistry 0 t₂.chunk := by rw [hc2]; exact released_of_standard (fixture_standard d)
    have hfree : ∃ s₄ s₅,
        Runs X .IFF_free [chunkV (if d = .cat then t.addr else t₂.addr), .ptr .void Ptr.null]
          (emb X (launched X.e command args [] room) s₂) .void (emb X (launched X.e command args [] room) s₄) ∧
        Runs X .IFF_free [chunkV (if d = .cat then t₂.addr else t.addr), .ptr .void Ptr.null]
          (emb X (launched X.e command args [] room) s₄) .void (emb X (launched X.e command args [] room) s₅) ∧
        Work (fun _ => none) ⟨fun _ => none, 0, ⟨rest, l'⟩⟩ (0 + f.length + 48) s₅ [] := by
      by_cases hcat : d = .cat
      · simp only [if_pos hcat]
        obtain ⟨s₄, k1, hw4⟩ := free_step (g := launched X.e command args [] room) hX (hw2.perm (List.Perm.swap _ _ _))
          (by omega) hrel
        obtain ⟨s₅, k2, hw5⟩ := free_step (g := launched X.e command args [] room) hX hw4 (by omega) hrel2
        exact ⟨s₄, s₅, k1, k2, hw5⟩
      · simp only [if_neg hcat]
        obtain ⟨s₄, k1, hw4⟩ := free_step (g := launched X.e command args [] room) hX hw2 (by omega) hrel2
        obtain ⟨s₅, k2, hw5⟩ := free_step (g := launched X.e command args [] room) hX hw4 (by omega) hrel
        exact ⟨s₄, s₅, k1, k2, hw5⟩
    obtain ⟨s₄, s₅, k1, k2, hw5⟩ := hfree
    have hm5 : ∀ a, s₅.mem a = none := fun a => hw5.forest.adds.2 a (by simp [Node.blocksAll])
    have hall := reader_some (args := args) d hr hz (by rfl) (Runs.null hrun rfl rfl) hmk (Runs.null hc3 rfl rfl) k1 k2
    refine ⟨if ok then 0 else 1, emb X (launched X.e command args [] room) s₅, ?_, fun a => ?_, rfl, rfl, ?_, ?_, ?_⟩
    · cases ok <;> exact hall
    · show heapOf X.e s₅.mem a = none
      simp [heapOf, hm5]
    · cases ok
      · exact .inr rfl
      · exact .inl rfl
    · intro h
      rw [hyes h]; rfl
    · intro hl h0
      refine hno hl ?_
      cases ok
      · cases h0
      · rfl
  · rcases h2 with h2 | h2
    · rw [hv] at h2; cases h2
    · exact absurd hT (h2 hroomy)
  · rw [hv] at h2; cases h2

/-- C77, both: what a program that writes has written to a file that takes all of it, the program that reads
recognises, on any machine. -/
theorem C77_round_trip (X Y : Cfg) (hX : X.Linked) (hXD : X.LinkedData) (hx : X.e.Sane) (hsv : X.Serves 1024)
    (hY : Y.Linked) (hYD : Y.LinkedData) (hy : Y.e.Sane) (hg : Y.Grants)
    (hd : ∀ t s n, Finite s → Y.e.mallocOk n = true → (Y.pick t s n).isSome)
    (hA : ∀ k, k ≤ 1280 → Y.e.mallocOk k = true) (d : Fixture) (n : Nat) (hdest : X.dests d.file = some n)
    (hroom : (encode d.chunk).length ≤ n) (command command' : String) (room room' : Nat) (inp : List Byte) :
    ∃ g', Runs X d.writer (mainArgs []) (launched X.e command [] inp room) (.int .int 0) g' ∧
      (Y.files d.file = some (g'.out.take n) →
        ∃ g'', Runs Y d.reader (mainArgs []) (launched Y.e command' [] [] room') (.int .int 0) g'') := by
  obtain ⟨status, g', h1, -, -, h2⟩ := C77_writes X hX hXD hx hsv d command [] (by decide) inp room
  rw [hdest] at h2
  simp only [Wrote] at h2
  rw [if_pos (by rw [fixture_encode]; exact hroom)] at h2
  obtain ⟨rfl, h2⟩ := h2
  refine ⟨g', h1, fun hf => ?_⟩
  rw [h2] at hf
  have hl : d.bytes.length ≤ 90 := by rw [fixture_encode]; exact fixture_length d
  obtain ⟨status, g'', h3, -, -, -, -, h4, -⟩ := C77_reads_partial Y hY hYD hy hg d command' [] (by decide) room' hd
    (fun k hk => hA k (by rw [hf] at hk; simp only [Option.getD_some] at hk; omega))
    (fun bs hb => by
      rw [hf] at hb
      obtain rfl : d.bytes = bs := Option.some.inj hb
      cases d <;> exact ⟨noNegativeGroups_of (by decide), by decide⟩)
  obtain rfl := h4 ⟨d.bytes, hf, by simpa using fixture_begins d []⟩
  exact ⟨g'', h3⟩

/-! ### Examples -/

/-- The static objects of the library and of the test data. -/
def dataGlobs : List Glob :=
  [.IFF_globalChunkTypes, .IFF_globalChunkTypesNode, .IFF_defaultChunkType, .IFF_defaultChunkRegistry,
   .catdata_bye1Data, .catdata_bye2Data, .catdata_helo1Data, .catdata_helo2Data, .formdata_byeData,
   .formdata_heloData, .formdata_pad_byeData, .formdata_pad_heloData, .listdata_bye1Data, .listdata_bye2Data,
   .listdata_heloData, .nestedformdata_bye1Data, .nestedformdata_bye2Data, .nestedformdata_helo1Data,
   .nestedformdata_helo2Data]

/-- A program linked with the library and the test data, that finds these files and may write 100 bytes. -/
def linkedData (files : String → Option (List Byte)) : Cfg :=
  { cfg (fun _ _ => false) (fun a => (dataGlobs.find? (fun g => g.addr = a)).map fun g =>
      initBlk (cfg (fun _ _ => false) fun _ => none) g.ty g.init) with
    files := files
    dests := fun _ => some 100 }

theorem linkedData_linked {files : String → Option (List Byte)} : (linkedData files).Linked := by
  intro g h; cases g <;> first | rfl | cases h

theorem linkedData_data {files : String → Option (List Byte)} : (linkedData files).LinkedData := by
  intro g h; cases g <;> first | rfl | exact absurd h (by decide)

/-- A file that is not an encoding of the LIST of listdata.c: its PROP has the size 15, and one byte too many follows
its HELO chunk. -/
def oddList : List Byte :=
  [0x4c, 0x49, 0x53, 0x54, 0, 0, 0, 76, 0x54, 0x45, 0x53, 0x54,
   0x50, 0x52, 0x4f, 0x50, 0, 0, 0, 15, 0x54, 0x45, 0x53, 0x54,
   0x48, 0x45, 0x4c, 0x4f, 0, 0, 0, 4, 0x71, 0x77, 0x65, 0x72, 0,
   0x46, 0x4f, 0x52, 0x4d, 0, 0, 0, 16, 0x54, 0x45, 0x53, 0x54,
   0x42, 0x59, 0x45, 0x20, 0, 0, 0, 4, 0x61, 0x62, 0x63, 0x64,
   0x46, 0x4f, 0x52, 0x4d, 0, 0, 0, 16, 0x54, 0x45, 0x53, 0x54,
   0x42, 0x59, 0x45, 0x20, 0, 0, 0, 4, 0x45, 0x46, 0x47, 0x48]

/-- The sizes of the PROPs of the LIST that was read. -/
def propSizes : Out (Option Chunk × RS) → Option (List Int)
  | .val (some (.lst _ _ _ _ props), _) => some (props.map Chunk.size)
  | _ => none

/-- C77: readlist finds a file to be what it is meant to recognise though it is not. -/
theorem C77_false : ¬ Fixture.list.Begins oddList ∧
    (toolOf (callFn (linkedData fun _ => some oddList) 40 .readlist_main (mainArgs [])
      (launched pc "readlist" [] [] 0))).map (·.1) = some (.int .int 0) := by
  refine ⟨?_, by decide +kernel⟩
  rintro ⟨w, rest, h1, h2⟩
  obtain ⟨⟨s', h⟩, -⟩ := (C12_recognises_partial pc pc_sane oddList (by decide) (fun n hn => decide_eq_true (by
    have : oddList.length = 85 := rfl
    omega)) Fixture.list.chunk).mpr ⟨w, rest, h1, h2, fixture_conforms _⟩
  have hp : propSizes (readFd pc none ⟨oddList, []⟩) = some [15] := by decide +kernel
  rw [h] at hp
  exact absurd (show (some [16] : Option (List Int)) = some [15] from hp) (by decide)

/-- An allocator that grants what it can, for a program linked with the test data. -/
noncomputable def generousData (files : String → Option (List Byte)) (dests : String → Option Nat) : Cfg :=
  { generous with
    img := fun a => (dataGlobs.find? (fun g => g.addr = a)).map fun g => initBlk (generousWith fun _ => none) g.ty g.init
    files := files
    dests := dests }

theorem generousData_linked {files dests} : (generousData files dests).Linked := by
  intro g h; cases g <;> first | rfl | cases h

theorem generousData_data {files dests} : (generousData files dests).LinkedData := by
  intro g h; cases g <;> first | rfl | exact absurd h (by decide)

theorem generousData_grants {files dests} : (generousData files dests).Grants := fun t s n a h => generous_grants t s n a h

/-- The hypotheses of `C77_writes` are met by every file system … -/
example (files : String → Option (List Byte)) (dests : String → Option Nat) (d : Fixture) :
    ∃ (status : Int) (g' : CS), Runs (generousData files dests) d.writer (mainArgs []) (launched pc "write" [] [] 0)
      (.int .int status) g' ∧ (∀ a, g'.heap a = none) ∧ g'.text = [] ∧
      Wrote d.bytes (dests d.file) status g'.out :=
  C77_writes (generousData files dests) generousData_linked generousData_data pc_sane
    (fun t s n hf hn => generous_serves t s n hf (by omega)) d "write" [] (by decide) [] 0

/-- … those of `C77_reads_partial` by the files themselves … -/
example (d : Fixture) : ∃ (status : Int) (g' : CS), Runs (generousData (fun _ => some d.bytes) fun _ => none) d.reader
      (mainArgs []) (launched pc "read" [] [] 0) (.int .int status) g' ∧ status = 0 := by
  obtain ⟨status, g', h1, -, -, -, -, h2, -⟩ := C77_reads_partial (generousData (fun _ => some d.bytes) fun _ => none)
    generousData_linked generousData_data pc_sane generousData_grants d "read" [] (by decide) 0
    (fun t s n hf hn => generous_serves t s n hf (of_decide_eq_true hn))
    (fun n hn => decide_eq_true (show n < 2 ^ 63 by
      have : n ≤ d.bytes.length + 1024 := hn
      have := fixture_length d
      rw [fixture_encode] at *
      omega))
    (fun bs hb => by
      obtain rfl : d.bytes = bs := Option.some.inj hb
      cases d <;> exact ⟨noNegativeGroups_of (by decide), by decide⟩)
  exact ⟨status, g', h1, h2 ⟨d.bytes, rfl, by simpa using fixture_begins d []⟩⟩

/-- … and by one that holds another file. -/
example : ∃ (status : Int) (g' : CS), Runs (generousData (fun _ => some Fixture.pad.bytes) fun _ => none)
      .readform_main (mainArgs []) (launched pc "readform" [] [] 0) (.int .int status) g' ∧ (status = 0 ∨ status = 1) := by
  obtain ⟨status, g', h1, -, -, -, h2, -, -⟩ := C77_reads_partial
    (generousData (fun _ => some Fixture.pad.bytes) fun _ => none)
    generousData_linked generousData_data pc_sane generousData_grants .form "readform" [] (by decide) 0
    (fun t s n hf hn => generous_serves t s n hf (of_decide_eq_true hn))
    (fun n hn => decide_eq_true (show n < 2 ^ 63 by
      have : n ≤ Fixture.pad.bytes.length + 1024 := hn
      have : Fixture.pad.bytes.length = 38 := rfl
      omega))
    (fun bs hb => by
      obtain rfl : Fixture.pad.bytes = bs := Option.some.inj hb
      exact ⟨noNegativeGroups_of (by decide), by decide⟩)
  exact ⟨status, g', h1, h2⟩

/-- The programs can be run: each writes its file, and recognises it but not that of another program. -/
example :
    ([Fixture.form, .pad, .cat, .nested, .list].map fun d => (toolOf (callFn (linkedData fun _ => none) 40 d.writer
      (mainArgs []) (launched pc "write" [] [] 0))).map fun r => (r.1, decide (r.2.2.1 = d.bytes))) =
        List.replicate 5 (some (.int .int 0, true)) ∧
    ([Fixture.form, .pad, .cat, .nested, .list].map fun d => (toolOf (callFn (linkedData fun _ => some d.bytes) 40 d.reader
      (mainArgs []) (launched pc "read" [] [] 0))).map (·.1)) = List.replicate 5 (some (.int .int 0)) ∧
    (toolOf (callFn (linkedData fun _ => some Fixture.pad.bytes) 40 .readform_main (mainArgs [])
      (launched pc "readform" [] [] 0))).map (·.1) = some (.int .int 1) := by
  refine ⟨?_, ?_, ?_⟩ <;> decide +kernel

end Iff.Src
