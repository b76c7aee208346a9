import Verif.Proofs.SrcTests
import Verif.Spec.Valid
import Verif.Props.SrcMain
import Verif.Props.LayoutApp
/-
  C74 The test programs decide what they are meant to decide.
-/
namespace Iff.Src

open Iff.Heap Iff.Spec

set_option maxRecDepth 4000

/-! ### C74 -/

/-- Reading, checking and releasing an input: the calls that validiff and invalidiff make. -/
theorem session (X : Cfg) (hX : X.Linked) (he : X.e.Sane) (hg : X.Grants) (g : CS) (f : Source) (v : V)
    (hf : SourceArg X g.inp f v) (tick : Nat)
    (hd : ∀ t s n, Finite s → X.e.mallocOk n = true → (X.pick t s n).isSome)
    (hA : ∀ n, n ≤ f.length + 256 → X.e.mallocOk n = true)
    (hn : ∀ bs, f.contents = some bs → NoNegativeGroups bs ∧ bs.length < 2147483648) (log : List Msg) :
    (∃ rest t' log', (¬ ∃ bs, f.contents = some bs ∧ ValidFile bs) ∧
      Runs X .IFF_read [v, .ptr (.struct .IFF_ChunkRegistry) Ptr.null] (embC X g ⟨fun _ => none, tick, log⟩) (chunkV 0)
        (embC X { g with inp := rest } ⟨fun _ => none, t', log'⟩)) ∨
    ∃ rest p ok s₁ s₂ t' log', p ≠ 0 ∧ (ok = true ↔ ∃ bs, f.contents = some bs ∧ ValidFile bs) ∧
      Runs X .IFF_read [v, .ptr (.struct .IFF_ChunkRegistry) Ptr.null] (embC X g ⟨fun _ => none, tick, log⟩) (chunkV p)
        (embC X { g with inp := rest } s₁) ∧
      Runs X .IFF_check [chunkV p, .ptr (.struct .IFF_ChunkRegistry) Ptr.null] (embC X { g with inp := rest } s₁)
        (truth ok) (embC X { g with inp := rest } s₂) ∧
      Runs X .IFF_free [chunkV p, .ptr (.struct .IFF_ChunkRegistry) Ptr.null] (embC X { g with inp := rest } s₂)
        .void (embC X { g with inp := rest } ⟨fun _ => none, t', log'⟩) := by
  have hlen : f.length < 2147483648 := by
    unfold Source.length
    cases hc : f.contents with
    | none => decide
    | some bs => exact (hn bs hc).2
  have hm0 : ∀ n ≤ f.length, X.e.mallocOk n = true := fun n h => hA n (by omega)
  have hsv : X.Serves (f.length + 256) := fun t s n hf hn => hd t s n hf (hA n hn)
  have hT := complete_total hg (arrays_of_serves hsv) (fun t s n hf hn => hsv t s n hf (by omega)) hd
  have hoffer : (∃ bs, f.contents = some bs ∧ ValidFile bs) ↔ ∃ c, Offers X.e f c := by
    constructor
    · rintro ⟨bs, hb, w, rest, c, h⟩
      exact ⟨c, bs, hb, (C12_recognises_partial X.e he bs (hn bs hb).2
        (fun n h => hm0 n (by simpa [Source.length, hb] using h)) c).mpr ⟨w, rest, h⟩⟩
    · rintro ⟨c, bs, hb, h⟩
      obtain ⟨w, rest, h⟩ := (C12_recognises_partial X.e he bs (hn bs hb).2
        (fun n h => hm0 n (by simpa [Source.length, hb] using h)) c).mp h
      exact ⟨bs, hb, w, rest, c, h⟩
  rw [hoffer]
  have hbd : MBd 0 (fun _ => none : Mem) := fun _ _ h => nomatch h
  have hlk := like_complete (X := X) (N := (f.length + 7) / 8) (by omega)
  have hread := fun {p : Addr} {s' : TS} (h : lib (Heap.readFile (complete X ((f.length + 7) / 8)) X.e none f.name f.contents)
      ⟨fun _ => none, tick, log⟩ = .val (p, s')) =>
    iffRead_run (X := X) (stk := g.stk) (out := g.out) (room := g.room) (text := g.text) hX (reg := none)
      (q := Ptr.null) rfl hlk hf (fun _ _ => propOk_none) (L := 0) ⟨by omega, by omega⟩ hbd h
  -- the value
  have hval : ∃ oc l, Iff.readFile X.e none f.name f.contents log = .val (oc, l) ∧
      (oc = none → ¬ ∃ c, Offers X.e f c) ∧ ∀ c, oc = some c →
        (encode c).length < 2147483648 ∧ Standard c ∧ RawSizes c ∧ PropArrays c ∧ (Conforms c ↔ ∃ c, Offers X.e f c) := by
    cases hc : f.contents with
    | none =>
      refine ⟨none, _, rfl, ?_, nofun⟩
      rintro - ⟨c, bs, hb, -⟩
      rw [hc] at hb; cases hb
    | some bs =>
      obtain ⟨hn, hl⟩ := hn bs hc
      obtain ⟨oc, s, hr⟩ := C16_no_undefined_behaviour_partial X.e he ⟨bs, []⟩ hn hl
      refine ⟨oc, log ++ s.log, by rw [readFile_eq, hr], ?_, ?_⟩
      · rintro rfl ⟨c, bs', hb, ⟨s', h⟩, -⟩
        rw [hc] at hb; cases hb
        rw [hr] at h; cases h
      · rintro c rfl
        have hfacts := readFd_facts he hr
        have hlen : (encode c).length < 2147483648 := by
          obtain ⟨s1, h1, _⟩ := readFd_some hr
          obtain ⟨w, hw, hL⟩ := (read_loose he _).1 _ _ _ _ h1
          have := hL.shaped.length
          have hw' : bs = w ++ s1.inp := hw
          have : w.length ≤ bs.length := by rw [hw']; simp
          omega
        have hst := standard_iff.mp hfacts.sound.dispatched
        have hd := C20_check_decides_partial X.e he c hst hfacts.sound.raws hfacts.props hlen []
        refine ⟨hlen, hst, hfacts.sound.raws, hfacts.props, fun h => ⟨c, bs, hc, ⟨s, hr⟩, _, hd.1 h⟩, ?_⟩
        rintro ⟨c', bs', hb, ⟨s', h⟩, l, hck⟩
        rw [hc] at hb; cases hb
        rw [hr] at h; cases h
        refine Classical.byContradiction fun hnc => ?_
        obtain ⟨l', h'⟩ := hd.2 hnc
        rw [h'] at hck; cases hck
  obtain ⟨oc, l, hv, hnone, hsome⟩ := hval
  have hroomy : Roomy (fun _ => none : Mem) := ⟨0, fun _ _ => rfl⟩
  have hk : ∀ bs, f.contents = some bs → bs.length + 4 ≤ f.length + 4 := fun bs hb => by simp [Source.length, hb]
  have h00 : (fun _ => none : Mem) 0 = none := rfl
  rcases lib_readFile (m := fun _ => none) (tick := tick) (log := log) hT.grants h00 f hk with ⟨t', log', h1, h2⟩ |
    ⟨t, ⟨m', t', l'⟩, h1, hz, hh, hrel, hdep, h2⟩ | ⟨u, h1, h2⟩ | ⟨h1, h2⟩
  · rcases h2 with h2 | h2
    · obtain ⟨-, rest, hrun⟩ := hread h1
      rw [hv] at h2; cases h2
      exact .inl ⟨rest, t', _, hnone rfl, hrun⟩
    · exact absurd hT (h2 hroomy)
  · obtain ⟨hm', rest, hrun⟩ := hread h1
    rw [hv] at h2; cases h2
    obtain ⟨hlen', hst, hraw, hpa, hiff⟩ := hsome _ rfl
    have hd := C20_check_decides_partial X.e he t.chunk hst hraw hpa hlen' l'
    have hck := C50_check X.e none m' 0 t hh.isIn (f.length + 4) hdep t' l'
    have hrep := Rep.of_bd hm' (by simp only [Nat.zero_add]; omega)
    obtain ⟨ok, l2, hc2, hok⟩ : ∃ ok l2, check X.e none t.chunk l' = .val (ok, l2) ∧ (ok = true ↔ Conforms t.chunk) := by
      by_cases hcf : Conforms t.chunk
      · exact ⟨true, _, hd.1 hcf, by simp [hcf]⟩
      · obtain ⟨l2, h⟩ := hd.2 hcf
        exact ⟨false, l2, h, by simp [hcf]⟩
    rw [hc2] at hck
    have hx := check_run (X := X) (stk := g.stk) (inp := rest) (out := g.out) (room := g.room) (text := g.text) hX
      (reg := none) (q := Ptr.null) rfl hrep hck
    have hfr := lib_free (tick := t') (log := l2) hh rfl hrel hdep
    have hf4 := free_tool (X := X) (stk := g.stk) (out := g.out) (room := g.room) (text := g.text) hX (reg := none)
      (q := Ptr.null) rfl (s := ⟨m', t', l2⟩) hm' (by omega) hfr
    exact .inr ⟨rest, t.addr, ok, _, _, _, _, hz, hok.trans hiff, hrun, hx.2, hf4.2 rest⟩
  · rcases h2 with h2 | h2
    · rw [hv] at h2; cases h2
    · exact absurd hT (h2 hroomy)
  · rw [hv] at h2; cases h2

/-- The input of a test program: the file that its first argument names, or the standard input. -/
abbrev inputOf (X : Cfg) (inp : List Byte) (args : List String) : Source :=
  sourceOf X inp (args.head?.map String.toList)

theorem inputOf_arg {X : Cfg} {inp : List Byte} {args : List String} (hin : args ≠ [] → inp = []) :
    SourceArg X inp (inputOf X inp args) (argV args) := by
  cases args with
  | nil => exact .inr ⟨rfl, rfl⟩
  | cons a as => exact .inl ⟨rfl, hin nofun, rfl⟩

/-- C74, validiff: on every input below 2 GiB without negative group sizes, if the requests for memory are
served, the text of `main` returns 0 if the input can be opened and is a valid file, and 1 otherwise; all
memory has been freed, and nothing has been printed. -/
theorem C74_validiff (X : Cfg) (hX : X.Linked) (he : X.e.Sane) (hg : X.Grants) (command : String)
    (args : List String) (hr : args.length + 1 < 2147483648) (inp : List Byte) (room : Nat)
    (hin : args ≠ [] → inp = [])
    (hd : ∀ t s n, Finite s → X.e.mallocOk n = true → (X.pick t s n).isSome)
    (hA : ∀ k, k ≤ (inputOf X inp args).length + 256 → X.e.mallocOk k = true)
    (hn : ∀ bs, (inputOf X inp args).contents = some bs → NoNegativeGroups bs ∧ bs.length < 2147483648) :
    ∃ (status : Int) (g' : CS), Runs X .validiff_main (mainArgs args) (launched X.e command args inp room)
      (.int .int status) g' ∧ (∀ a, g'.heap a = none) ∧ g'.out = [] ∧ g'.text = [] ∧
      (((∃ bs, (inputOf X inp args).contents = some bs ∧ ValidFile bs) ∧ status = 0) ∨
       (¬ (∃ bs, (inputOf X inp args).contents = some bs ∧ ValidFile bs) ∧ status = 1)) := by
  rcases session X hX he hg (launched X.e command args inp room) _ _ (inputOf_arg hin) 0 hd hA hn [] with
    ⟨rest, t', log', hno, h1⟩ | ⟨rest, p, ok, s₁, s₂, t', log', hp, hok, h1, h2, h3⟩
  · exact ⟨1, _, validiff_null (command := command) hr (by rfl) (by rfl) h1, fun _ => rfl, rfl, rfl, .inr ⟨hno, rfl⟩⟩
  · have h := validiff_some (command := command) hr (by rfl) (by rfl) hp h1 h2 h3
    cases ok with
    | true => exact ⟨0, _, h, fun _ => rfl, rfl, rfl, .inl ⟨hok.mp rfl, rfl⟩⟩
    | false => exact ⟨1, _, h, fun _ => rfl, rfl, rfl, .inr ⟨fun h => (nomatch hok.mpr h), rfl⟩⟩

/-- C74, invalidiff: likewise, with the statuses exchanged. -/
theorem C74_invalidiff (X : Cfg) (hX : X.Linked) (he : X.e.Sane) (hg : X.Grants) (command : String)
    (args : List String) (hr : args.length + 1 < 2147483648) (inp : List Byte) (room : Nat)
    (hin : args ≠ [] → inp = [])
    (hd : ∀ t s n, Finite s → X.e.mallocOk n = true → (X.pick t s n).isSome)
    (hA : ∀ k, k ≤ (inputOf X inp args).length + 256 → X.e.mallocOk k = true)
    (hn : ∀ bs, (inputOf X inp args).contents = some bs → NoNegativeGroups bs ∧ bs.length < 2147483648) :
    ∃ (status : Int) (g' : CS), Runs X .invalidiff_main (mainArgs args) (launched X.e command args inp room)
      (.int .int status) g' ∧ (∀ a, g'.heap a = none) ∧ g'.out = [] ∧ g'.text = [] ∧
      (((∃ bs, (inputOf X inp args).contents = some bs ∧ ValidFile bs) ∧ status = 1) ∨
       (¬ (∃ bs, (inputOf X inp args).contents = some bs ∧ ValidFile bs) ∧ status = 0)) := by
  rcases session X hX he hg (launched X.e command args inp room) _ _ (inputOf_arg hin) 0 hd hA hn [] with
    ⟨rest, t', log', hno, h1⟩ | ⟨rest, p, ok, s₁, s₂, t', log', hp, hok, h1, h2, h3⟩
  · exact ⟨0, _, invalidiff_null (command := command) hr (by rfl) (by rfl) h1, fun _ => rfl, rfl, rfl, .inr ⟨hno, rfl⟩⟩
  · have h := invalidiff_some (command := command) hr (by rfl) (by rfl) hp h1 h2 h3
    cases ok with
    | true => exact ⟨1, _, h, fun _ => rfl, rfl, rfl, .inl ⟨hok.mp rfl, rfl⟩⟩
    | false => exact ⟨0, _, h, fun _ => rfl, rfl, rfl, .inr ⟨fun h => (nomatch hok.mpr h), rfl⟩⟩

/-- C74, checkextension: if extension.TEST holds the encoding of a hierarchy that the application can read,
the text of `main` returns 1 if the hierarchy conforms to the standard and to the rules of the application,
and 0 otherwise; all memory has been freed. -/
theorem C74_checkextension (X : Cfg) (hX : X.Linked) (ht : X.LinkedTest) (he : X.e.Sane) (hg : X.Grants)
    (c : Chunk) (hc : Consistent c) (hdc : Dispatched testRegistry 0 c) (hl : Loadable X.e testRegistry 0 c)
    (hs : Checkable testRegistry 0 c)
    (hpr : ¬ [0x50, 0x52, 0x4f, 0x50] <:+: encode c)
    (hd : ∀ t s n, Finite s → X.e.mallocOk n = true → (X.pick t s n).isSome)
    (hA : ∀ n, n ≤ (encode c).length + 256 → X.e.mallocOk n = true)
    (hlen : (encode c).length < 2147483648) (hfile : X.files "extension.TEST" = some (encode c))
    (command : String) (args : List String) (hr : args.length + 1 < 2147483648) (room : Nat) :
    ∃ (status : Int) (g' : CS), Runs X .checkextension_main (mainArgs args) (launched X.e command args [] room)
      (.int .int status) g' ∧ (∀ a, g'.heap a = none) ∧ g'.out = [] ∧ g'.text = [] ∧
      ((ConformsWith testRegistry c ∧ status = 1) ∨ (¬ ConformsWith testRegistry c ∧ status = 0)) := by
  obtain ⟨t, ⟨m, tk, lg⟩, rest, rfl, hh, -, hmb, hrel, hrd⟩ := C72_builds X hX ht he hg c hc hdc hl hpr hd hA (by omega)
    (launched X.e command args [] room) ⟨"extension.TEST", some (encode c)⟩ rfl (.str "extension.TEST")
    (.inl ⟨rfl, rfl, hfile⟩) 0 []
  obtain ⟨ok, log', hck, hok, -, -⟩ := C72_check_decides X hX ht he { launched X.e command args [] room with inp := rest }
    m 0 t hh.isIn hs hlen (Rep.of_bd hmb (by omega)) tk lg
  have hfree : Heap.iffFree (some testRegistry) (depth t.chunk) t.addr ⟨m, tk, ⟨rest, log'⟩⟩ =
      .val ((), ⟨fun _ => none, tk, ⟨rest, log'⟩⟩) := hh.frees rfl hrel (Nat.le_refl _) _ rfl
  have hfr := C72_free X hX ht (launched X.e command args [] room) _ _ t.addr () _ (hmb.mono (by omega)) hfree
  have hz : t.addr ≠ 0 := fun h => hh.nonNull (h ▸ t.addr_mem)
  have h := checkextension_some (args := args) hr (g := launched X.e command args [] room) (by rfl) hz hrd hck hfr
  cases ok with
  | true => exact ⟨1, _, h, fun _ => rfl, rfl, rfl, .inl ⟨hok.mp rfl, rfl⟩⟩
  | false => exact ⟨0, _, h, fun _ => rfl, rfl, rfl, .inr ⟨fun h => (nomatch hok.mpr h), rfl⟩⟩

/-- C74 with C75, ppextension: if its input holds the encoding of such a hierarchy, the text of `main` prints the
specified text of the hierarchy and returns 0; all memory has been freed. -/
theorem C74_ppextension (X : Cfg) (hX : X.Linked) (ht : X.LinkedTest) (he : X.e.Sane) (hg : X.Grants)
    (c : Chunk) (hc : Consistent c) (hdc : Dispatched testRegistry 0 c) (hl : Loadable X.e testRegistry 0 c)
    (hs : Checkable testRegistry 0 c)
    (hpr : ¬ [0x50, 0x52, 0x4f, 0x50] <:+: encode c)
    (hd : ∀ t s n, Finite s → X.e.mallocOk n = true → (X.pick t s n).isSome)
    (hA : ∀ n, n ≤ (encode c).length + 256 → X.e.mallocOk n = true)
    (hlen : (encode c).length < 2147483648)
    (command : String) (args : List String) (hr : args.length + 1 < 2147483648) (inp : List Byte) (room : Nat)
    (hin : args ≠ [] → inp = []) (hfile : (inputOf X inp args).contents = some (encode c)) :
    ∃ g', Runs X .ppextension_main (mainArgs args) (launched X.e command args inp room) (.int .int 0) g' ∧
      (∀ a, g'.heap a = none) ∧ g'.out = [] ∧ g'.text = layoutApp testNames 0 0 c := by
  obtain ⟨t, ⟨m, tk, lg⟩, rest, rfl, hh, -, hmb, hrel, hrd⟩ := C72_builds X hX ht he hg c hc hdc hl hpr hd hA (by omega)
    (launched X.e command args inp room) _ hfile _ (inputOf_arg hin) 0 []
  have hpt := C50_print (some testRegistry) m 0 t hh.isIn _ (Nat.le_refl _) 0 tk []
  rw [C75_layout testRegistry testRegistry_sorted testNames C75_tests t.chunk hs 0] at hpt
  have hdep := depth_le_length t.chunk
  have hprint := (C72_print X hX ht { launched X.e command args inp room with inp := rest, log := errCalls X.e lg } _ _
    t.addr _ 0 (by omega) (Rep.of_bd hmb (by omega)) hpt).1
  have hfree : Heap.iffFree (some testRegistry) (depth t.chunk) t.addr ⟨m, tk, ⟨rest, lg⟩⟩ =
      .val ((), ⟨fun _ => none, tk, ⟨rest, lg⟩⟩) := hh.frees rfl hrel (Nat.le_refl _) _ rfl
  have hfr := C72_free X hX ht { launched X.e command args inp room with text := layoutApp testNames 0 0 t.chunk } _ _
    t.addr () _ (hmb.mono (by omega)) hfree
  have hz : t.addr ≠ 0 := fun h => hh.nonNull (h ▸ t.addr_mem)
  exact ⟨_, ppextension_some (command := command) hr (by rfl) (by rfl) hz hrd hprint hfr, fun _ => rfl, rfl, rfl⟩

/-! ### Examples -/

/-- The hypotheses of `C74_validiff` (which are those of `C74_invalidiff`) are met by every standard input below
2 GiB without negative group sizes. -/
example (inp : List Byte) (hn : NoNegativeGroups inp) (hl : inp.length < 2147483648) :
    ∃ (status : Int) (g' : CS), Runs generous .validiff_main (mainArgs []) (launched pc "validiff" [] inp 0)
      (.int .int status) g' ∧ ((ValidFile inp ∧ status = 0) ∨ (¬ ValidFile inp ∧ status = 1)) := by
  have hlen : (inputOf generous inp []).length = inp.length := rfl
  obtain ⟨status, g', h1, -, -, -, h2⟩ := C74_validiff generous generous_linked pc_sane generous_grants "validiff" []
    (by decide) inp 0 (fun h => absurd rfl h)
    (fun t s n hf hn => generous_serves t s n hf (of_decide_eq_true hn))
    (fun n hn => decide_eq_true (show n < 2 ^ 63 by omega)) (fun bs hb => by cases hb; exact ⟨hn, hl⟩)
  refine ⟨status, g', h1, ?_⟩
  have : (∃ bs, (inputOf generous inp []).contents = some bs ∧ ValidFile bs) ↔ ValidFile inp :=
    ⟨fun ⟨bs, hb, h⟩ => by cases hb; exact h, fun h => ⟨inp, rfl, h⟩⟩
  rwa [this] at h2

/-- There are files of both kinds: the encoding of the sample hierarchy, and the empty file. -/
example : ValidFile (encode (.grp idFORM 4 idTEST [])) ∧ ¬ ValidFile [] := by
  constructor
  · obtain ⟨w, rest, h⟩ := (C12_recognises_partial pc pc_sane (encode (.grp idFORM 4 idTEST [])) (by decide)
      (fun n hn => decide_eq_true (show n < 2 ^ 63 by
        have : (encode (.grp idFORM 4 idTEST [])).length = 12 := rfl
        omega)) (.grp idFORM 4 idTEST [])).mp ⟨⟨_, rfl⟩, [], rfl⟩
    exact ⟨w, rest, _, h⟩
  · rintro ⟨w, rest, c, h, hE, -⟩
    have h2 := hE.facts.length
    have := congrArg List.length h
    simp only [List.length_nil, List.length_append] at this
    have := depth_le_length c
    cases c <;> simp only [depth] at this <;> omega

/-- The hypotheses of `C74_checkextension` and `C74_ppextension` are met by a FORM with a HELO chunk. -/
example : ∃ g', Runs generousApp .ppextension_main (mainArgs ["in"]) (launched pc "ppextension" ["in"] [] 0)
    (.int .int 0) g' ∧ g'.text = layoutApp testNames 0 0 extended := by
  obtain ⟨g', h, -, -, h2⟩ := C74_ppextension generousApp generousApp_linked generousApp_test
    pc_sane generousApp_grants extended extended_consistent extended_dispatched extended_loadable extended_checkable
    (by decide) (fun t s n hf hn => generous_serves t s n hf (of_decide_eq_true hn))
    (fun n hn => decide_eq_true (show n < 2 ^ 63 by
      have : (encode extended).length = 26 := rfl
      omega)) (by decide) "ppextension" ["in"] (by decide) [] 0 (fun _ => rfl) rfl
  exact ⟨g', h, h2⟩

/-- The programs can be run: validiff and invalidiff on a FORM, on a PROP, and on a file that does not exist. -/
example :
    (["a", "b", "none"].map fun n => (toolOf (callFn (linkedTools fun _ _ => false) 40 .validiff_main (mainArgs [n])
      (launched pc "validiff" [n] [] 0))).map (·.1)) = [some (.int .int 0), some (.int .int 1), some (.int .int 1)] ∧
    (["a", "b", "none"].map fun n => (toolOf (callFn (linkedTools fun _ _ => false) 40 .invalidiff_main (mainArgs [n])
      (launched pc "invalidiff" [n] [] 0))).map (·.1)) = [some (.int .int 1), some (.int .int 0), some (.int .int 0)] := by
  refine ⟨?_, ?_⟩ <;> decide +kernel

end Iff.Src
