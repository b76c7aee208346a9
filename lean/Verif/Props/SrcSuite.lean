import Verif.Props.SrcLookupProp
/-
  C80 The programs of the test suite pass on what the programs before them have written.
-/
namespace Iff.Src

open Iff.Heap Iff.Spec

set_option maxRecDepth 4000

variable {X : Cfg}

/-- The test programs that are run after a program that writes, on the file that it has written
(/repo tests/Makefile.am:128-136). -/
def successors : Fixture → List Fn
  | .form => [.readform_main, .searchforms_form_main, .lookupproperty_simple_main]
  | .pad => [.readform_pad_main]
  | .cat => [.readcat_main, .searchforms_cat_main]
  | .nested => [.readnestedform_main, .searchforms_nestedform_main]
  | .list => [.readlist_main, .lookupproperty_prop_main]

/-- C80, searching: on every file that begins like the one that was written for it, a program that searches returns
0. -/
theorem C80_searches (X : Cfg) (hX : X.Linked) (he : X.e.Sane) (hg : X.Grants) (d : Hunt)
    (command : String) (args : List String) (hr : args.length + 1 < 2147483648) (room : Nat)
    (hd : ∀ t s n, Finite s → X.e.mallocOk n = true → (X.pick t s n).isSome)
    (bs : List Byte) (hb : (Hunt.fixture d).Begins bs) (hf : X.files d.file = some bs) (hn : NoNegativeGroups bs)
    (hl : bs.length < 2147483648) (hA : ∀ k, k ≤ bs.length + 1024 → X.e.mallocOk k = true) :
    ∃ g', Runs X d.main (mainArgs args) (launched X.e command args [] room) (.int .int 0) g' ∧ g'.out = [] ∧
      g'.text = [] := by
  obtain ⟨w, rest, rfl, hw⟩ := hb
  have hnum : topForms typeTEST (Hunt.fixture d).chunk = d.number := by cases d <;> decide
  have h := C78_finds X hX he hg d command args hr room hd w rest _ hw (fixture_conforms _) hf hn hl hA
  rw [if_pos hnum] at h
  exact h

/-- C80, looking up: on every file that begins like the one that writeform writes, lookupproperty-simple returns 0 and
leaves no memory. -/
theorem C80_looks_up (X : Cfg) (hX : X.Linked) (he : X.e.Sane) (hg : X.Grants)
    (command : String) (args : List String) (hr : args.length + 1 < 2147483648) (room : Nat)
    (hd : ∀ t s n, Finite s → X.e.mallocOk n = true → (X.pick t s n).isSome)
    (bs : List Byte) (hb : Fixture.form.Begins bs) (hf : X.files "hello.TEST" = some bs) (hn : NoNegativeGroups bs)
    (hl : bs.length < 2147483648) (hA : ∀ k, k ≤ bs.length + 1024 → X.e.mallocOk k = true) :
    ∃ g', Runs X .lookupproperty_simple_main (mainArgs args) (launched X.e command args [] room) (.int .int 0) g' ∧
      (∀ a, g'.heap a = none) ∧ g'.out = [] ∧ g'.text = [] := by
  obtain ⟨w, rest, rfl, hw⟩ := hb
  obtain ⟨⟨s, hrd⟩, -⟩ := (C12_recognises_partial X.e he (w ++ rest) hl (fun n h => hA n (by omega)) _).mpr
    ⟨w, rest, rfl, hw, fixture_conforms .form⟩
  obtain ⟨status, g', h1, h2, h3, h4, -, h5⟩ := C78_looks_up X hX he hg command args hr room hd
    (by rw [hf]; exact hA) (fun bs h => by rw [hf] at h; cases h; exact ⟨hn, hl⟩)
  have h6 : status = 0 := h5.mpr ⟨_, _, s, hf, hrd, _, _, _, rfl, _, List.mem_cons_self, rfl⟩
  subst h6
  exact ⟨g', h1, h2, h3, h4⟩

/-- C80: a program that writes, on a machine where its file takes all bytes, returns 0 and has written the file; and where
that file is then found, on the same machine or any other, each of the programs that are run after it returns 0. -/
theorem C80_suite (X Y : Cfg) (hX : X.Linked) (hXD : X.LinkedData) (hx : X.e.Sane) (hsv : X.Serves 1024)
    (hY : Y.Linked) (hYD : Y.LinkedData) (hy : Y.e.Sane) (hg : Y.Grants)
    (hd : ∀ t s n, Finite s → Y.e.mallocOk n = true → (Y.pick t s n).isSome)
    (hA : ∀ k, k ≤ 1280 → Y.e.mallocOk k = true) (d : Fixture) (n : Nat) (hdest : X.dests d.file = some n)
    (hroom : (encode d.chunk).length ≤ n) (command command' : String) (room room' : Nat) (inp : List Byte) :
    ∃ g', Runs X d.writer (mainArgs []) (launched X.e command [] inp room) (.int .int 0) g' ∧
      g'.out.take n = d.bytes ∧ (Y.files d.file = some (g'.out.take n) → ∀ f ∈ successors d,
        ∃ g'', Runs Y f (mainArgs []) (launched Y.e command' [] [] room') (.int .int 0) g'') := by
  obtain ⟨status, g', h1, -, -, h2⟩ := C77_writes X hX hXD hx hsv d command [] (by decide) inp room
  rw [hdest] at h2
  simp only [Wrote] at h2
  rw [if_pos (by rw [fixture_encode]; exact hroom)] at h2
  obtain ⟨rfl, h2⟩ := h2
  refine ⟨g', h1, h2, fun hf => ?_⟩
  rw [h2] at hf
  have hl : d.bytes.length ≤ 90 := by rw [fixture_encode]; exact fixture_length d
  have hneg : NoNegativeGroups d.bytes := by cases d <;> exact noNegativeGroups_of (by decide)
  have hb : d.Begins d.bytes := by simpa using fixture_begins d []
  have hread : ∃ g'', Runs Y d.reader (mainArgs []) (launched Y.e command' [] [] room') (.int .int 0) g'' := by
    obtain ⟨status, g'', h3, -, -, -, -, h4, -⟩ := C77_reads_partial Y hY hYD hy hg d command' [] (by decide) room' hd
      (fun k hk => hA k (by rw [hf] at hk; simp only [Option.getD_some] at hk; omega))
      (fun bs hb => by
        rw [hf] at hb
        obtain rfl : d.bytes = bs := Option.some.inj hb
        exact ⟨hneg, by omega⟩)
    obtain rfl := h4 ⟨d.bytes, hf, hb⟩
    exact ⟨g'', h3⟩
  have hhunt : ∀ e : Hunt, Hunt.fixture e = d → e.file = d.file →
      ∃ g'', Runs Y e.main (mainArgs []) (launched Y.e command' [] [] room') (.int .int 0) g'' := by
    intro e h3 h4
    obtain ⟨g'', h, -⟩ := C80_searches Y hY hy hg e command' [] (by decide) room' hd d.bytes (h3 ▸ hb) (h4 ▸ hf) hneg
      (by omega) (fun k hk => hA k (by omega))
    exact ⟨g'', h⟩
  intro f hmem
  cases d <;> simp only [successors, List.mem_cons, List.not_mem_nil, or_false] at hmem
  · rcases hmem with rfl | rfl | rfl
    · exact hread
    · exact hhunt .form rfl rfl
    · obtain ⟨g'', h, -⟩ := C80_looks_up Y hY hy hg command' [] (by decide) room' hd _ hb hf hneg (by omega)
        (fun k hk => hA k (by omega))
      exact ⟨g'', h⟩
  · obtain rfl := hmem
    exact hread
  · rcases hmem with rfl | rfl
    · exact hread
    · exact hhunt .cat rfl rfl
  · rcases hmem with rfl | rfl
    · exact hread
    · exact hhunt .nested rfl rfl
  · rcases hmem with rfl | rfl
    · exact hread
    · obtain ⟨g'', h, -⟩ := C79_after_writelist Y hY hy hg command' [] (by decide) room' hd _ hb hf hneg (by omega)
        (fun k hk => hA k (by omega))
      exact ⟨g'', h⟩

/-! ### Examples -/

/-- The hypotheses of `C80_suite` are met: a machine that takes 90 bytes, and one that finds them. -/
example (d : Fixture) : ∀ f ∈ successors d, ∃ g', Runs (generousData (fun _ => some d.bytes) fun _ => none) f (mainArgs [])
    (launched pc "test" [] [] 0) (.int .int 0) g' := by
  obtain ⟨g', -, h1, h2⟩ := C80_suite (generousData (fun _ => none) fun _ => some 90)
    (generousData (fun _ => some d.bytes) fun _ => none) generousData_linked generousData_data pc_sane
    (fun t s n hf hn => generous_serves t s n hf (by omega)) generousData_linked generousData_data pc_sane
    generousData_grants (fun t s n hf hn => generous_serves t s n hf (of_decide_eq_true hn))
    (fun k hk => decide_eq_true (show k < 2 ^ 63 by omega)) d 90 rfl (fixture_length d) "write" "test" 0 0 []
  exact h2 (by rw [h1]; rfl)

/-- The programs can be run one after the other; but those for hello.TEST not on list.TEST, nor those for
list.TEST on what is not an IFF file. -/
example :
    ([Fixture.form, .pad, .cat, .nested, .list].map fun d => (successors d).map fun f =>
      (toolOf (callFn (linkedData fun _ => some d.bytes) 40 f (mainArgs []) (launched pc "test" [] [] 0))).map (·.1)) =
      [List.replicate 3 (some (.int .int 0)), [some (.int .int 0)], List.replicate 2 (some (.int .int 0)),
       List.replicate 2 (some (.int .int 0)), List.replicate 2 (some (.int .int 0))] ∧
    ((successors .form).map fun f => (toolOf (callFn (linkedData fun _ => some Fixture.list.bytes) 40 f (mainArgs [])
      (launched pc "test" [] [] 0))).map (·.1)) = List.replicate 3 (some (.int .int 1)) ∧
    ((successors .list).map fun f => (toolOf (callFn (linkedData fun _ => some Fixture.pad.bytes.reverse) 40 f (mainArgs [])
      (launched pc "test" [] [] 0))).map (·.1)) = List.replicate 2 (some (.int .int 1)) := by
  refine ⟨?_, ?_, ?_⟩ <;> decide +kernel

end Iff.Src
