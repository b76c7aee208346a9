import Verif.Proofs.SrcProgram
/-
  C69: the text of the tools' `main` functions.
-/
namespace Iff.Src

open Iff.Heap Iff.Spec

set_option maxRecDepth 4000

/-! ### C69 -/

/-- C69, iffpp: for every command line, the text of `main` does what the model of the command line says. -/
theorem C69_pp_main (X : Cfg) (gnu : Bool) (command : String) (args : List String) (g : CS)
    (hg : g.stk = startStk X.e command args) (hr : args.length + 1 < 2147483648) :
    PpDoes X (ppFn gnu) (ppUsage command) command args g (ppMeans gnu args) := by
  cases gnu
  · exact pp_posix_run hg hr
  · exact pp_long_run hg hr

/-- C69, iffjoin: likewise. -/
theorem C69_join_main (X : Cfg) (gnu : Bool) (command : String) (args : List String) (g : CS)
    (hg : g.stk = startStk X.e command args) (h0 : g.heap 0 = none) (hr : Reasonable X.e args) :
    ∃ r, joinMeans gnu args = .val r ∧ JoinDoes X (joinFn gnu) (joinUsage command) command args g r := by
  cases gnu
  · exact join_posix_run hg h0 hr
  · exact join_long_run hg h0 hr

/-- C69 with C31, C56 and C68, iffpp from its start to its end: if the command line asks for a file (or the standard
input) to be printed, the file is below 2 GiB and has no negative group sizes, and the requests for memory are
served, then the text of `main` returns.  If there is a hierarchy in the file to print, the status is 0 and its
specified text has been printed, otherwise the status is 1 and nothing has been printed; and all memory has been
freed. -/
theorem C69_pp_program (X : Cfg) (hX : X.Linked) (he : X.e.Sane) (hg : X.Grants) (gnu : Bool) (command : String)
    (args : List String) (hr : args.length + 1 < 2147483648) (inp : List Byte) (room : Nat) (dis : Bool)
    (n : Option Arg) (hm : ppMeans gnu args = .run (dis, n)) (hin : n ≠ none → inp = [])
    (hd : ∀ t s n, Finite s → X.e.mallocOk n = true → (X.pick t s n).isSome)
    (hA : ∀ k, k ≤ (sourceOf X inp n).length + 256 → X.e.mallocOk k = true)
    (hn : ∀ bs, (sourceOf X inp n).contents = some bs → NoNegativeGroups bs ∧ bs.length < 2147483648) :
    ∃ (status : Nat) (g' : CS), Runs X (ppFn gnu) (mainArgs args) (launched X.e command args inp room)
      (.int .int status) g' ∧ (∀ a, g'.heap a = none) ∧ g'.out = [] ∧
      ((∃ c, Printable X.e (sourceOf X inp n) dis c ∧ status = 0 ∧ g'.text = Spec.layout 0 c) ∨
       (¬ ∃ c, Printable X.e (sourceOf X inp n) dis c) ∧ status = 1 ∧ g'.text = []) := by
  have h := C69_pp_main X gnu command args (launched X.e command args inp room) rfl hr
  rw [hm] at h
  exact pp_program X hX he hg command args inp room dis n h hin hd hA hn

/-- C69 with C30 and C68, iffjoin from its start to its end: if the command line asks for files without negative group
sizes to be joined, they are not too long together, and the requests for memory are served, then the text of `main`
returns 0 or 1.  If a file cannot be read or is invalid, the status is 1 and nothing has been written.  Otherwise the
destination, if it could be opened, holds as much of the CAT of the hierarchies in the files as fits.  If the status is
0, all memory has been freed. -/
theorem C69_join_program (X : Cfg) (hX : X.Linked) (hAl : X.Alone) (he : X.e.Sane) (hg : X.Grants) (gnu : Bool)
    (command : String) (args : List String) (hr : Reasonable X.e args) (room : Nat) (out : Option Arg)
    (inputs : List Arg) (hm : joinMeans gnu args = .val (.run (out, inputs))) (d : Dest)
    (hdest : DestArg X [] room d (nameArg out))
    (hd : ∀ t s n, Finite s → X.e.mallocOk n = true → (X.pick t s n).isSome)
    (hA : ∀ n < 2147483648, X.e.mallocOk n = true)
    (hL : total (sourcesOf X inputs) + 256 < 2147483648)
    (hn : ∀ f ∈ sourcesOf X inputs, ∀ bs, f.contents = some bs → NoNegativeGroups bs) :
    ∃ (status : Nat) (g' : CS), Runs X (joinFn gnu) (mainArgs args) (launched X.e command args [] room)
      (.int .int status) g' ∧ status ≤ 1 ∧ (status = 0 → ∀ a, g'.heap a = none) ∧ g'.text = [] ∧
      (((∃ f ∈ sourcesOf X inputs, ¬ ∃ c, Offers X.e f c) ∧ status = 1 ∧ g'.out = []) ∨
      ∃ (ins : List (List Byte × Chunk)) (ty : ID) (size : Int),
        (sourcesOf X inputs).map Source.contents = ins.map (fun i => some i.1) ∧ (∀ i ∈ ins, Accepts X.e i.1 i.2) ∧
        let cat := encode (.grp idCAT size ty (ins.map Prod.snd))
        (status = 0 ↔ d.opens = true ∧ cat.length ≤ d.cap + d.slack) ∧
        (d.opens = true → g'.out.take d.cap = cat.take d.cap) ∧ (d.opens = false → g'.out = [])) := by
  obtain ⟨r, h1, h2⟩ := C69_join_main X gnu command args (launched X.e command args [] room) rfl rfl hr
  rw [hm] at h1
  cases h1
  exact join_program X hX hAl he hg command args room out inputs h2 d hdest hd hA hL hn

/-- C69 with C53 and C68: iffjoin leaks.  Whenever all files can be read, and iffjoin gives up though the destination
could be opened, a block is still allocated when the text of `main` returns. -/
theorem C69_join_leaks (X : Cfg) (hX : X.Linked) (hAl : X.Alone) (hg : X.Grants) (gnu : Bool)
    (command : String) (args : List String) (hr : Reasonable X.e args) (room : Nat) (out : Option Arg)
    (inputs : List Arg) (hm : joinMeans gnu args = .val (.run (out, inputs))) (d : Dest)
    (hdest : DestArg X [] room d (nameArg out))
    (hd : ∀ t s n, Finite s → X.e.mallocOk n = true → (X.pick t s n).isSome)
    (hA : ∀ n < 2147483648, X.e.mallocOk n = true)
    (hL : total (sourcesOf X inputs) + 256 < 2147483648) (log' : List Msg)
    (hread : ∀ f ∈ sourcesOf X inputs, Readable X.e f) (hop : d.opens = true)
    (h : join X.e (sourcesOf X inputs) d [] = .val ((1, none), log')) :
    ∃ (g' : CS) (x : Addr), Runs X (joinFn gnu) (mainArgs args) (launched X.e command args [] room) (.int .int 1) g' ∧
      g'.heap x ≠ none := by
  obtain ⟨r, h1, h2⟩ := C69_join_main X gnu command args (launched X.e command args [] room) rfl rfl hr
  rw [hm] at h1
  cases h1
  exact join_leaks X hX hAl hg command args room out inputs h2 d hdest hd hA hL log' hread hop h

/-- C69 with C55: iffjoin does not check that it has got memory for the names of the files. -/
theorem C69_join_refused (X : Cfg) (gnu : Bool) (command : String) (args : List String) (hr : Reasonable X.e args)
    (inp : List Byte) (room : Nat) (out : Option Arg) (inputs : List Arg)
    (hm : joinMeans gnu args = .val (.run (out, inputs)))
    (hp : X.pick 0 (fun _ => none) (inputs.length * (X.e.sizeBits / 8)) = none) :
    Fails X (joinFn gnu) (mainArgs args) (launched X.e command args inp room) .nullDeref := by
  obtain ⟨r, h1, h2⟩ := C69_join_main X gnu command args (launched X.e command args inp room) rfl rfl hr
  rw [hm] at h1
  cases h1
  exact join_refuses X command args inp room out inputs h2 hp

/-! ### Examples -/

local macro "reasonable" : tactic => `(tactic| exact ⟨by decide, show (_ + 2) * (64 / 8) < 2 ^ 64 by decide⟩)

theorem generousTools_alone : generousTools.Alone := by
  intro k b h
  have h' : (([Glob.IFF_globalChunkTypes, .IFF_globalChunkTypesNode, .IFF_defaultChunkType,
    .IFF_defaultChunkRegistry].find? (fun g => g.addr = k)).map fun g => initBlk generousTools g.ty g.init) = some b := h
  obtain ⟨g, hg, -⟩ := Option.map_eq_some_iff.1 h'
  refine ⟨g, ?_, (of_decide_eq_true (List.find?_some hg :)).symm⟩
  have hm := List.mem_of_find?_eq_some hg
  simp only [List.mem_cons, List.not_mem_nil, or_false] at hm
  rcases hm with rfl | rfl | rfl | rfl <;> rfl

/-- The hypotheses of `C69_pp_program` are met by a FORM that is printed … -/
example : ∃ (status : Nat) (g' : CS), Runs generousTools .iffpp_main (mainArgs ["a", "-c"])
    (launched pc "iffpp" ["a", "-c"] [] 0) (.int .int status) g' ∧ (∀ a, g'.heap a = none) ∧ g'.out = [] := by
  have hlen : (sourceOf generousTools [] (some ['a'])).length = 12 := rfl
  obtain ⟨status, g', h1, h2, h3, -⟩ := C69_pp_program generousTools generousTools_linked pc_sane generousTools_grants
    true "iffpp" ["a", "-c"] (by decide) [] 0 true (some ['a']) rfl (fun _ => rfl) generousTools_serves
    (fun n hn => decide_eq_true (show n < 2 ^ 63 by omega)) (fun bs hb => by
      cases hb
      exact ⟨noNegativeGroups_of (by decide), by decide⟩)
  exact ⟨status, g', h1, h2, h3⟩

/-- … those of `C69_join_program` by a FORM that is joined with itself … -/
example : ∃ (status : Nat) (g' : CS), Runs generousTools .iffjoin_main (mainArgs ["a", "a", "-o", "o"])
    (launched pc "iffjoin" ["a", "a", "-o", "o"] [] 0) (.int .int status) g' ∧ status ≤ 1 ∧ g'.text = [] := by
  obtain ⟨status, g', h1, h2, -, h3, -⟩ := C69_join_program generousTools generousTools_linked generousTools_alone pc_sane
    generousTools_grants true "iffjoin" ["a", "a", "-o", "o"] (by reasonable) 0 (some ['o']) [['a'], ['a']] rfl
    ⟨"o", true, 1000, 0⟩ (.inl ⟨rfl, rfl⟩) generousTools_serves (fun n hn => decide_eq_true (show n < 2 ^ 63 by omega))
    (by decide) (by
      intro f hf bs hb
      simp only [sourcesOf, List.map_cons, List.map_nil, List.mem_cons, List.not_mem_nil, or_false, or_self] at hf
      subst hf
      cases hb
      exact noNegativeGroups_of (by decide))
  exact ⟨status, g', h1, h2, h3⟩

/-- … those of `C69_join_leaks` by a FORM and a PROP … -/
example : ∃ (g' : CS) (x : Addr), Runs generousTools .iffjoin_mainPosix (mainArgs ["-o", "o", "a", "b"])
    (launched pc "iffjoin" ["-o", "o", "a", "b"] [] 0) (.int .int 1) g' ∧ g'.heap x ≠ none :=
  C69_join_leaks generousTools generousTools_linked generousTools_alone
    generousTools_grants false "iffjoin" ["-o", "o", "a", "b"] (by reasonable) 0 (some ['o']) [['a'], ['b']] rfl
    ⟨"o", true, 1000, 0⟩ (.inl ⟨rfl, rfl⟩) generousTools_serves (fun n hn => decide_eq_true (show n < 2 ^ 63 by omega))
    (by decide) _ (by
      intro f hf
      simp only [sourcesOf, List.map_cons, List.map_nil, List.mem_cons, List.not_mem_nil, or_false] at hf
      rcases hf with rfl | rfl
      · exact ⟨_, .grp idFORM 4 idTEST [], _, rfl, rfl⟩
      · exact ⟨_, .grp idPROP 4 idTEST [], _, rfl, rfl⟩) rfl rfl

/-- … and those of `C69_join_refused` by an allocator that refuses the first request. -/
example : Fails (linkedTools fun t _ => t == 0) .iffjoin_main (mainArgs ["a", "-o", "o"])
    (launched pc "iffjoin" ["a", "-o", "o"] [] 0) .nullDeref :=
  C69_join_refused _ true "iffjoin" ["a", "-o", "o"] (by reasonable) [] 0 (some ['o']) [['a']] rfl rfl

/-- A program can be run from its start: iffpp prints its usage and its version … -/
example :
    toolOf (callFn (linkedTools fun _ _ => false) 40 .iffpp_main (mainArgs ["-c", "--help", "x"])
      (launched pc "iffpp" ["-c", "--help", "x"] [] 0)) = some (.int .int 0, ppUsage "iffpp", [], []) ∧
    toolOf (callFn (linkedTools fun _ _ => false) 40 .iffpp_mainPosix (mainArgs ["-cv"])
      (launched pc "iffpp" ["-cv"] [] 0)) = some (.int .int 0, versionText "iffpp", [], []) ∧
    toolOf (callFn (linkedTools fun _ _ => false) 40 .iffpp_main (mainArgs ["--bogus"])
      (launched pc "iffpp" ["--bogus"] [] 0)) = some (.int .int 1, ppUsage "iffpp", [], []) := by
  refine ⟨?_, ?_, ?_⟩ <;> decide +kernel

/-- … and a file, also if the options come after it … -/
example :
    toolOf (callFn (linkedTools fun _ _ => false) 40 .iffpp_main (mainArgs ["b", "--disable-check"])
      (launched pc "iffpp" ["b", "--disable-check"] [] 0)) =
      some (.int .int 0, Spec.layout 0 (.grp idPROP 4 idTEST []), [], []) ∧
    toolOf (callFn (linkedTools fun _ _ => false) 40 .iffpp_mainPosix (mainArgs ["a"])
      (launched pc "iffpp" ["a"] [] 0)) = some (.int .int 0, Spec.layout 0 (.grp idFORM 4 idTEST []), [], []) := by
  refine ⟨?_, ?_⟩ <;> decide +kernel

/-- … and iffjoin joins. -/
example :
    toolOf (callFn (linkedTools fun _ _ => false) 40 .iffjoin_main (mainArgs ["a", "-o", "o"])
      (launched pc "iffjoin" ["a", "-o", "o"] [] 0)) = some (.int .int 0, [],
        encode (catOf idTEST [.grp idFORM 4 idTEST []]), []) ∧
    toolOf (callFn (linkedTools fun _ _ => false) 40 .iffjoin_mainPosix (mainArgs ["-oo"])
      (launched pc "iffjoin" ["-oo"] [] 0)) = some (.int .int 1, [], [], []) := by
  refine ⟨?_, ?_⟩ <;> decide +kernel

end Iff.Src
