import Verif.Proofs.SrcProgram
import Verif.Proofs.SrcMsvcJoin
import Verif.Props.SrcMain
/-
  C70: the text of the tools' `main` functions, as compiled by Visual C++.
-/
namespace Iff.Src

open Iff.Heap Iff.Spec

set_option maxRecDepth 4000

/-! ### C70 -/

/-- C70, iffpp: for every command line, the text of `main` does what `ppMeansMsvc` says. -/
theorem C70_pp_main (X : Cfg) (command : String) (args : List String) (g : CS)
    (hg : g.stk = startStk X.e command args) (hr : args.length + 1 < 2147483648) :
    PpDoes X .iffpp_mainMsvc (ppUsageMsvc command) command args g (ppMeansMsvc args) :=
  pp_msvc_run hg hr

/-- C70, iffjoin: for every command line, the text of `main` does what `joinMeansMsvc` says. -/
theorem C70_join_main (X : Cfg) (command : String) (args : List String) (g : CS)
    (hg : g.stk = startStk X.e command args) (h0 : g.heap 0 = none) (hr : Reasonable X.e args) :
    JoinDoes X .iffjoin_mainMsvc (joinUsageMsvc command) command args g (joinMeansMsvc args) :=
  join_msvc_run hg h0 hr

/-- What the model of iffpp's command line says, in the terms of C70. -/
def ppAction : Option (Bool × Option String) → Run (Bool × Option Arg) → Prop
  | none, r => r = .usage 0 ∨ r = .version
  | some (c, f), r => r = .run (c, f.map String.toList)

/-- What the model of iffjoin's command line says, in the terms of C70. -/
def joinAction : Action → Run (Option Arg × List Arg) → Prop
  | .info, r => r = .usage 0 ∨ r = .version
  | .noInput, r => r = .noInput
  | .run out inputs, r => r = .run (out.map String.toList, inputs.map String.toList)

theorem infoMsvc_cons {a : String} {as : List String} : infoMsvc (a :: as) =
    if a = "/?" ∨ a = "/v" then some a else infoMsvc as := by
  by_cases h : a = "/?" ∨ a = "/v"
  · rw [if_pos h, infoMsvc, List.find?_cons_of_pos (by simpa using h)]
  · rw [if_neg h, infoMsvc, List.find?_cons_of_neg (by simpa using h)]; rfl

theorem ppOptions_eq : ∀ (args : List String) (c : Bool) (k : Nat), ppOptions args c k =
    (infoMsvc args).elim (some (c || decide ("/c" ∈ args), k + args.count "/c")) fun _ => none := by
  intro args
  induction args with
  | nil => intro c k; simp [ppOptions, infoMsvc]
  | cons a as ih =>
    intro c k
    rw [ppOptions, infoMsvc_cons]
    by_cases h1 : a = "/c"
    · subst h1
      rw [if_pos rfl, ih, if_neg (by decide), List.count_cons_self]
      simp [Nat.add_assoc, Nat.add_comm 1]
    · rw [if_neg h1]
      by_cases h2 : a = "/?"
      · rw [if_pos h2, if_pos (.inl h2)]; rfl
      · rw [if_neg h2]
        by_cases h3 : a = "/v"
        · rw [if_pos h3, if_pos (.inr h3)]; rfl
        · rw [if_neg h3, if_neg (by simp [h2, h3]), ih, List.count_cons_of_ne h1]
          simp [Ne.symm h1]

theorem joinOptions_eq : ∀ (args : List String) (out : Option String) (k : Nat), joinOptions args out k =
    (infoMsvc args).elim (some (if "/o" ∈ args then some "/o" else out, k + args.count "/o")) fun _ => none := by
  intro args
  induction args with
  | nil => intro c k; simp [joinOptions, infoMsvc]
  | cons a as ih =>
    intro c k
    rw [joinOptions, infoMsvc_cons]
    by_cases h1 : a = "/o"
    · subst h1
      rw [if_pos rfl, ih, if_neg (show ¬ ("/o" = "/?" ∨ "/o" = "/v") by decide), List.count_cons_self]
      simp [Nat.add_assoc, Nat.add_comm 1]
    · rw [if_neg h1]
      by_cases h2 : a = "/?"
      · rw [if_pos h2, if_pos (.inl h2)]; rfl
      · rw [if_neg h2]
        by_cases h3 : a = "/v"
        · rw [if_pos h3, if_pos (.inr h3)]; rfl
        · rw [if_neg h3, if_neg (by simp [h2, h3]), ih, List.count_cons_of_ne h1]
          simp [Ne.symm h1]

/-- C70 with C42 and C48: these meanings are those that the models of the command lines give. -/
theorem C70_means (prog : String) (args : List String) :
    ppAction (ppMain (prog :: args)) (ppMeansMsvc args) ∧
    joinAction (joinMain (prog :: args)) (joinMeansMsvc args) := by
  constructor
  · simp only [ppMain, List.tail_cons, ppOptions_eq, ppMeansMsvc]
    cases infoMsvc args with
    | some a => by_cases h : a = "/?" <;> simp [ppAction, h]
    | none =>
      simp only [Option.elim_none, ppAction, Bool.false_or]
      rw [Nat.add_comm, List.getElem?_cons_succ, List.head?_drop]
  · simp only [joinMain, List.tail_cons, joinOptions_eq, joinMeansMsvc]
    cases infoMsvc args with
    | some a => by_cases h : a = "/?" <;> simp [joinAction, h]
    | none =>
      simp only [Option.elim_none]
      by_cases h : args.drop (args.count "/o") = []
      · have := List.drop_eq_nil_iff.1 h
        rw [if_pos h, if_pos (by rw [List.length_cons]; omega)]
        rfl
      · have : ¬ args.length ≤ args.count "/o" := fun h' => h (List.drop_eq_nil_iff.2 h')
        rw [if_neg h, if_neg (by rw [List.length_cons]; omega), Nat.add_comm, List.drop_succ_cons]
        by_cases ho : "/o" ∈ args <;> simp [joinAction, ho]

/-- C70 with C31, C56 and C68, iffpp from its start to its end: see `C69_pp_program`. -/
theorem C70_pp_program (X : Cfg) (hX : X.Linked) (he : X.e.Sane) (hg : X.Grants) (command : String)
    (args : List String) (hr : args.length + 1 < 2147483648) (inp : List Byte) (room : Nat) (dis : Bool)
    (n : Option Arg) (hm : ppMeansMsvc args = .run (dis, n)) (hin : n ≠ none → inp = [])
    (hd : ∀ t s n, Finite s → X.e.mallocOk n = true → (X.pick t s n).isSome)
    (hA : ∀ k, k ≤ (sourceOf X inp n).length + 256 → X.e.mallocOk k = true)
    (hn : ∀ bs, (sourceOf X inp n).contents = some bs → NoNegativeGroups bs ∧ bs.length < 2147483648) :
    ∃ (status : Nat) (g' : CS), Runs X .iffpp_mainMsvc (mainArgs args) (launched X.e command args inp room)
      (.int .int status) g' ∧ (∀ a, g'.heap a = none) ∧ g'.out = [] ∧
      ((∃ c, Printable X.e (sourceOf X inp n) dis c ∧ status = 0 ∧ g'.text = Spec.layout 0 c) ∨
       (¬ ∃ c, Printable X.e (sourceOf X inp n) dis c) ∧ status = 1 ∧ g'.text = []) := by
  have h := C70_pp_main X command args (launched X.e command args inp room) rfl hr
  rw [hm] at h
  exact pp_program X hX he hg command args inp room dis n h hin hd hA hn

/-- C70 with C30 and C68, iffjoin from its start to its end: see `C69_join_program`. -/
theorem C70_join_program (X : Cfg) (hX : X.Linked) (hAl : X.Alone) (he : X.e.Sane) (hg : X.Grants)
    (command : String) (args : List String) (hr : Reasonable X.e args) (room : Nat) (out : Option Arg)
    (inputs : List Arg) (hm : joinMeansMsvc args = .run (out, inputs)) (d : Dest)
    (hdest : DestArg X [] room d (nameArg out))
    (hd : ∀ t s n, Finite s → X.e.mallocOk n = true → (X.pick t s n).isSome)
    (hA : ∀ n < 2147483648, X.e.mallocOk n = true)
    (hL : total (sourcesOf X inputs) + 256 < 2147483648)
    (hn : ∀ f ∈ sourcesOf X inputs, ∀ bs, f.contents = some bs → NoNegativeGroups bs) :
    ∃ (status : Nat) (g' : CS), Runs X .iffjoin_mainMsvc (mainArgs args) (launched X.e command args [] room)
      (.int .int status) g' ∧ status ≤ 1 ∧ (status = 0 → ∀ a, g'.heap a = none) ∧ g'.text = [] ∧
      (((∃ f ∈ sourcesOf X inputs, ¬ ∃ c, Offers X.e f c) ∧ status = 1 ∧ g'.out = []) ∨
      ∃ (ins : List (List Byte × Chunk)) (ty : ID) (size : Int),
        (sourcesOf X inputs).map Source.contents = ins.map (fun i => some i.1) ∧ (∀ i ∈ ins, Accepts X.e i.1 i.2) ∧
        let cat := encode (.grp idCAT size ty (ins.map Prod.snd))
        (status = 0 ↔ d.opens = true ∧ cat.length ≤ d.cap + d.slack) ∧
        (d.opens = true → g'.out.take d.cap = cat.take d.cap) ∧ (d.opens = false → g'.out = [])) := by
  have h2 := C70_join_main X command args (launched X.e command args [] room) rfl rfl hr
  rw [hm] at h2
  exact join_program X hX hAl he hg command args room out inputs h2 d hdest hd hA hL hn

/-- C70 with C42, the output option does not work: if the command line has an option `/o`, and a file named `/o`
cannot be opened for writing, then iffjoin writes nothing and returns 1, whatever files the command line names. -/
theorem C70_output_false (X : Cfg) (hX : X.Linked) (hAl : X.Alone) (he : X.e.Sane) (hg : X.Grants)
    (command : String) (args : List String) (hr : Reasonable X.e args) (room : Nat)
    (out : Option Arg) (inputs : List Arg) (hm : joinMeansMsvc args = .run (out, inputs)) (ho : "/o" ∈ args)
    (hdest : X.dests "/o" = none)
    (hd : ∀ t s n, Finite s → X.e.mallocOk n = true → (X.pick t s n).isSome)
    (hA : ∀ n < 2147483648, X.e.mallocOk n = true)
    (hL : total (sourcesOf X inputs) + 256 < 2147483648)
    (hn : ∀ f ∈ sourcesOf X inputs, ∀ bs, f.contents = some bs → NoNegativeGroups bs) :
    ∃ g', Runs X .iffjoin_mainMsvc (mainArgs args) (launched X.e command args [] room) (.int .int 1) g' ∧
      g'.out = [] := by
  have hout : out = some "/o".toList := by
    simp only [joinMeansMsvc, if_pos ho] at hm
    split at hm
    · split at hm <;> cases hm
    · split at hm <;> cases hm
      rfl
  subst hout
  obtain ⟨status, g', h1, h2, -, -, h3⟩ := C70_join_program X hX hAl he hg command args hr room _ inputs hm
    ⟨"/o", false, 0, 0⟩ (.inl ⟨rfl, hdest⟩) hd hA hL hn
  rcases h3 with ⟨-, rfl, h⟩ | ⟨ins, ty, size, -, -, h3, -, h4⟩
  · exact ⟨g', h1, h⟩
  · have : status ≠ 0 := fun h => nomatch (h3.1 h).1
    obtain rfl : status = 1 := by omega
    exact ⟨g', h1, h4 rfl⟩

/-! ### Examples -/

local macro "reasonable" : tactic => `(tactic| exact ⟨by decide, show (_ + 2) * (64 / 8) < 2 ^ 64 by decide⟩)

/-- The hypotheses of `C70_pp_program` are met by a FORM that is printed … -/
example : ∃ (status : Nat) (g' : CS), Runs generousTools .iffpp_mainMsvc (mainArgs ["/c", "a"])
    (launched pc "iffpp" ["/c", "a"] [] 0) (.int .int status) g' ∧ (∀ a, g'.heap a = none) ∧ g'.out = [] := by
  have hlen : (sourceOf generousTools [] (some ['a'])).length = 12 := rfl
  obtain ⟨status, g', h1, h2, h3, -⟩ := C70_pp_program generousTools generousTools_linked pc_sane generousTools_grants
    "iffpp" ["/c", "a"] (by decide) [] 0 true (some ['a']) (by decide) (fun _ => rfl) generousTools_serves
    (fun n hn => decide_eq_true (show n < 2 ^ 63 by omega)) (fun bs hb => by
      cases hb
      exact ⟨noNegativeGroups_of (by decide), by decide⟩)
  exact ⟨status, g', h1, h2, h3⟩

/-- … and those of `C70_output_false` by a command line that names an output file, which becomes an input. -/
example : ∃ g', Runs generousTools .iffjoin_mainMsvc (mainArgs ["/o", "o", "a"])
    (launched pc "iffjoin" ["/o", "o", "a"] [] 0) (.int .int 1) g' ∧ g'.out = [] :=
  C70_output_false generousTools generousTools_linked generousTools_alone pc_sane
    generousTools_grants "iffjoin" ["/o", "o", "a"] (by reasonable) 0 (some ['/', 'o']) [['o'], ['a']] (by decide)
    (by decide) (by decide) generousTools_serves (fun n hn => decide_eq_true (show n < 2 ^ 63 by omega))
    (by decide) (by
      intro f hf bs hb
      simp only [sourcesOf, List.map_cons, List.map_nil, List.mem_cons, List.not_mem_nil, or_false] at hf
      rcases hf with rfl | rfl
      · cases hb
      · cases hb
        exact noNegativeGroups_of (by decide))

/-- The text can be run: iffpp prints its usage, its version, and a file … -/
example :
    toolOf (callFn (linkedTools fun _ _ => false) 40 .iffpp_mainMsvc (mainArgs ["a", "/?", "/v"])
      (launched pc "iffpp" ["a", "/?", "/v"] [] 0)) = some (.int .int 0, ppUsageMsvc "iffpp", [], []) ∧
    toolOf (callFn (linkedTools fun _ _ => false) 40 .iffpp_mainMsvc (mainArgs ["/v"])
      (launched pc "iffpp" ["/v"] [] 0)) = some (.int .int 0, versionText "iffpp", [], []) ∧
    toolOf (callFn (linkedTools fun _ _ => false) 40 .iffpp_mainMsvc (mainArgs ["/c", "b"])
      (launched pc "iffpp" ["/c", "b"] [] 0)) =
      some (.int .int 0, Spec.layout 0 (.grp idPROP 4 idTEST []), [], []) := by
  refine ⟨?_, ?_, ?_⟩ <;> decide +kernel

/-- … but not if the option comes after the file (C48) … -/
example : toolOf (callFn (linkedTools fun _ _ => false) 40 .iffpp_mainMsvc (mainArgs ["b", "/c"])
      (launched pc "iffpp" ["b", "/c"] [] 0)) = some (.int .int 1, [], [], []) := by
  decide +kernel

/-- … and iffjoin never writes to the file given with the option `/o` (C42), only to the standard output. -/
example :
    toolOf (callFn (linkedTools fun _ _ => false) 40 .iffjoin_mainMsvc (mainArgs ["a"])
      (launched pc "iffjoin" ["a"] [] 100)) = some (.int .int 0, [],
        encode (catOf idTEST [.grp idFORM 4 idTEST []]), []) ∧
    toolOf (callFn (linkedTools fun _ _ => false) 40 .iffjoin_mainMsvc (mainArgs ["/o", "o", "a"])
      (launched pc "iffjoin" ["/o", "o", "a"] [] 100)) = some (.int .int 1, [], [], []) := by
  refine ⟨?_, ?_⟩ <;> decide +kernel

end Iff.Src
