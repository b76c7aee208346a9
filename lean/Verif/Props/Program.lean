import Verif.Proofs.Program
/-
  C57 The tools change what their command line names, and nothing else.
-/
namespace Iff
open Spec

/-- The command line of iffjoin has this meaning. -/
theorem joinCommand_eq {gnu : Bool} {args : List Arg} {m : Run (Option Arg × List Arg)}
    (h : JoinLine gnu args m) :
    (if gnu then joinMainLong true args else joinMainPosix true args) = .val (needInput m) := by
  cases gnu with
  | true =>
    obtain ⟨m', _, h2, h3⟩ := C55_join_long_partial args
    rw [if_pos rfl, h3, h2 m h]
  | false =>
    obtain ⟨m', _, h2, h3⟩ := C55_join_posix_partial args
    rw [if_neg (by decide), h3, h2 m h]

theorem ppCommand_eq {gnu : Bool} {args : List Arg} {m : Run (Bool × List Arg)}
    (h : PpLine gnu args m) :
    (if gnu then ppMainLong args else ppMainPosix args) = m.map fun p => (p.1, p.2.head?) := by
  cases gnu with
  | true =>
    obtain ⟨m', _, h2, h3⟩ := C55_pp_long args
    rw [if_pos rfl, h3, h2 m h]
  | false =>
    obtain ⟨m', _, h2, h3⟩ := C55_pp_posix args
    rw [if_neg (by decide), h3, h2 m h]

theorem iffjoin_run {e : Env} {y : System} {gnu : Bool} {args : List Arg} {output : Option Arg}
    {names : List Arg} (h : JoinLine gnu args (.run (output, names))) (hne : names ≠ []) (w : World) :
    iffjoin e y gnu true args w = joinFiles e y names output w := by
  rw [iffjoin, M.bind_apply, joinCommand_eq h]
  cases names with
  | nil => exact absurd rfl hne
  | cons n ns => rfl

/-- C57, all inputs valid: iffjoin puts the CAT of the inputs, as they were at the start, into the
output file, also if that is one of the inputs (or appends it to the standard output), and changes no
other file. -/
theorem C57_joins (e : Env) (he : e.Sane) (y : System) (gnu : Bool) (args : List Arg)
    (output : Option Arg) (names : List Arg) (hline : JoinLine gnu args (.run (output, names)))
    (hne : names ≠ []) (w : World) (inputs : List (List Byte × Chunk))
    (hdisk : names.map w.disk = inputs.map (fun i => some i.1))
    (hacc : ∀ i ∈ inputs, i.1.length < 2147483648 ∧ Accepts e i.1 i.2)
    (hfit : 12 + (encodeAll (inputs.map Prod.snd)).length < 2147483648)
    (hopen : output = none ∨ (y.medium output).opens = true)
    (hroom : 12 + (encodeAll (inputs.map Prod.snd)).length ≤ (y.medium output).cap) :
    ∃ ty size w', iffjoin e y gnu true args w = .val (0, w') ∧
      (∀ n, w'.disk n = if output = some n then some (encode (.grp idCAT size ty (inputs.map Prod.snd)))
        else w.disk n) ∧
      w'.out = (if output = none then w.out ++ encode (.grp idCAT size ty (inputs.map Prod.snd))
        else w.out) ∧
      Accepts e (encode (.grp idCAT size ty (inputs.map Prod.snd)))
        (.grp idCAT size ty (inputs.map Prod.snd)) := by
  obtain ⟨ty, size, log', h1, h2, _, _⟩ := C30_joins_partial e he (w.sources names) inputs
    (by rw [World.sources, List.map_map, ← hdisk]; rfl) hacc hfit (y.dest output)
    (by simpa [System.dest] using hopen) hroom w.log
  rw [iffjoin_run hline hne, joinFiles_eq, h1]
  refine ⟨ty, size, _, rfl, ?_, ?_, h2⟩
  · intro n
    cases output with
    | none => rw [if_neg (by simp)]; rfl
    | some m =>
      simp only [World.store, Option.some.injEq]
      by_cases h : n = m
      · rw [if_pos h, if_pos h.symm]
      · rw [if_neg h, if_neg (Ne.symm h)]
  · cases output with
    | none => rw [if_pos rfl]; rfl
    | some m => rw [if_neg (by simp)]; rfl

/-- C57, an input is missing or not valid: whenever iffjoin ends it has exited with 1, and no file,
not even the output file, has changed. -/
theorem C57_rejects (e : Env) (y : System) (gnu : Bool) (args : List Arg) (output : Option Arg)
    (names : List Arg) (hline : JoinLine gnu args (.run (output, names))) (w w' : World) (n : Arg)
    (hn : n ∈ names) (hbad : ¬ ∃ bs c, w.disk n = some bs ∧ Accepts e bs c) (status : Nat)
    (h : iffjoin e y gnu true args w = .val (status, w')) :
    status = 1 ∧ w'.disk = w.disk ∧ w'.out = w.out := by
  rw [iffjoin_run hline (List.ne_nil_of_mem hn), joinFiles_eq] at h
  cases hj : join e (w.sources names) (y.dest output) w.log with
  | ub u => rw [hj] at h; cases h
  | loop => rw [hj] at h; cases h
  | val x =>
    obtain ⟨⟨st, res⟩, l⟩ := x
    rw [hj] at h
    simp only [Out.val.injEq, Prod.mk.injEq] at h
    obtain ⟨rfl, rfl⟩ := h
    obtain ⟨h1, rfl⟩ := C30_rejects e (w.sources names) (y.dest output) w.log l st res
      ⟨String.ofList n, w.disk n⟩ (List.mem_map_of_mem hn) hbad hj
    exact ⟨h1, by cases output <;> rfl, by cases output <;> rfl⟩

/-- C57, what iffjoin leaves alone: whatever the arguments, the files and the state of the memory,
whenever iffjoin ends, no file has changed but the one the command line names as the output, and
nothing was written to the standard output if there is one. -/
theorem C57_frame (e : Env) (y : System) (gnu granted : Bool) (args : List Arg) (w w' : World)
    (status : Nat) (h : iffjoin e y gnu granted args w = .val (status, w')) :
    ∃ m, JoinLine gnu args m ∧
      (∀ n, w'.disk n ≠ w.disk n → ∃ names, m = .run (some n, names)) ∧
      (w'.out ≠ w.out → ∃ names, m = .run (none, names)) := by
  have hm : ∃ m, JoinLine gnu args m := by
    cases gnu
    · obtain ⟨m, h1, _⟩ := C55_join_posix_partial args; exact ⟨m, h1⟩
    · obtain ⟨m, h1, _⟩ := C55_join_long_partial args; exact ⟨m, h1⟩
  obtain ⟨m, hm⟩ := hm
  refine ⟨m, hm, ?_⟩
  have hc := joinCommand_eq hm
  -- with a refused `malloc` iffjoin behaves the same or does not end
  have hg : iffjoin e y gnu true args w = .val (status, w') := by
    cases granted with
    | true => exact h
    | false =>
      rw [iffjoin, M.bind_apply] at h ⊢
      cases gnu with
      | true =>
        rw [if_pos rfl] at h hc ⊢
        rw [hc]
        rw [joinMainLong, joinTail_refused] at h
        rw [joinMainLong, joinTail_eq, Out.val.injEq] at hc
        rw [hc] at h
        cases hx : needInput m with
        | run a => rw [hx] at h; cases h
        | usage n => rw [hx] at h; exact h
        | version => rw [hx] at h; exact h
        | noInput => rw [hx] at h; exact h
      | false =>
        rw [if_neg (by decide)] at h hc ⊢
        rw [hc]
        rw [joinMainPosix, joinTail_refused] at h
        rw [joinMainPosix, joinTail_eq, Out.val.injEq] at hc
        rw [hc] at h
        cases hx : needInput m with
        | run a => rw [hx] at h; cases h
        | usage n => rw [hx] at h; exact h
        | version => rw [hx] at h; exact h
        | noInput => rw [hx] at h; exact h
  clear h
  rw [iffjoin, M.bind_apply, hc] at hg
  simp only [M.ofOut_val] at hg
  cases m with
  | usage n => cases hg; exact ⟨fun _ h => absurd rfl h, fun h => absurd rfl h⟩
  | version => cases hg; exact ⟨fun _ h => absurd rfl h, fun h => absurd rfl h⟩
  | noInput => cases hg; exact ⟨fun _ h => absurd rfl h, fun h => absurd rfl h⟩
  | run a =>
    obtain ⟨output, names⟩ := a
    cases names with
    | nil => cases hg; exact ⟨fun _ h => absurd rfl h, fun h => absurd rfl h⟩
    | cons k ks =>
      simp only [needInput] at hg
      rw [joinFiles_eq] at hg
      cases hj : join e (w.sources (k :: ks)) (y.dest output) w.log with
      | ub u => rw [hj] at hg; cases hg
      | loop => rw [hj] at hg; cases hg
      | val x =>
        obtain ⟨⟨st, res⟩, l⟩ := x
        rw [hj] at hg
        simp only [Out.val.injEq, Prod.mk.injEq] at hg
        obtain ⟨_, rfl⟩ := hg
        cases res with
        | none => cases output <;> exact ⟨fun _ h => absurd rfl h, fun h => absurd rfl h⟩
        | some bs =>
          cases output with
          | none => exact ⟨fun _ h => absurd rfl h, fun _ => ⟨_, rfl⟩⟩
          | some o =>
            refine ⟨fun n h => ?_, fun h => absurd rfl h⟩
            simp only [World.store] at h
            by_cases hn : n = o
            · exact ⟨_, by rw [hn]⟩
            · rw [if_neg hn] at h; exact absurd rfl h

/-- C57, iffpp: whatever the arguments and the files, whenever iffpp ends it has changed no file; and
if the command line asks for a file (or the standard input) to be printed, then it has exited with 0
and appended the specified text of the hierarchy to the standard output if the file is printable, and
otherwise exited with 1 and printed nothing. -/
theorem C57_prints (e : Env) (he : e.Sane) (y : System) (gnu : Bool) (args : List Arg) (w w' : World)
    (status : Nat) (h : iffpp e y gnu args w = .val (status, w')) :
    w'.disk = w.disk ∧
    ∃ m, PpLine gnu args m ∧
      ((∀ r, m ≠ .run r) → w'.out = w.out) ∧
      ∀ k files, m = .run (k, files) →
        (∃ c, Printable e (y.source w files.head?) k c ∧ status = 0 ∧ w'.out = w.out ++ layout 0 c) ∨
        (¬ ∃ c, Printable e (y.source w files.head?) k c) ∧ status = 1 ∧ w'.out = w.out := by
  have hm : ∃ m, PpLine gnu args m := by
    cases gnu
    · obtain ⟨m, h1, _⟩ := C55_pp_posix args; exact ⟨m, h1⟩
    · obtain ⟨m, h1, _⟩ := C55_pp_long args; exact ⟨m, h1⟩
  obtain ⟨m, hm⟩ := hm
  rw [iffpp, ppCommand_eq hm] at h
  cases m with
  | usage n => cases h; exact ⟨rfl, _, hm, fun _ => rfl, by simp⟩
  | version => cases h; exact ⟨rfl, _, hm, fun _ => rfl, by simp⟩
  | noInput => cases h; exact ⟨rfl, _, hm, fun _ => rfl, by simp⟩
  | run a =>
    obtain ⟨k, files⟩ := a
    simp only [Run.map] at h
    rw [printFile_eq] at h
    cases hp : prettyPrint e (y.source w files.head?) k w.log with
    | ub u => rw [hp] at h; cases h
    | loop => rw [hp] at h; cases h
    | val x =>
      obtain ⟨⟨st, t⟩, l⟩ := x
      rw [hp] at h
      simp only [Out.val.injEq, Prod.mk.injEq] at h
      obtain ⟨rfl, rfl⟩ := h
      refine ⟨rfl, _, hm, fun hr => absurd rfl (hr _), ?_⟩
      intro k' files' hk
      simp only [Run.run.injEq, Prod.mk.injEq] at hk
      obtain ⟨rfl, rfl⟩ := hk
      rcases (C31_prints_partial e he _ _ _).2.2 _ _ _ hp with ⟨c, h1, h2, h3⟩ | ⟨h1, h2, h3⟩
      · refine Or.inl ⟨c, h1, h2, ?_⟩
        obtain ⟨bs, s, _, hr, _⟩ := h1
        have hf := readFd_facts he hr
        rw [C56_layout c (standard_iff.mp hf.sound.dispatched) hf.sound.raws 0, Out.val.injEq] at h3
        rw [h3]
      · refine Or.inr ⟨h1, h2, ?_⟩
        rw [h3]; exact List.append_nil _

/-- C57, both tools: under the conditions of `C57_joins` with an output file, iffpp of that file then
exits with 0 and prints the text of a CAT with the inputs as its members, in order. -/
theorem C57_join_then_print (e : Env) (he : e.Sane) (y : System) (gnu gnu' : Bool) (args args' : List Arg)
    (output : Arg) (names rest : List Arg) (hline : JoinLine gnu args (.run (some output, names)))
    (hline' : PpLine gnu' args' (.run (false, output :: rest)))
    (hne : names ≠ []) (w : World) (inputs : List (List Byte × Chunk))
    (hdisk : names.map w.disk = inputs.map (fun i => some i.1))
    (hacc : ∀ i ∈ inputs, i.1.length < 2147483648 ∧ Accepts e i.1 i.2)
    (hfit : 12 + (encodeAll (inputs.map Prod.snd)).length < 2147483648)
    (hopen : (y.medium (some output)).opens = true)
    (hroom : 12 + (encodeAll (inputs.map Prod.snd)).length ≤ (y.medium (some output)).cap) :
    ∃ ty size w1 w2, iffjoin e y gnu true args w = .val (0, w1) ∧
      iffpp e y gnu' args' w1 = .val (0, w2) ∧
      w2.out = w.out ++ frame 0 idCAT size
        (typeLine 0 "contentsType" ty ++ line 0 (ascii "[") ++
          ((inputs.map Prod.snd).map (layout 1)).flatten ++ line 0 (ascii "];")) := by
  obtain ⟨ty, size, w1, h1, h2, h3, h4⟩ := C57_joins e he y gnu args (some output) names hline hne w
    inputs hdisk hacc hfit (Or.inr hopen) hroom
  rw [if_neg (by simp)] at h3
  have h2 := h2 output
  rw [if_pos rfl] at h2
  generalize hc : Chunk.grp idCAT size ty (inputs.map Prod.snd) = c at h2 h4
  obtain ⟨⟨s', hr⟩, lc, hk⟩ := h4
  have hf := readFd_facts he hr
  have hp := C56_layout c (standard_iff.mp hf.sound.dispatched) hf.sound.raws 0
  have hprint : ∃ l, prettyPrint e (y.source w1 (some output)) false w1.log =
      .val ((0, layout 0 c), l) := by
    rw [prettyPrint, M.bind_apply, System.source, h2, readFile_eq, hr]
    have hk' := check_eq e c (w1.log ++ s'.log)
    rw [hk] at hk'
    simp only [relogged] at hk'
    simp only [Bool.false_eq_true, if_false]
    rw [M.bind_apply, hk']
    simp only [if_true]
    rw [M.bind_apply, hp]
    exact ⟨_, rfl⟩
  obtain ⟨l, hprint⟩ := hprint
  have hall : ∀ cs : List Chunk, layoutAll 1 cs = (cs.map (layout 1)).flatten := by
    intro cs
    induction cs with
    | nil => rw [layoutAll]; rfl
    | cons c cs ih => rw [layoutAll, ih]; rfl
  refine ⟨ty, size, w1, ⟨w1.disk, w1.out ++ layout 0 c, l⟩, h1, ?_, ?_⟩
  · rw [iffpp, ppCommand_eq hline']
    simp only [Run.map, List.head?_cons]
    rw [printFile_eq, hprint]
  · rw [h3, ← hc, layout, if_pos (by decide), hall]

/-- A FORM and a CAT in two files. -/
def twoFiles : World where
  disk n := if n = ['a'] then some (encode (.grp idFORM 4 idTEST []))
    else if n = ['b'] then some (encode (.grp idCAT 4 idTEST [])) else none
  out := []
  log := []

/-- A system where all files can be written. -/
def writable : System := ⟨[], fun _ => ⟨"", true, 1000, 0⟩⟩

/-- Non-vacuity: `iffjoin a b -o a` replaces one of its inputs; `iffpp a` prints the result. -/
example : ∃ ty size w1 w2, iffjoin pc writable true true [['a'], ['b'], ['-', 'o'], ['a']] twoFiles =
      .val (0, w1) ∧ iffpp pc writable false [['a']] w1 = .val (0, w2) ∧
      w2.out = frame 0 idCAT size (typeLine 0 "contentsType" ty ++ line 0 (ascii "[") ++
          ([.grp idFORM 4 idTEST [], .grp idCAT 4 idTEST []].map (layout 1)).flatten ++
          line 0 (ascii "];")) :=
  C57_join_then_print pc pc_sane writable true false [['a'], ['b'], ['-', 'o'], ['a']] [['a']] ['a']
    [['a'], ['b']] []
    (.operand (m := .run (some ['a'], [['b']])) rfl (.inr (by decide))
      (.operand (m := .run (some ['a'], [])) rfl (.inr (by decide)) (.apart (m := .run (none, [])) .nil)))
    (.operands rfl (.inr (by decide))) (by decide) twoFiles
    [(encode (.grp idFORM 4 idTEST []), .grp idFORM 4 idTEST []),
      (encode (.grp idCAT 4 idTEST []), .grp idCAT 4 idTEST [])]
    (by decide +kernel)
    (by
      intro i hi
      simp only [List.mem_cons, List.not_mem_nil, or_false] at hi
      rcases hi with rfl | rfl
      · exact ⟨by decide +kernel, ⟨_, by rfl⟩, _, by rfl⟩
      · exact ⟨by decide +kernel, ⟨_, by rfl⟩, _, by rfl⟩)
    (by decide +kernel) rfl (by decide +kernel)

/-- Non-vacuity: a missing input; the output file stays as it is. -/
example : ∃ w', iffjoin pc writable true true [['a'], ['x'], ['-', 'o'], ['a']] twoFiles =
    .val (1, w') ∧ w'.disk ['a'] = some (encode (.grp idFORM 4 idTEST [])) := ⟨_, by rfl, by rfl⟩

end Iff
