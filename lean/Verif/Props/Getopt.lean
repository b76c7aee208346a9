import Verif.Proofs.Getopt
/-
  C55 The command lines of the tools with `getopt` and `getopt_long`.
-/
namespace Iff
open Spec

theorem after_none (m : Run (Option Arg × List Arg)) : after none m = m := by
  cases m with
  | run a => obtain ⟨o, fs⟩ := a; cases o <;> rfl
  | _ => rfl

theorem afterCheck_false (m : Run (Bool × List Arg)) : afterCheck false m = m := by
  cases m with
  | run a => obtain ⟨o, fs⟩ := a; cases o <;> rfl
  | _ => rfl

theorem joinTail_eq (p : List Opt × List Arg) :
    joinTail true p = .val (needInput (joinEnd none p)) := by
  obtain ⟨os, fs⟩ := p
  simp only [joinTail, joinEnd]
  cases joinLoop os none with
  | run out => cases fs <;> rfl
  | _ => rfl

theorem joinTail_refused (p : List Opt × List Arg) :
    joinTail false p =
      match needInput (joinEnd none p) with
      | .run _ => .ub .nullDeref
      | m => .val m := by
  obtain ⟨os, fs⟩ := p
  simp only [joinTail, joinEnd]
  cases joinLoop os none with
  | run out => cases fs <;> rfl
  | _ => rfl

/-- C55: every command line has exactly one meaning, and with `getopt_long` iffjoin does what it
means: it writes to the last output file named, wherever it stands, and joins all other arguments
in their order.  Missing: the `malloc` of the array of file names is assumed to succeed, see
C55_false. -/
theorem C55_join_long_partial (args : List Arg) :
    ∃ m, JoinLine true args m ∧ (∀ m', JoinLine true args m' → m' = m) ∧
      joinMainLong true args = .val (needInput m) := by
  obtain ⟨m, hm⟩ := (joinLine_total true args).1
  have key : ∀ m', JoinLine true args m' → joinEnd none (getoptLong joinOpts none args) = m' :=
    fun m' h => (joinLong_sound h none).trans (after_none m')
  exact ⟨m, hm, fun m' h => (key m' h).symm.trans (key m hm),
    by rw [joinMainLong, joinTail_eq, key m hm]⟩

/-- C55 with `getopt`: the options come first.  Missing: as above. -/
theorem C55_join_posix_partial (args : List Arg) :
    ∃ m, JoinLine false args m ∧ (∀ m', JoinLine false args m' → m' = m) ∧
      joinMainPosix true args = .val (needInput m) := by
  obtain ⟨m, hm⟩ := (joinLine_total false args).1
  have key : ∀ m', JoinLine false args m' → joinEnd none (getopt joinOpts none args) = m' :=
    fun m' h => (joinPosix_sound h none).trans (after_none m')
  exact ⟨m, hm, fun m' h => (key m' h).symm.trans (key m hm),
    by rw [joinMainPosix, joinTail_eq, key m hm]⟩

/-- C55 for iffpp with `getopt_long`: the check is disabled if the option is given, wherever it
stands; the first file is printed, standard input if there is none. -/
theorem C55_pp_long (args : List Arg) :
    ∃ m, PpLine true args m ∧ (∀ m', PpLine true args m' → m' = m) ∧
      ppMainLong args = m.map fun p => (p.1, p.2.head?) := by
  obtain ⟨m, hm⟩ := ppLine_total true args
  have key : ∀ m', PpLine true args m' → ppEnd false (getoptLong ppOpts none args) = m' :=
    fun m' h => (ppLong_sound h false).trans (afterCheck_false m')
  refine ⟨m, hm, fun m' h => (key m' h).symm.trans (key m hm), ?_⟩
  rw [← key m hm, ppMainLong, ppTail, ppEnd]
  cases ppLoop (getoptLong ppOpts none args).1 false <;> rfl

/-- C55 for iffpp with `getopt`. -/
theorem C55_pp_posix (args : List Arg) :
    ∃ m, PpLine false args m ∧ (∀ m', PpLine false args m' → m' = m) ∧
      ppMainPosix args = m.map fun p => (p.1, p.2.head?) := by
  obtain ⟨m, hm⟩ := ppLine_total false args
  have key : ∀ m', PpLine false args m' → ppEnd false (getopt ppOpts none args) = m' :=
    fun m' h => (ppPosix_sound h false).trans (afterCheck_false m')
  refine ⟨m, hm, fun m' h => (key m' h).symm.trans (key m hm), ?_⟩
  rw [← key m hm, ppMainPosix, ppTail, ppEnd]
  cases ppLoop (getopt ppOpts none args).1 false <;> rfl

/-- C55 is false when memory is short: `main` of iffjoin does not check the `malloc` of its array
of file names, so with any input file the program stores through NULL. -/
theorem C55_false (args : List Arg) (out : Option Arg) (fs : List Arg)
    (h : JoinLine true args (.run (out, fs))) (hfs : fs ≠ []) :
    joinMainLong false args = .ub .nullDeref := by
  rw [joinMainLong, joinTail_refused, joinLong_sound h, after_none]
  cases fs with
  | nil => exact absurd rfl hfs
  | cons f fs => rfl

/-- A command line of iffjoin as in its manual page, with options between the files. -/
def joinArgs : List Arg :=
  ["a.IFF".toList, "-o".toList, "x".toList, "b.IFF".toList, "--output=out.IFF".toList, "-".toList]

example : joinMainLong true joinArgs =
    .val (.run (some "out.IFF".toList, ["a.IFF".toList, "b.IFF".toList, "-".toList])) := by
  decide +kernel

example : joinMainPosix true joinArgs = .val (.run (none, joinArgs)) := by decide +kernel

example : joinMainLong false joinArgs = .ub .nullDeref := by decide +kernel

example : joinMainLong true ["-vo".toList] = .val .version ∧
    joinMainLong true ["a".toList, "-o".toList] = .val (.usage 1) ∧
    joinMainLong true ["--help=1".toList] = .val (.usage 1) ∧
    joinMainLong true ["-ox".toList] = .val .noInput ∧
    joinMainLong true ["--".toList, "-o".toList] = .val (.run (none, ["-o".toList])) := by
  refine ⟨?_, ?_, ?_, ?_, ?_⟩ <;> decide +kernel

example : ppMainLong ["a.IFF".toList, "--dis".toList] = .run (true, some "a.IFF".toList) ∧
    ppMainPosix ["a.IFF".toList, "-c".toList] = .run (false, some "a.IFF".toList) ∧
    ppMainPosix ["-cc".toList] = .run (true, none) ∧
    ppMainPosix ["--help".toList] = .usage 1 := by
  refine ⟨?_, ?_, ?_, ?_⟩ <;> decide +kernel

/-- The hypotheses of C55_false can be met. -/
example : JoinLine true [['-', 'o', 'x'], ['a']] (.run (some ['x'], [['a']])) :=
  .joined (m := .run (none, [['a']])) (by decide) (.operand rfl (.inr (by decide)) .nil)

end Iff
