import Verif.Proofs.SrcTools
import Verif.Spec.SrcMain
/-
  The text of the `main` functions of the tools.
-/
namespace Iff.Src
open Iff.Spec (ascii)

set_option maxRecDepth 4000

/-! ### What getopt accepts -/

theorem short_pp : shortOpts "chv" = ppOpts.short := by
  funext c
  rw [shortOpts, show optChars "chv".toList = [('c', false), ('h', false), ('v', false)] from rfl]
  simp only [ppOpts, List.find?]
  by_cases h1 : c = 'c'
  · subst h1; rfl
  by_cases h2 : c = 'h'
  · subst h2; rfl
  by_cases h3 : c = 'v'
  · subst h3; rfl
  simp [h1, h2, h3, Ne.symm h1, Ne.symm h2, Ne.symm h3]

theorem short_join : shortOpts "o:hv" = joinOpts.short := by
  funext c
  rw [shortOpts, show optChars "o:hv".toList = [('o', true), ('h', false), ('v', false)] from rfl]
  simp only [joinOpts, List.find?]
  by_cases h1 : c = 'o'
  · subst h1; rfl
  by_cases h2 : c = 'h'
  · subst h2; rfl
  by_cases h3 : c = 'v'
  · subst h3; rfl
  simp [h1, h2, h3, Ne.symm h1, Ne.symm h2, Ne.symm h3]

theorem cluster_short {o o' : Options} (h : o.short = o'.short) : ∀ cs, cluster o cs = cluster o' cs := by
  intro cs
  induction cs with
  | nil => rfl
  | cons c cs ih => simp only [cluster, h, ih]

/-- `getopt` does not look at the long options. -/
theorem getopt_short {o o' : Options} (h : o.short = o'.short) : ∀ as w, getopt o w as = getopt o' w as := by
  intro as
  induction as with
  | nil => intro w; cases w <;> rfl
  | cons a as ih =>
    intro w
    cases w with
    | some c => simp only [getopt, ih]
    | none =>
      rcases a with - | ⟨d, - | ⟨c, cs⟩⟩
      · rfl
      · by_cases hd : d = '-'
        · subst hd; rfl
        · unfold getopt; simp
      · by_cases hd : d = '-'
        · subst hd; simp only [getopt, ih, cluster_short h]
        · unfold getopt; simp [hd]

/-- An option that has been declared, or `'?'`. -/
def Declared (o : Options) : Opt → Prop
  | .flag c => o.short c = some false
  | .arg c _ => o.short c = some true
  | .bad => True

theorem cluster_declared {o : Options} : ∀ cs, (∀ x ∈ (cluster o cs).1, Declared o x) ∧
    ∀ c, (cluster o cs).2 = some c → o.short c = some true := by
  intro cs
  induction cs with
  | nil => exact ⟨fun x hx => (nomatch hx), fun c h => (nomatch h)⟩
  | cons c cs ih =>
    simp only [cluster]
    split
    · exact ⟨List.forall_mem_cons.2 ⟨trivial, ih.1⟩, ih.2⟩
    · next hc => exact ⟨List.forall_mem_cons.2 ⟨hc, ih.1⟩, ih.2⟩
    · next hc =>
      split
      · exact ⟨fun x hx => (nomatch hx), fun d h => by cases h; exact hc⟩
      · exact ⟨List.forall_mem_singleton.2 hc, fun d h => (nomatch h)⟩

theorem getopt_declared {o : Options} : ∀ as w, (∀ c, w = some c → o.short c = some true) →
    ∀ x ∈ (getopt o w as).1, Declared o x := by
  intro as
  induction as with
  | nil =>
    intro w _ x hx
    cases w with
    | none => cases hx
    | some c => rcases List.mem_singleton.1 hx with rfl; trivial
  | cons a as ih =>
    intro w hw x hx
    cases w with
    | some c =>
      simp only [getopt] at hx
      rcases List.mem_cons.1 hx with rfl | hx
      · exact hw c rfl
      · exact ih none (fun c h => nomatch h) x hx
    | none =>
      unfold getopt at hx
      split at hx
      · split at hx
        · cases hx
        · rcases List.mem_append.1 hx with hx | hx
          · exact (cluster_declared _).1 x hx
          · exact ih _ (cluster_declared _).2 x hx
      · cases hx

/-- Every long option has a declared character. -/
def LongOk (o : Options) : Prop := ∀ l ∈ o.long, o.short l.2 ≠ none

theorem longOption_mem {o : Options} {name : Arg} {c : Char} (h : longOption o name = some c) :
    ∃ l ∈ o.long, l.2 = c := by
  unfold longOption at h
  split at h
  · next l hl => cases h; exact ⟨l, List.mem_of_find?_eq_some hl, rfl⟩
  · split at h
    · next l hl =>
      cases h
      exact ⟨l, (List.mem_filter.1 (by rw [hl]; exact List.mem_singleton.2 rfl)).1, rfl⟩
    · cases h

theorem longOpt_declared {o : Options} (ho : LongOk o) (a : Arg) : (∀ x ∈ (longOpt o a).1, Declared o x) ∧
    ∀ c, (longOpt o a).2 = some c → o.short c = some true := by
  unfold longOpt
  split
  · exact ⟨List.forall_mem_singleton.2 trivial, fun c h => (nomatch h)⟩
  · next c hc =>
    obtain ⟨l, hl, rfl⟩ := longOption_mem hc
    have h0 := ho l hl
    rcases h1 : o.short l.2 with - | - | -
    · exact absurd h1 h0
    · cases longValue a
      · exact ⟨List.forall_mem_singleton.2 h1, fun c h => (nomatch h)⟩
      · exact ⟨List.forall_mem_singleton.2 trivial, fun c h => (nomatch h)⟩
    · cases longValue a
      · exact ⟨fun x hx => (nomatch hx), fun c hc => by cases hc; exact h1⟩
      · exact ⟨List.forall_mem_singleton.2 h1, fun c h => (nomatch h)⟩

theorem getoptLong_declared {o : Options} (ho : LongOk o) : ∀ as w, (∀ c, w = some c → o.short c = some true) →
    ∀ x ∈ (getoptLong o w as).1, Declared o x := by
  intro as
  induction as with
  | nil =>
    intro w _ x hx
    cases w with
    | none => cases hx
    | some c => rcases List.mem_singleton.1 hx with rfl; trivial
  | cons a as ih =>
    intro w hw x hx
    cases w with
    | some c =>
      simp only [getoptLong] at hx
      rcases List.mem_cons.1 hx with rfl | hx
      · exact hw c rfl
      · exact ih none (fun c h => nomatch h) x hx
    | none =>
      unfold getoptLong at hx
      split at hx
      · split at hx
        · cases hx
        · rcases List.mem_append.1 hx with hx | hx
          · exact (longOpt_declared ho _).1 x hx
          · exact ih _ (longOpt_declared ho _).2 x hx
      · rcases List.mem_append.1 hx with hx | hx
        · exact (cluster_declared _).1 x hx
        · exact ih _ (cluster_declared _).2 x hx
      · exact ih none (fun c h => nomatch h) x hx

theorem rest_le {o : Options} : ∀ as w, (getopt o w as).2.length ≤ as.length := by
  intro as
  induction as with
  | nil => intro w; cases w <;> exact Nat.le_refl _
  | cons a as ih =>
    intro w
    cases w with
    | some c => simp only [getopt]; exact Nat.le_succ_of_le (ih none)
    | none =>
      unfold getopt
      split
      · split
        · exact Nat.le_succ _
        · exact Nat.le_succ_of_le (ih _)
      · exact Nat.le_refl _

theorem restLong_le {o : Options} : ∀ as w, (getoptLong o w as).2.length ≤ as.length := by
  intro as
  induction as with
  | nil => intro w; cases w <;> exact Nat.le_refl _
  | cons a as ih =>
    intro w
    cases w with
    | some c => simp only [getoptLong]; exact Nat.le_succ_of_le (ih none)
    | none =>
      unfold getoptLong
      split
      · split
        · exact Nat.le_succ _
        · exact Nat.le_succ_of_le (ih _)
      · exact Nat.le_succ_of_le (ih _)
      · exact Nat.succ_le_succ (ih none)

/-! ### The state of getopt -/

/-- The variables of `getopt` after `k` options. -/
def optB (os : List Opt) : Nat → Blk
  | 0 => ⟨24, cells [.int .int 1, .undef, .int .uint 0]⟩
  | k + 1 => ⟨24, cells [.undef, (os[k]?).elim .undef optArg, .int .uint ((k + 1 : Nat) : Int)]⟩

/-- The variables of `getopt` after the last option. -/
def optE (os : List Opt) (i : Nat) : Blk := ⟨24, cells [.int .int (i : Int), .undef, .int .uint (os.length : Int)]⟩

/-- `argv` after the last option. -/
def argvE (e : Env) (command : String) (args : List String) (rest : List Arg) : Blk :=
  ⟨(args.length + 2) * (e.sizeBits / 8), fun j => if j = 0 ∨ args.length + 1 ≤ j then (argvBlk e command args).cell j
    else if j < args.length + 1 - rest.length then .undef
    else .str (String.ofList (rest.getD (j - (args.length + 1 - rest.length)) []))⟩

theorem mapM_all {α β : Type} {f : α → Option β} {h : α → β} : ∀ {l : List α}, (∀ x ∈ l, f x = some (h x)) →
    l.mapM f = some (l.map h) := by
  intro l
  induction l with
  | nil => intro _; rfl
  | cons a l ih =>
    intro hl
    rw [List.mapM_cons, hl a List.mem_cons_self, ih fun x hx => hl x (List.mem_cons_of_mem _ hx)]
    rfl

theorem argsOf_argv {e : Env} {command : String} {args : List String} :
    argsOf (argvBlk e command args) (args.length + 1) = some (args.map String.toList) := by
  unfold argsOf
  rw [Nat.add_sub_cancel, mapM_all (h := fun i => (args.getD i "").toList)]
  · congr 1
    apply List.ext_getElem
    · simp
    · intro i h1 h2
      simp at h1
      simp [h1]
  · intro i hi
    have hi := List.mem_range.1 hi
    simp [argvBlk, hi]

section
variable {X : Cfg} {inp out text : List Byte} {room n : Nat} {heap : Nat → Option Blk} {tick : Nat}
  {log : List ErrPrint} {command : String} {args : List String} {tl : List Blk} {os : List Opt} {rest : List Arg}
  {parse : List Arg → List Opt × List Arg}

theorem optB_cell {k : Nat} : (optB os k).cell 2 = .int .uint (k : Int) := by cases k <;> rfl

theorem optB_size {k : Nat} : (optB os k).size = 24 := by cases k <;> rfl

theorem getoptC_next (hp : parse (args.map String.toList) = (os, rest)) {k : Nat} {x : Opt} (hk : os[k]? = some x) :
    getoptC X parse (args.length + 1) (.stk 1)
      ⟨heap, tick, optB os k :: argvBlk X.e command args :: tl, inp, out, room, text, log⟩ =
    .val (.int .int (optCode x),
      ⟨heap, tick, optB os (k + 1) :: argvBlk X.e command args :: tl, inp, out, room, text, log⟩) := by
  simp only [getoptC, CS.blk, List.getElem?_cons_zero, List.getElem?_cons_succ, optB_cell, argsOf_argv, hp,
    Int.toNat_natCast, hk, optB_size, List.set_cons_zero]
  rw [show optB os (k + 1) = ⟨24, cells [.undef, (os[k]?).elim .undef optArg, .int .uint ((k + 1 : Nat) : Int)]⟩
    from rfl, hk]
  rfl

theorem getoptC_end (hp : parse (args.map String.toList) = (os, rest)) :
    getoptC X parse (args.length + 1) (.stk 1)
      ⟨heap, tick, optB os os.length :: argvBlk X.e command args :: tl, inp, out, room, text, log⟩ =
    .val (.int .int (-1),
      ⟨heap, tick, optE os (args.length + 1 - rest.length) :: argvE X.e command args rest :: tl, inp, out, room, text,
        log⟩) := by
  simp only [getoptC, CS.blk, List.getElem?_cons_zero, List.getElem?_cons_succ, optB_cell, argsOf_argv, hp,
    Int.toNat_natCast, List.getElem?_eq_none (Nat.le_refl os.length), optB_size, List.set_cons_zero, CS.setBlk, List.set_cons_succ]
  rfl

theorem evalE_optind {call : Fn → List V → M CS V} {s : Fr} :
    evalE X call .optind s = loadL X (.mem (.int .int) ⟨.stk 0, 0⟩) s := rfl

theorem evalE_optarg {call : Fn → List V → M CS V} {s : Fr} :
    evalE X call .optarg s = loadL X (.mem (.ptr (.int .char)) ⟨.stk 0, 1⟩) s := rfl

theorem exec_aggregate {call : Fn → List V → M CS V} {s : Fr} {x : Var} {t : Ty} {is : List Init} :
    exec X call n (.aggregate x t is) s = .val (.norm, ⟨setLoc s.loc x (.obj t s.g.stk.length),
      { s.g with stk := s.g.stk ++ [initBlk X t is] }⟩) := rfl

variable {stk : List Blk}

theorem puts_run {s : String} :
    callFn X (n + 1) .puts [.str s] ⟨heap, tick, stk, inp, out, room, text, log⟩ =
      .val (.int .int 0, ⟨heap, tick, stk, inp, out, room, text ++ (cString s ++ [BitVec.ofNat 8 10]), log⟩) := by
  rw [callFn_prim rfl]; rfl

theorem vprintf_rest (q : String) (h : '%' ∉ q.toList) : ∀ as, vprintf q.toList as = .val (ascii q) := by
  intro as
  have := vprintf_skip q.toList [] as h
  rw [List.append_nil] at this
  rw [this, vprintf, Out.val_bind, List.append_nil]
  rfl

theorem usage_format (p q : String) (hp : '%' ∉ p.toList) (hq : '%' ∉ q.toList) (bs : List Byte) :
    vprintf (p.toList ++ ('%' :: 's' :: q.toList)) [.charPtr bs] = .val (ascii p ++ (bs ++ ascii q)) := by
  rw [vprintf_skip _ _ _ hp, vprintf, vprintf_rest q hq]
  rfl
theorem ppUsage_run : callFn X (n + 2) .iffpp_printUsage [.str command]
    ⟨heap, tick, stk, inp, out, room, text, log⟩ =
    .val (.void, ⟨heap, tick, stk, inp, out, room, text ++ ppUsage command, log⟩) := by
  have h1 := printf_run (X := X) (n := n) (stk := stk) (inp := inp) (out := out) (text := text) (room := room)
    (heap := heap) (tick := tick) (log := log) (fmt := "Usage: %s [OPTION] [file.IFF]\n\n") (vs := [.str command])
    (as := [.charPtr (cString command)]) rfl
    (usage_format "Usage: " " [OPTION] [file.IFF]\n\n" (by decide) (by decide) _)
  rw [callFn_code rfl]
  crun [iffpp_printUsage.code, h1, puts_run]
  rw [ppUsage, show ascii ppHelp = 
    cString "The command `iffpp' displays a textual representation of a given IFF file, which\ncan be used for manual inspection of its contents. If no IFF file is specified,\nit reads an IFF file from the standard input.\n\nOptions:\n  -c, --disable-check    Do not check the IFF file for validity\n  -h, --help             Shows the usage of this command to the user\n  -v, --version          Shows the version of this command to the user" ++
    [BitVec.ofNat 8 10] by
      decide +kernel]
  simp only [List.append_assoc, List.take_length]
theorem ppVersion_run : callFn X (n + 2) .iffpp_printVersion [.str command]
    ⟨heap, tick, stk, inp, out, room, text, log⟩ =
    .val (.void, ⟨heap, tick, stk, inp, out, room, text ++ versionText command, log⟩) := by
  have h1 := printf_run (X := X) (n := n) (stk := stk) (inp := inp) (out := out) (text := text) (room := room)
    (heap := heap) (tick := tick) (log := log) 
    (fmt := "%s (libiff) 0.1\n\nCopyright (C) 2012-2015 Sander van der Burg\n") (vs := [.str command])
    (as := [.charPtr (cString command)]) rfl
    (usage_format "" " (libiff) 0.1\n\nCopyright (C) 2012-2015 Sander van der Burg\n" (by decide) (by decide) _)
  rw [callFn_code rfl]
  crun [iffpp_printVersion.code, h1]
  rw [List.take_length]; rfl

theorem joinUsage_run : callFn X (n + 2) .iffjoin_printUsage [.str command]
    ⟨heap, tick, stk, inp, out, room, text, log⟩ =
    .val (.void, ⟨heap, tick, stk, inp, out, room, text ++ joinUsage command, log⟩) := by
  have h1 := printf_run (X := X) (n := n) (stk := stk) (inp := inp) (out := out) (text := text) (room := room)
    (heap := heap) (tick := tick) (log := log) (fmt := "Usage: %s [OPTION] file1.IFF file2.IFF ...\n\n") (vs := [.str command])
    (as := [.charPtr (cString command)]) rfl
    (usage_format "Usage: " " [OPTION] file1.IFF file2.IFF ...\n\n" (by decide) (by decide) _)
  rw [callFn_code rfl]
  crun [iffjoin_printUsage.code, h1, puts_run]
  rw [joinUsage, show ascii joinHelp = 
    cString "The command `iffjoin' joins an aribitrary number of IFF files into a single\nconcatenation IFF file. The result is written to the standard output, or\noptionally to a given destination file.\n\nOptions:\n  -o, --output-file=FILE    Specify an output file name\n  -h, --help                Shows the usage of this command to the user\n  -v, --version             Shows the version of this command to the user" ++
    [BitVec.ofNat 8 10] by
      decide +kernel]
  simp only [List.append_assoc, List.take_length]
theorem joinVersion_run : callFn X (n + 2) .iffjoin_printVersion [.str command]
    ⟨heap, tick, stk, inp, out, room, text, log⟩ =
    .val (.void, ⟨heap, tick, stk, inp, out, room, text ++ versionText command, log⟩) := by
  have h1 := printf_run (X := X) (n := n) (stk := stk) (inp := inp) (out := out) (text := text) (room := room)
    (heap := heap) (tick := tick) (log := log) 
    (fmt := "%s (libiff) 0.1\n\nCopyright (C) 2012-2015 Sander van der Burg\n") (vs := [.str command])
    (as := [.charPtr (cString command)]) rfl
    (usage_format "" " (libiff) 0.1\n\nCopyright (C) 2012-2015 Sander van der Burg\n" (by decide) (by decide) _)
  rw [callFn_code rfl]
  crun [iffjoin_printVersion.code, h1]
  rw [List.take_length]; rfl

/-! ### One step of getopt -/

theorem optCode_int (x : Opt) : wrapInt (optCode x) = optCode x ∧ (optCode x != -1) = true := by
  have h : ∀ c : Char, wrapInt (c.toNat : Int) = c.toNat ∧ ((c.toNat : Int) != -1) = true := by
    intro c
    have hc : c.toNat < 1114112 := by
      rcases c.valid with h | h
      · exact Nat.lt_trans h (by decide)
      · exact h.2
    exact ⟨wrapInt_of ⟨by omega, by omega⟩, bne_iff_ne.2 (by omega)⟩
  cases x with
  | bad => exact ⟨by decide, by decide⟩
  | flag c => exact h c
  | arg c a => exact h c

/-- The call of `getopt` as condition of the loop. -/
def condPosix (opts : String) : Expr :=
  .bin .ne (.assign (.var .c) (.call (.fn .getopt) (.cons (.var .argc) (.cons (.var .argv) (.cons (.str opts) .nil)))))
    (.neg (.num .int 1))

/-- The call of `getopt_long` as condition of the loop. -/
def condLong (opts : String) : Expr :=
  .bin .ne (.assign (.var .c) (.call (.fn .getopt_long) (.cons (.var .argc) (.cons (.var .argv) (.cons (.str opts)
    (.cons (.var .long_options) (.cons (.addr (.var .option_index)) .nil))))))) (.neg (.num .int 1))

/-- The local variables `getopt` needs. -/
structure Vars (args : List String) (loc : Var → Slot) : Prop where
  argc : loc .argc = .reg (.int .int) (.int .int ((args.length + 1 : Nat) : Int))
  argv : loc .argv = .reg (.ptr (.ptr (.int .char))) (.ptr (.ptr (.int .char)) ⟨.stk 1, 0⟩)
  c : ∃ v, loc .c = .reg (.int .int) v

/-- The local variables `getopt_long` needs. -/
structure VarsLong (args : List String) (loc : Var → Slot) : Prop extends Vars args loc where
  idx : loc .option_index = .obj (.int .int) 2
  table : loc .long_options = .obj (.arr 4 (.struct .option)) 3

/-- The loop over the results of `getopt` finds the options `os`, one by one. -/
structure Steps (X : Cfg) (E : Expr) (L : (Var → Slot) → Prop) (command : String) (args : List String)
    (os : List Opt) (rest : List Arg) (tl : Nat → List Blk) (tle : List Blk) : Prop where
  vars : ∀ loc, L loc → Vars args loc
  keep : ∀ loc x y, L loc → (x = .c ∨ x = .options ∨ x = .outputFilename) → (x = .c → ∃ v, y = .reg (.int .int) v) →
    L (setLoc loc x y)
  next : ∀ (n k : Nat) (x : Opt) loc heap tick inp out room text log, L loc → os[k]? = some x →
    evalC X (callFn X (n + 1)) E
      ⟨loc, ⟨heap, tick, optB os k :: argvBlk X.e command args :: tl k, inp, out, room, text, log⟩⟩ =
    .val (true, ⟨setLoc loc .c (.reg (.int .int) (.int .int (optCode x))),
      ⟨heap, tick, optB os (k + 1) :: argvBlk X.e command args :: tl (k + 1), inp, out, room, text, log⟩⟩)
  last : ∀ (n : Nat) loc heap tick inp out room text log, L loc →
    evalC X (callFn X (n + 1)) E
      ⟨loc, ⟨heap, tick, optB os os.length :: argvBlk X.e command args :: tl os.length, inp, out, room, text, log⟩⟩ =
    .val (false, ⟨setLoc loc .c (.reg (.int .int) (.int .int (-1))),
      ⟨heap, tick, optE os (args.length + 1 - rest.length) :: argvE X.e command args rest :: tle, inp, out, room,
        text, log⟩⟩)

theorem neg_one_int : inInt (-1) = True := eq_true (by decide)

theorem getopt_run {argc : Int} {o : Obj} {opts : String} {g : CS} :
    callFn X (n + 1) .getopt [.int .int argc, .ptr (.ptr (.int .char)) ⟨o, 0⟩, .str opts] g =
      getoptC X (Iff.getopt ⟨shortOpts opts, []⟩ none) argc.toNat o g := by
  rw [callFn_prim rfl]; rfl

theorem getoptLong_run {argc : Int} {o l : Obj} {opts : String} {g : CS} {p : Ptr} :
    callFn X (n + 1) .getopt_long [.int .int argc, .ptr (.ptr (.int .char)) ⟨o, 0⟩, .str opts,
        .ptr (.struct .option) ⟨l, 0⟩, .ptr (.int .int) p] g =
      getoptLongC X argc.toNat o opts l p g := by
  rw [callFn_prim rfl]; rfl

theorem steps_posix {opts : String} {o : Options} (ho : shortOpts opts = o.short)
    (hp : getopt o none (args.map String.toList) = (os, rest)) :
    Steps X (condPosix opts) (Vars args) command args os rest (fun _ => []) [] := by
  have hp' : getopt ⟨shortOpts opts, []⟩ none (args.map String.toList) = (os, rest) := by
    rw [getopt_short (o' := o) ho, hp]
  refine ⟨fun _ h => h, ?_, ?_, ?_⟩
  · rintro loc x y ⟨h1, h2, h3⟩ hx hy
    rcases hx with rfl | rfl | rfl
    · obtain ⟨v, rfl⟩ := hy rfl
      exact ⟨h1, h2, v, rfl⟩
    · exact ⟨h1, h2, h3⟩
    · exact ⟨h1, h2, h3⟩
  · rintro n k x loc heap tick inp out room text log ⟨h1, h2, v, h3⟩ hk
    obtain ⟨hw, hne⟩ := optCode_int x
    crun [condPosix, h1, h2, h3, getopt_run, Int.toNat_natCast, getoptC_next hp' hk, hw, hne, neg_one_int]
  · rintro n loc heap tick inp out room text log ⟨h1, h2, v, h3⟩
    crun [condPosix, h1, h2, h3, getopt_run, Int.toNat_natCast, getoptC_end hp', neg_one_int]

/-- `option_index` after `k` calls. -/
def idxB : Nat → Blk
  | 0 => ⟨4, cells [.int .int 0]⟩
  | k + 1 => (idxB k).set 0 .undef

theorem getoptLongC_run {argc : Nat} {opts : String} {T : Blk} {t : List (Arg × Bool × Char)} {k : Nat}
    {a b a' b' : Blk} {v : V} (hT : longTable T (T.size / Struct.size X.e .option) 0 = some t)
    (ht : (t.all fun x => shortOpts opts x.2.2 = some x.2.1) = true)
    (h : getoptC X (getoptLong ⟨shortOpts opts, t.map fun x => (x.1, x.2.2)⟩ none) argc (.stk 1)
      ⟨heap, tick, [a, b, idxB k, T], inp, out, room, text, log⟩ =
      .val (v, ⟨heap, tick, [a', b', idxB k, T], inp, out, room, text, log⟩)) :
    getoptLongC X argc (.stk 1) opts (.stk 3) ⟨.stk 2, 0⟩
      ⟨heap, tick, [a, b, idxB k, T], inp, out, room, text, log⟩ =
      .val (v, ⟨heap, tick, [a', b', idxB (k + 1), T], inp, out, room, text, log⟩) := by
  simp only [getoptLongC, CS.blk, List.getElem?_cons_zero, List.getElem?_cons_succ, hT, ht, if_true, h]
  rfl

theorem steps_long {opts : String} {T : Blk} {t : List (Arg × Bool × Char)}
    (hT : longTable T (T.size / Struct.size X.e .option) 0 = some t)
    (ht : (t.all fun x => shortOpts opts x.2.2 = some x.2.1) = true)
    (hp : getoptLong ⟨shortOpts opts, t.map fun x => (x.1, x.2.2)⟩ none (args.map String.toList) = (os, rest)) :
    Steps X (condLong opts) (VarsLong args) command args os rest (fun k => [idxB k, T]) [idxB (os.length + 1), T] := by
  refine ⟨fun _ h => h.toVars, ?_, ?_, ?_⟩
  · rintro loc x y ⟨⟨h1, h2, h3⟩, h4, h5⟩ hx hy
    rcases hx with rfl | rfl | rfl
    · obtain ⟨v, rfl⟩ := hy rfl
      exact ⟨⟨h1, h2, v, rfl⟩, h4, h5⟩
    · exact ⟨⟨h1, h2, h3⟩, h4, h5⟩
    · exact ⟨⟨h1, h2, h3⟩, h4, h5⟩
  · rintro n k x loc heap tick inp out room text log ⟨⟨h1, h2, v, h3⟩, h4, h5⟩ hk
    obtain ⟨hw, hne⟩ := optCode_int x
    crun [condLong, h1, h2, h3, h4, h5, getoptLong_run, Int.toNat_natCast,
      getoptLongC_run hT ht (getoptC_next hp hk), hw, hne, neg_one_int]
  · rintro n loc heap tick inp out room text log ⟨⟨h1, h2, v, h3⟩, h4, h5⟩
    crun [condLong, h1, h2, h3, h4, h5, getoptLong_run, Int.toNat_natCast,
      getoptLongC_run hT ht (getoptC_end hp), neg_one_int]

/-- iffpp/main.c:93-100 `long_options` -/
def ppTable (X : Cfg) : Blk := initBlk X (.arr 4 (.struct .option)) [.expr (.str "disable-check"), .expr (.num .int 0),
  .null, .expr (.num .int 99), .expr (.str "help"), .expr (.num .int 0), .null, .expr (.num .int 104),
  .expr (.str "version"), .expr (.num .int 0), .null, .expr (.num .int 118), .null, .expr (.num .int 0), .null,
  .expr (.num .int 0)]

/-- iffjoin/main.c:93-100 `long_options` -/
def joinTable (X : Cfg) : Blk := initBlk X (.arr 4 (.struct .option)) [.expr (.str "output-file"), .expr (.num .int 1),
  .null, .expr (.num .int 111), .expr (.str "help"), .expr (.num .int 0), .null, .expr (.num .int 104),
  .expr (.str "version"), .expr (.num .int 0), .null, .expr (.num .int 118), .null, .expr (.num .int 0), .null,
  .expr (.num .int 0)]

theorem table_size {e : Env} (h : e.sizeBits = 32 ∨ e.sizeBits = 64) :
    (Ty.arr 4 (.struct .option)).size e / Struct.size e .option = 4 := by
  rcases h with h | h <;> simp only [Ty.size, Struct.size, Struct.members, scalarSize, ITy.bits, h] <;> decide

theorem ppTable_long : longTable (ppTable X) ((ppTable X).size / Struct.size X.e .option) 0 =
    some (ppOpts.long.map fun l => (l.1, false, l.2)) := by
  rw [show (ppTable X).size = (Ty.arr 4 (.struct .option)).size X.e from rfl, table_size X.word]
  rfl

theorem joinTable_long : longTable (joinTable X) ((joinTable X).size / Struct.size X.e .option) 0 =
    some (joinOpts.long.map fun l => (l.1, l.2 == 'o', l.2)) := by
  rw [show (joinTable X).size = (Ty.arr 4 (.struct .option)).size X.e from rfl, table_size X.word]
  rfl

theorem steps_pp_long (hp : getoptLong ppOpts none (args.map String.toList) = (os, rest)) :
    Steps X (condLong "chv") (VarsLong args) command args os rest (fun k => [idxB k, ppTable X])
      [idxB (os.length + 1), ppTable X] :=
  steps_long ppTable_long (by rw [short_pp]; rfl) (by rw [short_pp]; exact hp)

theorem steps_join_long (hp : getoptLong joinOpts none (args.map String.toList) = (os, rest)) :
    Steps X (condLong "o:hv") (VarsLong args) command args os rest (fun k => [idxB k, joinTable X])
      [idxB (os.length + 1), joinTable X] :=
  steps_long joinTable_long (by rw [short_join]; rfl) (by rw [short_join]; exact hp)

theorem argv0 {e : Env} : 1 * scalarSize e (.ptr (.int .char)) ≤ (argvBlk e command args).size :=
  Nat.mul_le_mul_right _ (by omega)

theorem argv0_cell {e : Env} : (argvBlk e command args).cell 0 = .str command := rfl

theorem ofCell_str {t : Ty} {s : String} : ofCell (.ptr t) (.str s) = .val (.str s) := rfl

theorem blkOf_0 {b : Blk} {i : Nat} :
    blkOf X ⟨heap, tick, b :: tl, inp, out, room, text, log⟩ ⟨.stk 0, i⟩ = .val b := rfl

theorem blkOf_1 {b c : Blk} {i : Nat} :
    blkOf X ⟨heap, tick, b :: c :: tl, inp, out, room, text, log⟩ ⟨.stk 1, i⟩ = .val c := rfl

/-! ### iffpp -/

/-- iffpp/main.c:111-125 -/
def ppSwitch : Stmt :=
  .switch (.var .c)
    (.case (.num .int 99) (.seq (.expr (.assignOp .bor (.var .options) IFFPP_DISABLE_CHECK)) .break)
    (.case (.num .int 104) (.seq (.expr (.call (.fn .iffpp_printUsage) (.cons (.index (.var .argv) (.num .int 0)) .nil)))
      (.ret (.num .int 0)))
    (.case (.num .int 63) (.seq (.expr (.call (.fn .iffpp_printUsage) (.cons (.index (.var .argv) (.num .int 0)) .nil)))
      (.ret (.num .int 1)))
    (.case (.num .int 118) (.seq (.expr (.call (.fn .iffpp_printVersion) (.cons (.index (.var .argv) (.num .int 0)) .nil)))
      (.ret (.num .int 0)))
    .nil))))

theorem declared_pp {x : Opt} (h : Declared ppOpts x) : x = .bad ∨ x = .flag 'c' ∨ x = .flag 'h' ∨ x = .flag 'v' := by
  cases x with
  | bad => exact .inl rfl
  | arg c a =>
    simp only [Declared, ppOpts] at h
    split at h <;> cases h
  | flag c =>
    simp only [Declared, ppOpts] at h
    split at h
    · next hc => rcases hc with rfl | rfl | rfl <;> simp
    · cases h

/-- The bit `IFFPP_DISABLE_CHECK`. -/
def bit (c : Bool) : V := .int .int (if c then 1 else 0)

theorem bor_bit {e : Env} {c : Bool} : binop e .bor (bit c) (.int .int 1) = .val (bit true) := by
  show Out.val (V.int .int (ofBits true (BitVec.ofInt 32 (wrapInt (if c then 1 else 0)) |||
    BitVec.ofInt 32 (wrapInt 1)))) = _
  rw [show wrapInt 1 = 1 by decide]
  cases c
  · rw [if_neg Bool.false_ne_true, show wrapInt 0 = 0 by decide]; rfl
  · rw [if_pos rfl, show wrapInt 1 = 1 by decide]; rfl

section
variable {loc : Var → Slot} {b : Blk} {nn : Nat}
  (hargv : loc .argv = .reg (.ptr (.ptr (.int .char))) (.ptr (.ptr (.int .char)) ⟨.stk 1, 0⟩))
include hargv

theorem ppSwitch_bad (hc : loc .c = .reg (.int .int) (.int .int 63)) :
    exec X (callFn X (n + 2)) nn ppSwitch
      ⟨loc, ⟨heap, tick, b :: argvBlk X.e command args :: tl, inp, out, room, text, log⟩⟩ =
    .val (.ret (.int .int 1), ⟨loc, ⟨heap, tick, b :: argvBlk X.e command args :: tl, inp, out, room,
      text ++ ppUsage command, log⟩⟩) := by
  crun [ppSwitch, hc, hargv, blkOf_1, argv0, argv0_cell, ofCell_str, ppUsage_run]

theorem ppSwitch_h (hc : loc .c = .reg (.int .int) (.int .int 104)) :
    exec X (callFn X (n + 2)) nn ppSwitch
      ⟨loc, ⟨heap, tick, b :: argvBlk X.e command args :: tl, inp, out, room, text, log⟩⟩ =
    .val (.ret (.int .int 0), ⟨loc, ⟨heap, tick, b :: argvBlk X.e command args :: tl, inp, out, room,
      text ++ ppUsage command, log⟩⟩) := by
  crun [ppSwitch, hc, hargv, blkOf_1, argv0, argv0_cell, ofCell_str, ppUsage_run]

theorem ppSwitch_v (hc : loc .c = .reg (.int .int) (.int .int 118)) :
    exec X (callFn X (n + 2)) nn ppSwitch
      ⟨loc, ⟨heap, tick, b :: argvBlk X.e command args :: tl, inp, out, room, text, log⟩⟩ =
    .val (.ret (.int .int 0), ⟨loc, ⟨heap, tick, b :: argvBlk X.e command args :: tl, inp, out, room,
      text ++ versionText command, log⟩⟩) := by
  crun [ppSwitch, hc, hargv, blkOf_1, argv0, argv0_cell, ofCell_str, ppVersion_run]

omit hargv in
theorem ppSwitch_c {g : CS} {o : Bool} (hc : loc .c = .reg (.int .int) (.int .int 99))
    (ho : loc .options = .reg (.int .int) (bit o)) :
    exec X (callFn X (n + 2)) nn ppSwitch ⟨loc, g⟩ =
    .val (.norm, ⟨setLoc loc .options (.reg (.int .int) (bit true)), g⟩) := by
  have h0 : loadL X (.reg .options (.int .int)) ⟨loc, g⟩ = .val (bit o, ⟨loc, g⟩) := by
    rw [loadL_reg, ho]; rfl
  have h1 : conv X.e (.int .int) (bit true) = .val (bit true) := by
    rw [bit, conv_int, convI_int, if_pos rfl, show wrapInt 1 = 1 by decide]
  crun [ppSwitch, hc, ho, IFFPP_DISABLE_CHECK, ↓h0, bor_bit, h1]
end

/-- The number of leading options `-c`. -/
def lead (os : List Opt) : Nat := (os.takeWhile (· = .flag 'c')).length

/-- How the loop over the options of iffpp ends. -/
def PpEnds (X : Cfg) (L : (Var → Slot) → Prop) (command : String) (args : List String) (os : List Opt)
    (rest : List Arg) (tl : Nat → List Blk) (tle : List Blk) (loc : Var → Slot) (heap : Nat → Option Blk) (tick : Nat)
    (inp out : List Byte) (room : Nat) (text : List Byte) (log : List ErrPrint) (j : Nat) (r : Out (Flow × Fr)) :
    Run Bool → Prop
  | .run c => ∃ loc', L loc' ∧ loc' .options = .reg (.int .int) (bit c) ∧ loc' .filename = loc .filename ∧
      r = .val (.norm, ⟨loc', ⟨heap, tick, optE os (args.length + 1 - rest.length) :: argvE X.e command args rest :: tle,
        inp, out, room, text, log⟩⟩)
  | .usage st => ∃ loc', r = .val (.ret (.int .int st), ⟨loc', ⟨heap, tick,
      optB os j :: argvBlk X.e command args :: tl j, inp, out, room, text ++ ppUsage command, log⟩⟩)
  | .version => ∃ loc', r = .val (.ret (.int .int 0), ⟨loc', ⟨heap, tick,
      optB os j :: argvBlk X.e command args :: tl j, inp, out, room, text ++ versionText command, log⟩⟩)
  | .noInput => False

theorem ppLoop_run {E : Expr} {L : (Var → Slot) → Prop} {tl : Nat → List Blk} {tle : List Blk}
    (hs : Steps X E L command args os rest tl tle) (hd : ∀ x ∈ os, Declared ppOpts x) {nn : Nat} :
    ∀ (m k : Nat) (c : Bool) (loc : Var → Slot), os.length < k + m → k ≤ os.length → L loc →
      loc .options = .reg (.int .int) (bit c) →
    PpEnds X L command args os rest tl tle loc heap tick inp out room text log (k + lead (os.drop k) + 1)
      (whileN (evalC X (callFn X (n + 2)) E) (exec X (callFn X (n + 2)) nn ppSwitch) m
        ⟨loc, ⟨heap, tick, optB os k :: argvBlk X.e command args :: tl k, inp, out, room, text, log⟩⟩)
      (ppLoop (os.drop k) c) := by
  intro m
  induction m with
  | zero => intro k c loc h1 h2; omega
  | succ m ih =>
    intro k c loc h1 h2 hL ho
    rw [whileN_succ]
    rcases Nat.lt_or_ge k os.length with hk | hk
    · have hx : os[k]? = some os[k] := List.getElem?_eq_getElem hk
      rw [hs.next (n + 1) k os[k] loc heap tick inp out room text log hL hx, obind_val, if_pos rfl,
        List.drop_eq_getElem_cons hk]
      have hv := hs.vars loc hL
      have hargv := hv.argv
      have hL' : L (setLoc loc .c (.reg (.int .int) (.int .int (optCode os[k])))) :=
        hs.keep loc .c _ hL (.inl rfl) fun _ => ⟨_, rfl⟩
      have hargv' := (hs.vars _ hL').argv
      rcases declared_pp (hd os[k] (List.getElem_mem hk)) with h | h | h | h <;> rw [h] at hL' hargv' ⊢
      · refine ⟨setLoc loc .c (.reg (.int .int) (.int .int (optCode .bad))), ?_⟩
        rw [ppSwitch_bad hargv' rfl]
        rfl
      · have hsw := ppSwitch_c (X := X) (n := n) (nn := nn)
          (loc := setLoc loc .c (.reg (.int .int) (.int .int (optCode (.flag 'c')))))
          (g := ⟨heap, tick, optB os (k + 1) :: argvBlk X.e command args :: tl (k + 1), inp, out, room, text, log⟩)
          (o := c) rfl ho
        rw [hsw]
        obtain h := ih (k + 1) true _ (by omega) hk (hs.keep _ .options (.reg (.int .int) (bit true)) hL'
          (.inr (.inl rfl)) nofun) rfl
        rw [show k + lead (.flag 'c' :: os.drop (k + 1)) + 1 = k + 1 + lead (os.drop (k + 1)) + 1 by
          rw [lead, List.takeWhile_cons_of_pos (by simp), List.length_cons, ← lead]; omega]
        exact h
      · refine ⟨setLoc loc .c (.reg (.int .int) (.int .int (optCode (.flag 'h')))), ?_⟩
        rw [ppSwitch_h hargv' rfl]
        rfl
      · refine ⟨setLoc loc .c (.reg (.int .int) (.int .int (optCode (.flag 'v')))), ?_⟩
        rw [ppSwitch_v hargv' rfl]
        rfl
    · obtain rfl : k = os.length := by omega
      rw [hs.last (n + 1) loc heap tick inp out room text log hL, obind_val, if_neg Bool.false_ne_true, List.drop_length]
      exact ⟨_, hs.keep loc .c _ hL (.inl rfl) fun _ => ⟨_, rfl⟩, ho, rfl, rfl⟩

theorem optE_cell {i : Nat} : (optE os i).cell 0 = .int .int (i : Int) := rfl

theorem argvE_size {e : Env} : (argvE e command args rest).size = (args.length + 2) * (e.sizeBits / 8) := rfl

theorem argvE_cell {e : Env} {f : Arg} {fs : List Arg} (h : (f :: fs).length ≤ args.length) :
    (argvE e command args (f :: fs)).cell (args.length + 1 - (f :: fs).length) = .str (String.ofList f) := by
  simp only [argvE]
  rw [if_neg (by simp only [List.length_cons] at h ⊢; omega), if_neg (Nat.lt_irrefl _), Nat.sub_self]
  rfl

theorem pp_tail {n nn : Nat} {loc : Var → Slot} {c : Bool} {tle : List Blk} (hv : Vars args loc)
    (hr : args.length + 1 < 2147483648) (hrest : rest.length ≤ args.length)
    (ho : loc .options = .reg (.int .int) (bit c)) (hf : loc .filename = .reg (.ptr (.int .char)) .undef) :
    exec X (callFn X n) nn (.seq (.ite (.bin .ge .optind (.var .argc))
        (.expr (.assign (.var .filename) .null))
        (.expr (.assign (.var .filename) (.index (.var .argv) .optind))))
      (.ret (.call (.fn .IFF_prettyPrint) (.cons (.var .filename) (.cons (.var .options) .nil)))))
      ⟨loc, ⟨heap, tick, optE os (args.length + 1 - rest.length) :: argvE X.e command args rest :: tle, inp, out, room,
        text, log⟩⟩ =
    obind (callFn X n .IFF_prettyPrint [nameArg rest.head?, bit c]
      ⟨heap, tick, optE os (args.length + 1 - rest.length) :: argvE X.e command args rest :: tle, inp, out, room,
        text, log⟩) fun r => .val (.ret r.1, ⟨setLoc loc .filename (.reg (.ptr (.int .char)) (nameArg rest.head?)), r.2⟩) := by
  obtain ⟨h1, h2, -⟩ := hv
  have hw : wrapInt ((args.length + 1 : Nat) : Int) = ((args.length + 1 : Nat) : Int) := wrapInt_of ⟨by omega, by omega⟩
  have hw' : wrapInt ((args.length + 1 - rest.length : Nat) : Int) = ((args.length + 1 - rest.length : Nat) : Int) :=
    wrapInt_of ⟨by omega, by omega⟩
  have hl : ∀ loc' : Var → Slot, loc' .options = .reg (.int .int) (bit c) → ∀ g,
      loadL X (.reg .options (.int .int)) ⟨loc', g⟩ = .val (bit c, ⟨loc', g⟩) := by
    intro loc' h g; rw [loadL_reg, h]; rfl
  cases rest with
  | nil =>
    have hge : decide (((args.length + 1 : Nat) : Int) ≤ ((args.length + 1 - ([] : List Arg).length : Nat) : Int)) = true :=
      decide_eq_true (by simp)
    crun [evalE_optind, h1, h2, ho, hf, blkOf_0, optE_cell, hw, hw', hge, bit]
    generalize hz : callFn X n .IFF_prettyPrint _ _ = z
    rw [show nameArg ([] : List Arg).head? = .ptr (.int .char) Ptr.null from rfl, hz]
    cases z <;> rfl
  | cons f fs =>
    have hge : decide (((args.length + 1 : Nat) : Int) ≤ ((args.length + 1 - (f :: fs).length : Nat) : Int)) = false :=
      decide_eq_false (by simp only [List.length_cons] at hrest ⊢; omega)
    have hin : ((args.length + 1 - (f :: fs).length + 1) * scalarSize X.e (.ptr (.int .char)) ≤
        (args.length + 2) * (X.e.sizeBits / 8)) = True := eq_true (Nat.mul_le_mul_right _ (by omega))
    have hnn : (0 ≤ ((args.length + 1 - (f :: fs).length : Nat) : Int)) = True := eq_true (Int.natCast_nonneg _)
    crun [evalE_optind, h1, h2, ho, hf, blkOf_0, blkOf_1, optE_cell, hw, hw', hge, bit, Int.toNat_natCast, argvE_size,
      hin, hnn, argvE_cell hrest, ofCell_str]
    generalize hz : callFn X n .IFF_prettyPrint _ _ = z
    rw [show nameArg (f :: fs).head? = .str (String.ofList f) from rfl, hz]
    cases z <;> rfl

/-- iffpp/main.c:128-137 -/
def ppEnd : Stmt :=
  .seq (.ite (.bin .ge .optind (.var .argc))
      (.expr (.assign (.var .filename) .null))
      (.expr (.assign (.var .filename) (.index (.var .argv) .optind))))
    (.ret (.call (.fn .IFF_prettyPrint) (.cons (.var .filename) (.cons (.var .options) .nil))))

/-- The body of iffpp's `main` after the declarations. -/
def ppRest (X : Cfg) (E : Expr) (n : Nat) (s : Fr) : Out (V × CS) :=
  obind (obind (exec X (callFn X n) n (.while E ppSwitch) s) fun r => r.1.andThen (exec X (callFn X n) n ppEnd) r.2)
    fun r => obind (Flow.result X.e (.int .int) r.1) fun v => .val (v, { r.2.g with stk := r.2.g.stk.take 2 })

theorem ppLoop_status : ∀ {os : List Opt} {c : Bool} {st : Nat}, ppLoop os c = .usage st → st < 2147483648 := by
  intro os
  induction os with
  | nil => intro c st h; cases h
  | cons x os ih =>
    intro c st h
    cases x with
    | bad => cases h; decide
    | arg d a => exact ih h
    | flag d =>
      simp only [ppLoop] at h
      split at h
      · exact ih h
      · split at h
        · cases h; decide
        · split at h
          · cases h
          · exact ih h

theorem pp_does {main : Fn} {E : Expr} {L : (Var → Slot) → Prop} {tl : Nat → List Blk} {tle : List Blk} {g : CS}
    {loc : Var → Slot} (hs : Steps X E L command args os rest tl tle) (hd : ∀ x ∈ os, Declared ppOpts x)
    (hr : args.length + 1 < 2147483648) (hrest : rest.length ≤ args.length) (hL : L loc)
    (ho : loc .options = .reg (.int .int) (bit false)) (hf : loc .filename = .reg (.ptr (.int .char)) .undef)
    (hcall : ∀ n, callFn X (n + 1) main (mainArgs args) g = ppRest X E n
      ⟨loc, ⟨g.heap, g.tick, optB os 0 :: argvBlk X.e command args :: tl 0, g.inp, g.out, g.room, g.text, g.log⟩⟩) :
    PpDoes X main (ppUsage command) command args g (ppTail (os, rest)) := by
  have hloop : ∀ n, PpEnds X L command args os rest tl tle loc g.heap g.tick g.inp g.out g.room g.text g.log
      (lead os + 1) (exec X (callFn X (n + os.length + 2)) (n + os.length + 2) (.while E ppSwitch)
        ⟨loc, ⟨g.heap, g.tick, optB os 0 :: argvBlk X.e command args :: tl 0, g.inp, g.out, g.room, g.text, g.log⟩⟩)
      (ppLoop os false) := by
    intro n
    rw [exec_while]
    have := ppLoop_run (heap := g.heap) (tick := g.tick) (inp := g.inp) (out := g.out) (room := g.room) (text := g.text)
      (log := g.log) (n := n + os.length) (nn := n + os.length + 2) hs hd (n + os.length + 2) 0 false loc (by omega)
      (Nat.zero_le _) hL ho
    rw [Nat.zero_add] at this
    exact this
  have hrun : ∀ {r : Out (V × CS)}, (∀ n, ppRest X E (n + os.length + 2) ⟨loc, ⟨g.heap, g.tick,
      optB os 0 :: argvBlk X.e command args :: tl 0, g.inp, g.out, g.room, g.text, g.log⟩⟩ = r) →
      ∃ N, ∀ n, N ≤ n → callFn X n main (mainArgs args) g = r := by
    intro r h
    refine ⟨os.length + 3, fun n hn => ?_⟩
    obtain ⟨n, rfl⟩ : ∃ n', n = n' + os.length + 2 + 1 := ⟨n - os.length - 3, by omega⟩
    rw [hcall, h]
  unfold ppTail
  have h0 := hloop 0
  cases hl : ppLoop os false with
  | noInput => rw [hl] at h0; exact h0
  | version =>
    simp only [hl] at hloop
    refine ⟨[optB os (lead os + 1), argvBlk X.e command args], hrun fun n => ?_⟩
    obtain ⟨loc', h⟩ := hloop n
    rw [ppRest, h]
    rfl
  | usage st =>
    have hst := ppLoop_status hl
    simp only [hl] at hloop
    refine ⟨[optB os (lead os + 1), argvBlk X.e command args], hrun fun n => ?_⟩
    obtain ⟨loc', h⟩ := hloop n
    rw [ppRest, h, obind_val, andThen_ret, obind_val, result_ret_int, convI_int, wrapInt_of ⟨by omega, by omega⟩]
    rfl
  | run c =>
    simp only [hl] at hloop
    refine ⟨optE os (args.length + 1 - rest.length) :: argvE X.e command args rest :: tle, ?_, ?_⟩
    · rintro st g' hst ⟨N, hN⟩
      refine ⟨N + os.length + 3, fun n hn => ?_⟩
      obtain ⟨n, rfl⟩ : ∃ n', n = n' + os.length + 2 + 1 := ⟨n - os.length - 3, by omega⟩
      obtain ⟨loc', h1, h2, h3, h⟩ := hloop n
      have hN' : callFn X (n + os.length + 2) .IFF_prettyPrint [nameArg rest.head?, bit c] ⟨g.heap, g.tick,
        optE os (args.length + 1 - rest.length) :: argvE X.e command args rest :: tle, g.inp, g.out, g.room, g.text,
        g.log⟩ = .val (.int .int st, g') := hN _ (by omega)
      rw [hcall, ppRest, h, obind_val, andThen_norm, ppEnd,
        pp_tail (hs.vars _ h1) hr hrest h2 (h3.trans hf), hN', obind_val, obind_val, result_ret_int, convI_int,
        wrapInt_of ⟨by omega, by omega⟩]
      rfl
    · rintro u ⟨N, hN⟩
      refine ⟨N + os.length + 3, fun n hn => ?_⟩
      obtain ⟨n, rfl⟩ : ∃ n', n = n' + os.length + 2 + 1 := ⟨n - os.length - 3, by omega⟩
      obtain ⟨loc', h1, h2, h3, h⟩ := hloop n
      have hN' : callFn X (n + os.length + 2) .IFF_prettyPrint [nameArg rest.head?, bit c] ⟨g.heap, g.tick,
        optE os (args.length + 1 - rest.length) :: argvE X.e command args rest :: tle, g.inp, g.out, g.room, g.text,
        g.log⟩ = .ub u := hN _ (by omega)
      rw [hcall, ppRest, h, obind_val, andThen_norm, ppEnd,
        pp_tail (hs.vars _ h1) hr hrest h2 (h3.trans hf), hN']
      rfl

theorem longOk_pp : LongOk ppOpts := by
  intro l hl
  rcases List.mem_cons.1 hl with rfl | hl
  · decide
  rcases List.mem_cons.1 hl with rfl | hl
  · decide
  rcases List.mem_singleton.1 hl with rfl
  decide

theorem longOk_join : LongOk joinOpts := by
  intro l hl
  rcases List.mem_cons.1 hl with rfl | hl
  · decide
  rcases List.mem_cons.1 hl with rfl | hl
  · decide
  rcases List.mem_singleton.1 hl with rfl
  decide

/-- The parameters of `main`. -/
def argVars (args : List String) : Var → Slot :=
  setLoc (setLoc (fun _ => .none) .argv (.reg (.ptr (.ptr (.int .char))) (.ptr (.ptr (.int .char)) ⟨.stk 1, 0⟩)))
    .argc (.reg (.int .int) (.int .int ((args.length + 1 : Nat) : Int)))

/-- iffpp/main.c:65-66,103 -/
def ppVars (args : List String) : Var → Slot :=
  setLoc (setLoc (setLoc (argVars args) .options (.reg (.int .int) (.int .int 0))) .filename
    (.reg (.ptr (.int .char)) .undef)) .c (.reg (.int .int) .undef)

/-- The objects that `getopt_long` needs. -/
def longVars (loc : Var → Slot) : Var → Slot :=
  setLoc (setLoc loc .option_index (.obj (.int .int) 2)) .long_options (.obj (.arr 4 (.struct .option)) 3)

theorem int_size {e : Env} : Ty.size e (.int .int) = 4 := by simp only [Ty.size, scalarSize, ITy.bits]

/-- iffpp/main.c:63-138, with `getopt_long` -/
theorem pp_long_run {g : CS} (hg : g.stk = startStk X.e command args) (hr : args.length + 1 < 2147483648) :
    PpDoes X .iffpp_main (ppUsage command) command args g (ppMainLong (args.map String.toList)) := by
  have hw : wrapInt ((args.length + 1 : Nat) : Int) = ((args.length + 1 : Nat) : Int) := wrapInt_of ⟨by omega, by omega⟩
  have hrest := restLong_le (o := ppOpts) (args.map String.toList) none
  rw [List.length_map] at hrest
  obtain ⟨heap, tick, stk, inp, out, room, text, log⟩ := g
  cases hg
  refine pp_does (loc := longVars (ppVars args)) (steps_pp_long rfl) (getoptLong_declared longOk_pp _ none nofun) hr
    hrest ⟨⟨rfl, rfl, _, rfl⟩, rfl, rfl⟩ rfl rfl fun n => ?_
  rw [callFn_code rfl]
  crun [iffpp_main.code, mainArgs, exec_aggregate, hw, startStk, int_size]
  rfl

/-- iffpp/main.c:63-138, with `getopt` -/
theorem pp_posix_run {g : CS} (hg : g.stk = startStk X.e command args) (hr : args.length + 1 < 2147483648) :
    PpDoes X .iffpp_mainPosix (ppUsage command) command args g (ppMainPosix (args.map String.toList)) := by
  have hw : wrapInt ((args.length + 1 : Nat) : Int) = ((args.length + 1 : Nat) : Int) := wrapInt_of ⟨by omega, by omega⟩
  have hrest := rest_le (o := ppOpts) (args.map String.toList) none
  rw [List.length_map] at hrest
  obtain ⟨heap, tick, stk, inp, out, room, text, log⟩ := g
  cases hg
  refine pp_does (loc := ppVars args) (steps_posix short_pp rfl) (getopt_declared _ none nofun) hr
    hrest ⟨rfl, rfl, _, rfl⟩ rfl rfl fun n => ?_
  rw [callFn_code rfl]
  crun [iffpp_mainPosix.code, mainArgs, hw, startStk]
  rfl

end

end Iff.Src
