import Verif.Model.Tools
/-
  The command lines of the tools on platforms with `getopt` or `getopt_long`.
  `getopt` and `getopt_long` are not part of the code: they are modelled after POSIX.1-2008
  (getopt) and after the manual of the GNU C library (getopt_long), see DESIGN.md.
  An argument is the list of its characters; the program name `argv[0]` is left out.
-/
namespace Iff

/-- One command-line argument. -/
abbrev Arg := List Char

/-- One result of `getopt`: an option without argument, an option with its argument (`optarg`),
or `'?'`. -/
inductive Opt where
  | flag (c : Char)
  | arg (c : Char) (a : Arg)
  | bad
  deriving DecidableEq, Repr

/-- The options a tool declares: `short c` tells whether the option character `c` is known and
whether it requires an argument; `long` are the long options with their characters. -/
structure Options where
  short : Char → Option Bool
  long : List (Arg × Char)

/-- iffjoin/main.c:94-100,105,107: `"o:hv"` and `long_options` (output-file, help, version). -/
def joinOpts : Options where
  short c := if c = 'o' then some true else if c = 'h' ∨ c = 'v' then some false else none
  long := [(['o', 'u', 't', 'p', 'u', 't', '-', 'f', 'i', 'l', 'e'], 'o'),
    (['h', 'e', 'l', 'p'], 'h'), (['v', 'e', 'r', 's', 'i', 'o', 'n'], 'v')]

/-- iffpp/main.c:94-100,106,108: `"chv"` and `long_options` (disable-check, help, version). -/
def ppOpts : Options where
  short c := if c = 'c' ∨ c = 'h' ∨ c = 'v' then some false else none
  long := [(['d', 'i', 's', 'a', 'b', 'l', 'e', '-', 'c', 'h', 'e', 'c', 'k'], 'c'),
    (['h', 'e', 'l', 'p'], 'h'), (['v', 'e', 'r', 's', 'i', 'o', 'n'], 'v')]

/-- The option characters after one `-`: the results, and the option that still waits for its
argument, which is then the next command-line argument. -/
def cluster (o : Options) : List Char → List Opt × Option Char
  | [] => ([], none)
  | c :: cs =>
    match o.short c with
    | none => (.bad :: (cluster o cs).1, (cluster o cs).2)
    | some false => (.flag c :: (cluster o cs).1, (cluster o cs).2)
    | some true => if cs = [] then ([], some c) else ([.arg c cs], none)

/-- The name of a long option, up to the first `=`. -/
def longName (a : Arg) : Arg := a.takeWhile (· ≠ '=')

/-- What follows the first `=` of a long option. -/
def longValue (a : Arg) : Option Arg :=
  match a.dropWhile (· ≠ '=') with
  | [] => none
  | _ :: v => some v

/-- The long option meant by a name: the one with this name, otherwise the only one whose name
begins with it. -/
def longOption (o : Options) (name : Arg) : Option Char :=
  match o.long.find? fun l => l.1 = name with
  | some l => some l.2
  | none =>
    match o.long.filter fun l => name.isPrefixOf l.1 with
    | [l] => some l.2
    | _ => none

/-- A long option, given without its two dashes: its result, or the option that waits for its
argument. -/
def longOpt (o : Options) (a : Arg) : List Opt × Option Char :=
  match longOption o (longName a) with
  | none => ([.bad], none)
  | some c =>
    match o.short c, longValue a with
    | some true, some v => ([.arg c v], none)
    | some true, none => ([], some c)
    | _, some _ => ([.bad], none)
    | _, none => ([.flag c], none)

/-- The results of `getopt` (POSIX) until it returns -1, and the arguments from `optind` on.
The first argument of `getopt` is the option waiting for its argument. -/
def getopt (o : Options) : Option Char → List Arg → List Opt × List Arg
  | none, [] => ([], [])
  | some _, [] => ([.bad], [])
  | some c, a :: as => (.arg c a :: (getopt o none as).1, (getopt o none as).2)
  | none, a :: as =>
    match a with
    | '-' :: c :: cs =>
      if c = '-' ∧ cs = [] then ([], as)
      else
        ((cluster o (c :: cs)).1 ++ (getopt o (cluster o (c :: cs)).2 as).1,
          (getopt o (cluster o (c :: cs)).2 as).2)
    | a => ([], a :: as)

/-- The results of `getopt_long` (GNU, `POSIXLY_CORRECT` not set) until it returns -1, and the
arguments from `optind` on: arguments that are no options have been moved to the end. -/
def getoptLong (o : Options) : Option Char → List Arg → List Opt × List Arg
  | none, [] => ([], [])
  | some _, [] => ([.bad], [])
  | some c, a :: as => (.arg c a :: (getoptLong o none as).1, (getoptLong o none as).2)
  | none, a :: as =>
    match a with
    | '-' :: '-' :: name =>
      if name = [] then ([], as)
      else
        ((longOpt o name).1 ++ (getoptLong o (longOpt o name).2 as).1,
          (getoptLong o (longOpt o name).2 as).2)
    | '-' :: c :: cs =>
      ((cluster o (c :: cs)).1 ++ (getoptLong o (cluster o (c :: cs)).2 as).1,
        (getoptLong o (cluster o (c :: cs)).2 as).2)
    | a => ((getoptLong o none as).1, a :: (getoptLong o none as).2)

/-- What `main` of a tool does. -/
inductive Run (α : Type) where
  /-- print the usage and exit with this status -/
  | usage (status : Nat)
  /-- print the version and exit with 0 -/
  | version
  /-- iffjoin/main.c:129-133: no input files, exit with 1 -/
  | noInput
  /-- do the work -/
  | run (a : α)
  deriving DecidableEq, Repr

/-- Change what a tool works on. -/
def Run.map {α β : Type} (f : α → β) : Run α → Run β
  | .usage n => .usage n
  | .version => .version
  | .noInput => .noInput
  | .run a => .run (f a)

/-- iffjoin/main.c:104-125: the loop over the results of `getopt`, with `outputFilename`. -/
def joinLoop : List Opt → Option Arg → Run (Option Arg)
  | [], out => .run out
  | .arg c a :: os, out => if c = 'o' then joinLoop os (some a) else joinLoop os out
  | .flag c :: os, out =>
    if c = 'h' then .usage 0 else if c = 'v' then .version else joinLoop os out
  | .bad :: _, _ => .usage 1

/-- iffjoin/main.c:104-154 `main` from the loop on: the output file and the input files given to
`IFF_join`.  `granted`: whether the unchecked `malloc` of `inputFilenames` succeeds; if it fails
the first store goes through NULL. -/
def joinTail (granted : Bool) (p : List Opt × List Arg) : Out (Run (Option Arg × List Arg)) :=
  match joinLoop p.1 none with
  | .usage n => .val (.usage n)
  | .version => .val .version
  | .noInput => .val .noInput
  | .run out =>
    if p.2 = [] then .val .noInput
    else if granted then .val (.run (out, p.2)) else .ub .nullDeref

/-- iffjoin/main.c:64-154 `main`, with `getopt_long`. -/
def joinMainLong (granted : Bool) (args : List Arg) : Out (Run (Option Arg × List Arg)) :=
  joinTail granted (getoptLong joinOpts none args)

/-- iffjoin/main.c:64-154 `main`, with `getopt`. -/
def joinMainPosix (granted : Bool) (args : List Arg) : Out (Run (Option Arg × List Arg)) :=
  joinTail granted (getopt joinOpts none args)

/-- iffpp/main.c:105-126: the loop over the results of `getopt`, with the bit
`IFFPP_DISABLE_CHECK` of `options`. -/
def ppLoop : List Opt → Bool → Run Bool
  | [], c => .run c
  | .arg _ _ :: os, c => ppLoop os c
  | .flag d :: os, c =>
    if d = 'c' then ppLoop os true
    else if d = 'h' then .usage 0 else if d = 'v' then .version else ppLoop os c
  | .bad :: _, _ => .usage 1

/-- iffpp/main.c:105-138 `main` from the loop on: whether the check is disabled, and the file
(`none` for standard input) given to `IFF_prettyPrint`. -/
def ppTail (p : List Opt × List Arg) : Run (Bool × Option Arg) :=
  (ppLoop p.1 false).map fun c => (c, p.2.head?)

/-- iffpp/main.c:63-138 `main`, with `getopt_long`. -/
def ppMainLong (args : List Arg) : Run (Bool × Option Arg) :=
  ppTail (getoptLong ppOpts none args)

/-- iffpp/main.c:63-138 `main`, with `getopt`. -/
def ppMainPosix (args : List Arg) : Run (Bool × Option Arg) :=
  ppTail (getopt ppOpts none args)

end Iff
