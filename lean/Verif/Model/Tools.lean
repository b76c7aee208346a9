import Verif.Model.Build
import Verif.Model.Check
import Verif.Model.Print
import Verif.Model.File
/-
  Model of the command-line tools: src/iffjoin/join.c, src/iffpp/pp.c and the option parsers for
  Visual C++ in src/iffjoin/main.c and src/iffpp/main.c.
-/
namespace Iff

/-- An input file: its name, and its contents or `none` if it cannot be opened. -/
structure Source where
  name : String
  contents : Option (List Byte)

/-- join.c:38-52: the loop over the input files: `none` if an input is unreadable or invalid,
otherwise the concatenation. -/
def joinInputs (e : Env) : Chunk → List Source → M (List Msg) (Option Chunk)
  | cat, [] => pure (some cat)
  | cat, f :: fs => do
    match ← readFile e none f.name f.contents with
    | none => pure none
    | some c =>
      if ← check e none c then do
        let cat' ← M.ofOut (addAndUpdate e cat c)
        joinInputs e cat' fs
      else pure none

/-- join.c:31-61 `IFF_join`: the exit status, and the contents of the destination, `none` if it was
not opened. -/
def join (e : Env) (files : List Source) (d : Dest) : M (List Msg) (Nat × Option (List Byte)) := do
  match ← joinInputs e createEmptyCAT files with
  | none => pure (1, none)
  | some cat =>
    let (ok, out) ← writeFile e none cat d
    pure (if ok then 0 else 1, out)

/-- pp.c:25-55 `IFF_prettyPrint`: the exit status and the standard output.  Simplification: the
message "Cannot open IFF file!" on standard error is left out. -/
def prettyPrint (e : Env) (f : Source) (disableCheck : Bool) :
    M (List Msg) (Nat × List Byte) := do
  match ← readFile e none f.name f.contents with
  | none => pure (1, [])
  | some c =>
    if disableCheck then do
      let out ← M.ofOut (print none 0 c)
      pure (0, out)
    else if ← check e none c then do
      let out ← M.ofOut (print none 0 c)
      pure (0, out)
    else pure (1, [])

/-- What `main` of a tool does after parsing its arguments. -/
inductive Action where
  /-- print the usage or the version, exit with 0 -/
  | info
  /-- no input files: exit with 1 -/
  | noInput
  /-- run with these options and arguments -/
  | run (output : Option String) (inputs : List String)
  deriving DecidableEq, Repr

/-- iffjoin/main.c:72-89: the option loop of the Visual C++ branch over `argv[i..]`; `none` if the
program exits.  Result: `outputFilename` and `optind`. -/
def joinOptions : List String → Option String → Nat → Option (Option String × Nat)
  | [], out, optind => some (out, optind)
  | a :: as, out, optind =>
    if a = "/o" then joinOptions as (some a) (optind + 1)
    else if a = "/?" then none
    else if a = "/v" then none
    else joinOptions as out optind

/-- iffjoin/main.c:64-154 `main`, Visual C++ branch; `argv` includes the program name. -/
def joinMain (argv : List String) : Action :=
  match joinOptions argv.tail none 1 with
  | none => .info
  | some (out, optind) =>
    if optind ≥ argv.length then .noInput else .run out (argv.drop optind)

/-- iffpp/main.c:70-87: the option loop of the Visual C++ branch. -/
def ppOptions : List String → Bool → Nat → Option (Bool × Nat)
  | [], c, optind => some (c, optind)
  | a :: as, c, optind =>
    if a = "/c" then ppOptions as true (optind + 1)
    else if a = "/?" then none
    else if a = "/v" then none
    else ppOptions as c optind

/-- iffpp/main.c:63-138 `main`, Visual C++ branch: whether the check is disabled, and the file
(`none` for standard input); `none` if the program exits after printing information. -/
def ppMain (argv : List String) : Option (Bool × Option String) :=
  match ppOptions argv.tail false 1 with
  | none => none
  | some (c, optind) => some (c, argv[optind]?)

end Iff
