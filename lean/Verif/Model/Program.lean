import Verif.Model.Getopt
/-
  The tools as programs that work on named files: iffjoin (main.c:64-154, join.c:31-61) and iffpp
  (main.c:63-138, pp.c:25-55) with iff.c:63-120.  Files are read and written by name, one after the
  other, so that a file may be input and output at the same time.
  Simplifications: the texts of the usage and the version, and the messages "No IFF input files given"
  (iffjoin/main.c:131) and "Cannot open IFF file!" (pp.c:35) are left out; other programs do not change
  the files while a tool runs, and different names mean different files.
-/
namespace Iff

/-- What the tools read and change: the contents of the files that can be opened for reading, the
standard output, and the diagnostics on standard error. -/
structure World where
  disk : Arg → Option (List Byte)
  out : List Byte
  log : List Msg

/-- The rest of the system: the standard input; and, for every name (`none`: standard output),
whether it can be opened for writing, how many bytes it can store and how many the buffer takes. -/
structure System where
  input : List Byte
  medium : Option Arg → Dest

/-- The name as it is shown in a diagnostic. -/
def shownName : Option Arg → String
  | some n => String.ofList n
  | none => "stdout"

/-- The destination with a name.  The standard output is open from the start. -/
def System.dest (y : System) (n : Option Arg) : Dest :=
  ⟨shownName n, n = none ∨ (y.medium n).opens, (y.medium n).cap, (y.medium n).slack⟩

/-- A library function that emits diagnostics. -/
def onLog {α : Type} (m : M (List Msg) α) : M World α := fun w =>
  match m w.log with
  | .val (a, l) => .val (a, ⟨w.disk, w.out, l⟩)
  | .ub u => .ub u
  | .loop => .loop

/-- iff.c:63-83 `IFF_readFile`: the file as it is now. -/
def readNamed (e : Env) (n : Arg) : M World (Option Chunk) := fun w =>
  onLog (readFile e none (String.ofList n) (w.disk n)) w

/-- iff.c:98-112 `fopen(filename, "wb")` until `fclose`: the file is replaced.  What is written to the
standard output is appended to what is there. -/
def World.store (w : World) : Option Arg → Option (List Byte) → World
  | _, none => w
  | some n, some bs => ⟨fun m => if m = n then some bs else w.disk m, w.out, w.log⟩
  | none, some bs => ⟨w.disk, w.out ++ bs, w.log⟩

/-- iff.c:98-120 `IFF_write`. -/
def writeNamed (e : Env) (y : System) (c : Chunk) (n : Option Arg) : M World Bool := do
  let (ok, res) ← onLog (writeFile e none c (y.dest n))
  fun w => .val (ok, w.store n res)

/-- join.c:38-52: the loop over the names of the input files. -/
def joinNames (e : Env) : Chunk → List Arg → M World (Option Chunk)
  | cat, [] => pure (some cat)
  | cat, n :: ns => do
    match ← readNamed e n with
    | none => pure none
    | some c =>
      if ← onLog (check e none c) then do
        let cat' ← M.ofOut (addAndUpdate e cat c)
        joinNames e cat' ns
      else pure none

/-- join.c:31-61 `IFF_join`: the exit status. -/
def joinFiles (e : Env) (y : System) (inputs : List Arg) (output : Option Arg) : M World Nat := do
  match ← joinNames e createEmptyCAT inputs with
  | none => pure 1
  | some cat => do
    if ← writeNamed e y cat output then pure 0 else pure 1

/-- iffjoin/main.c:64-154: the program (`gnu`: built with `getopt_long`). -/
def iffjoin (e : Env) (y : System) (gnu granted : Bool) (args : List Arg) : M World Nat := do
  match ← M.ofOut (if gnu then joinMainLong granted args else joinMainPosix granted args) with
  | .usage n => pure n
  | .version => pure 0
  | .noInput => pure 1
  | .run (output, inputs) => joinFiles e y inputs output

/-- iff.c:85-91 `IFF_read`. -/
def readInput (e : Env) (y : System) : Option Arg → M World (Option Chunk)
  | some n => readNamed e n
  | none => onLog (readFile e none "stdin" (some y.input))

/-- Writing to the standard output. -/
def putOut (t : List Byte) : M World Unit := fun w => .val ((), ⟨w.disk, w.out ++ t, w.log⟩)

/-- pp.c:25-55 `IFF_prettyPrint`: the exit status. -/
def printFile (e : Env) (y : System) (disableCheck : Bool) (n : Option Arg) : M World Nat := do
  match ← readInput e y n with
  | none => pure 1
  | some c =>
    if ← (if disableCheck then pure true else onLog (check e none c)) then do
      let t ← M.ofOut (print none 0 c)
      putOut t
      pure 0
    else pure 1

/-- iffpp/main.c:63-138: the program. -/
def iffpp (e : Env) (y : System) (gnu : Bool) (args : List Arg) : M World Nat :=
  match if gnu then ppMainLong args else ppMainPosix args with
  | .usage n => pure n
  | .version => pure 0
  | .noInput => pure 1
  | .run (disableCheck, n) => printFile e y disableCheck n

end Iff
