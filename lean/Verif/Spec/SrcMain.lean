import Verif.Spec.SrcTools
import Verif.Model.Getopt
import Verif.Spec.Layout
/-
  The start of a program, and what its `main` prints.
-/
namespace Iff.Src
open Iff.Spec (ascii)

/-- `argv`: the name of the program, the arguments, NULL. -/
def argvBlk (e : Env) (command : String) (args : List String) : Blk :=
  ⟨(args.length + 2) * (e.sizeBits / 8), fun j => ((command :: args)[j]?).elim (.ptr Ptr.null) .str⟩

/-- The stack when `main` is called: the variables of `getopt`, and `argv`. -/
def startStk (e : Env) (command : String) (args : List String) : List Blk :=
  [⟨24, cells [.int .int 1, .undef, .int .uint 0]⟩, argvBlk e command args]

/-- The arguments of `main`. -/
def mainArgs (args : List String) : List V :=
  [.int .int ((args.length + 1 : Nat) : Int), .ptr (.ptr (.int .char)) ⟨.stk 1, 0⟩]

/-- `argc` is a value of `int`, and `argv` fits into the address space. -/
def Reasonable (e : Env) (args : List String) : Prop :=
  args.length + 1 < 2147483648 ∧ (args.length + 2) * (e.sizeBits / 8) < 2 ^ e.sizeBits

/-- A program has been started: nothing has been allocated or printed.  `inp` is on the standard input,
the standard output accepts `room` bytes. -/
def launched (e : Env) (command : String) (args : List String) (inp : List Byte) (room : Nat) : CS :=
  ⟨fun _ => none, 0, startStk e command args, inp, [], room, [], []⟩

/-- A file name that may be missing. -/
def nameArg : Option Arg → V
  | some a => .str (String.ofList a)
  | none => .ptr (.int .char) Ptr.null

/-- The help text of iffpp, with short and long options. -/
def ppHelp : String :=
  "The command `iffpp' displays a textual representation of a given IFF file, which\n" ++
  "can be used for manual inspection of its contents. If no IFF file is specified,\n" ++
  "it reads an IFF file from the standard input.\n" ++
  "\n" ++
  "Options:\n" ++
  "  -c, --disable-check    Do not check the IFF file for validity\n" ++
  "  -h, --help             Shows the usage of this command to the user\n" ++
  "  -v, --version          Shows the version of this command to the user\n"

/-- The help text of iffjoin, with short and long options. -/
def joinHelp : String :=
  "The command `iffjoin' joins an aribitrary number of IFF files into a single\n" ++
  "concatenation IFF file. The result is written to the standard output, or\n" ++
  "optionally to a given destination file.\n" ++
  "\n" ++
  "Options:\n" ++
  "  -o, --output-file=FILE    Specify an output file name\n" ++
  "  -h, --help                Shows the usage of this command to the user\n" ++
  "  -v, --version             Shows the version of this command to the user\n"

/-- What `iffpp --help` prints. -/
def ppUsage (command : String) : List Byte :=
  ascii "Usage: " ++ cString command ++ ascii " [OPTION] [file.IFF]\n\n" ++ ascii ppHelp

/-- What `iffjoin --help` prints. -/
def joinUsage (command : String) : List Byte :=
  ascii "Usage: " ++ cString command ++ ascii " [OPTION] file1.IFF file2.IFF ...\n\n" ++ ascii joinHelp

/-- What the option `--version` prints. -/
def versionText (command : String) : List Byte :=
  cString command ++ ascii " (libiff) 0.1\n\nCopyright (C) 2012-2015 Sander van der Burg\n"

/-- A call of a function goes wrong, given enough fuel. -/
def Fails (X : Cfg) (f : Fn) (vs : List V) (g : CS) (u : UB) : Prop :=
  ∃ N, ∀ n, N ≤ n → callFn X n f vs g = .ub u

/-- What the text of iffpp's `main` does if the command line means `r`: it prints the usage or the version, or
ends as `IFF_prettyPrint` does, called with the file and the options. -/
def PpDoes (X : Cfg) (main : Fn) (usage : List Byte) (command : String) (args : List String) (g : CS) : Run (Bool × Option Arg) → Prop
  | .usage st => ∃ stk', Runs X main (mainArgs args) g (.int .int st)
      { g with stk := stk', text := g.text ++ usage }
  | .version => ∃ stk', Runs X main (mainArgs args) g (.int .int 0)
      { g with stk := stk', text := g.text ++ versionText command }
  | .noInput => False
  | .run (dis, f) => ∃ stk',
      (∀ (st : Nat) (g' : CS), st < 2147483648 →
        Runs X .IFF_prettyPrint [nameArg f, .int .int (if dis then 1 else 0)] { g with stk := stk' } (.int .int st) g' →
        Runs X main (mainArgs args) g (.int .int st) { g' with stk := g'.stk.take 2 }) ∧
      ∀ u, Fails X .IFF_prettyPrint [nameArg f, .int .int (if dis then 1 else 0)] { g with stk := stk' } u →
        Fails X main (mainArgs args) g u

/-- An array of file names. -/
def namesBlk (e : Env) (inputs : List Arg) : Blk :=
  ⟨inputs.length * (e.sizeBits / 8), fun j => (inputs[j]?).elim .undef fun a => .str (String.ofList a)⟩

/-- What the text of iffjoin's `main` does if the command line means `r`: it prints the usage or the version,
complains about missing files, goes wrong if there is no memory for an array of the file names, or ends as `IFF_join`
does, called with this array, and then releases it. -/
def JoinDoes (X : Cfg) (main : Fn) (usage : List Byte) (command : String) (args : List String) (g : CS) :
    Run (Option Arg × List Arg) → Prop
  | .usage st => ∃ stk', Runs X main (mainArgs args) g (.int .int st)
      { g with stk := stk', text := g.text ++ usage }
  | .version => ∃ stk', Runs X main (mainArgs args) g (.int .int 0)
      { g with stk := stk', text := g.text ++ versionText command }
  | .noInput => ∃ stk', Runs X main (mainArgs args) g (.int .int 1) { g with stk := stk' }
  | .run (out, inputs) =>
    match X.pick g.tick (sizes g.heap) (namesBlk X.e inputs).size with
    | none => Fails X main (mainArgs args) g .nullDeref
    | some a => ∃ stk',
        let g1 : CS := { g with stk := stk', tick := g.tick + 1, heap := setHeap g.heap a (some (namesBlk X.e inputs)) }
        let vs : List V := [.ptr (.ptr (.int .char)) ⟨.heap a, 0⟩, .int .uint inputs.length, nameArg out]
        (∀ (st : Nat) (g' : CS), st < 2147483648 → g'.heap a ≠ none → Runs X .IFF_join vs g1 (.int .int st) g' →
          Runs X main (mainArgs args) g (.int .int st)
            { g' with stk := g'.stk.take 2, heap := setHeap g'.heap a none }) ∧
        ∀ u, Fails X .IFF_join vs g1 u → Fails X main (mainArgs args) g u

/-- The program has no static objects but those of the library. -/
def Cfg.Alone (X : Cfg) : Prop := ∀ k b, X.img k = some b → ∃ g : Glob, g.lib = true ∧ k = g.addr

/-- iffpp's `main`, with `getopt_long` or with `getopt`. -/
def ppFn (gnu : Bool) : Fn := if gnu then .iffpp_main else .iffpp_mainPosix

/-- iffjoin's `main`, with `getopt_long` or with `getopt`. -/
def joinFn (gnu : Bool) : Fn := if gnu then .iffjoin_main else .iffjoin_mainPosix

/-- What a command line means to iffpp: see C55. -/
def ppMeans (gnu : Bool) (args : List String) : Run (Bool × Option Arg) :=
  if gnu then ppMainLong (args.map String.toList) else ppMainPosix (args.map String.toList)

/-- What a command line means to iffjoin, if there is memory for the names: see C55. -/
def joinMeans (gnu : Bool) (args : List String) : Out (Run (Option Arg × List Arg)) :=
  if gnu then joinMainLong true (args.map String.toList) else joinMainPosix true (args.map String.toList)

/-- The input that a file name stands for; without a name, the standard input. -/
def sourceOf (X : Cfg) (inp : List Byte) : Option Arg → Source
  | some n => ⟨String.ofList n, X.files (String.ofList n)⟩
  | none => ⟨"stdin", some inp⟩

/-- The inputs of iffjoin. -/
def sourcesOf (X : Cfg) (inputs : List Arg) : List Source := inputs.map fun n => sourceOf X [] (some n)

/-! ### The variants for Visual C++ -/

/-- What `iffpp /?` prints. -/
def ppUsageMsvc (command : String) : List Byte :=
  ascii "Usage: " ++ cString command ++ ascii " [OPTION] [file.IFF]\n\n" ++ ascii (
  "The command `iffpp' displays a textual representation of a given IFF file, which\n" ++
  "can be used for manual inspection of its contents. If no IFF file is specified,\n" ++
  "it reads an IFF file from the standard input.\n" ++
  "\n" ++
  "Options:\n" ++
  "  /c    Do not check the IFF file for validity\n" ++
  "  /?    Shows the usage of this command to the user\n" ++
  "  /v    Shows the version of this command to the user\n")

/-- What `iffjoin /?` prints. -/
def joinUsageMsvc (command : String) : List Byte :=
  ascii "Usage: " ++ cString command ++ ascii " [OPTION] file1.IFF file2.IFF ...\n\n" ++ ascii (
  "The command `iffjoin' joins an aribitrary number of IFF files into a single\n" ++
  "concatenation IFF file. The result is written to the standard output, or\n" ++
  "optionally to a given destination file.\n" ++
  "\n" ++
  "Options:\n" ++
  "  /o FILE    Specify an output file name\n" ++
  "  /?         Shows the usage of this command to the user\n" ++
  "  /v         Shows the version of this command to the user\n")

/-- The first request for information on a command line. -/
def infoMsvc (args : List String) : Option String := args.find? fun a => a = "/?" ∨ a = "/v"

/-- What a command line means to iffpp: if there is no request for information, as many arguments as there are
options `/c` are skipped at the start, whatever they are, and the next one is the file. -/
def ppMeansMsvc (args : List String) : Run (Bool × Option Arg) :=
  match infoMsvc args with
  | some a => if a = "/?" then .usage 0 else .version
  | none => .run (decide ("/c" ∈ args), (args.drop (args.count "/c")).head?.map String.toList)

/-- What a command line means to iffjoin: if there is no request for information, as many arguments as there are
options `/o` are skipped at the start, whatever they are, and the others are the inputs; with an option `/o`, the
output is a file with the name `/o`. -/
def joinMeansMsvc (args : List String) : Run (Option Arg × List Arg) :=
  match infoMsvc args with
  | some a => if a = "/?" then .usage 0 else .version
  | none =>
    let rest := args.drop (args.count "/o")
    if rest = [] then .noInput
    else .run (if "/o" ∈ args then some "/o".toList else none, rest.map String.toList)

end Iff.Src
