import Verif.Model.Getopt
/-
  The command lines of the tools and their meaning, as the usage texts describe them
  (iffjoin/main.c:33-56, iffpp/main.c:32-54) with the conventions for option arguments:
  options may be abbreviated and mixed with file names (`gnu`), or have one letter and come first.
-/
namespace Iff.Spec

/-- Not an option: empty, a single dash, or not beginning with a dash. -/
def Operand (a : Arg) : Prop := a = ['-'] ∨ a.head? ≠ some '-'

/-- `--output-file` -/
def outputFile : Arg := ['o', 'u', 't', 'p', 'u', 't', '-', 'f', 'i', 'l', 'e']
/-- `--disable-check` -/
def disableCheck : Arg := ['d', 'i', 's', 'a', 'b', 'l', 'e', '-', 'c', 'h', 'e', 'c', 'k']
/-- `--help` -/
def help : Arg := ['h', 'e', 'l', 'p']
/-- `--version` -/
def version : Arg := ['v', 'e', 'r', 's', 'i', 'o', 'n']

/-- An abbreviation of a long option, at least one letter. -/
def Abbr (p name : Arg) : Prop := p ≠ [] ∧ p <+: name

/-- The meaning of a command line of iffjoin: the output file (the last one given, or none) and
the input files in their order; or a request for information; or a wrong use. -/
inductive JoinLine (gnu : Bool) : List Arg → Run (Option Arg × List Arg) → Prop where
  | nil : JoinLine gnu [] (.run (none, []))
  /-- `--` ends the options -/
  | dashes (fs : List Arg) : JoinLine gnu (['-', '-'] :: fs) (.run (none, fs))
  /-- an input file among the options -/
  | operand {a as m} : gnu = true → Operand a → JoinLine gnu as m →
      JoinLine gnu (a :: as) (m.map fun p => (p.1, a :: p.2))
  /-- the first input file ends the options -/
  | operands {a as} : gnu = false → Operand a → JoinLine gnu (a :: as) (.run (none, a :: as))
  /-- `-o FILE` -/
  | apart {f as m} : JoinLine gnu as m →
      JoinLine gnu (['-', 'o'] :: f :: as) (m.map fun p => (some (p.1.getD f), p.2))
  /-- `-oFILE` -/
  | joined {f as m} : f ≠ [] → JoinLine gnu as m →
      JoinLine gnu (('-' :: 'o' :: f) :: as) (m.map fun p => (some (p.1.getD f), p.2))
  /-- `--output-file FILE` -/
  | long {p f as m} : gnu = true → Abbr p outputFile → JoinLine gnu as m →
      JoinLine gnu (('-' :: '-' :: p) :: f :: as) (m.map fun p => (some (p.1.getD f), p.2))
  /-- `--output-file=FILE` -/
  | longEq {p f as m} : gnu = true → Abbr p outputFile → JoinLine gnu as m →
      JoinLine gnu (('-' :: '-' :: (p ++ '=' :: f)) :: as) (m.map fun p => (some (p.1.getD f), p.2))
  /-- `-h` -/
  | help {cs as} : JoinLine gnu (('-' :: 'h' :: cs) :: as) (.usage 0)
  /-- `-v` -/
  | version {cs as} : JoinLine gnu (('-' :: 'v' :: cs) :: as) .version
  /-- `--help` -/
  | longHelp {p as} : gnu = true → Abbr p help → JoinLine gnu (('-' :: '-' :: p) :: as) (.usage 0)
  /-- `--version` -/
  | longVersion {p as} : gnu = true → Abbr p version →
      JoinLine gnu (('-' :: '-' :: p) :: as) .version
  /-- an unknown letter; without long options a dash is one too -/
  | unknown {c cs as} : c ≠ 'o' → c ≠ 'h' → c ≠ 'v' → (c = '-' → gnu = false ∧ cs ≠ []) →
      JoinLine gnu (('-' :: c :: cs) :: as) (.usage 1)
  /-- an unknown long option, with or without `=VALUE` -/
  | unknownLong {p q as} : gnu = true → '=' ∉ p → p ++ q ≠ [] → (q = [] ∨ q.head? = some '=') →
      ¬ Abbr p outputFile → ¬ Abbr p help → ¬ Abbr p version →
      JoinLine gnu (('-' :: '-' :: (p ++ q)) :: as) (.usage 1)
  /-- `--help=VALUE`, `--version=VALUE` -/
  | needless {p v as} : gnu = true → Abbr p help ∨ Abbr p version →
      JoinLine gnu (('-' :: '-' :: (p ++ '=' :: v)) :: as) (.usage 1)
  /-- `-o` without a file -/
  | missing : JoinLine gnu [['-', 'o']] (.usage 1)
  /-- `--output-file` without a file -/
  | missingLong {p} : gnu = true → Abbr p outputFile → JoinLine gnu ['-' :: '-' :: p] (.usage 1)

/-- iffjoin without input files is a wrong use. -/
def needInput : Run (Option Arg × List Arg) → Run (Option Arg × List Arg)
  | .run (_, []) => .noInput
  | m => m

/-- The meaning of a command line of iffpp: whether the check is disabled, and the file names. -/
inductive PpLine (gnu : Bool) : List Arg → Run (Bool × List Arg) → Prop where
  | nil : PpLine gnu [] (.run (false, []))
  /-- `--` ends the options -/
  | dashes (fs : List Arg) : PpLine gnu (['-', '-'] :: fs) (.run (false, fs))
  /-- a file among the options -/
  | operand {a as m} : gnu = true → Operand a → PpLine gnu as m →
      PpLine gnu (a :: as) (m.map fun p => (p.1, a :: p.2))
  /-- the first file ends the options -/
  | operands {a as} : gnu = false → Operand a → PpLine gnu (a :: as) (.run (false, a :: as))
  /-- `-c`, `-cc`, ... -/
  | check {n as m} : PpLine gnu as m →
      PpLine gnu (('-' :: List.replicate (n + 1) 'c') :: as) (m.map fun p => (true, p.2))
  /-- `--disable-check` -/
  | long {p as m} : gnu = true → Abbr p disableCheck → PpLine gnu as m →
      PpLine gnu (('-' :: '-' :: p) :: as) (m.map fun p => (true, p.2))
  /-- `-h`, `-ch`, ... -/
  | help {n cs as} : PpLine gnu (('-' :: (List.replicate n 'c' ++ 'h' :: cs)) :: as) (.usage 0)
  /-- `-v`, `-cv`, ... -/
  | version {n cs as} : PpLine gnu (('-' :: (List.replicate n 'c' ++ 'v' :: cs)) :: as) .version
  /-- `--help` -/
  | longHelp {p as} : gnu = true → Abbr p help → PpLine gnu (('-' :: '-' :: p) :: as) (.usage 0)
  /-- `--version` -/
  | longVersion {p as} : gnu = true → Abbr p version →
      PpLine gnu (('-' :: '-' :: p) :: as) .version
  /-- an unknown letter; without long options a dash is one too -/
  | unknown {n c cs as} : c ≠ 'c' → c ≠ 'h' → c ≠ 'v' →
      (c = '-' → n = 0 → gnu = false ∧ cs ≠ []) →
      PpLine gnu (('-' :: (List.replicate n 'c' ++ c :: cs)) :: as) (.usage 1)
  /-- an unknown long option, with or without `=VALUE` -/
  | unknownLong {p q as} : gnu = true → '=' ∉ p → p ++ q ≠ [] → (q = [] ∨ q.head? = some '=') →
      ¬ Abbr p disableCheck → ¬ Abbr p help → ¬ Abbr p version →
      PpLine gnu (('-' :: '-' :: (p ++ q)) :: as) (.usage 1)
  /-- `--disable-check=VALUE`, `--help=VALUE`, `--version=VALUE` -/
  | needless {p v as} : gnu = true → Abbr p disableCheck ∨ Abbr p help ∨ Abbr p version →
      PpLine gnu (('-' :: '-' :: (p ++ '=' :: v)) :: as) (.usage 1)

end Iff.Spec
