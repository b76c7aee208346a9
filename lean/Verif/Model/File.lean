import Verif.Model.Read
import Verif.Model.Write
/-
  Model of iff.c:63-120: reading and writing named files and the standard streams.
-/
namespace Iff

/-- A destination that may be opened for writing: its name, whether `fopen` succeeds, how many bytes
the medium can store, and how many further bytes the stdio buffer takes before a write call reports
an error (0 for an unbuffered stream).  For `stdout`, `opens` is `true`. -/
structure Dest where
  name : String
  opens : Bool
  cap : Nat
  slack : Nat
  deriving Repr

/-- iff.c:98-112 `IFF_writeFile` and 114-120 `IFF_write`: the result, and what the medium holds after
`fclose` (or, for `stdout`, after the program exits) flushed the stream, `none` if it was never
opened.  The result of `fclose` is not looked at by the code. -/
def writeFile (e : Env) (reg : Option Registry) (c : Chunk) (d : Dest) :
    M (List Msg) (Bool × Option (List Byte)) := fun log =>
  if d.opens then
    match writeFd e reg c ⟨[], d.cap + d.slack, log⟩ with
    | .val (ok, s) => .val ((ok, some (s.out.take d.cap)), s.log)
    | .ub u => .ub u
    | .loop => .loop
  else .val ((false, none), log ++ [.cannotOpen d.name])

/-- iff.c:63-83 `IFF_readFile` and 85-91 `IFF_read`: the file's contents, `none` if `fopen` fails. -/
def readFile (e : Env) (reg : Option Registry) (name : String) (contents : Option (List Byte)) :
    M (List Msg) (Option Chunk) := fun log =>
  match contents with
  | none => .val (none, log ++ [.cannotOpen name])
  | some bs =>
    match readFd e reg ⟨bs, log⟩ with
    | .val (c, s) => .val (c, s.log)
    | .ub u => .ub u
    | .loop => .loop

end Iff
