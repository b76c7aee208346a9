import Verif.Heap.Build
import Verif.Heap.Write
import Verif.Heap.Check
import Verif.Heap.Print
import Verif.Model.Tools
/-
  The command-line tools with their memory: src/iffjoin/join.c and src/iffpp/pp.c.
-/
namespace Iff.Heap

/-- The state of a tool: the heap, the number of requests to the allocator, and the diagnostics. -/
abbrev TS := HX (List Msg)

/-- A call of the library that reads, builds or frees. -/
def lib {α : Type} (m : M HS α) : M TS α := fun s =>
  match m ⟨s.mem, s.tick, ⟨[], s.st⟩⟩ with
  | .val (a, h) => .val (a, ⟨h.mem, h.tick, h.rs.log⟩)
  | .ub u => .ub u
  | .loop => .loop

/-- A call that prints to the standard output: the bytes printed. -/
def printed (m : M (HX (List Byte)) Unit) : M TS (List Byte) := fun s =>
  match m ⟨s.mem, s.tick, []⟩ with
  | .val (_, h) => .val (h.st, ⟨h.mem, h.tick, s.st⟩)
  | .ub u => .ub u
  | .loop => .loop

/-- pp.c:25-55 `IFF_prettyPrint`: the exit status and the standard output; `n` bounds the nesting
depth. -/
def prettyPrint (A : Alloc) (e : Env) (n : Nat) (f : Source) (disableCheck : Bool) :
    M TS (Nat × List Byte) := do
  let chunk ← lib (readFile A e none f.name f.contents)
  if chunk = 0 then pure (1, [])
  else
    let ok ← (if disableCheck then pure true else check e none n chunk)
    if ok then
      let out ← printed (print none n 0 chunk)
      lib (iffFree none n chunk)
      pure (0, out)
    else
      lib (iffFree none n chunk)
      pure (1, [])

/-- iff.c:98-112 `IFF_writeFile` and 114-120 `IFF_write`, as `Iff.writeFile`. -/
def writeFile (A : Alloc) (e : Env) (reg : Option Registry) (n : Nat) (p : Addr) (d : Dest) :
    M TS (Bool × Option (List Byte)) := fun s =>
  if d.opens then
    match writeFd A e reg n p ⟨s.mem, s.tick, ⟨[], d.cap + d.slack, s.st⟩⟩ with
    | .val (ok, h) => .val ((ok, some (h.st.out.take d.cap)), ⟨h.mem, h.tick, h.st.log⟩)
    | .ub u => .ub u
    | .loop => .loop
  else .val ((false, none), ⟨s.mem, s.tick, s.st ++ [.cannotOpen d.name]⟩)

/-- join.c:38-52: the loop over the input files; `false` if it returned from `IFF_join`. -/
def joinInputs (A : Alloc) (e : Env) (n : Nat) (cat : Addr) : List Source → M TS Bool
  | [] => pure true
  | f :: fs => do
    let chunk ← lib (readFile A e none f.name f.contents)
    let ok ← (if chunk = 0 then pure false else check e none n chunk)
    if ok then
      lib (addAndUpdate A e cat chunk)
      joinInputs A e n cat fs
    else
      lib (iffFree none n cat)
      pure false

/-- join.c:31-61 `IFF_join`: the exit status, and the contents of the destination, `none` if it was
not opened.  The result of `IFF_createEmptyCAT` is not checked. -/
def join (A : Alloc) (e : Env) (n : Nat) (files : List Source) (d : Dest) :
    M TS (Nat × Option (List Byte)) := do
  let cat ← lib (createEmptyGroup A idCAT idJJJJ)
  if ← joinInputs A e n cat files then
    let (ok, out) ← writeFile A e none n cat d
    lib (iffFree none n cat)
    pure (if ok then 0 else 1, out)
  else pure (1, none)

end Iff.Heap
