import Verif.Src.Code.Names
/-
  Syntax of the part of C the library is written in.  The terms of Verif/Src/Code are transcriptions
  of the sources made by tools/c2lean.py; their meaning is defined in Verif/Src/Sem.lean.
-/
namespace Iff.Src

/-- Integer types. -/
inductive ITy where
  | char | uchar | short | ushort | int | uint | long | size
  deriving DecidableEq, Repr

/-- Types, with typedef names replaced and qualifiers dropped.  `fn` is any function pointer. -/
inductive Ty where
  | void
  | int (t : ITy)
  | ptr (t : Ty)
  | struct (s : Struct)
  | arr (n : Nat) (t : Ty)
  | file
  | fn
  deriving DecidableEq, Repr

/-- Binary operators. -/
inductive BinOp where
  | add | sub | mul | div | mod | shl | shr | band | bor | bxor | eq | ne | lt | gt | le | ge
  deriving DecidableEq, Repr

/-- The standard streams. -/
inductive Stream where
  | stdin | stdout | stderr
  deriving DecidableEq, Repr

mutual

/-- Expressions. -/
inductive Expr where
  | num (t : ITy) (n : Int)
  | str (s : String)
  | null
  | eof
  | seekCur
  /-- the variables of getopt.h -/
  | optarg
  | optind
  | stream (s : Stream)
  | fn (f : Fn)
  | var (x : Var)
  | glob (g : Glob)
  | addr (e : Expr)
  | deref (e : Expr)
  | arrow (e : Expr) (m : Member)
  | dot (e : Expr) (m : Member)
  | index (e i : Expr)
  | not (e : Expr)
  | neg (e : Expr)
  | bin (o : BinOp) (a b : Expr)
  | land (a b : Expr)
  | lor (a b : Expr)
  | cast (t : Ty) (e : Expr)
  | sizeof (t : Ty)
  | assign (l r : Expr)
  | assignOp (o : BinOp) (l r : Expr)
  /-- `l++` -/
  | inc (l : Expr)
  | call (f : Expr) (args : Args)

/-- The arguments of a call. -/
inductive Args where
  | nil
  | cons (e : Expr) (es : Args)

end

/-- An initialiser of a scalar of an object. -/
inductive Init where
  | expr (e : Expr)
  | fn (f : Fn)
  | null
  | glob (g : Glob)

mutual

/-- Statements.  `decl` declares a variable, `object` one whose address is used (or an array, or a
struct), `aggregate` an array or a struct with an initialiser; `endian` is `#if IFF_BIG_ENDIAN == 1 … #else … #endif`. -/
inductive Stmt where
  | skip
  | expr (e : Expr)
  | seq (a b : Stmt)
  | ite (c : Expr) (a b : Stmt)
  | while (c : Expr) (b : Stmt)
  | for (i c s : Expr) (b : Stmt)
  | ret (e : Expr)
  | retVoid
  | break
  | decl (x : Var) (t : Ty) (i : Option Expr)
  | object (x : Var) (t : Ty) (i : Option Expr)
  | aggregate (x : Var) (t : Ty) (is : List Init)
  | switch (e : Expr) (c : Cases)
  | endian (big little : Stmt)

/-- The body of a `switch`. -/
inductive Cases where
  | nil
  | case (e : Expr) (s : Stmt) (rest : Cases)
  | default (s : Stmt) (rest : Cases)

end

/-- A function. -/
structure Fun where
  params : List (Var × Ty)
  ret : Ty
  body : Stmt

end Iff.Src
