import Verif.Model.ErrCalls
import Verif.Model.Id
import Verif.Model.Print
/-
  The text of the diagnostics, as error.c:25-39 sends it to standard error: the calls of `IFF_error`
  with the values of their arguments, and `vfprintf`.
-/
namespace Iff

/-- An argument after the default argument promotions. -/
inductive CArg where
  | int (v : Int)
  | unsigned (v : Nat)
  | long (v : Int)
  | sizeT (v : Nat)
  | charPtr (s : List Byte)
  | intPtr

/-- The type of an argument. -/
def CArg.type : CArg → CType
  | .int _ => .int
  | .unsigned _ => .unsigned
  | .long _ => .long
  | .sizeT _ => .sizeT
  | .charPtr _ => .charPtr
  | .intPtr => .intPtr

/-- One call of `IFF_error`, with values. -/
structure ErrPrint where
  fmt : String
  args : List CArg

/-- The bytes of a C string (file and attribute names; UTF-8 for characters that are not ASCII). -/
def cString (s : String) : List Byte := s.toByteArray.data.toList.map UInt8.toBitVec

/-- error.c:41-50 `IFF_errorId`: the characters, promoted to `int`. -/
def idPrints (e : Env) (id : ID) : List ErrPrint :=
  (idToString id).map fun b => ⟨"%c", [.int (charVal e b)]⟩

/-- The calls that emit a diagnostic; the lines are those of `Msg.calls`. -/
def Msg.prints (e : Env) : Msg → List ErrPrint
  -- error.c:52-57
  | .readError id a => ⟨"Error reading '", []⟩ :: idPrints e id ++ [⟨"'.%s\n", [.charPtr (cString a)]⟩]
  -- error.c:59-64
  | .writeError id a => ⟨"Error writing '", []⟩ :: idPrints e id ++ [⟨"'.%s\n", [.charPtr (cString a)]⟩]
  -- io.c:217-219
  | .skipped n id =>
    ⟨"Cannot skip: %d bytes in data chunk: '", [.long n]⟩ :: idPrints e id ++ [⟨"'\n", []⟩]
  -- io.c:239-241
  | .fillerFailed n id =>
    ⟨"Cannot write: %u zero bytes in data chunk: '", [.sizeT n]⟩ :: idPrints e id ++ [⟨"'\n", []⟩]
  -- io.c:259-261
  | .padEof id =>
    ⟨"Unexpected end of file, while reading padding byte of '", []⟩ :: idPrints e id ++ [⟨"'\n", []⟩]
  -- io.c:265
  | .padNonZero => [⟨"WARNING: Padding byte is non-zero!\n", []⟩]
  -- io.c:277-279
  | .padWriteFailed id => ⟨"Cannot write padding byte of '", []⟩ :: idPrints e id ++ [⟨"'\n", []⟩]
  -- id.c:58
  | .illegalChar c => [⟨"Illegal character: '%c' in ID!\n", [.int c]⟩]
  -- id.c:67
  | .leadingSpace => [⟨"Spaces may not precede an ID!\n", []⟩]
  -- rawchunk.c:74-76
  | .rawRead id => ⟨"Error reading raw chunk body of chunk: '", []⟩ :: idPrints e id ++ [⟨"'\n", []⟩]
  -- rawchunk.c:92-94
  | .rawWrite id => ⟨"Error writing raw chunk body of chunk '", []⟩ :: idPrints e id ++ [⟨"'\n", []⟩]
  -- group.c:92
  | .truncGroup size =>
    [⟨"WARNING: truncated group chunk! The size specifies: %d but the total amount of its sub chunks is: %d bytes. The parser may get confused!\n",
      [.int size, .intPtr]⟩]
  -- group.c:121
  | .subWrite => [⟨"Error writing chunk!\n", []⟩]
  -- group.c:152-154
  | .sizeMismatch id size body =>
    ⟨"Chunk size mismatch! ", []⟩ :: idPrints e id ++
      [⟨" size: %d, while body has: %d\n", [.int size, .int body]⟩]
  -- form.c:109
  | .formTypeChars =>
    [⟨"No lowercase characters or punctuation marks allowed in a form type ID!\n", []⟩]
  -- form.c:150-152
  | .formTypeReserved id => ⟨"Form type: '", []⟩ :: idPrints e id ++ [⟨"' not allowed!\n", []⟩]
  -- form.c:164-166
  | .notInForm id =>
    ⟨"ERROR: Element with chunk Id: '", []⟩ :: idPrints e id ++ [⟨"' not allowed in FORM chunk!\n", []⟩]
  -- cat.c:97-99
  | .notInCat id =>
    ⟨"ERROR: Element with chunk Id: '", []⟩ :: idPrints e id ++ [⟨"' not allowed in CAT chunk!\n", []⟩]
  -- cat.c:113
  | .contentsMismatch => [⟨"Sub form does not match contentsType of the CAT!\n", []⟩]
  -- prop.c:71-73
  | .notInProp id =>
    ⟨"ERROR: Element with chunk Id: '", []⟩ :: idPrints e id ++ [⟨"' not allowed in PROP chunk!\n", []⟩]
  -- list.c:105
  | .truncList size =>
    [⟨"WARNING: truncated LIST chunk! The size specifies: %d but the total amount of its sub chunks is: %d bytes. The parser may get confused!\n",
      [.int size, .intPtr]⟩]
  -- list.c:122
  | .listRead => [⟨"Error reading chunk in list!\n", []⟩]
  -- list.c:138
  | .propWrite => [⟨"Error writing PROP!\n", []⟩]
  -- iff.c:50
  | .mainChunk => [⟨"ERROR: cannot open main chunk!\n", []⟩]
  -- iff.c:57
  | .trailing b => [⟨"WARNING: Trailing IFF contents found: %d!\n", [.int b]⟩]
  -- iff.c:71, 105
  | .cannotOpen n => [⟨"ERROR: cannot open file: %s\n", [.charPtr (cString n)]⟩]
  -- iff.c:135
  | .notIff85 =>
    [⟨"Not a valid IFF-85 file: First bytes should start with either: 'FORM', 'CAT ' or 'LIST'\n",
      []⟩]
  -- tests/hello.c:88, the only call of an application
  | .app => [⟨"'HELO'.c must be between 0 and 1024\n", []⟩]

/-- C library `vfprintf`, for the conversions the code uses.  `%c` converts its argument to
`unsigned char`; `%x` and `%u` take an `unsigned int`, or an `int` that is not negative. -/
def vprintf : List Char → List CArg → Out (List Byte)
  | [], _ => .val []
  | '%' :: 'd' :: cs, .int v :: as => do let r ← vprintf cs as; .val (decimal v ++ r)
  | '%' :: 'u' :: cs, .unsigned v :: as => do let r ← vprintf cs as; .val (decimal v ++ r)
  | '%' :: 'u' :: cs, .int v :: as =>
    if 0 ≤ v then do
      let r ← vprintf cs as
      .val (decimal v ++ r)
    else .ub .badArgument
  | '%' :: 'c' :: cs, .int v :: as => do let r ← vprintf cs as; .val ([BitVec.ofInt 8 v] ++ r)
  | '%' :: 's' :: cs, .charPtr s :: as => do let r ← vprintf cs as; .val (s ++ r)
  | '%' :: 'x' :: cs, .int v :: as =>
    if 0 ≤ v then do
      let r ← vprintf cs as
      .val ((Nat.toDigits 16 v.toNat).map (fun c => BitVec.ofNat 8 c.toNat) ++ r)
    else .ub .badArgument
  | '%' :: _, _ => .ub .badArgument
  | c :: cs, as => do let r ← vprintf cs as; .val ([BitVec.ofNat 8 c.toNat] ++ r)

/-- error.c:25-39 `IFF_error`, several calls. -/
def printCalls : List ErrPrint → Out (List Byte)
  | [] => .val []
  | c :: cs => do
    let a ← vprintf c.fmt.toList c.args
    let b ← printCalls cs
    .val (a ++ b)

/-- What standard error receives. -/
def stderrText (e : Env) : List Msg → Out (List Byte)
  | [] => .val []
  | m :: ms => do
    let a ← printCalls (m.prints e)
    let b ← stderrText e ms
    .val (a ++ b)

end Iff
