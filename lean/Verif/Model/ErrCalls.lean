import Verif.Model.Msg
/-
  The calls of `IFF_error` (error.c:32-39) behind every diagnostic: the format string and the types
  of the variadic arguments, after the default argument promotions.
-/
namespace Iff

/-- The types of the arguments that occur. -/
inductive CType where
  | int | unsigned | long | sizeT | charPtr | intPtr
  deriving DecidableEq, Repr

/-- One call of `IFF_error`. -/
structure ErrCall where
  fmt : String
  args : List CType

/-- error.c:41-50 `IFF_errorId`: four characters (`char` is promoted to `int`). -/
def idCalls : List ErrCall := List.replicate 4 ⟨"%c", [.int]⟩

/-- The calls that emit a diagnostic. -/
def Msg.calls : Msg → List ErrCall
  -- error.c:52-57
  | .readError _ _ => ⟨"Error reading '", []⟩ :: idCalls ++ [⟨"'.%s\n", [.charPtr]⟩]
  -- error.c:59-64
  | .writeError _ _ => ⟨"Error writing '", []⟩ :: idCalls ++ [⟨"'.%s\n", [.charPtr]⟩]
  -- io.c:217-219: `bytesToSkip` is a `long`
  | .skipped _ _ =>
    ⟨"Cannot skip: %d bytes in data chunk: '", [.long]⟩ :: idCalls ++ [⟨"'\n", []⟩]
  -- io.c:239-241: `bytesToSkip` is a `size_t`
  | .fillerFailed _ _ =>
    ⟨"Cannot write: %u zero bytes in data chunk: '", [.sizeT]⟩ :: idCalls ++ [⟨"'\n", []⟩]
  -- io.c:259-261
  | .padEof _ =>
    ⟨"Unexpected end of file, while reading padding byte of '", []⟩ :: idCalls ++ [⟨"'\n", []⟩]
  -- io.c:265
  | .padNonZero => [⟨"WARNING: Padding byte is non-zero!\n", []⟩]
  -- io.c:277-279
  | .padWriteFailed _ => ⟨"Cannot write padding byte of '", []⟩ :: idCalls ++ [⟨"'\n", []⟩]
  -- id.c:58
  | .illegalChar _ => [⟨"Illegal character: '%c' in ID!\n", [.int]⟩]
  -- id.c:67
  | .leadingSpace => [⟨"Spaces may not precede an ID!\n", []⟩]
  -- rawchunk.c:74-76
  | .rawRead _ => ⟨"Error reading raw chunk body of chunk: '", []⟩ :: idCalls ++ [⟨"'\n", []⟩]
  -- rawchunk.c:92-94
  | .rawWrite _ => ⟨"Error writing raw chunk body of chunk '", []⟩ :: idCalls ++ [⟨"'\n", []⟩]
  -- group.c:92: `bytesProcessed` is a pointer to `IFF_Long`
  | .truncGroup _ =>
    [⟨"WARNING: truncated group chunk! The size specifies: %d but the total amount of its sub chunks is: %d bytes. The parser may get confused!\n",
      [.int, .intPtr]⟩]
  -- group.c:121
  | .subWrite => [⟨"Error writing chunk!\n", []⟩]
  -- group.c:152-154
  | .sizeMismatch _ _ _ =>
    ⟨"Chunk size mismatch! ", []⟩ :: idCalls ++ [⟨" size: %d, while body has: %d\n", [.int, .int]⟩]
  -- form.c:109
  | .formTypeChars =>
    [⟨"No lowercase characters or punctuation marks allowed in a form type ID!\n", []⟩]
  -- form.c:150-152
  | .formTypeReserved _ => ⟨"Form type: '", []⟩ :: idCalls ++ [⟨"' not allowed!\n", []⟩]
  -- form.c:164-166
  | .notInForm _ =>
    ⟨"ERROR: Element with chunk Id: '", []⟩ :: idCalls ++ [⟨"' not allowed in FORM chunk!\n", []⟩]
  -- cat.c:97-99
  | .notInCat _ =>
    ⟨"ERROR: Element with chunk Id: '", []⟩ :: idCalls ++ [⟨"' not allowed in CAT chunk!\n", []⟩]
  -- cat.c:113
  | .contentsMismatch => [⟨"Sub form does not match contentsType of the CAT!\n", []⟩]
  -- prop.c:71-73
  | .notInProp _ =>
    ⟨"ERROR: Element with chunk Id: '", []⟩ :: idCalls ++ [⟨"' not allowed in PROP chunk!\n", []⟩]
  -- list.c:105: `bytesProcessed` is a pointer to `IFF_Long`
  | .truncList _ =>
    [⟨"WARNING: truncated LIST chunk! The size specifies: %d but the total amount of its sub chunks is: %d bytes. The parser may get confused!\n",
      [.int, .intPtr]⟩]
  -- list.c:122
  | .listRead => [⟨"Error reading chunk in list!\n", []⟩]
  -- list.c:138
  | .propWrite => [⟨"Error writing PROP!\n", []⟩]
  -- iff.c:50
  | .mainChunk => [⟨"ERROR: cannot open main chunk!\n", []⟩]
  -- iff.c:57
  | .trailing _ => [⟨"WARNING: Trailing IFF contents found: %d!\n", [.int]⟩]
  -- iff.c:71, 105
  | .cannotOpen _ => [⟨"ERROR: cannot open file: %s\n", [.charPtr]⟩]
  -- iff.c:135
  | .notIff85 =>
    [⟨"Not a valid IFF-85 file: First bytes should start with either: 'FORM', 'CAT ' or 'LIST'\n",
      []⟩]
  -- tests/hello.c:88, the only call of an application
  | .app => [⟨"'HELO'.c must be between 0 and 1024\n", []⟩]

end Iff
