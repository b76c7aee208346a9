import Verif.Model.C
/-
  The diagnostics of the library: every complete message that goes to the application's
  error callback (`IFF_errorCallback`, src/libiff/error.c:30).
-/
namespace Iff

/-- One complete diagnostic.  A diagnostic is emitted by one to six consecutive `IFF_error` /
`IFF_errorId` calls; those calls are listed by `Msg.calls` (Verif/Model/ErrCalls.lean). -/
inductive Msg where
  /-- error.c:52-57 `IFF_readError` -/
  | readError (chunkId : ID) (attr : String)
  /-- error.c:59-64 `IFF_writeError` -/
  | writeError (chunkId : ID) (attr : String)
  /-- io.c:217-219 -/
  | skipped (n : Int) (chunkId : ID)
  /-- io.c:239-241 -/
  | fillerFailed (n : Nat) (chunkId : ID)
  /-- io.c:259-261 -/
  | padEof (chunkId : ID)
  /-- io.c:265 -/
  | padNonZero
  /-- io.c:277-279 -/
  | padWriteFailed (chunkId : ID)
  /-- id.c:58 -/
  | illegalChar (c : Int)
  /-- id.c:67 -/
  | leadingSpace
  /-- rawchunk.c:74-76 -/
  | rawRead (chunkId : ID)
  /-- rawchunk.c:92-94 -/
  | rawWrite (chunkId : ID)
  /-- group.c:92 -/
  | truncGroup (size : Int)
  /-- group.c:121 -/
  | subWrite
  /-- group.c:152-154 -/
  | sizeMismatch (chunkId : ID) (size body : Int)
  /-- form.c:109 -/
  | formTypeChars
  /-- form.c:150-152 -/
  | formTypeReserved (formType : ID)
  /-- form.c:164-166 -/
  | notInForm (chunkId : ID)
  /-- cat.c:97-99 -/
  | notInCat (chunkId : ID)
  /-- cat.c:113 -/
  | contentsMismatch
  /-- prop.c:71-73 -/
  | notInProp (chunkId : ID)
  /-- list.c:105 -/
  | truncList (size : Int)
  /-- list.c:122 -/
  | listRead
  /-- list.c:138 -/
  | propWrite
  /-- iff.c:50 -/
  | mainChunk
  /-- iff.c:57 -/
  | trailing (byte : Nat)
  /-- iff.c:71 and iff.c:105 -/
  | cannotOpen (filename : String)
  /-- iff.c:135 -/
  | notIff85
  /-- a diagnostic of an application-defined check function (e.g. tests/hello.c:93-102) -/
  | app
  deriving DecidableEq, Repr

end Iff
