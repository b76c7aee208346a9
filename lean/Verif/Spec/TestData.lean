import Verif.Spec.Tree
import Verif.Spec.Conform
import Verif.Src.Sem
/-
  The files of test data: what the programs tests/write*.c are to write and tests/read*.c are to recognise.
-/
namespace Iff.Spec

open Iff.Src

/-- The five pairs of test programs. -/
inductive Fixture
  | form
  | pad
  | cat
  | nested
  | list
  deriving DecidableEq

namespace Fixture

/-- The program that writes the file. -/
def writer : Fixture → Fn
  | form => .writeform_main
  | pad => .writeform_pad_main
  | cat => .writecat_main
  | nested => .writenestedform_main
  | list => .writelist_main

/-- The program that reads the file. -/
def reader : Fixture → Fn
  | form => .readform_main
  | pad => .readform_pad_main
  | cat => .readcat_main
  | nested => .readnestedform_main
  | list => .readlist_main

/-- The name of the file. -/
def file : Fixture → String
  | form => "hello.TEST"
  | pad => "hello-pad.TEST"
  | cat => "cat.TEST"
  | nested => "nestedform.TEST"
  | list => "list.TEST"

/-- The bytes of the file. -/
def bytes : Fixture → List Byte
  | form =>
    [0x46, 0x4f, 0x52, 0x4d, 0, 0, 0, 28, 0x54, 0x45, 0x53, 0x54,
     0x48, 0x45, 0x4c, 0x4f, 0, 0, 0, 4, 0x61, 0x62, 0x63, 0x64,
     0x42, 0x59, 0x45, 0x20, 0, 0, 0, 4, 0x45, 0x46, 0x47, 0x48]
  | pad =>
    [0x46, 0x4f, 0x52, 0x4d, 0, 0, 0, 30, 0x54, 0x45, 0x53, 0x54,
     0x48, 0x45, 0x4c, 0x4f, 0, 0, 0, 4, 0x61, 0x62, 0x63, 0x64,
     0x42, 0x59, 0x45, 0x20, 0, 0, 0, 5, 0x45, 0x46, 0x47, 0x48, 0x49, 0]
  | cat =>
    [0x43, 0x41, 0x54, 0x20, 0, 0, 0, 78, 0x54, 0x45, 0x53, 0x54,
     0x46, 0x4f, 0x52, 0x4d, 0, 0, 0, 28, 0x54, 0x45, 0x53, 0x54,
     0x48, 0x45, 0x4c, 0x4f, 0, 0, 0, 4, 0x61, 0x62, 0x63, 0x64,
     0x42, 0x59, 0x45, 0x20, 0, 0, 0, 3, 0x45, 0x46, 0x47, 0,
     0x46, 0x4f, 0x52, 0x4d, 0, 0, 0, 30, 0x54, 0x45, 0x53, 0x54,
     0x48, 0x45, 0x4c, 0x4f, 0, 0, 0, 5, 0x61, 0x62, 0x63, 0x64, 0x65, 0,
     0x42, 0x59, 0x45, 0x20, 0, 0, 0, 4, 0x46, 0x47, 0x48, 0x49]
  | nested =>
    [0x46, 0x4f, 0x52, 0x4d, 0, 0, 0, 78, 0x42, 0x4c, 0x41, 0x20,
     0x46, 0x4f, 0x52, 0x4d, 0, 0, 0, 28, 0x54, 0x45, 0x53, 0x54,
     0x48, 0x45, 0x4c, 0x4f, 0, 0, 0, 4, 0x61, 0x62, 0x63, 0x64,
     0x42, 0x59, 0x45, 0x20, 0, 0, 0, 3, 0x45, 0x46, 0x47, 0,
     0x46, 0x4f, 0x52, 0x4d, 0, 0, 0, 30, 0x54, 0x45, 0x53, 0x54,
     0x48, 0x45, 0x4c, 0x4f, 0, 0, 0, 5, 0x61, 0x62, 0x63, 0x64, 0x65, 0,
     0x42, 0x59, 0x45, 0x20, 0, 0, 0, 4, 0x46, 0x47, 0x48, 0x49]
  | list =>
    [0x4c, 0x49, 0x53, 0x54, 0, 0, 0, 76, 0x54, 0x45, 0x53, 0x54,
     0x50, 0x52, 0x4f, 0x50, 0, 0, 0, 16, 0x54, 0x45, 0x53, 0x54,
     0x48, 0x45, 0x4c, 0x4f, 0, 0, 0, 4, 0x71, 0x77, 0x65, 0x72,
     0x46, 0x4f, 0x52, 0x4d, 0, 0, 0, 16, 0x54, 0x45, 0x53, 0x54,
     0x42, 0x59, 0x45, 0x20, 0, 0, 0, 4, 0x61, 0x62, 0x63, 0x64,
     0x46, 0x4f, 0x52, 0x4d, 0, 0, 0, 16, 0x54, 0x45, 0x53, 0x54,
     0x42, 0x59, 0x45, 0x20, 0, 0, 0, 4, 0x45, 0x46, 0x47, 0x48]

/-- A data chunk HELO. -/
def helo (data : List Byte) : Chunk := .raw 0x48454c4f data.length data

/-- A data chunk BYE. -/
def bye (data : List Byte) : Chunk := .raw 0x42594520 data.length data

/-- A FORM of type TEST of the given size. -/
def testForm (size : Int) (subs : List Chunk) : Chunk := .grp idFORM size 0x54455354 subs

/-- The hierarchy in the file. -/
def chunk : Fixture → Chunk
  | form => testForm 28 [helo [0x61, 0x62, 0x63, 0x64], bye [0x45, 0x46, 0x47, 0x48]]
  | pad => testForm 30 [helo [0x61, 0x62, 0x63, 0x64], bye [0x45, 0x46, 0x47, 0x48, 0x49]]
  | cat => .grp idCAT 78 0x54455354
      [testForm 28 [helo [0x61, 0x62, 0x63, 0x64], bye [0x45, 0x46, 0x47]],
       testForm 30 [helo [0x61, 0x62, 0x63, 0x64, 0x65], bye [0x46, 0x47, 0x48, 0x49]]]
  | nested => .grp idFORM 78 0x424c4120
      [testForm 28 [helo [0x61, 0x62, 0x63, 0x64], bye [0x45, 0x46, 0x47]],
       testForm 30 [helo [0x61, 0x62, 0x63, 0x64, 0x65], bye [0x46, 0x47, 0x48, 0x49]]]
  | list => .lst idLIST 76 0x54455354
      [testForm 16 [bye [0x61, 0x62, 0x63, 0x64]], testForm 16 [bye [0x45, 0x46, 0x47, 0x48]]]
      [.grp idPROP 16 0x54455354 [helo [0x71, 0x77, 0x65, 0x72]]]

/-- The file begins with an encoding of the hierarchy.  (Padding bytes, the position of the PROP in the LIST, and what
follows the hierarchy are arbitrary.) -/
def Begins (d : Fixture) (bs : List Byte) : Prop := ∃ w rest, bs = w ++ rest ∧ Encodes False w d.chunk

end Fixture

end Iff.Spec
