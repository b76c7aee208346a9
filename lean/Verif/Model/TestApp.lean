import Verif.Model.Registry
/-
  The application format of tests/: test.c, hello.c, bye.c (the same as in README.md).
-/
namespace Iff

/-- tests/hello.h: the fields of `TEST_Hello`, in the order of tests/hello.c:48-63; the check is
tests/hello.c:82-93 (`c` is unsigned, so `c < 0` never holds). -/
def helloType : Handler :=
  .ext [⟨"a", .ubyte⟩, ⟨"b", .ubyte⟩, ⟨"c", .uword⟩] fun vals =>
    match vals with
    | [_, _, .uword c] => c.toNat ≤ 1024
    | _ => true

/-- tests/bye.h: the fields of `TEST_Bye`, in the order of tests/bye.c:47-59; the check is
tests/bye.c:75-78. -/
def byeType : Handler := .ext [⟨"one", .long⟩, ⟨"two", .long⟩] fun _ => true

/-- `TEST_ID_TEST`, `TEST_ID_HELO`, `TEST_ID_BYE`. -/
def idTEST : ID := makeId 'T' 'E' 'S' 'T'
def idHELO : ID := makeId 'H' 'E' 'L' 'O'
def idBYE : ID := makeId 'B' 'Y' 'E' ' '

/-- tests/test.c:31-44 `chunkRegistry`. -/
def testRegistry : Registry :=
  extendDefaultWithFormTypes [⟨idTEST, [[⟨idBYE, byeType⟩, ⟨idHELO, helloType⟩]]⟩]

end Iff
