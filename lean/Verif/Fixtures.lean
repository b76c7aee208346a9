import Verif.Props.Write
import Verif.Model.Read
import Verif.Model.Check
import Verif.Model.Print
import Verif.Model.TestApp
/-
  Generated by tools/fixtures.py from the files in tests/: what the scripts there expect, of the model.  These are
  tests of the model, no properties are proved here.
-/
namespace Iff.Fixtures

/-- What tests/validiff.c and tests/invalidiff.c find out about a file: `none` if it is not read, otherwise the
result of `IFF_check`. -/
def verdict (reg : Option Registry) (bytes : List Byte) : Option Bool :=
  match readFd pc reg ⟨bytes, []⟩ with
  | .val (some c, _) =>
    match check pc reg c [] with
    | .val (b, _) => some b
    | _ => none
  | _ => none

/-- Whether reading and checking are free of undefined behaviour. -/
def defined (reg : Option Registry) (bytes : List Byte) : Bool :=
  match readFd pc reg ⟨bytes, []⟩ with
  | .val (some c, _) =>
    match check pc reg c [] with
    | .val _ => true
    | _ => false
  | .val (none, _) => true
  | _ => false

/-- What is printed for a file. -/
def printed (reg : Option Registry) (bytes : List Byte) : Option (List Byte) :=
  match readFd pc reg ⟨bytes, []⟩ with
  | .val (some c, _) =>
    match print reg 0 c with
    | .val out => some out
    | _ => none
  | _ => none

/-- Whether `grep` finds a text. -/
def found (pat : List Byte) : List Byte → Bool
  | [] => pat.isEmpty
  | b :: bs => pat.isPrefixOf (b :: bs) || found pat bs

/-- tests/validcat-wildcard.TEST -/
def validcatWildcardTest : List Byte :=
  [67, 65, 84, 32, 0, 0, 0, 78, 74, 74, 74, 74, 70, 79, 82, 77, 0, 0, 0, 28,
   70, 73, 82, 83, 72, 69, 76, 79, 0, 0, 0, 4, 97, 98, 99, 100, 66, 89, 69, 32,
   0, 0, 0, 3, 69, 70, 71, 0, 70, 79, 82, 77, 0, 0, 0, 30, 83, 69, 67, 79,
   72, 69, 76, 79, 0, 0, 0, 5, 97, 98, 99, 100, 101, 0, 66, 89, 69, 32, 0, 0,
   0, 4, 70, 71, 72, 73]

/-- tests/validcat-wildcard.sh: `validiff` exits with 0. -/
example : verdict none validcatWildcardTest = some true := by decide +kernel

/-- tests/validlist-wildcard.TEST -/
def validlistWildcardTest : List Byte :=
  [76, 73, 83, 84, 0, 0, 0, 76, 74, 74, 74, 74, 80, 82, 79, 80, 0, 0, 0, 16,
   84, 69, 83, 84, 72, 69, 76, 79, 0, 0, 0, 4, 113, 119, 101, 114, 70, 79, 82, 77,
   0, 0, 0, 16, 70, 73, 82, 83, 66, 89, 69, 32, 0, 0, 0, 4, 97, 98, 99, 100,
   70, 79, 82, 77, 0, 0, 0, 16, 83, 69, 67, 79, 66, 89, 69, 32, 0, 0, 0, 4,
   69, 70, 71, 72]

/-- tests/validlist-wildcard.sh: `validiff` exits with 0. -/
example : verdict none validlistWildcardTest = some true := by decide +kernel

/-- tests/invalidcat-contentstype.TEST -/
def invalidcatContentstypeTest : List Byte :=
  [67, 65, 84, 32, 0, 0, 0, 78, 70, 73, 82, 83, 70, 79, 82, 77, 0, 0, 0, 28,
   70, 73, 82, 83, 72, 69, 76, 79, 0, 0, 0, 4, 97, 98, 99, 100, 66, 89, 69, 32,
   0, 0, 0, 3, 69, 70, 71, 0, 70, 79, 82, 77, 0, 0, 0, 30, 83, 69, 67, 79,
   72, 69, 76, 79, 0, 0, 0, 5, 97, 98, 99, 100, 101, 0, 66, 89, 69, 32, 0, 0,
   0, 4, 70, 71, 72, 73]

/-- tests/invalidcat-contentstype.sh: `invalidiff` exits with 0. -/
example : verdict none invalidcatContentstypeTest ≠ some true ∧ defined none invalidcatContentstypeTest = true := by decide +kernel

/-- tests/invalidcat-prop.TEST -/
def invalidcatPropTest : List Byte :=
  [67, 65, 84, 32, 0, 0, 0, 28, 84, 69, 83, 84, 80, 82, 79, 80, 0, 0, 0, 16,
   84, 69, 83, 84, 65, 66, 67, 68, 0, 0, 0, 4, 97, 98, 99, 100]

/-- tests/invalidcat-prop.sh: `invalidiff` exits with 0. -/
example : verdict none invalidcatPropTest ≠ some true ∧ defined none invalidcatPropTest = true := by decide +kernel

/-- tests/invalidcat-raw.TEST -/
def invalidcatRawTest : List Byte :=
  [67, 65, 84, 32, 0, 0, 0, 16, 84, 69, 83, 84, 65, 66, 67, 68, 0, 0, 0, 4,
   97, 98, 99, 100]

/-- tests/invalidcat-raw.sh: `invalidiff` exits with 0. -/
example : verdict none invalidcatRawTest ≠ some true ∧ defined none invalidcatRawTest = true := by decide +kernel

/-- tests/invalidcat-size.TEST -/
def invalidcatSizeTest : List Byte :=
  [67, 65, 84, 32, 0, 0, 0, 76, 84, 69, 83, 84, 70, 79, 82, 77, 0, 0, 0, 28,
   84, 69, 83, 84, 72, 69, 76, 79, 0, 0, 0, 4, 97, 98, 99, 100, 66, 89, 69, 32,
   0, 0, 0, 3, 69, 70, 71, 0, 70, 79, 82, 77, 0, 0, 0, 30, 84, 69, 83, 84,
   72, 69, 76, 79, 0, 0, 0, 5, 97, 98, 99, 100, 101, 0, 66, 89, 69, 32, 0, 0,
   0, 4, 70, 71, 72, 73]

/-- tests/invalidcat-size.sh: `invalidiff` exits with 0. -/
example : verdict none invalidcatSizeTest ≠ some true ∧ defined none invalidcatSizeTest = true := by decide +kernel

/-- tests/invalidform-prop.TEST -/
def invalidformPropTest : List Byte :=
  [70, 79, 82, 77, 0, 0, 0, 28, 84, 69, 83, 84, 80, 82, 79, 80, 0, 0, 0, 16,
   84, 69, 83, 84, 65, 66, 67, 68, 0, 0, 0, 4, 97, 98, 99, 100]

/-- tests/invalidform-prop.sh: `invalidiff` exits with 0. -/
example : verdict none invalidformPropTest ≠ some true ∧ defined none invalidformPropTest = true := by decide +kernel

/-- tests/invalidform-size1.TEST -/
def invalidformSize1Test : List Byte :=
  [70, 79, 82, 77, 0, 0, 0, 24, 84, 69, 83, 84, 72, 69, 76, 79, 0, 0, 0, 4,
   97, 98, 99, 100, 66, 89, 69, 32, 0, 0, 0, 4, 69, 70, 71, 72]

/-- tests/invalidform-size1.sh: `invalidiff` exits with 0. -/
example : verdict none invalidformSize1Test ≠ some true ∧ defined none invalidformSize1Test = true := by decide +kernel

/-- tests/invalidform-size2.TEST -/
def invalidformSize2Test : List Byte :=
  [70, 79, 82, 77, 0, 0, 0, 29, 84, 69, 83, 84, 72, 69, 76, 79, 0, 0, 0, 4,
   97, 98, 99, 100, 66, 89, 69, 32, 0, 0, 0, 5, 69, 70, 71, 72, 73, 0]

/-- tests/invalidform-size2.sh: `invalidiff` exits with 0. -/
example : verdict none invalidformSize2Test ≠ some true ∧ defined none invalidformSize2Test = true := by decide +kernel

/-- tests/invalidformtype1.TEST -/
def invalidformtype1Test : List Byte :=
  [70, 79, 82, 77, 0, 0, 0, 16, 84, 101, 83, 116, 65, 66, 67, 68, 0, 0, 0, 4,
   97, 98, 99, 100]

/-- tests/invalidformtype1.sh: `invalidiff` exits with 0. -/
example : verdict none invalidformtype1Test ≠ some true ∧ defined none invalidformtype1Test = true := by decide +kernel

/-- tests/invalidformtype2.TEST -/
def invalidformtype2Test : List Byte :=
  [70, 79, 82, 77, 0, 0, 0, 16, 46, 84, 83, 84, 65, 66, 67, 68, 0, 0, 0, 4,
   97, 98, 99, 100]

/-- tests/invalidformtype2.sh: `invalidiff` exits with 0. -/
example : verdict none invalidformtype2Test ≠ some true ∧ defined none invalidformtype2Test = true := by decide +kernel

/-- tests/invalidformtype3.TEST -/
def invalidformtype3Test : List Byte :=
  [70, 79, 82, 77, 0, 0, 0, 16, 84, 8, 83, 84, 65, 66, 67, 68, 0, 0, 0, 4,
   97, 98, 99, 100]

/-- tests/invalidformtype3.sh: `invalidiff` exits with 0. -/
example : verdict none invalidformtype3Test ≠ some true ∧ defined none invalidformtype3Test = true := by decide +kernel

/-- tests/invalidformtype4.TEST -/
def invalidformtype4Test : List Byte :=
  [70, 79, 82, 77, 0, 0, 0, 16, 70, 79, 82, 77, 65, 66, 67, 68, 0, 0, 0, 4,
   97, 98, 99, 100]

/-- tests/invalidformtype4.sh: `invalidiff` exits with 0. -/
example : verdict none invalidformtype4Test ≠ some true ∧ defined none invalidformtype4Test = true := by decide +kernel

/-- tests/invalidid1.TEST -/
def invalidid1Test : List Byte :=
  [70, 79, 82, 77, 0, 0, 0, 16, 84, 69, 83, 84, 65, 66, 67, 8, 0, 0, 0, 4,
   97, 98, 99, 100]

/-- tests/invalidid1.sh: `invalidiff` exits with 0. -/
example : verdict none invalidid1Test ≠ some true ∧ defined none invalidid1Test = true := by decide +kernel

/-- tests/invalidid2.TEST -/
def invalidid2Test : List Byte :=
  [70, 79, 82, 77, 0, 0, 0, 16, 84, 69, 83, 84, 32, 65, 66, 67, 0, 0, 0, 4,
   97, 98, 99, 100]

/-- tests/invalidid2.sh: `invalidiff` exits with 0. -/
example : verdict none invalidid2Test ≠ some true ∧ defined none invalidid2Test = true := by decide +kernel

/-- tests/invalid.IFF -/
def invalidIff : List Byte :=
  [65, 66, 67, 68, 0, 0, 0, 4, 97, 98, 99, 100]

/-- tests/invalidiff.sh: `invalidiff` exits with 0. -/
example : verdict none invalidIff ≠ some true ∧ defined none invalidIff = true := by decide +kernel

/-- tests/invalidlist-contentstype.TEST -/
def invalidlistContentstypeTest : List Byte :=
  [76, 73, 83, 84, 0, 0, 0, 76, 70, 73, 82, 83, 80, 82, 79, 80, 0, 0, 0, 16,
   84, 69, 83, 84, 72, 69, 76, 79, 0, 0, 0, 4, 113, 119, 101, 114, 70, 79, 82, 77,
   0, 0, 0, 16, 70, 73, 82, 83, 66, 89, 69, 32, 0, 0, 0, 4, 97, 98, 99, 100,
   70, 79, 82, 77, 0, 0, 0, 16, 83, 69, 67, 79, 66, 89, 69, 32, 0, 0, 0, 4,
   69, 70, 71, 72]

/-- tests/invalidlist-contentstype.sh: `invalidiff` exits with 0. -/
example : verdict none invalidlistContentstypeTest ≠ some true ∧ defined none invalidlistContentstypeTest = true := by decide +kernel

/-- tests/invalidlist-negsize.TEST -/
def invalidlistNegsizeTest : List Byte :=
  [76, 73, 83, 84, 0, 0, 0, 74, 84, 69, 83, 84, 80, 82, 79, 80, 0, 0, 0, 16,
   84, 69, 83, 84, 72, 69, 76, 79, 240, 0, 0, 0, 4, 113, 119, 101, 114, 70, 79, 82,
   77, 0, 0, 0, 16, 84, 69, 83, 84, 66, 89, 69, 32, 0, 0, 0, 4, 97, 98, 99,
   100, 70, 79, 82, 77, 0, 0, 0, 16, 84, 69, 83, 84, 66, 89, 69, 32, 0, 0, 0,
   4, 69, 70, 71, 72]

/-- tests/invalidlist-negsize.sh: `invalidiff` exits with 0. -/
example : verdict none invalidlistNegsizeTest ≠ some true ∧ defined none invalidlistNegsizeTest = true := by decide +kernel

/-- tests/invalidlist-raw.TEST -/
def invalidlistRawTest : List Byte :=
  [76, 73, 83, 84, 0, 0, 0, 16, 84, 69, 83, 84, 65, 66, 67, 68, 0, 0, 0, 4,
   97, 98, 99, 100]

/-- tests/invalidlist-raw.sh: `invalidiff` exits with 0. -/
example : verdict none invalidlistRawTest ≠ some true ∧ defined none invalidlistRawTest = true := by decide +kernel

/-- tests/invalidlist-size.TEST -/
def invalidlistSizeTest : List Byte :=
  [76, 73, 83, 84, 0, 0, 0, 74, 84, 69, 83, 84, 80, 82, 79, 80, 0, 0, 0, 16,
   84, 69, 83, 84, 72, 69, 76, 79, 0, 0, 0, 4, 113, 119, 101, 114, 70, 79, 82, 77,
   0, 0, 0, 16, 84, 69, 83, 84, 66, 89, 69, 32, 0, 0, 0, 4, 97, 98, 99, 100,
   70, 79, 82, 77, 0, 0, 0, 16, 84, 69, 83, 84, 66, 89, 69, 32, 0, 0, 0, 4,
   69, 70, 71, 72]

/-- tests/invalidlist-size.sh: `invalidiff` exits with 0. -/
example : verdict none invalidlistSizeTest ≠ some true ∧ defined none invalidlistSizeTest = true := by decide +kernel

/-- tests/invalidprop-size.TEST -/
def invalidpropSizeTest : List Byte :=
  [76, 73, 83, 84, 0, 0, 0, 76, 84, 69, 83, 84, 80, 82, 79, 80, 0, 0, 0, 14,
   84, 69, 83, 84, 72, 69, 76, 79, 0, 0, 0, 4, 113, 119, 101, 114, 70, 79, 82, 77,
   0, 0, 0, 16, 84, 69, 83, 84, 66, 89, 69, 32, 0, 0, 0, 4, 97, 98, 99, 100,
   70, 79, 82, 77, 0, 0, 0, 16, 84, 69, 83, 84, 66, 89, 69, 32, 0, 0, 0, 4,
   69, 70, 71, 72]

/-- tests/invalidprop-size.sh: `invalidiff` exits with 0. -/
example : verdict none invalidpropSizeTest ≠ some true ∧ defined none invalidpropSizeTest = true := by decide +kernel

/-- tests/invalidprop.TEST -/
def invalidpropTest : List Byte :=
  [76, 73, 83, 84, 0, 0, 0, 40, 84, 69, 83, 84, 80, 82, 79, 80, 0, 0, 0, 28,
   84, 69, 83, 84, 70, 79, 82, 77, 0, 0, 0, 16, 84, 69, 83, 84, 65, 66, 67, 68,
   0, 0, 0, 4, 97, 98, 99, 100]

/-- tests/invalidprop.sh: `invalidiff` exits with 0. -/
example : verdict none invalidpropTest ≠ some true ∧ defined none invalidpropTest = true := by decide +kernel

/-- tests/pp-text.TEST -/
def ppTextTest : List Byte :=
  [70, 79, 82, 77, 0, 0, 0, 24, 72, 69, 76, 79, 84, 69, 88, 84, 0, 0, 0, 11,
   72, 101, 108, 108, 111, 32, 119, 111, 114, 108, 100, 0]

/-- tests/pp-text.sh: the text is printed. -/
example : (printed none ppTextTest).map (found (asc "Hello world")) = some true := by decide +kernel

/-- tests/extension-otherform.TEST -/
def extensionOtherformTest : List Byte :=
  [70, 79, 82, 77, 0, 0, 0, 32, 70, 79, 79, 32, 72, 69, 76, 79, 0, 0, 0, 4,
   97, 98, 16, 0, 66, 89, 69, 32, 0, 0, 0, 8, 0, 0, 0, 1, 0, 0, 0, 2]

/-- tests/ppextension-otherform.sh: the HELO chunk in a FORM of another type is printed as data. -/
example : (printed (some testRegistry) extensionOtherformTest).map (found (asc "4096")) = some false := by decide +kernel

end Iff.Fixtures
