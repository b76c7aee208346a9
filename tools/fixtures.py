#!/usr/bin/env python3
"""Generates lean/Verif/Fixtures.lean from the files in tests/ of the repository: what the scripts of the
repository expect of each file, as examples about the model.  These are tests of the model, not proofs of
properties.  Usage: fixtures.py /repo/tests > lean/Verif/Fixtures.lean"""
import os, re, sys

tests = sys.argv[1]


def name(f):
    w = re.split(r'[-.]', f)
    return w[0] + ''.join(x.capitalize() for x in w[1:])


def data(f):
    bs = open(os.path.join(tests, f), 'rb').read()
    lines = [', '.join(str(b) for b in bs[i:i + 20]) for i in range(0, len(bs), 20)]
    return f'/-- tests/{f} -/\ndef {name(f)} : List Byte :=\n  [' + ',\n   '.join(lines) + ']\n'


valid, invalid = [], []
for s in sorted(os.listdir(tests)):
    if s.endswith('.sh'):
        for prog, f in re.findall(r'^\./(validiff|invalidiff) (?:\./)?(\S+)$', open(os.path.join(tests, s)).read(), re.M):
            if os.path.exists(os.path.join(tests, f)):
                (valid if prog == 'validiff' else invalid).append((s, f))

print('''import Verif.Props.Write
import Verif.Model.Read
import Verif.Model.Check
import Verif.Model.Print
import Verif.Model.TestApp
/-
  Generated by tools/fixtures.py from the files in tests/: what the scripts there expect, of the model.  These are
  tests of the model, no properties are proved here.
-/
namespace Iff.Fixtures

/-- What tests/validiff.c and tests/invalidiff.c find out about a file: `none` if it is not read, otherwise the
result of `IFF_check`. -/
def verdict (reg : Option Registry) (bytes : List Byte) : Option Bool :=
  match readFd ENV reg ⟨bytes, []⟩ with
  | .val (some c, _) =>
    match check ENV reg c [] with
    | .val (b, _) => some b
    | _ => none
  | _ => none

/-- Whether reading and checking are free of undefined behaviour. -/
def defined (reg : Option Registry) (bytes : List Byte) : Bool :=
  match readFd ENV reg ⟨bytes, []⟩ with
  | .val (some c, _) =>
    match check ENV reg c [] with
    | .val _ => true
    | _ => false
  | .val (none, _) => true
  | _ => false

/-- What is printed for a file. -/
def printed (reg : Option Registry) (bytes : List Byte) : Option (List Byte) :=
  match readFd ENV reg ⟨bytes, []⟩ with
  | .val (some c, _) =>
    match print reg 0 c with
    | .val out => some out
    | _ => none
  | _ => none

/-- Whether `grep` finds a text. -/
def found (pat : List Byte) : List Byte → Bool
  | [] => pat.isEmpty
  | b :: bs => pat.isPrefixOf (b :: bs) || found pat bs
'''.replace('ENV', 'pc'))
for s, f in valid:
    print(data(f))
    print(f'/-- tests/{s}: `validiff` exits with 0. -/\nexample : verdict none {name(f)} = some true := by decide +kernel\n')
for s, f in invalid:
    print(data(f))
    print(f'/-- tests/{s}: `invalidiff` exits with 0. -/\nexample : verdict none {name(f)} ≠ some true ∧ defined none {name(f)} = true := by decide +kernel\n')
f = 'pp-text.TEST'
print(data(f))
print(f'/-- tests/pp-text.sh: the text is printed. -/\nexample : (printed none {name(f)}).map (found (asc "Hello world")) = some true := by decide +kernel\n')
f = 'extension-otherform.TEST'
print(data(f))
print(f'/-- tests/ppextension-otherform.sh: the HELO chunk in a FORM of another type is printed as data. -/\nexample : (printed (some testRegistry) {name(f)}).map (found (asc "4096")) = some false := by decide +kernel\n')
print('end Iff.Fixtures')
