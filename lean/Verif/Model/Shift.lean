import Verif.Model.Io
/-
  The byte swaps of io.c:63, 81, 103, 119, 141, 158, 180, 197 with the types and the shift operators
  of ISO C: operands narrower than `int` are promoted to `int`; `E1 << E2` on `int` is undefined
  unless E1 is nonnegative and E1 * 2^E2 is representable (C99 6.5.7p4); `E1 >> E2` on `int` is
  defined for nonnegative E1.  An `int` is represented by its 32 bits.
-/
namespace Iff

/-- `x << n` for an `int`. -/
def shlInt (x : BitVec 32) (n : Nat) : Out (BitVec 32) :=
  if 0 ≤ x.toInt ∧ x.toInt * 2 ^ n < 2147483648 then .val (x <<< n) else .ub .signedOverflow

/-- `x >> n` for an `int`: arithmetic shift (implementation-defined for negative `x`). -/
def shrInt (x : BitVec 32) (n : Nat) : BitVec 32 := x.sshiftRight n

/-- io.c:63 and 81: the operand is an `unsigned short`, promoted to `int`. -/
def strictSwapUWord (v : BitVec 16) : Out (BitVec 16) := do
  let i := v.zeroExtend 32
  let a ← shlInt (i &&& 0xff#32) 8
  .val ((a ||| shrInt (i &&& 0xff00#32) 8).truncate 16)

/-- io.c:103 and 119: the operand is a `short`, promoted to `int` with its sign. -/
def strictSwapWord (v : BitVec 16) : Out (BitVec 16) := do
  let i := v.signExtend 32
  let a ← shlInt (i &&& 0xff#32) 8
  .val ((a ||| shrInt (i &&& 0xff00#32) 8).truncate 16)

/-- io.c:141 and 158: all operands are `unsigned int`. -/
def strictSwapULong (v : BitVec 32) : Out (BitVec 32) :=
  .val (((v &&& 0xff#32) <<< 24) ||| ((v &&& 0xff00#32) <<< 8) |||
    ((v &&& 0xff0000#32) >>> 8) ||| ((v &&& 0xff000000#32) >>> 24))

/-- io.c:180 and 197: the first three shifts are on `int`; `0xff000000` is an `unsigned int`
constant, so that the last one is on `unsigned int`. -/
def strictSwapLong (v : BitVec 32) : Out (BitVec 32) := do
  let a ← shlInt (v &&& 0xff#32) 24
  let b ← shlInt (v &&& 0xff00#32) 8
  .val (a ||| b ||| shrInt (v &&& 0xff0000#32) 8 ||| ((v &&& 0xff000000#32) >>> 24))

end Iff
