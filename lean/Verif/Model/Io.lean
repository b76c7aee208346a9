import Verif.Model.Msg
/-
  Model of src/libiff/io.c: fixed-width integers, filler bytes and padding bytes.
-/
namespace Iff

/-! ### The C streams -/

/-- An input `FILE*`: the bytes after the file position, plus the diagnostics emitted so far
(newest last).  Simplification: read errors of the medium are not distinguished from EOF (the
code does not distinguish them either: it only looks at `fgetc`/`fread` results). -/
structure RS where
  inp : List Byte
  log : List Msg
  deriving DecidableEq, Repr

/-- An output `FILE*`: the bytes accepted so far, the number of bytes that will still be accepted
before the stream reports an error, and the diagnostics. -/
structure WS where
  out : List Byte
  room : Nat
  log : List Msg
  deriving DecidableEq, Repr

/-- One diagnostic on an input stream's call path (error.c:32-39). -/
def RS.emit (m : Msg) : M RS Unit := fun s => .val ((), { s with log := s.log ++ [m] })

/-- One diagnostic on an output stream's call path (error.c:32-39). -/
def WS.emit (m : Msg) : M WS Unit := fun s => .val ((), { s with log := s.log ++ [m] })

/-- C library `fgetc`: the next byte or `EOF` (`none`). -/
def fgetc : M RS (Option Byte) := fun s =>
  match s.inp with
  | [] => .val (none, s)
  | b :: bs => .val (some b, { s with inp := bs })

/-- C library `fread(buf, 1, n, file)`: the bytes stored into the buffer (fewer than `n` at EOF). -/
def fread (n : Nat) : M RS (List Byte) := fun s =>
  .val (s.inp.take n, { s with inp := s.inp.drop n })

/-- C library `fseek(file, n, SEEK_CUR)` with `n ≥ 0`; returns whether it succeeded.  On a
seekable stream seeking past the end succeeds; later reads then hit EOF. -/
def fseekCur (e : Env) (n : Nat) : M RS Bool := fun s =>
  if e.seekable then .val (true, { s with inp := s.inp.drop n }) else .val (false, s)

/-- C library `fwrite(bs, 1, n, file)`: returns the number of bytes accepted. -/
def fwrite (bs : List Byte) : M WS Nat := fun s =>
  .val (min bs.length s.room,
    { s with out := s.out ++ bs.take s.room, room := s.room - bs.length })

/-! ### Byte order -/

/-- The `unsigned short` whose object representation is `b0 b1` on this host. -/
def load16 (e : Env) (b0 b1 : Byte) : BitVec 16 :=
  if e.bigEndian then b0 ++ b1 else b1 ++ b0

/-- The `unsigned int` whose object representation is `b0 b1 b2 b3` on this host. -/
def load32 (e : Env) (b0 b1 b2 b3 : Byte) : BitVec 32 :=
  if e.bigEndian then b0 ++ b1 ++ b2 ++ b3 else b3 ++ b2 ++ b1 ++ b0

/-- Object representation of a 16-bit integer on this host. -/
def store16 (e : Env) (v : BitVec 16) : List Byte :=
  let hi := v.extractLsb' 8 8
  let lo := v.extractLsb' 0 8
  if e.bigEndian then [hi, lo] else [lo, hi]

/-- Object representation of a 32-bit integer on this host. -/
def store32 (e : Env) (v : BitVec 32) : List Byte :=
  let b3 := v.extractLsb' 24 8
  let b2 := v.extractLsb' 16 8
  let b1 := v.extractLsb' 8 8
  let b0 := v.extractLsb' 0 8
  if e.bigEndian then [b3, b2, b1, b0] else [b0, b1, b2, b3]

/-- The byte swap of io.c:63, 81, 103, 119 (in `int`, then truncated to 16 bits). -/
def swap16 (v : BitVec 16) : BitVec 16 :=
  ((v &&& 0xff#16) <<< 8) ||| ((v &&& 0xff00#16) >>> 8)

/-- The byte swap of io.c:141, 158, 180, 197.  In IFF_readLong/IFF_writeLong the first shift is
done in `int` and is undefined in strict C99 when the byte is ≥ 0x80; compilers shift modulo 2^32,
which is what this definition says (property C44 is about the strict reading). -/
def swap32 (v : BitVec 32) : BitVec 32 :=
  ((v &&& 0xff#32) <<< 24) ||| ((v &&& 0xff00#32) <<< 8) |||
    ((v &&& 0xff0000#32) >>> 8) ||| ((v &&& 0xff000000#32) >>> 24)

/-- `#if IFF_BIG_ENDIAN == 1 ... #else swap` for 16 bits. -/
def fromHost16 (e : Env) (v : BitVec 16) : BitVec 16 := if e.bigEndian then v else swap16 v

/-- `#if IFF_BIG_ENDIAN == 1 ... #else swap` for 32 bits. -/
def fromHost32 (e : Env) (v : BitVec 32) : BitVec 32 := if e.bigEndian then v else swap32 v

/-! ### Readers (`none` = the C function returns FALSE and `*value` is untouched) -/

/-- io.c:26-40 `IFF_readUByte`. -/
def readUByte (id : ID) (attr : String) : M RS (Option Byte) := do
  match ← fgetc with
  | none => RS.emit (.readError id attr); pure none
  | some b => pure (some b)

/-- io.c:53-73 `IFF_readUWord`. -/
def readUWord (e : Env) (id : ID) (attr : String) : M RS (Option (BitVec 16)) := do
  match ← fread 2 with
  | [b0, b1] => pure (some (fromHost16 e (load16 e b0 b1)))
  | _ => RS.emit (.readError id attr); pure none

/-- io.c:93-112 `IFF_readWord`; the value is the 16-bit pattern of the `short`. -/
def readWord (e : Env) (id : ID) (attr : String) : M RS (Option (BitVec 16)) := do
  match ← fread 2 with
  | [b0, b1] => pure (some (fromHost16 e (load16 e b0 b1)))
  | _ => RS.emit (.readError id attr); pure none

/-- io.c:131-150 `IFF_readULong`. -/
def readULong (e : Env) (id : ID) (attr : String) : M RS (Option (BitVec 32)) := do
  match ← fread 4 with
  | [b0, b1, b2, b3] => pure (some (fromHost32 e (load32 e b0 b1 b2 b3)))
  | _ => RS.emit (.readError id attr); pure none

/-- io.c:170-189 `IFF_readLong`; the value is the 32-bit pattern of the `int`. -/
def readLong (e : Env) (id : ID) (attr : String) : M RS (Option (BitVec 32)) := do
  match ← fread 4 with
  | [b0, b1, b2, b3] => pure (some (fromHost32 e (load32 e b0 b1 b2 b3)))
  | _ => RS.emit (.readError id attr); pure none

/-! ### Writers -/

/-- io.c:42-51 `IFF_writeUByte` (`fputc` is a one-byte `fwrite`). -/
def writeUByte (v : Byte) (id : ID) (attr : String) : M WS Bool := do
  if (← fwrite [v]) = 1 then pure true
  else WS.emit (.writeError id attr); pure false

/-- io.c:75-91 `IFF_writeUWord`. -/
def writeUWord (e : Env) (v : BitVec 16) (id : ID) (attr : String) : M WS Bool := do
  if (← fwrite (store16 e (fromHost16 e v))) = 2 then pure true
  else WS.emit (.writeError id attr); pure false

/-- io.c:114-129 `IFF_writeWord`. -/
def writeWord (e : Env) (v : BitVec 16) (id : ID) (attr : String) : M WS Bool := do
  if (← fwrite (store16 e (fromHost16 e v))) = 2 then pure true
  else WS.emit (.writeError id attr); pure false

/-- io.c:152-168 `IFF_writeULong`. -/
def writeULong (e : Env) (v : BitVec 32) (id : ID) (attr : String) : M WS Bool := do
  if (← fwrite (store32 e (fromHost32 e v))) = 4 then pure true
  else WS.emit (.writeError id attr); pure false

/-- io.c:191-207 `IFF_writeLong`. -/
def writeLong (e : Env) (v : BitVec 32) (id : ID) (attr : String) : M WS Bool := do
  if (← fwrite (store32 e (fromHost32 e v))) = 4 then pure true
  else WS.emit (.writeError id attr); pure false

/-! ### Filler and padding -/

/-- io.c:209-227 `IFF_skipUnknownBytes`. -/
def skipUnknownBytes (e : Env) (id : ID) (size bp : Int) : M RS Bool := do
  if bp < size then
    let n ← M.ofOut (subInt size bp)
    if ← fseekCur e n.toNat then
      RS.emit (.skipped n id); pure true
    else pure false
  else pure true

/-- io.c:229-249 `IFF_writeZeroFillerBytes`.  Simplification: the unchecked `calloc` succeeds
here; its failure is treated in property C51. -/
def writeZeroFillerBytes (id : ID) (size bp : Int) : M WS Bool := do
  if bp < size then
    let n ← M.ofOut (subInt size bp)
    if (← fwrite (List.replicate n.toNat 0)) = n.toNat then pure true
    else WS.emit (.fillerFailed n.toNat id); pure false
  else pure true

/-- io.c:251-269 `IFF_readPaddingByte`. -/
def readPaddingByte (size : Int) (id : ID) : M RS Bool := do
  if isOdd size then
    match ← fgetc with
    | none => RS.emit (.padEof id); pure false
    | some b => if b ≠ 0 then RS.emit .padNonZero; pure true else pure true
  else pure true

/-- io.c:271-287 `IFF_writePaddingByte`. -/
def writePaddingByte (size : Int) (id : ID) : M WS Bool := do
  if isOdd size then
    if (← fwrite [0]) = 1 then pure true
    else WS.emit (.padWriteFailed id); pure false
  else pure true

end Iff
