import Verif.Src.Code.All
import Verif.Model.ErrText
import Verif.Model.Getopt
/-
  Meaning of the syntax of Verif/Src/Syntax.lean.

  Memory consists of blocks (heap, stack, static); a block has a size in bytes and holds one value
  per scalar (struct member or array element), so a pointer is a block and the number of a scalar in
  it.  A scalar is read with the type it was written with.

  Where C99 leaves the order of evaluation open, operands are evaluated from left to right, and the
  right side of an assignment before the left side.  As in Verif/Model, shifting an `int` to the left
  and converting to a signed type are modulo 2^32; signed addition, subtraction and multiplication
  are undefined when the result is not representable.  What the semantics does not support (for
  instance reading a scalar that was never written) is undefined behaviour.

  Calls and loops are bounded by a number; a run that exceeds it has outcome `loop`.
-/
namespace Iff.Src

/-! ### Values and memory -/

/-- A block: the `a`-th on the heap, the `i`-th on the stack, or the `k`-th static object. -/
inductive Obj where
  | heap (a : Nat)
  | stk (i : Nat)
  | static (k : Nat)
  deriving DecidableEq, Repr

/-- A pointer: a block and the number of a scalar in it. -/
structure Ptr where
  obj : Obj
  off : Nat
  deriving DecidableEq, Repr

/-- The start of a block on the heap.  Block 0 is never allocated. -/
@[reducible] def Ptr.ofAddr (a : Nat) : Ptr := ⟨.heap a, 0⟩

/-- `NULL` -/
@[reducible] def Ptr.null : Ptr := .ofAddr 0

/-- Open files.  At most one file is open for reading and one for writing. -/
inductive File where
  /-- the file that is read; standard input if none has been opened -/
  | inp
  /-- the file that is written; standard output if none has been opened -/
  | out
  /-- standard error -/
  | err
  deriving DecidableEq, Repr

/-- Values, with their types. -/
inductive V where
  | undef
  | void
  | int (t : ITy) (x : Int)
  | ptr (t : Ty) (p : Ptr)
  | str (s : String)
  | file (f : File)
  | fn (f : Fn)
  deriving DecidableEq, Repr

/-- A scalar in memory. -/
inductive Cell where
  | undef
  | int (t : ITy) (x : Int)
  | ptr (p : Ptr)
  | str (s : String)
  | fn (f : Fn)
  deriving DecidableEq, Repr

/-- A block of memory. -/
structure Blk where
  /-- size in bytes -/
  size : Nat
  cell : Nat → Cell

/-- Change a scalar of a block. -/
def Blk.set (b : Blk) (i : Nat) (c : Cell) : Blk := ⟨b.size, fun j => if j = i then c else b.cell j⟩

/-- The scalars of a block given as a list; those after it are uninitialised. -/
def cells (l : List Cell) : Nat → Cell := fun i => l.getD i .undef

/-- The platform (with pointers of 4 or 8 bytes), the allocator (the address it returns may depend on the number of requests so far
and on the addresses and sizes of the allocated blocks), the static objects, the files that can be opened for reading, and
those that can be opened for writing, with the number of bytes that are accepted. -/
structure Cfg where
  e : Env
  word : e.sizeBits = 32 ∨ e.sizeBits = 64
  pick : Nat → (Nat → Option Nat) → Nat → Option Nat
  sound : ∀ {t s n a}, pick t s n = some a → a ≠ 0 ∧ s a = none
  realloc0 : Bool
  img : Nat → Option Blk
  files : String → Option (List Byte) := fun _ => none
  dests : String → Option Nat := fun _ => none

/-- The state of the machine. -/
structure CS where
  heap : Nat → Option Blk
  /-- number of requests to the allocator so far -/
  tick : Nat
  stk : List Blk
  /-- what is left of the file that is read -/
  inp : List Byte
  /-- what has been written with `fwrite` and `fputc` -/
  out : List Byte
  /-- how many more bytes the output file accepts -/
  room : Nat
  /-- what has been printed to standard output -/
  text : List Byte
  /-- the calls of `IFF_error` -/
  log : List ErrPrint

/-- Change a block of the heap. -/
def setHeap (h : Nat → Option Blk) (a : Nat) (b : Option Blk) : Nat → Option Blk :=
  fun x => if x = a then b else h x

/-- The sizes of the allocated blocks. -/
def sizes (h : Nat → Option Blk) : Nat → Option Nat := fun a => (h a).map Blk.size

/-- The block a pointer points into. -/
def CS.blk (X : Cfg) (g : CS) : Obj → Option Blk
  | .heap a => g.heap a
  | .stk i => g.stk[i]?
  | .static k => X.img k

/-- Read a scalar. -/
def CS.load (X : Cfg) (g : CS) (p : Ptr) : Out Cell :=
  match g.blk X p.obj with
  | some b => .val (b.cell p.off)
  | none => .ub (if p = Ptr.null then .nullDeref else .useAfterFree)

/-- Replace a block; static objects are constant. -/
def CS.setBlk (g : CS) (o : Obj) (b : Blk) : Out CS :=
  match o with
  | .heap a => .val { g with heap := setHeap g.heap a (some b) }
  | .stk i => .val { g with stk := g.stk.set i b }
  | .static _ => .ub .badArgument

/-- Write a scalar. -/
def CS.store (X : Cfg) (g : CS) (p : Ptr) (c : Cell) : Out CS :=
  match g.blk X p.obj with
  | some b => g.setBlk p.obj (b.set p.off c)
  | none => .ub (if p = Ptr.null then .nullDeref else .useAfterFree)

/-! ### Types -/

/-- The number of bits of an integer type; `long` is not used in computations. -/
def ITy.bits (e : Env) : ITy → Nat
  | .char | .uchar => 8
  | .short | .ushort => 16
  | .int | .uint => 32
  | .long => 64
  | .size => e.sizeBits

/-- Is an integer type signed? -/
def ITy.signed (e : Env) : ITy → Bool
  | .char => e.charSigned
  | .short | .int | .long => true
  | .uchar | .ushort | .uint | .size => false

/-- The value of a bit pattern. -/
def ofBits (signed : Bool) {w : Nat} (v : BitVec w) : Int := if signed then v.toInt else v.toNat

/-- Conversion to an integer type (to `long` only from `int`). -/
def convI (e : Env) (t : ITy) (x : Int) : Int :=
  match t with
  | .int => wrapInt x
  | .uint => x % 4294967296
  | .size => toSize e x
  | .long => x
  | .char => ofBits e.charSigned (BitVec.ofInt 8 x)
  | .uchar => x % 256
  | .short => (BitVec.ofInt 16 x).toInt
  | .ushort => x % 65536

/-- The position of a member of a struct, and its type. -/
def findMember (m : Member) : List (Member × Ty) → Nat → Option (Nat × Ty)
  | [], _ => none
  | (m', t) :: l, i => if m = m' then some (i, t) else findMember m l (i + 1)

/-- The position of a member of a struct, and its type. -/
def Struct.find (s : Struct) (m : Member) : Option (Nat × Ty) := findMember m s.members 0

/-- The number of members. -/
def Struct.slots (s : Struct) : Nat := s.members.length

/-- The size of a scalar, which is also its alignment. -/
def scalarSize (e : Env) : Ty → Nat
  | .int t => t.bits e / 8
  | _ => e.sizeBits / 8

/-- Round up to a multiple. -/
def roundUp (n a : Nat) : Nat := (n + a - 1) / a * a

/-- The size of a struct whose members are scalars; all the structs contain a pointer. -/
def Struct.size (e : Env) (s : Struct) : Nat :=
  roundUp (s.members.foldl (fun n m => roundUp n (scalarSize e m.2) + scalarSize e m.2) 0)
    (e.sizeBits / 8)

/-- `sizeof` -/
def Ty.size (e : Env) : Ty → Nat
  | .struct s => s.size e
  | .arr n t => n * t.size e
  | t => scalarSize e t

/-! ### Operators -/

/-- Conversion of a value, as by assignment or a cast. -/
def conv (e : Env) : Ty → V → Out V
  | .int t, .int _ x => .val (.int t (convI e t x))
  | .ptr t, .ptr _ p => .val (.ptr t p)
  | .ptr _, .str s => .val (.str s)
  | .ptr _, .file f => .val (.file f)
  | .fn, .fn f => .val (.fn f)
  | _, _ => .ub .badArgument

/-- Integer promotion. -/
def ITy.promote : ITy → ITy
  | .char | .uchar | .short | .ushort => .int
  | t => t

/-- The type in which two promoted operands are combined. -/
def ITy.common : ITy → ITy → Option ITy
  | .int, .int => some .int
  | .int, .uint | .uint, .int | .uint, .uint => some .uint
  | .size, .int | .int, .size | .size, .uint | .uint, .size | .size, .size => some .size
  | _, _ => none

/-- The result of an arithmetic operation in a type. -/
def arith (e : Env) (t : ITy) (x : Int) : Out V :=
  if t = .int then
    (if inInt x then .val (.int .int x) else .ub .signedOverflow)
  else .val (.int t (convI e t x))

/-- A bitwise operation in a type. -/
def bitwise (e : Env) (t : ITy) (f : BitVec (t.bits e) → BitVec (t.bits e) → BitVec (t.bits e))
    (x y : Int) : Out V :=
  .val (.int t (ofBits (t.signed e) (f (BitVec.ofInt _ x) (BitVec.ofInt _ y))))

/-- The value of a comparison. -/
def truth (b : Bool) : V := .int .int (if b then 1 else 0)

/-- A binary operation on integers of the same type. -/
def binI (e : Env) (o : BinOp) (t : ITy) (x y : Int) : Out V :=
  match o with
  | .add => arith e t (x + y)
  | .sub => arith e t (x - y)
  | .mul => arith e t (x * y)
  | .mod => if y = 0 then .ub .badArgument else .val (.int t (x.tmod y))
  | .band => bitwise e t (· &&& ·) x y
  | .bor => bitwise e t (· ||| ·) x y
  | .bxor => bitwise e t (· ^^^ ·) x y
  | .eq => .val (truth (x == y))
  | .ne => .val (truth (x != y))
  | .lt => .val (truth (decide (x < y)))
  | .gt => .val (truth (decide (x > y)))
  | .le => .val (truth (decide (x ≤ y)))
  | .ge => .val (truth (decide (x ≥ y)))
  | .div | .shl | .shr => .ub .badArgument

/-- A shift; the type is that of the left operand. -/
def shift (e : Env) (o : BinOp) (t : ITy) (x : Int) (n : Nat) : Out V :=
  match o with
  | .shl => .val (.int t (ofBits (t.signed e) (BitVec.ofInt (t.bits e) x <<< n)))
  | .shr => .val (.int t (ofBits (t.signed e)
      (if t.signed e then (BitVec.ofInt (t.bits e) x).sshiftRight n
       else BitVec.ofInt (t.bits e) x >>> n)))
  | _ => .ub .badArgument

/-- Binary operators, with the usual arithmetic conversions. -/
def binop (e : Env) (o : BinOp) : V → V → Out V
  | .int t x, .int u y =>
    match o with
    | .shl | .shr =>
      if 0 ≤ y ∧ y.toNat < t.promote.bits e then shift e o t.promote x y.toNat else .ub .badArgument
    | o =>
      match ITy.common t.promote u.promote with
      | some c => binI e o c (convI e c x) (convI e c y)
      | none => .ub .badArgument
  | .ptr _ p, .ptr _ q =>
    match o with
    | .eq => .val (truth (p == q))
    | .ne => .val (truth (p != q))
    | _ => .ub .badArgument
  | .str _, .ptr _ p | .file _, .ptr _ p =>
    match o with
    | .eq => if p = Ptr.null then .val (truth false) else .ub .badArgument
    | .ne => if p = Ptr.null then .val (truth true) else .ub .badArgument
    | _ => .ub .badArgument
  | _, _ => .ub .badArgument

/-- Is a value different from zero? -/
def isTrue : V → Out Bool
  | .int _ x => .val (x != 0)
  | .ptr _ p => .val (p != Ptr.null)
  | _ => .ub .badArgument

/-- The value of a scalar read with a type. -/
def ofCell (t : Ty) (c : Cell) : Out V :=
  match t, c with
  | .int t, .int u x => if t = u then .val (.int t x) else .ub .wrongStruct
  | .ptr t, .ptr p => .val (.ptr t p)
  | .ptr _, .str s => .val (.str s)
  | .fn, .fn f => .val (.fn f)
  | _, .undef => .ub .outOfBounds
  | _, _ => .ub .wrongStruct

/-- The scalar that holds a value. -/
def toCell : V → Out Cell
  | .int t x => .val (.int t x)
  | .ptr _ p => .val (.ptr p)
  | .str s => .val (.str s)
  | .fn f => .val (.fn f)
  | _ => .ub .badArgument

/-! ### Expressions -/

/-- What a name of a variable stands for. -/
inductive Slot where
  | none
  /-- a variable whose address is not used -/
  | reg (t : Ty) (v : V)
  /-- an object on the stack -/
  | obj (t : Ty) (i : Nat)

/-- The state inside a function. -/
structure Fr where
  loc : Var → Slot
  g : CS

/-- Declare a variable, or change it. -/
def setLoc (l : Var → Slot) (x : Var) (s : Slot) : Var → Slot := fun y => if y = x then s else l y

/-- A computation on the machine, inside a function. -/
def onG {α : Type} (m : M CS α) : M Fr α := fun s =>
  match m s.g with
  | .val (a, g) => .val (a, ⟨s.loc, g⟩)
  | .ub u => .ub u
  | .loop => .loop

/-- Objects. -/
inductive LV where
  | reg (x : Var) (t : Ty)
  | mem (t : Ty) (p : Ptr)

/-- The value of an object; an array becomes a pointer to its first element. -/
def loadL (X : Cfg) : LV → M Fr V
  | .reg x _ => fun s =>
    match s.loc x with
    | .reg _ .undef => .ub .badArgument
    | .reg _ v => .val (v, s)
    | _ => .ub .badArgument
  | .mem (.arr _ t) p => pure (.ptr t p)
  | .mem t p => fun s =>
    match s.g.load X p with
    | .val c =>
      match ofCell t c with
      | .val v => .val (v, s)
      | .ub u => .ub u
      | .loop => .loop
    | .ub u => .ub u
    | .loop => .loop

/-- The type of an object. -/
def LV.ty : LV → Ty
  | .reg _ t => t
  | .mem t _ => t

/-- Assign to an object a value of its type. -/
def storeL (X : Cfg) (l : LV) (v : V) : M Fr Unit :=
  match l with
  | .reg x t => fun s => .val ((), ⟨setLoc s.loc x (.reg t v), s.g⟩)
  | .mem _ p => fun s =>
    match toCell v with
    | .val c =>
      match s.g.store X p c with
      | .val g => .val ((), ⟨s.loc, g⟩)
      | .ub u => .ub u
      | .loop => .loop
    | .ub u => .ub u
    | .loop => .loop

/-- `p->m`; the whole struct must be inside its block. -/
def memberOf (X : Cfg) (v : V) (m : Member) : M Fr LV := fun s =>
  match v with
  | .ptr (.struct st) p =>
    match s.g.blk X p.obj with
    | some b =>
      if (p.off / st.slots + 1) * st.size X.e ≤ b.size then
        match st.find m with
        | some (i, t) => .val (.mem t ⟨p.obj, p.off + i⟩, s)
        | none => .ub .badArgument
      else .ub .outOfBounds
    | none => .ub (if p = Ptr.null then .nullDeref else .useAfterFree)
  | _ => .ub .badArgument

/-- `p[k]` for a pointer to the start of an array of scalars; the element must be inside the block. -/
def elementOf (X : Cfg) (v i : V) : M Fr LV := fun s =>
  match v, i with
  | .ptr t ⟨o, 0⟩, .int _ k =>
    match s.g.blk X o with
    | some b =>
      if 0 ≤ k ∧ (k.toNat + 1) * scalarSize X.e t ≤ b.size then .val (.mem t ⟨o, k.toNat⟩, s)
      else .ub .outOfBounds
    | none => .ub (if (⟨o, 0⟩ : Ptr) = Ptr.null then .nullDeref else .useAfterFree)
  | _, _ => .ub .badArgument

/-- The address of a static object. -/
def Glob.addr : Glob → Nat
  | .IFF_globalChunkTypes => 0
  | .IFF_globalChunkTypesNode => 1
  | .IFF_defaultChunkType => 2
  | .IFF_defaultChunkRegistry => 3
  | .test_applicationChunkTypes => 4
  | .test_applicationChunkTypesNode => 5
  | .test_formChunkTypes => 6
  | .test_chunkRegistry => 7
  | .formdata_heloData => 9
  | .formdata_byeData => 10
  | .formdata_pad_heloData => 11
  | .formdata_pad_byeData => 12
  | .catdata_helo1Data => 13
  | .catdata_bye1Data => 14
  | .catdata_helo2Data => 15
  | .catdata_bye2Data => 16
  | .nestedformdata_helo1Data => 17
  | .nestedformdata_bye1Data => 18
  | .nestedformdata_helo2Data => 19
  | .nestedformdata_bye2Data => 20
  | .listdata_heloData => 21
  | .listdata_bye1Data => 22
  | .listdata_bye2Data => 23

/-- The type of a static object. -/
def Glob.ty : Glob → Ty
  | .IFF_globalChunkTypes => .arr 4 (.struct .IFF_ChunkType)
  | .IFF_globalChunkTypesNode => .struct .IFF_ChunkTypesNode
  | .IFF_defaultChunkType => .struct .IFF_ChunkType
  | .IFF_defaultChunkRegistry => .struct .IFF_ChunkRegistry
  | .test_applicationChunkTypes => .arr 2 (.struct .IFF_ChunkType)
  | .test_applicationChunkTypesNode => .struct .IFF_ChunkTypesNode
  | .test_formChunkTypes => .arr 1 (.struct .IFF_FormChunkTypes)
  | .test_chunkRegistry => .struct .IFF_ChunkRegistry
  | .formdata_heloData => .arr 4 (.int .uchar)
  | .formdata_byeData => .arr 4 (.int .uchar)
  | .formdata_pad_heloData => .arr 4 (.int .uchar)
  | .formdata_pad_byeData => .arr 5 (.int .uchar)
  | .catdata_helo1Data => .arr 4 (.int .uchar)
  | .catdata_bye1Data => .arr 3 (.int .uchar)
  | .catdata_helo2Data => .arr 5 (.int .uchar)
  | .catdata_bye2Data => .arr 4 (.int .uchar)
  | .nestedformdata_helo1Data => .arr 4 (.int .uchar)
  | .nestedformdata_bye1Data => .arr 3 (.int .uchar)
  | .nestedformdata_helo2Data => .arr 5 (.int .uchar)
  | .nestedformdata_bye2Data => .arr 4 (.int .uchar)
  | .listdata_heloData => .arr 4 (.int .uchar)
  | .listdata_bye1Data => .arr 4 (.int .uchar)
  | .listdata_bye2Data => .arr 4 (.int .uchar)

/-- The object a variable stands for. -/
def varL (x : Var) : M Fr LV := fun s =>
  match s.loc x with
  | .reg t _ => .val (.reg x t, s)
  | .obj t i => .val (.mem t ⟨.stk i, 0⟩, s)
  | .none => .ub .badArgument

/-- The object a pointer points to. -/
def derefL : V → M Fr LV
  | .ptr t p => pure (.mem t p)
  | _ => M.ub .badArgument

/-- A member of a struct object. -/
def dotL (X : Cfg) (l : LV) (m : Member) : M Fr LV :=
  match l with
  | .mem t p => memberOf X (.ptr t p) m
  | .reg _ _ => M.ub .badArgument

mutual

/-- The value of an expression. -/
def evalE (X : Cfg) (call : Fn → List V → M CS V) : Expr → M Fr V
  | .num t n => pure (.int t n)
  | .str s => pure (.str s)
  | .null => pure (.ptr .void Ptr.null)
  | .eof => pure (.int .int (-1))
  | .seekCur => pure (.int .int 1)
  | .optind => loadL X (.mem (.int .int) ⟨.stk 0, 0⟩)
  | .optarg => loadL X (.mem (.ptr (.int .char)) ⟨.stk 0, 1⟩)
  | .stream .stdin => pure (.file .inp)
  | .stream .stdout => pure (.file .out)
  | .stream .stderr => pure (.file .err)
  | .fn f => pure (.fn f)
  | .var x => do
    let l ← varL x
    loadL X l
  | .glob g => loadL X (.mem g.ty ⟨.static g.addr, 0⟩)
  | .addr e => do
    match ← evalL X call e with
    | .mem t p => pure (.ptr t p)
    | .reg _ _ => M.ub .badArgument
  | .deref e => do
    let v ← evalE X call e
    let l ← derefL v
    loadL X l
  | .arrow e m => do
    let v ← evalE X call e
    let l ← memberOf X v m
    loadL X l
  | .dot e m => do
    let l ← evalL X call e
    let l ← dotL X l m
    loadL X l
  | .index e i => do
    let v ← evalE X call e
    let k ← evalE X call i
    let l ← elementOf X v k
    loadL X l
  | .not e => do
    let v ← evalE X call e
    let b ← M.ofOut (isTrue v)
    pure (truth (!b))
  | .neg e => do
    match ← evalE X call e with
    | .int .int x => M.ofOut (arith X.e .int (-x))
    | _ => M.ub .badArgument
  | .bin o a b => do
    let x ← evalE X call a
    let y ← evalE X call b
    M.ofOut (binop X.e o x y)
  | .land a b => do
    let x ← evalE X call a
    if ← M.ofOut (isTrue x) then do
      let y ← evalE X call b
      let r ← M.ofOut (isTrue y)
      pure (truth r)
    else pure (truth false)
  | .lor a b => do
    let x ← evalE X call a
    if ← M.ofOut (isTrue x) then pure (truth true)
    else do
      let y ← evalE X call b
      let r ← M.ofOut (isTrue y)
      pure (truth r)
  | .cast t e => do
    let v ← evalE X call e
    M.ofOut (conv X.e t v)
  | .sizeof t => pure (.int .size (t.size X.e))
  | .assign l r => do
    let v ← evalE X call r
    let lv ← evalL X call l
    let v ← M.ofOut (conv X.e lv.ty v)
    storeL X lv v
    pure v
  | .assignOp o l r => do
    let y ← evalE X call r
    let lv ← evalL X call l
    let x ← loadL X lv
    let v ← M.ofOut (binop X.e o x y)
    let v ← M.ofOut (conv X.e lv.ty v)
    storeL X lv v
    pure v
  | .inc l => do
    let lv ← evalL X call l
    let x ← loadL X lv
    let v ← M.ofOut (binop X.e .add x (.int .int 1))
    let v ← M.ofOut (conv X.e lv.ty v)
    storeL X lv v
    pure x
  | .call f args => do
    let fv ← evalE X call f
    let vs ← evalArgs X call args
    match fv with
    | .fn f => onG (call f vs)
    | _ => M.ub .badArgument

/-- The object an expression denotes. -/
def evalL (X : Cfg) (call : Fn → List V → M CS V) : Expr → M Fr LV
  | .var x => varL x
  | .glob g => pure (.mem g.ty ⟨.static g.addr, 0⟩)
  | .deref e => do
    let v ← evalE X call e
    derefL v
  | .arrow e m => do
    let v ← evalE X call e
    memberOf X v m
  | .dot e m => do
    let l ← evalL X call e
    dotL X l m
  | .index e i => do
    let v ← evalE X call e
    let k ← evalE X call i
    elementOf X v k
  | _ => M.ub .badArgument

/-- The arguments of a call. -/
def evalArgs (X : Cfg) (call : Fn → List V → M CS V) : Args → M Fr (List V)
  | .nil => pure []
  | .cons e es => do
    let v ← evalE X call e
    let vs ← evalArgs X call es
    pure (v :: vs)

end

/-! ### Initialisers -/

/-- A platform without memory. -/
def Cfg.bare (X : Cfg) : Cfg := ⟨X.e, X.word, fun _ _ _ => none, (fun h => nomatch h), false, fun _ => none,
  fun _ => none, fun _ => none⟩

/-- The value of a constant expression. -/
def constVal (X : Cfg) (e : Expr) : Out V :=
  match evalE X.bare (fun _ _ => M.ub .badArgument) e
      ⟨fun _ => .none, ⟨fun _ => none, 0, [], [], [], 0, [], []⟩⟩ with
  | .val (v, _) => .val v
  | .ub u => .ub u
  | .loop => .loop

/-- The scalar an initialiser stands for. -/
def Init.cell (X : Cfg) (t : Ty) : Init → Cell
  | .expr e =>
    match constVal X e with
    | .val v =>
      match conv X.e t v with
      | .val (.int u x) => .int u x
      | .val (.str s) => .str s
      | _ => .undef
    | _ => .undef
  | .fn f => .fn f
  | .null => .ptr Ptr.null
  | .glob g => .ptr ⟨.static g.addr, 0⟩

/-- The types of the scalars of an object. -/
def Ty.scalars : Ty → List Ty
  | .struct s => s.members.map (·.2)
  | .arr n t => (List.replicate n t.scalars).flatten
  | t => [t]

/-- An initialised object. -/
def initBlk (X : Cfg) (t : Ty) (is : List Init) : Blk :=
  ⟨t.size X.e, cells ((t.scalars.zip is).map fun p => p.2.cell X p.1)⟩

/-! ### Statements -/

/-- How a statement ends. -/
inductive Flow where
  | norm
  | brk
  | ret (v : V)

/-- `while`, at most `n` iterations. -/
def whileN (c : M Fr Bool) (b : M Fr Flow) : Nat → M Fr Flow
  | 0 => M.loop
  | n + 1 => do
    if ← c then
      match ← b with
      | .norm => whileN c b n
      | .brk => pure .norm
      | .ret v => pure (.ret v)
    else pure .norm

/-- Continue after a statement that ended normally. -/
def Flow.andThen (f : Flow) (k : M Fr Flow) : M Fr Flow :=
  match f with
  | .norm => k
  | f => pure f

/-- A condition. -/
def evalC (X : Cfg) (call : Fn → List V → M CS V) (c : Expr) : M Fr Bool := do
  let v ← evalE X call c
  M.ofOut (isTrue v)

/-- Put a new object on the stack. -/
def pushObj (x : Var) (t : Ty) (b : Blk) : M Fr Unit := fun s =>
  .val ((), ⟨setLoc s.loc x (.obj t s.g.stk.length), { s.g with stk := s.g.stk ++ [b] }⟩)

mutual

/-- Execution of a statement; a loop makes at most `n` iterations. -/
def exec (X : Cfg) (call : Fn → List V → M CS V) (n : Nat) : Stmt → M Fr Flow
  | .skip => pure .norm
  | .expr e => do
    let _ ← evalE X call e
    pure .norm
  | .seq a b => do
    let f ← exec X call n a
    f.andThen (exec X call n b)
  | .ite c a b => do
    if ← evalC X call c then exec X call n a else exec X call n b
  | .while c b => whileN (evalC X call c) (exec X call n b) n
  | .for i c s b => do
    let _ ← evalE X call i
    whileN (evalC X call c) (do
      let f ← exec X call n b
      f.andThen (do
        let _ ← evalE X call s
        pure .norm)) n
  | .ret e => do
    let v ← evalE X call e
    pure (.ret v)
  | .retVoid => pure (.ret .void)
  | .break => pure .brk
  | .decl x t none => fun s => .val (.norm, ⟨setLoc s.loc x (.reg t .undef), s.g⟩)
  | .decl x t (some i) => do
    let v ← evalE X call i
    let v ← M.ofOut (conv X.e t v)
    fun s => .val (.norm, ⟨setLoc s.loc x (.reg t v), s.g⟩)
  | .object x t none => do
    pushObj x t ⟨t.size X.e, cells []⟩
    pure .norm
  | .object x t (some i) => do
    let v ← evalE X call i
    let v ← M.ofOut (conv X.e t v)
    let c ← M.ofOut (toCell v)
    pushObj x t ⟨t.size X.e, cells [c]⟩
    pure .norm
  | .aggregate x t is => do
    pushObj x t (initBlk X t is)
    pure .norm
  | .switch e c => do
    match ← evalE X call e with
    | .int t x => do
      match ← execCases X call n t x false c with
      | .brk => pure .norm
      | f => pure f
    | _ => M.ub .badArgument
  | .endian a b => if X.e.bigEndian then exec X call n a else exec X call n b

/-- The cases of a `switch`; `m`: an earlier case matched.  (`default` comes last.) -/
def execCases (X : Cfg) (call : Fn → List V → M CS V) (n : Nat) (t : ITy) (x : Int) (m : Bool) :
    Cases → M Fr Flow
  | .nil => pure .norm
  | .case e s rest => do
    match ← evalE X call e with
    | .int _ y =>
      if m || convI X.e t y == x then do
        let f ← exec X call n s
        f.andThen (execCases X call n t x true rest)
      else execCases X call n t x false rest
    | _ => M.ub .badArgument
  | .default s rest => do
    let f ← exec X call n s
    f.andThen (execCases X call n t x true rest)

end

/-! ### The C library -/

/-- Allocate a block. -/
def mallocC (X : Cfg) (n : Nat) (c : Nat → Cell) : M CS V := fun g =>
  match X.pick g.tick (sizes g.heap) n with
  | none => .val (.ptr .void Ptr.null, { g with tick := g.tick + 1 })
  | some a => .val (.ptr .void (.ofAddr a),
      { g with tick := g.tick + 1, heap := setHeap g.heap a (some ⟨n, c⟩) })

/-- `realloc` of an array of pointers; what does not fit is lost. -/
def reallocC (X : Cfg) (a n : Nat) : M CS V := fun g =>
  if a = 0 then mallocC X n (cells []) g
  else
    match g.heap a with
    | none => .ub .badFree
    | some b =>
      if n = 0 ∧ X.realloc0 = true then
        .val (.ptr .void Ptr.null, { g with tick := g.tick + 1, heap := setHeap g.heap a none })
      else
        match X.pick g.tick (sizes (setHeap g.heap a none)) n with
        | none => .val (.ptr .void Ptr.null, { g with tick := g.tick + 1 })
        | some a' => .val (.ptr .void (.ofAddr a'),
            { g with
              tick := g.tick + 1
              heap := setHeap (setHeap g.heap a none) a' (some ⟨n, fun i =>
                if (i + 1) * (X.e.sizeBits / 8) ≤ n then b.cell i else .undef⟩) })

/-- `free` -/
def freeC (a : Nat) : M CS V := fun g =>
  if a = 0 then .val (.void, g)
  else
    match g.heap a with
    | none => .ub .badFree
    | some _ => .val (.void, { g with heap := setHeap g.heap a none })

/-- The value of an integer object from its representation. -/
def fromBytes (e : Env) (t : ITy) (bs : List Byte) : Int :=
  let v := (if e.bigEndian then bs else bs.reverse).foldl (fun (n : Nat) b => n * 256 + b.toNat) 0
  convI e t (v : Int)

/-- The representation of an integer object. -/
def toBytes (e : Env) (t : ITy) (x : Int) : List Byte :=
  let v := (BitVec.ofInt (t.bits e) x).toNat
  let bs := (List.range (t.bits e / 8)).map fun i => BitVec.ofNat 8 (v / 256 ^ i)
  if e.bigEndian then bs.reverse else bs

/-- Put bytes at the start of a block. -/
def Blk.putBytes (b : Blk) (bs : List Byte) : Blk :=
  ⟨b.size, fun i => if h : i < bs.length then .int .uchar bs[i].toNat else b.cell i⟩

/-- The byte a scalar holds. -/
def Cell.byte? : Cell → Option Byte
  | .int .uchar x => some (BitVec.ofInt 8 x)
  | _ => none

/-- The first `n` bytes of a block, if they are initialised. -/
def Blk.getBytes (b : Blk) (n : Nat) : Option (List Byte) :=
  (List.range n).mapM fun i => (b.cell i).byte?

/-- `fread(p, size, n, file)`: an array of bytes, or one integer. -/
def freadC (X : Cfg) (t : ITy) (p : Ptr) (size n : Nat) : M CS V := fun g =>
  match g.blk X p.obj with
  | none => .ub (if p = Ptr.null then .nullDeref else .useAfterFree)
  | some b =>
    if size = 1 ∧ t = .uchar ∧ p.off = 0 then
      let bs := g.inp.take n
      if bs.length ≤ b.size then
        match ({ g with inp := g.inp.drop n } : CS).setBlk p.obj (b.putBytes bs) with
        | .val g => .val (.int .size bs.length, g)
        | .ub u => .ub u
        | .loop => .loop
      else .ub .outOfBounds
    else if size = t.bits X.e / 8 ∧ n = 1 ∧ p.off = 0 ∧ size ≤ b.size then
      let bs := g.inp.take size
      let ok : Bool := bs.length == size
      match ({ g with inp := g.inp.drop size } : CS).setBlk p.obj
          (b.set 0 (if ok then .int t (fromBytes X.e t bs) else .undef)) with
      | .val g => .val (.int .size (if ok then 1 else 0), g)
      | .ub u => .ub u
      | .loop => .loop
    else .ub .badArgument

/-- Send bytes to the output file: the number that is accepted. -/
def putOut (bs : List Byte) : M CS Nat := fun g =>
  .val (min bs.length g.room,
    { g with out := g.out ++ bs.take g.room, room := g.room - bs.length })

/-- `fwrite(p, size, n, file)`: an array of bytes, or one integer. -/
def fwriteC (X : Cfg) (t : ITy) (p : Ptr) (size n : Nat) : M CS V := fun g =>
  match g.blk X p.obj with
  | none => .ub (if p = Ptr.null then .nullDeref else .useAfterFree)
  | some b =>
    if size = 1 ∧ t = .uchar ∧ p.off = 0 then
      if n ≤ b.size then
        match b.getBytes n with
        | some bs =>
          match putOut bs g with
          | .val (k, g) => .val (.int .size k, g)
          | .ub u => .ub u
          | .loop => .loop
        | none => .ub .outOfBounds
      else .ub .outOfBounds
    else if size = t.bits X.e / 8 ∧ n = 1 ∧ p.off = 0 then
      match b.cell 0 with
      | .int u x =>
        if u = t then
          match putOut (toBytes X.e t x) g with
          | .val (k, g) => .val (.int .size (if k = size then 1 else 0), g)
          | .ub u => .ub u
          | .loop => .loop
        else .ub .wrongStruct
      | _ => .ub .outOfBounds
    else .ub .badArgument

/-- An argument of a function with a variable argument list, after the default promotions. -/
def toArg (e : Env) : V → Out CArg
  | .int t x =>
    match t with
    | .char | .uchar | .short | .ushort | .int => .val (.int x)
    | .uint => .val (.unsigned x.toNat)
    | .long => .val (.long x)
    | .size => .val (.sizeT x.toNat)
  | .str s => .val (.charPtr (cString s))
  | .ptr (.int .int) _ => .val .intPtr
  | _ => let _ := e; .ub .badArgument

/-- The arguments of a function with a variable argument list. -/
def toArgs (e : Env) : List V → Out (List CArg)
  | [] => .val []
  | v :: vs => do
    let a ← toArg e v
    let as ← toArgs e vs
    .val (a :: as)

/-- `bsearch`, as in glibc; `n` bounds the number of iterations. -/
def bsearchC (cmp : Ptr → M CS V) (base : Ptr) (stride : Nat) : Nat → Nat → Nat → M CS V
  | 0, _, _ => pure (.ptr .void Ptr.null)
  | n + 1, l, u =>
    if l < u then do
      let p : Ptr := ⟨base.obj, base.off + (l + u) / 2 * stride⟩
      match ← cmp p with
      | .int .int x =>
        if x < 0 then bsearchC cmp base stride n l ((l + u) / 2)
        else if x > 0 then bsearchC cmp base stride n ((l + u) / 2 + 1) u
        else pure (.ptr .void p)
      | _ => M.ub .badArgument
    else pure (.ptr .void Ptr.null)

/-- `memcmp` of two arrays of bytes. -/
def memcmpC (X : Cfg) (o1 o2 : Obj) (n : Nat) : M CS V := fun g =>
  match g.blk X o1, g.blk X o2 with
  | some b1, some b2 =>
    if n ≤ b1.size ∧ n ≤ b2.size then
      match b1.getBytes n, b2.getBytes n with
      | some x, some y => .val (.int .int (if x = y then 0 else 1), g)
      | _, _ => .ub .outOfBounds
    else .ub .outOfBounds
  | _, _ => .ub .useAfterFree

/-- `memcpy` to an array of bytes. -/
def memcpyC (X : Cfg) (o : Obj) (src : V) (n : Nat) : M CS V := fun g =>
  match g.blk X o with
  | none => .ub .useAfterFree
  | some b =>
    let bs : Option (List Byte) :=
      match src with
      | .ptr (.int .uchar) ⟨o', 0⟩ =>
        match g.blk X o' with
        | some b' => if n ≤ b'.size then b'.getBytes n else none
        | none => none
      | .str s => if n ≤ (cString s).length then some ((cString s).take n) else none
      | _ => none
    match bs with
    | some bs =>
      if n ≤ b.size then
        match g.setBlk o (b.putBytes bs) with
        | .val g => .val (.ptr .void ⟨o, 0⟩, g)
        | .ub u => .ub u
        | .loop => .loop
      else .ub .outOfBounds
    | none => .ub .outOfBounds

/-- Formatted output to standard output. -/
def printC (e : Env) (pre : List Byte) (fmt : String) (vs : List V) : M CS V := fun g =>
  match toArgs e vs with
  | .val as =>
    match vprintf fmt.toList as with
    | .val bs => .val (.int .int bs.length, { g with text := g.text ++ pre ++ bs })
    | .ub u => .ub u
    | .loop => .loop
  | .ub u => .ub u
  | .loop => .loop

/-- error.c:32-39 `IFF_error`: the call is recorded; what it prints is the business of
Verif/Model/ErrText.lean. -/
def errorC (e : Env) (fmt : String) (vs : List V) : M CS V := fun g =>
  match toArgs e vs with
  | .val as => .val (.void, { g with log := g.log ++ [⟨fmt, as⟩] })
  | .ub u => .ub u
  | .loop => .loop

/-- `fopen` -/
def fopenC (X : Cfg) (name mode : String) : M CS V := fun g =>
  if mode = "rb" then
    match X.files name with
    | some bs => .val (.file .inp, { g with inp := bs })
    | none => .val (.ptr .void Ptr.null, g)
  else if mode = "wb" then
    match X.dests name with
    | some room => .val (.file .out, { g with out := [], room := room })
    | none => .val (.ptr .void Ptr.null, g)
  else .ub .badArgument

/-- `fclose`; the result is not used by the code. -/
def fcloseC (f : File) : M CS V := fun g =>
  match f with
  | .inp => .val (.int .int 0, { g with inp := [] })
  | .out => .val (.int .int 0, g)
  | .err => .ub .badArgument

/-! `getopt` and `getopt_long`.  The block at the bottom of the stack holds `optind`, `optarg` and the
number of options that have been returned.  The options are those of Verif/Model/Getopt.lean.  `optind`
has a value only after the last option, `optarg` only after an option with an argument, and what
precedes `optind` in `argv` is unspecified in the end. -/

/-- The options declared by a string: an option with argument is followed by a colon. -/
def optChars : List Char → List (Char × Bool)
  | [] => []
  | c :: ':' :: cs => (c, true) :: optChars cs
  | c :: cs => (c, false) :: optChars cs

/-- Is an option declared by a string, and does it require an argument? -/
def shortOpts (s : String) (c : Char) : Option Bool :=
  ((optChars s.toList).find? fun x => x.1 = c).map Prod.snd

/-- An array of `struct option`, from the `i`-th on, with at most `n` elements: names, whether an argument
is required, and characters. -/
def longTable (b : Blk) : Nat → Nat → Option (List (Arg × Bool × Char))
  | 0, _ => none
  | n + 1, i =>
    match b.cell (4 * i), b.cell (4 * i + 1), b.cell (4 * i + 2), b.cell (4 * i + 3) with
    | .str s, .int .int h, .ptr q, .int .int v =>
      if q = Ptr.null ∧ (h = 0 ∨ h = 1) then
        (longTable b n (i + 1)).map fun l => (s.toList, h == 1, Char.ofNat v.toNat) :: l
      else none
    | .ptr p, _, _, _ => if p = Ptr.null then some [] else none
    | _, _, _, _ => none

/-- The arguments of a program, without its name. -/
def argsOf (b : Blk) (argc : Nat) : Option (List Arg) :=
  (List.range (argc - 1)).mapM fun i =>
    match b.cell (i + 1) with
    | .str s => some s.toList
    | _ => none

/-- The value that stands for an option. -/
def optCode : Opt → Int
  | .flag c | .arg c _ => c.toNat
  | .bad => 63

/-- `optarg` -/
def optArg : Opt → Cell
  | .arg _ a => .str (String.ofList a)
  | _ => .undef

/-- `getopt`, given how the arguments are to be understood. -/
def getoptC (X : Cfg) (parse : List Arg → List Opt × List Arg) (argc : Nat) (o : Obj) : M CS V := fun g =>
  match g.stk[0]?, g.blk X o with
  | some st, some b =>
    match st.cell 2, argsOf b argc with
    | .int .uint k, some as =>
      match (parse as).1[k.toNat]? with
      | some x => .val (.int .int (optCode x),
          { g with stk := g.stk.set 0 ⟨st.size, cells [.undef, optArg x, .int .uint (k + 1)]⟩ })
      | none =>
        let i := argc - (parse as).2.length
        match g.setBlk o ⟨b.size, fun j => if j = 0 ∨ argc ≤ j then b.cell j else if j < i then .undef else
            .str (String.ofList ((parse as).2.getD (j - i) []))⟩ with
        | .val g => .val (.int .int (-1),
          { g with stk := g.stk.set 0 ⟨st.size, cells [.int .int i, .undef, .int .uint k]⟩ })
        | .ub u => .ub u
        | .loop => .loop
    | _, _ => .ub .badArgument
  | _, _ => .ub .badArgument

/-- `getopt_long`; the index of a long option is not modelled. -/
def getoptLongC (X : Cfg) (argc : Nat) (o : Obj) (opts : String) (l : Obj) (idx : Ptr) : M CS V := fun g =>
  match g.blk X l with
  | some b =>
    match longTable b (b.size / Struct.size X.e .option) 0 with
    | some t =>
      if t.all fun x => shortOpts opts x.2.2 = some x.2.1 then
        match getoptC X (getoptLong ⟨shortOpts opts, t.map fun x => (x.1, x.2.2)⟩ none) argc o g with
        | .val (v, g) =>
          match g.store X idx .undef with
          | .val g => .val (v, g)
          | .ub u => .ub u
          | .loop => .loop
        | .ub u => .ub u
        | .loop => .loop
      else .ub .badArgument
    | none => .ub .badArgument
  | none => .ub .badArgument

/-- The functions of the C library, and the two functions of the library with variable argument
lists: error.c:32-39 `IFF_error`, util.c:26-41 `IFF_printIndent`. -/
def prim (X : Cfg) (call : Fn → List V → M CS V) (f : Fn) (vs : List V) : M CS V :=
  match f, vs with
  | .malloc, [.int _ n] => mallocC X (toSize X.e n) (cells [])
  | .calloc, [.int _ n, .int _ m] =>
    if (toSize X.e n) * (toSize X.e m) < 2 ^ X.e.sizeBits then
      mallocC X ((toSize X.e n) * (toSize X.e m)) (cells (List.replicate (toSize X.e n) (.int .uchar 0)))
    else pure (.ptr .void Ptr.null)
  | .realloc, [.ptr (.ptr _) ⟨.heap a, 0⟩, .int _ n] => reallocC X a (toSize X.e n)
  | .free, [.ptr _ ⟨.heap a, 0⟩] => freeC a
  | .memcpy, [.ptr (.int .uchar) ⟨o, 0⟩, src, .int _ n] => memcpyC X o src (toSize X.e n)
  | .memcmp, [.ptr (.int .uchar) ⟨o1, 0⟩, .ptr (.int .uchar) ⟨o2, 0⟩, .int _ n] =>
    memcmpC X o1 o2 (toSize X.e n)
  | .strlen, [.str s] =>
    if (0 : Byte) ∈ cString s then M.ub .badArgument else pure (.int .size (toSize X.e (cString s).length))
  | .bsearch, [.ptr (.struct s) k, .ptr (.struct s') base, .int _ n, .int _ size, .fn cmp] =>
    if s = s' ∧ size = s.size X.e then
      bsearchC (fun p => call cmp [.ptr .void k, .ptr .void p]) base s.slots (n.toNat + 1) 0 n.toNat
    else M.ub .badArgument
  | .fgetc, [.file .inp] => fun g =>
    match g.inp with
    | [] => .val (.int .int (-1), g)
    | b :: bs => .val (.int .int b.toNat, { g with inp := bs })
  | .fputc, [.int _ x, .file .out] => do
    let k ← putOut [BitVec.ofInt 8 x]
    pure (.int .int (if k = 1 then (x % 256) else -1))
  | .fread, [.ptr (.int t) p, .int _ size, .int _ n, .file .inp] =>
    freadC X t p (toSize X.e size) (toSize X.e n)
  | .fwrite, [.ptr (.int t) p, .int _ size, .int _ n, .file .out] =>
    fwriteC X t p (toSize X.e size) (toSize X.e n)
  | .fseek, [.file .inp, .int _ n, .int _ 1] => fun g =>
    if 0 ≤ n then
      (if X.e.seekable then .val (.int .int 0, { g with inp := g.inp.drop n.toNat })
       else .val (.int .int (-1), g))
    else .ub .badArgument
  | .fopen, [.str name, .str mode] => fopenC X name mode
  | .fclose, [.file f] => fcloseC f
  | .fprintf, .file .err :: .str _ :: vs => do
    let _ ← M.ofOut (toArgs X.e vs)
    pure (.int .int 0)
  | .printf, .str fmt :: vs => printC X.e [] fmt vs
  | .puts, [.str s] => fun g =>
    .val (.int .int 0, { g with text := g.text ++ (cString s ++ [BitVec.ofNat 8 10]) })
  | .strcmp, [.str a, .str b] => pure (.int .int (if a = b then 0 else 1))
  | .getopt, [.int _ argc, .ptr (.ptr (.int .char)) ⟨o, 0⟩, .str opts] =>
    getoptC X (Iff.getopt ⟨shortOpts opts, []⟩ none) argc.toNat o
  | .getopt_long, [.int _ argc, .ptr (.ptr (.int .char)) ⟨o, 0⟩, .str opts, .ptr (.struct .option) ⟨l, 0⟩,
      .ptr (.int .int) idx] => getoptLongC X argc.toNat o opts l idx
  | .IFF_error, .str fmt :: vs => errorC X.e fmt vs
  | .IFF_printIndent, .file .out :: .int _ n :: .str fmt :: vs =>
    printC X.e (List.replicate (2 * n.toNat) (BitVec.ofNat 8 32)) fmt vs
  | _, _ => M.ub .badArgument

/-! ### Functions -/

/-- Bind the parameters to the converted arguments. -/
def bindParams (e : Env) : List (Var × Ty) → List V → Out (Var → Slot)
  | [], [] => .val fun _ => .none
  | (x, t) :: ps, v :: vs => do
    let v ← conv e t v
    let l ← bindParams e ps vs
    .val (setLoc l x (.reg t v))
  | _, _ => .ub .badArgument

/-- The value of a call. -/
def Flow.result (e : Env) (t : Ty) : Flow → Out V
  | .ret .void => .val .void
  | .ret v => conv e t v
  | _ => .val .void

/-- A call of a function that is defined in the sources; its objects are gone at the end. -/
def runFun (X : Cfg) (call : Fn → List V → M CS V) (n : Nat) (d : Fun) (vs : List V) : M CS V :=
  fun g =>
    match bindParams X.e d.params vs with
    | .val l =>
      match exec X call n d.body ⟨l, g⟩ with
      | .val (f, s) =>
        match f.result X.e d.ret with
        | .val v => .val (v, { s.g with stk := s.g.stk.take g.stk.length })
        | .ub u => .ub u
        | .loop => .loop
      | .ub u => .ub u
      | .loop => .loop
    | .ub u => .ub u
    | .loop => .loop

/-- A call; `n` bounds the depth of calls and the number of iterations of loops. -/
def callFn (X : Cfg) : Nat → Fn → List V → M CS V
  | 0, _, _ => M.loop
  | n + 1, f, vs =>
    match code f with
    | some d => runFun X (callFn X n) n d vs
    | none => prim X (callFn X n) f vs

/-! ### Static objects -/

/-- The initialisers of the static objects of defaultregistry.c, of tests/test.c, and of the files of test data. -/
def Glob.init : Glob → List Init
  | .IFF_globalChunkTypes => IFF_globalChunkTypes.init
  | .IFF_globalChunkTypesNode => IFF_globalChunkTypesNode.init
  | .IFF_defaultChunkType => IFF_defaultChunkType.init
  | .IFF_defaultChunkRegistry => IFF_defaultChunkRegistry.init
  | .test_applicationChunkTypes => test_applicationChunkTypes.init
  | .test_applicationChunkTypesNode => test_applicationChunkTypesNode.init
  | .test_formChunkTypes => test_formChunkTypes.init
  | .test_chunkRegistry => test_chunkRegistry.init
  | .formdata_heloData => formdata_heloData.init
  | .formdata_byeData => formdata_byeData.init
  | .formdata_pad_heloData => formdata_pad_heloData.init
  | .formdata_pad_byeData => formdata_pad_byeData.init
  | .catdata_helo1Data => catdata_helo1Data.init
  | .catdata_bye1Data => catdata_bye1Data.init
  | .catdata_helo2Data => catdata_helo2Data.init
  | .catdata_bye2Data => catdata_bye2Data.init
  | .nestedformdata_helo1Data => nestedformdata_helo1Data.init
  | .nestedformdata_bye1Data => nestedformdata_bye1Data.init
  | .nestedformdata_helo2Data => nestedformdata_helo2Data.init
  | .nestedformdata_bye2Data => nestedformdata_bye2Data.init
  | .listdata_heloData => listdata_heloData.init
  | .listdata_bye1Data => listdata_bye1Data.init
  | .listdata_bye2Data => listdata_bye2Data.init

/-- The static objects of defaultregistry.c. -/
def Glob.lib (g : Glob) : Bool := decide (g.addr < 4)

/-- The static objects of the library are as defaultregistry.c defines them. -/
def Cfg.Linked (X : Cfg) : Prop :=
  ∀ g : Glob, g.lib = true → X.img g.addr = some (initBlk X g.ty g.init)

/-- The static objects of tests/test.c. -/
def Glob.test (g : Glob) : Bool := decide (4 ≤ g.addr ∧ g.addr < 8)

/-- So are those of tests/test.c. -/
def Cfg.LinkedTest (X : Cfg) : Prop :=
  ∀ g : Glob, g.test = true → X.img g.addr = some (initBlk X g.ty g.init)

/-- So are the arrays of tests/formdata.c, formdata-pad.c, catdata.c, nestedformdata.c and listdata.c.  (A program is
linked with one of these files; that they have addresses of their own matters to none of them.) -/
def Cfg.LinkedData (X : Cfg) : Prop :=
  ∀ g : Glob, 9 ≤ g.addr → X.img g.addr = some (initBlk X g.ty g.init)

end Iff.Src
