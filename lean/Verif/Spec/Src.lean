import Verif.Src.Sem
import Verif.Heap.Read
import Verif.Model.TestApp
/-
  How the states of the heap model (Verif/Heap) are laid out in the memory of the C semantics
  (Verif/Src/Sem.lean).
-/
namespace Iff.Src
open Heap (Addr Block Mem HS)

/-- The members of `IFF_Chunk`. -/
def hdrCells (h : Heap.Hdr) : List Cell :=
  [.ptr (.ofAddr h.parent), .int .uint h.id.toNat, .int .int h.size]

/-- An array of bytes. -/
def byteCells (cs : List (Option Byte)) (i : Nat) : Cell :=
  match cs[i]? with
  | some (some b) => .int .uchar b.toNat
  | _ => .undef

/-- An array of pointers. -/
def ptrCells (cs : List (Option Addr)) (i : Nat) : Cell :=
  match cs[i]? with
  | some (some a) => .ptr (.ofAddr a)
  | _ => .undef

/-- The C type of a field: `IFF_UByte`, `IFF_UWord`, `IFF_Word`, `IFF_ULong`, `IFF_Long`, `IFF_ID`
(libiff/ifftypes.h.in, libiff/id.h). -/
def ctype : FieldKind → ITy
  | .ubyte => .uchar
  | .uword => .ushort
  | .word => .short
  | .ulong => .uint
  | .long => .int
  | .id => .uint

/-- The number a C object of that type holds. -/
def number : Val → Int
  | .ubyte v => v.toNat
  | .uword v => v.toNat
  | .word v => v.toInt
  | .ulong v => v.toNat
  | .long v => v.toInt
  | .id v => v.toNat

/-- The size of an application's struct, which has the members of `IFF_Chunk` and the fields. -/
def extSize (e : Env) (ks : List FieldKind) : Nat :=
  roundUp (((Struct.members .IFF_Chunk).map (·.2) ++ ks.map fun k => Ty.int (ctype k)).foldl
    (fun n t => roundUp n (scalarSize e t) + scalarSize e t) 0) (e.sizeBits / 8)

/-- A field. -/
def valCell (v : Val) : Cell := .int (ctype v.kind) (number v)

/-- The layout of a block. -/
def layout (e : Env) : Block → Blk
  | .raw h d => ⟨Struct.size e .IFF_RawChunk, cells (hdrCells h ++ [.ptr (.ofAddr d)])⟩
  | .grp h t n a => ⟨Struct.size e .IFF_Group,
      cells (hdrCells h ++ [.int .uint t.toNat, .int .uint n, .ptr (.ofAddr a)])⟩
  | .lst h t n a pn pa => ⟨Struct.size e .IFF_List,
      cells (hdrCells h ++ [.int .uint t.toNat, .int .uint n, .ptr (.ofAddr a),
        .int .uint pn, .ptr (.ofAddr pa)])⟩
  | .ext h vals => ⟨extSize e (vals.map Val.kind), cells (hdrCells h ++ vals.map valCell)⟩
  | .bytes cs => ⟨cs.length, byteCells cs⟩
  | .ptrs cs => ⟨cs.length * (e.sizeBits / 8), ptrCells cs⟩

/-- The layout of the heap. -/
def heapOf (e : Env) (m : Mem) : Nat → Option Blk := fun a => (m a).map (layout e)

/-- The number of bytes of a request of the heap model. -/
def reqBytes (e : Env) : Heap.Req → Nat
  | .struct .raw => Struct.size e .IFF_RawChunk
  | .struct .grp => Struct.size e .IFF_Group
  | .struct .lst => Struct.size e .IFF_List
  | .struct (.ext ks) => extSize e ks
  | .data n => n
  | .array n => n * (e.sizeBits / 8)

/-- The allocator of the C semantics, as the heap model sees it. -/
def Cfg.alloc (X : Cfg) : Heap.Alloc where
  pick t m q := X.pick t (sizes (heapOf X.e m)) (reqBytes X.e q)
  sound h := by
    obtain ⟨h1, h2⟩ := X.sound h
    refine ⟨h1, ?_⟩
    simpa [sizes, heapOf] using h2
  realloc0 := X.realloc0

/-- The allocator `A` of the heap model answers requests like that of the C semantics, except perhaps
requests for arrays of more than `N` pointers and for structs with more than three fields of an application. -/
def Like (X : Cfg) (N : Nat) (A : Heap.Alloc) : Prop :=
  8 * N ≤ 4294967296 ∧ A.realloc0 = X.realloc0 ∧
    ∀ t m q, (∀ n, q = .array n → n ≤ N) → (∀ ks, q = .struct (.ext ks) → ks.length ≤ 3) → A.pick t m q = X.alloc.pick t m q

/-- Finitely many addresses are in use. -/
def Finite (s : Nat → Option Nat) : Prop := ∃ b : Nat, ∀ a : Nat, b ≤ a → s a = none

/-- Arrays of up to `N` pointers are not refused. -/
def Cfg.ArraysOk (X : Cfg) (N : Nat) : Prop :=
  ∀ t s n, Finite s → n < N → (X.pick t s ((n + 1) * (X.e.sizeBits / 8))).isSome

/-- No request that `Env.mallocOk` refuses is granted. -/
def Cfg.Grants (X : Cfg) : Prop := ∀ t s n a, X.pick t s n = some a → X.e.mallocOk n = true

/-- Requests of up to `N` bytes are not refused. -/
def Cfg.Serves (X : Cfg) (N : Nat) : Prop := ∀ t s n, Finite s → n ≤ N → (X.pick t s n).isSome

/-- The calls of `IFF_error` that the diagnostics of the model stand for. -/
def errCalls (e : Env) (log : List Msg) : List ErrPrint := log.flatMap (Msg.prints e)

/-- The state of the C semantics for a state of the heap model; the rest (stack, output) is that
of `g`. -/
def emb (X : Cfg) (g : CS) (s : HS) : CS :=
  { g with
    heap := heapOf X.e s.mem
    tick := s.tick
    inp := s.rs.inp
    log := errCalls X.e s.rs.log }

/-! ### Registries in static memory -/

/-- The functions of a chunk type, in the order of the members of `IFF_ChunkType`: those of the library
(defaultregistry.c:31-42) and those of the application in tests (tests/test.c:31-34). -/
inductive FnsOf : Handler → List Fn → Prop
  | raw : FnsOf .raw [.IFF_createRawChunk, .IFF_readRawChunk, .IFF_writeRawChunk, .IFF_checkRawChunk,
      .IFF_freeRawChunk, .IFF_printRawChunk, .IFF_compareRawChunk]
  | form : FnsOf .form [.IFF_createUnparsedForm, .IFF_readForm, .IFF_writeForm, .IFF_checkForm,
      .IFF_freeForm, .IFF_printForm, .IFF_compareForm]
  | cat : FnsOf .cat [.IFF_createUnparsedCAT, .IFF_readCAT, .IFF_writeCAT, .IFF_checkCAT,
      .IFF_freeCAT, .IFF_printCAT, .IFF_compareCAT]
  | list : FnsOf .list [.IFF_createUnparsedList, .IFF_readList, .IFF_writeList, .IFF_checkList,
      .IFF_freeList, .IFF_printList, .IFF_compareList]
  | prop : FnsOf .prop [.IFF_createUnparsedProp, .IFF_readProp, .IFF_writeProp, .IFF_checkProp,
      .IFF_freeProp, .IFF_printProp, .IFF_compareProp]
  | hello : FnsOf helloType [.TEST_createHelloChunk, .TEST_readHello, .TEST_writeHello, .TEST_checkHello,
      .TEST_freeHello, .TEST_printHello, .TEST_compareHello]
  | bye : FnsOf byeType [.TEST_createByeChunk, .TEST_readBye, .TEST_writeBye, .TEST_checkBye,
      .TEST_freeBye, .TEST_printBye, .TEST_compareBye]

/-- At `p` is an `IFF_ChunkType`. -/
def TypeAt (X : Cfg) (p : Ptr) (t : ChunkType) : Prop :=
  ∃ k j b fns, p = ⟨.static k, j * 8⟩ ∧ X.img k = some b ∧
    (j + 1) * Struct.size X.e .IFF_ChunkType ≤ b.size ∧
    b.cell (j * 8) = .int .uint t.id.toNat ∧ FnsOf t.handler fns ∧
    ∀ i f, fns[i]? = some f → b.cell (j * 8 + (i + 1)) = .fn f

/-- At `p` is an `IFF_ChunkTypesNode`. -/
def ChainAt (X : Cfg) : Ptr → Chain → Prop
  | p, [] => p = Ptr.null
  | p, types :: parents =>
    ∃ k b base parent, p = ⟨.static k, 0⟩ ∧ X.img k = some b ∧
      Struct.size X.e .IFF_ChunkTypesNode ≤ b.size ∧
      b.cell 0 = .int .uint types.length ∧ types.length < 4294967296 ∧
      b.cell 1 = .ptr base ∧
      (∀ j t, types[j]? = some t → TypeAt X ⟨base.obj, base.off + j * 8⟩ t) ∧
      b.cell 2 = .ptr parent ∧ ChainAt X parent parents

/-- At `p` is an `IFF_FormChunkTypes`. -/
def FormAt (X : Cfg) (p : Ptr) (f : FormChunkTypes) : Prop :=
  ∃ k j b node, p = ⟨.static k, j * 2⟩ ∧ X.img k = some b ∧
    (j + 1) * Struct.size X.e .IFF_FormChunkTypes ≤ b.size ∧
    b.cell (j * 2) = .int .uint f.formType.toNat ∧
    b.cell (j * 2 + 1) = .ptr node ∧ ChainAt X node f.chain

/-- At `p` is an `IFF_ChunkRegistry`. -/
def RegAt (X : Cfg) (p : Ptr) (r : Registry) : Prop :=
  ∃ k b base node dflt id, p = ⟨.static k, 0⟩ ∧ X.img k = some b ∧
    Struct.size X.e .IFF_ChunkRegistry ≤ b.size ∧
    b.cell 0 = .int .uint r.formTypes.length ∧ r.formTypes.length < 4294967296 ∧
    b.cell 1 = .ptr base ∧
    (∀ j f, r.formTypes[j]? = some f → FormAt X ⟨base.obj, base.off + j * 2⟩ f) ∧
    b.cell 2 = .ptr node ∧ ChainAt X node r.global ∧
    b.cell 3 = .ptr dflt ∧ TypeAt X dflt ⟨id, r.default⟩

/-- The argument `chunkRegistry` of the functions of iff.c: NULL for the default registry. -/
def RegArg (X : Cfg) (reg : Option Registry) (q : Ptr) : Prop :=
  match reg with
  | none => q = Ptr.null
  | some r => RegAt X q r

/-! ### Runs -/

/-- With enough stack (and steps for its loops), the call of `f` in the state `g` returns `v`, without
undefined behaviour, in the state `g'`. -/
def Runs (X : Cfg) (f : Fn) (vs : List V) (g : CS) (v : V) (g' : CS) : Prop :=
  ∃ N, ∀ n, N ≤ n → callFn X n f vs g = .val (v, g')

/-- Chunks with the id `PROP` are not read as raw chunks or as chunks of an application.  (list.c casts every chunk
with this id to `IFF_Prop`.) -/
def PropOk (r : Registry) : Prop :=
  ∀ ft, findChunkType r ft idPROP ≠ .raw ∧ ∀ fs chk, findChunkType r ft idPROP ≠ .ext fs chk

/-- … or there are none: the input does not contain the bytes `PROP`. -/
def PropFine (r : Registry) (inp : List Byte) : Prop := PropOk r ∨ ¬ [0x50, 0x52, 0x4f, 0x50] <:+: inp

/-- The sizes are values of `int`; the arrays are not longer than what was read; a chunk with the id
`PROP` is a group. -/
def Bd (L : Nat) : Block → Prop
  | .raw h _ => inInt h.size ∧ h.id ≠ idPROP
  | .grp h _ k _ => inInt h.size ∧ 8 * k ≤ L
  | .lst h _ k _ pk _ => inInt h.size ∧ 8 * k ≤ L ∧ 8 * pk ≤ L
  | .ext h _ => inInt h.size ∧ h.id ≠ idPROP
  | _ => True

/-- All blocks are bounded. -/
def MBd (L : Nat) (m : Mem) : Prop := ∀ a b, m a = some b → Bd L b

end Iff.Src
