import Verif.Spec.SrcWalk
import Verif.Heap.Build
import Verif.Spec.Links
/-
  The calls of an application, as executions of the text of the library.
-/
namespace Iff.Src
open Heap (Addr Block Mem HS Op)

/-- `o` is an array of the application (not allocated by the library) with the given bytes. -/
def Given (X : Cfg) (g : CS) (o : Obj) (data : List Byte) : Prop :=
  (∀ a, o ≠ .heap a) ∧ g.blk X o = some (layout X.e (.bytes (data.map some)))

/-- The block of an object outside the heap. -/
def outside (X : Cfg) (stk : List Blk) : Obj → Option Blk
  | .heap _ => none
  | .stk i => stk[i]?
  | .static k => X.img k

/-- `o` is an array with the given IDs, outside the heap. -/
def TypesAt (X : Cfg) (stk : List Blk) (o : Obj) (types : List ID) : Prop :=
  ∃ B, outside X stk o = some B ∧ 4 * types.length ≤ B.size ∧
    ∀ i t, types[i]? = some t → B.cell i = .int .uint t.toNat

/-- `Does X src op g r g'`: in the state `g`, executing the text of the function (or functions) that the
call `op` is made with returns the pointer `r` (nothing, if the call creates nothing) in the state `g'`;
where there are several functions for a call, this holds for each of them.  `src` is where the
application has its data. -/
def Does (X : Cfg) (src : List Byte → Obj) : Op → CS → Addr → CS → Prop
  | .read reg bytes, g, r, g' => ∀ q, RegArg X reg q →
      Runs X .IFF_readFd [.file .inp, .ptr (.struct .IFF_ChunkRegistry) q] { g with inp := bytes }
        (.ptr (.struct .IFF_Chunk) (.ofAddr r)) g'
  | .raw id data, g, r, g' => ∃ g₁,
      Runs X .IFF_createRawChunk [.int .uint id.toNat, .int .int data.length] g
        (.ptr (.struct .IFF_Chunk) (.ofAddr r)) g₁ ∧
      (r = 0 → g' = g₁) ∧
      (r ≠ 0 → Runs X .IFF_copyDataToRawChunkData [.ptr (.struct .IFF_RawChunk) (.ofAddr r),
        .ptr (.int .uchar) ⟨src data, 0⟩] g₁ .void g')
  | .group id ty, g, r, g' =>
      Runs X .IFF_createEmptyGroup [.int .uint id.toNat, .int .uint ty.toNat] g
        (.ptr (.struct .IFF_Group) (.ofAddr r)) g' ∧
      (id = idFORM → Runs X .IFF_createEmptyForm [.int .uint ty.toNat] g
        (.ptr (.struct .IFF_Form) (.ofAddr r)) g') ∧
      (id = idCAT → Runs X .IFF_createEmptyCATWithContentsType [.int .uint ty.toNat] g
        (.ptr (.struct .IFF_CAT) (.ofAddr r)) g') ∧
      (id = idCAT → ty = idJJJJ → Runs X .IFF_createEmptyCAT [] g
        (.ptr (.struct .IFF_CAT) (.ofAddr r)) g') ∧
      (id = idPROP → Runs X .IFF_createEmptyProp [.int .uint ty.toNat] g
        (.ptr (.struct .IFF_Form) (.ofAddr r)) g')
  | .list ty, g, r, g' =>
      Runs X .IFF_createEmptyListWithContentsType [.int .uint ty.toNat] g
        (.ptr (.struct .IFF_List) (.ofAddr r)) g' ∧
      (ty = idJJJJ → Runs X .IFF_createEmptyList [] g (.ptr (.struct .IFF_List) (.ofAddr r)) g')
  | .ext _ _ _, _, _, _ => False
  | .add p c, g, r, g' => r = 0 ∧
      Runs X .IFF_addToGroup [.ptr (.struct .IFF_Group) (.ofAddr p), .ptr (.struct .IFF_Chunk) (.ofAddr c)]
        g .void g' ∧
      Runs X .IFF_addToForm [.ptr (.struct .IFF_Form) (.ofAddr p), .ptr (.struct .IFF_Chunk) (.ofAddr c)]
        g .void g' ∧
      Runs X .IFF_addToCAT [.ptr (.struct .IFF_CAT) (.ofAddr p), .ptr (.struct .IFF_Chunk) (.ofAddr c)]
        g .void g' ∧
      Runs X .IFF_addToProp [.ptr (.struct .IFF_Form) (.ofAddr p), .ptr (.struct .IFF_Chunk) (.ofAddr c)]
        g .void g' ∧
      Runs X .IFF_addToList [.ptr (.struct .IFF_List) (.ofAddr p), .ptr (.struct .IFF_Chunk) (.ofAddr c)]
        g .void g'
  | .addProp p c, g, r, g' => r = 0 ∧
      Runs X .IFF_addPropToList [.ptr (.struct .IFF_List) (.ofAddr p), .ptr (.struct .IFF_Form) (.ofAddr c)]
        g .void g'
  | .addAuto p c, g, r, g' => r = 0 ∧
      Runs X .IFF_addToCATAndUpdateContentsType [.ptr (.struct .IFF_CAT) (.ofAddr p),
        .ptr (.struct .IFF_Chunk) (.ofAddr c)] g .void g' ∧
      Runs X .IFF_addToListAndUpdateContentsType [.ptr (.struct .IFF_List) (.ofAddr p),
        .ptr (.struct .IFF_Chunk) (.ofAddr c)] g .void g'
  | .update _ p, g, r, g' => r = 0 ∧
      Runs X .IFF_updateChunkSizes [.ptr (.struct .IFF_Chunk) (.ofAddr p)] g .void g'
  | .free reg _ p, g, r, g' => r = 0 ∧ ∀ q, RegArg X reg q →
      Runs X .IFF_free [.ptr (.struct .IFF_Chunk) (.ofAddr p), .ptr (.struct .IFF_ChunkRegistry) q]
        g .void g'

/-- The calls considered: the registry is in memory, and does not read PROPs as raw chunks; the library has no text for the chunk types of an application; a raw chunk is
not given the ID of a PROP, and its length is a value of `int`; a PROP is a group. -/
def Callable (X : Cfg) (g : CS) (src : List Byte → Obj) (m : Mem) : Op → Prop
  | .read reg bytes => PropFine (selectChunkRegistry reg) bytes ∧ ∃ q, RegArg X reg q
  | .raw id data => id ≠ idPROP ∧ data.length < 2147483648 ∧ Given X g (src data) data
  | .ext _ _ _ => False
  | .addProp _ c => ∃ b t, m c = some b ∧ b.grp? = some t
  | _ => True

/-- By how much the arrays of pointers can grow in a call, in bytes. -/
def growth : Op → Nat
  | .read _ bytes => bytes.length
  | .add _ _ => 8
  | .addProp _ _ => 8
  | .addAuto _ _ => 8
  | _ => 0

/-- `Made X ok s₀ ops s`: in the model, the calls `ops` have been made from `s₀`, all of them have
returned, and `s` is the state now. -/
inductive Made (X : Cfg) (ok : Mem → Op → Prop) (s₀ : HS) : List Op → HS → Prop
  | start : Made X ok s₀ [] s₀
  | call {ops s op r s'} : Made X ok s₀ ops s → ok s.mem op → op.run X.alloc X.e s = .val (r, s') →
      Made X ok s₀ (ops ++ [op]) s'

/-- The same by executing the text. -/
inductive Ran (X : Cfg) (src : List Byte → Obj) (g₀ : CS) : List Op → CS → Prop
  | start : Ran X src g₀ [] g₀
  | call {ops g op r g'} : Ran X src g₀ ops g → Does X src op g r g' → Ran X src g₀ (ops ++ [op]) g'

end Iff.Src
